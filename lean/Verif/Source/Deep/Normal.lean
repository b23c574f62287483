import Verif.Source.Deep.Singleton
import Verif.Source.Refine.Normal

/-! # `NormalLangTag` (`/repo/src/normal/mod.rs`), with bounded nesting -/

set_option autoImplicit false

namespace Langtag.Source.Deep

open Langtag.Model (Panic Rust StrNewtype)

open Langtag.Model

variable {δ : Nat} {C : Ctx} {σ : Env} {max : Nat}

section

variable (x : String) (s : List UInt8) (hs : s.length + 1 ≤ max)

include hs

@[dep] theorem NormalLangTag.language_end_eq :
    callFn (δ + 6) (crate max) ⟨["NormalLangTag"], "", Ast.NormalLangTag_language_end⟩ [.ctor ["NormalLangTag"] x [.str s]] σ =
    lift (fun r => (.usize r, [none])) (NormalLangTag.languageEnd ⟨s⟩) σ := by
  rw [← Langtag.Proof.languageEnd_checked (max := max) (t := ⟨s⟩) hs, callFn_apply]
  simp only [Ast.NormalLangTag_language_end, Checked.languageEnd]
  deep
  rw [find_list_end_eq s _ _ (fun i t => .ok (i == 0 || StrNewtype.isOk ExtendedLangTag t))]
  · cases Checked.findListEnd max s _ _ <;> deep
  · intro C p t τ ht
    have h' : t.length + 1 ≤ max := by omega
    deep [h']
    by_cases hp : p = 0 <;> cases StrNewtype.isOk ExtendedLangTag t <;> simp [hp, dep, src]

@[dep] theorem NormalLangTag.language_eq :
    callFn (δ + 7) (crate max) ⟨["NormalLangTag"], "", Ast.NormalLangTag_language⟩ [.ctor ["NormalLangTag"] x [.str s]] σ =
    lift (fun r => (val r, [none])) (NormalLangTag.language ⟨s⟩) σ := by
  rw [callFn_apply]
  simp only [Ast.NormalLangTag_language, NormalLangTag.language]
  deep [hs]
  cases NormalLangTag.languageEnd ⟨s⟩ <;> deep
  cases sliceRange s 0 _ <;> deep

@[dep] theorem NormalLangTag.script_range_eq :
    callFn (δ + 7) (crate max) ⟨["NormalLangTag"], "", Ast.NormalLangTag_script_range⟩ [.ctor ["NormalLangTag"] x [.str s]] σ =
    lift (fun r => (val r, [none])) (NormalLangTag.scriptRange ⟨s⟩) σ := by
  rw [← Langtag.Proof.scriptRange_checked (max := max) (t := ⟨s⟩) hs, callFn_apply]
  simp only [Ast.NormalLangTag_script_range, Checked.scriptRange, Langtag.Proof.languageEnd_checked (max := max) (t := ⟨s⟩) hs]
  deep [hs]
  cases NormalLangTag.languageEnd ⟨s⟩ <;> deep
  rename_i e
  split
  · rw [find_list_end_eq s _ _ (fun i t => .ok (i == e + 1 && StrNewtype.isOk Script t))]
    · cases Checked.findListEnd max s _ _ <;> deep
    · intro C p t τ ht
      have h' : t.length + 1 ≤ max := by omega
      deep [h']
      by_cases hp : p = e + 1 <;> cases StrNewtype.isOk Script t <;> simp [hp, dep, src]
  · deep

@[dep] theorem NormalLangTag.script_eq :
    callFn (δ + 8) (crate max) ⟨["NormalLangTag"], "", Ast.NormalLangTag_script⟩ [.ctor ["NormalLangTag"] x [.str s]] σ =
    lift (fun r => (val r, [none])) (NormalLangTag.script ⟨s⟩) σ := by
  rw [callFn_apply]
  simp only [Ast.NormalLangTag_script, NormalLangTag.script]
  deep [hs]
  rcases NormalLangTag.scriptRange ⟨s⟩ with _ | _ | ⟨a, b⟩ <;> deep
  cases sliceRange s _ _ <;> deep

@[dep] theorem NormalLangTag.region_range_eq :
    callFn (δ + 8) (crate max) ⟨["NormalLangTag"], "", Ast.NormalLangTag_region_range⟩ [.ctor ["NormalLangTag"] x [.str s]] σ =
    lift (fun r => (val r, [none])) (NormalLangTag.regionRange ⟨s⟩) σ := by
  rw [← Langtag.Proof.regionRange_checked (max := max) (t := ⟨s⟩) hs, callFn_apply]
  simp only [Ast.NormalLangTag_region_range, Checked.regionRange, Langtag.Proof.scriptRange_checked (max := max) (t := ⟨s⟩) hs]
  deep [hs]
  rcases NormalLangTag.scriptRange ⟨s⟩ with _ | e | ⟨a, e⟩ <;> deep
  all_goals
    split
    · rw [find_list_end_eq s _ _ (fun i t => .ok (i == e + 1 && StrNewtype.isOk Region t))]
      · cases Checked.findListEnd max s _ _ <;> deep
      · intro C p t τ ht
        have h' : t.length + 1 ≤ max := by omega
        deep [h']
        by_cases hp : p = e + 1 <;> cases StrNewtype.isOk Region t <;> simp [hp, dep, src]
    · deep

@[dep] theorem NormalLangTag.region_eq :
    callFn (δ + 9) (crate max) ⟨["NormalLangTag"], "", Ast.NormalLangTag_region⟩ [.ctor ["NormalLangTag"] x [.str s]] σ =
    lift (fun r => (val r, [none])) (NormalLangTag.region ⟨s⟩) σ := by
  rw [callFn_apply]
  simp only [Ast.NormalLangTag_region, NormalLangTag.region]
  deep [hs]
  rcases NormalLangTag.regionRange ⟨s⟩ with _ | _ | ⟨a, b⟩ <;> deep
  cases sliceRange s _ _ <;> deep

@[dep] theorem NormalLangTag.variants_range_eq :
    callFn (δ + 9) (crate max) ⟨["NormalLangTag"], "", Ast.NormalLangTag_variants_range⟩ [.ctor ["NormalLangTag"] x [.str s]] σ =
    lift (fun r => (val r, [none])) (NormalLangTag.variantsRange ⟨s⟩) σ := by
  rw [← Langtag.Proof.variantsRange_checked (max := max) (t := ⟨s⟩) hs, callFn_apply]
  simp only [Ast.NormalLangTag_variants_range, Checked.variantsRange, Langtag.Proof.regionRange_checked (max := max) (t := ⟨s⟩) hs]
  deep [hs]
  rcases NormalLangTag.regionRange ⟨s⟩ with _ | e | ⟨a, e⟩ <;> deep
  all_goals
    split
    · rw [find_list_end_eq s _ _ (fun _ t => .ok (StrNewtype.isOk Variant t))]
      · cases Checked.findListEnd max s _ _ <;> deep
      · intro C p t τ ht
        have h' : t.length + 1 ≤ max := by omega
        deep [h']
        cases StrNewtype.isOk Variant t <;> rfl
    · deep

@[dep] theorem NormalLangTag.variants_eq :
    callFn (δ + 10) (crate max) ⟨["NormalLangTag"], "", Ast.NormalLangTag_variants⟩ [.ctor ["NormalLangTag"] x [.str s]] σ =
    lift (fun r => (val r, [none])) (NormalLangTag.variants ⟨s⟩) σ := by
  rw [callFn_apply]
  simp only [Ast.NormalLangTag_variants, NormalLangTag.variants]
  deep [hs]
  rcases NormalLangTag.variantsRange ⟨s⟩ with _ | ⟨a, b⟩ <;> deep
  cases sliceRange s _ _ <;> deep

@[dep] theorem NormalLangTag.extensions_range_eq :
    callFn (δ + 10) (crate max) ⟨["NormalLangTag"], "", Ast.NormalLangTag_extensions_range⟩ [.ctor ["NormalLangTag"] x [.str s]] σ =
    lift (fun r => (val r, [none])) (NormalLangTag.extensionsRange ⟨s⟩) σ := by
  rw [← Langtag.Proof.extensionsRange_checked (max := max) (t := ⟨s⟩) hs, callFn_apply]
  simp only [Ast.NormalLangTag_extensions_range, Checked.extensionsRange, Langtag.Proof.variantsRange_checked (max := max) (t := ⟨s⟩) hs]
  deep [hs]
  rcases NormalLangTag.variantsRange ⟨s⟩ with _ | ⟨a, e⟩ <;> deep
  split
  · rw [find_list_end_eq s _ _ (fun _ t => do .ok ((← Singleton.fromStringIsOk t) || StrNewtype.isOk ExtensionSubtag t))]
    · cases Checked.findListEnd max s _ _ <;> deep
    · intro C p t τ ht
      have h' : t.length + 1 ≤ max := by omega
      deep [h', Singleton.fromStringIsOk]
      rcases Singleton.fromString t with _ | ⟨_ | _⟩ <;> deep [h', Bool.true_or, Bool.false_or]
      cases StrNewtype.isOk ExtensionSubtag t <;> rfl
  · deep

@[dep] theorem NormalLangTag.extensions_eq :
    callFn (δ + 11) (crate max) ⟨["NormalLangTag"], "", Ast.NormalLangTag_extensions⟩ [.ctor ["NormalLangTag"] x [.str s]] σ =
    lift (fun r => (val r, [none])) (NormalLangTag.extensions ⟨s⟩) σ := by
  rw [callFn_apply]
  simp only [Ast.NormalLangTag_extensions, NormalLangTag.extensions]
  deep [hs]
  rcases NormalLangTag.extensionsRange ⟨s⟩ with _ | ⟨a, b⟩ <;> deep
  cases sliceRange s _ _ <;> deep

@[dep] theorem NormalLangTag.private_use_offset_eq :
    callFn (δ + 10) (crate max) ⟨["NormalLangTag"], "", Ast.NormalLangTag_private_use_offset⟩ [.ctor ["NormalLangTag"] x [.str s]] σ =
    lift (fun r => (val r, [none])) (NormalLangTag.privateUseOffset ⟨s⟩) σ := by
  rw [← Langtag.Proof.privateUseOffset_checked (max := max) (t := ⟨s⟩) hs, callFn_apply]
  simp only [Ast.NormalLangTag_private_use_offset, Checked.privateUseOffset, Langtag.Proof.variantsRange_checked (max := max) (t := ⟨s⟩) hs]
  deep [hs]
  rcases NormalLangTag.variantsRange ⟨s⟩ with _ | ⟨a, e⟩ <;> deep

@[dep] theorem NormalLangTag.private_use_eq :
    callFn (δ + 11) (crate max) ⟨["NormalLangTag"], "", Ast.NormalLangTag_private_use⟩ [.ctor ["NormalLangTag"] x [.str s]] σ =
    lift (fun r => (val r, [none])) (NormalLangTag.privateUse ⟨s⟩) σ := by
  rw [callFn_apply]
  simp only [Ast.NormalLangTag_private_use, NormalLangTag.privateUse]
  deep [hs]
  rcases NormalLangTag.privateUseOffset ⟨s⟩ with _ | _ | i <;> deep
  cases sliceFrom s _ <;> deep

@[dep] theorem NormalLangTag.private_use_subtags_eq :
    callFn (δ + 12) (crate max) ⟨["NormalLangTag"], "", Ast.NormalLangTag_private_use_subtags⟩ [.ctor ["NormalLangTag"] x [.str s]] σ =
    lift (fun r => (val r, [none])) (NormalLangTag.privateUseSubtags ⟨s⟩) σ := by
  rw [callFn_apply]
  simp only [Ast.NormalLangTag_private_use_subtags, NormalLangTag.privateUseSubtags]
  deep [hs]
  rcases NormalLangTag.privateUse ⟨s⟩ with _ | _ | ⟨⟨p⟩⟩ <;> deep

end

end Langtag.Source.Deep
