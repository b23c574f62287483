import Verif.Source.Refine.Singleton

/-! # `NormalLangTag` (`/repo/src/normal/mod.rs`): the text and the model -/

set_option autoImplicit false

namespace Langtag.Source
open Langtag.Model (Panic Rust StrNewtype)
open Langtag.Model

variable {C : Ctx} {σ : Env} {max : Nat}

section
variable (x : String) (s : List UInt8) (hs : s.length + 1 ≤ max)
include hs

@[src] theorem NormalLangTag.language_end_eq :
    callFn (crate max) ⟨["NormalLangTag"], "", Ast.NormalLangTag_language_end⟩ [.ctor ["NormalLangTag"] x [.str s]] σ =
    lift (fun r => (.usize r, [none])) (NormalLangTag.languageEnd ⟨s⟩) σ := by
  rw [← Langtag.Proof.languageEnd_checked (max := max) (t := ⟨s⟩) hs, callFn_apply]
  simp only [Ast.NormalLangTag_language_end, Checked.languageEnd]
  exec
  rw [find_list_end_eq s _ _ (fun i t => .ok (i == 0 || StrNewtype.isOk ExtendedLangTag t))]
  · cases Checked.findListEnd max s _ _ <;> exec
  · intro C p t τ ht
    have h' : t.length + 1 ≤ max := by omega
    exec [h']
    by_cases hp : p = 0 <;> cases StrNewtype.isOk ExtendedLangTag t <;> simp [hp, src]

@[src] theorem NormalLangTag.language_eq :
    callFn (crate max) ⟨["NormalLangTag"], "", Ast.NormalLangTag_language⟩ [.ctor ["NormalLangTag"] x [.str s]] σ =
    lift (fun r => (val r, [none])) (NormalLangTag.language ⟨s⟩) σ := by
  rw [callFn_apply]
  simp only [Ast.NormalLangTag_language, NormalLangTag.language]
  exec [hs]
  cases NormalLangTag.languageEnd ⟨s⟩ <;> exec
  cases sliceRange s 0 _ <;> exec

@[src] theorem NormalLangTag.script_range_eq :
    callFn (crate max) ⟨["NormalLangTag"], "", Ast.NormalLangTag_script_range⟩ [.ctor ["NormalLangTag"] x [.str s]] σ =
    lift (fun r => (val r, [none])) (NormalLangTag.scriptRange ⟨s⟩) σ := by
  rw [← Langtag.Proof.scriptRange_checked (max := max) (t := ⟨s⟩) hs, callFn_apply]
  simp only [Ast.NormalLangTag_script_range, Checked.scriptRange, Langtag.Proof.languageEnd_checked (max := max) (t := ⟨s⟩) hs]
  exec [hs]
  cases NormalLangTag.languageEnd ⟨s⟩ <;> exec
  rename_i e
  split
  · rw [find_list_end_eq s _ _ (fun i t => .ok (i == e + 1 && StrNewtype.isOk Script t))]
    · cases Checked.findListEnd max s _ _ <;> exec
    · intro C p t τ ht
      have h' : t.length + 1 ≤ max := by omega
      exec [h']
      by_cases hp : p = e + 1 <;> cases StrNewtype.isOk Script t <;> simp [hp, src]
  · exec

@[src] theorem NormalLangTag.script_eq :
    callFn (crate max) ⟨["NormalLangTag"], "", Ast.NormalLangTag_script⟩ [.ctor ["NormalLangTag"] x [.str s]] σ =
    lift (fun r => (val r, [none])) (NormalLangTag.script ⟨s⟩) σ := by
  rw [callFn_apply]
  simp only [Ast.NormalLangTag_script, NormalLangTag.script]
  exec [hs]
  rcases NormalLangTag.scriptRange ⟨s⟩ with _ | _ | ⟨a, b⟩ <;> exec
  cases sliceRange s _ _ <;> exec

@[src] theorem NormalLangTag.region_range_eq :
    callFn (crate max) ⟨["NormalLangTag"], "", Ast.NormalLangTag_region_range⟩ [.ctor ["NormalLangTag"] x [.str s]] σ =
    lift (fun r => (val r, [none])) (NormalLangTag.regionRange ⟨s⟩) σ := by
  rw [← Langtag.Proof.regionRange_checked (max := max) (t := ⟨s⟩) hs, callFn_apply]
  simp only [Ast.NormalLangTag_region_range, Checked.regionRange, Langtag.Proof.scriptRange_checked (max := max) (t := ⟨s⟩) hs]
  exec [hs]
  rcases NormalLangTag.scriptRange ⟨s⟩ with _ | e | ⟨a, e⟩ <;> exec
  all_goals
    split
    · rw [find_list_end_eq s _ _ (fun i t => .ok (i == e + 1 && StrNewtype.isOk Region t))]
      · cases Checked.findListEnd max s _ _ <;> exec
      · intro C p t τ ht
        have h' : t.length + 1 ≤ max := by omega
        exec [h']
        by_cases hp : p = e + 1 <;> cases StrNewtype.isOk Region t <;> simp [hp, src]
    · exec

@[src] theorem NormalLangTag.region_eq :
    callFn (crate max) ⟨["NormalLangTag"], "", Ast.NormalLangTag_region⟩ [.ctor ["NormalLangTag"] x [.str s]] σ =
    lift (fun r => (val r, [none])) (NormalLangTag.region ⟨s⟩) σ := by
  rw [callFn_apply]
  simp only [Ast.NormalLangTag_region, NormalLangTag.region]
  exec [hs]
  rcases NormalLangTag.regionRange ⟨s⟩ with _ | _ | ⟨a, b⟩ <;> exec
  cases sliceRange s _ _ <;> exec

@[src] theorem NormalLangTag.variants_range_eq :
    callFn (crate max) ⟨["NormalLangTag"], "", Ast.NormalLangTag_variants_range⟩ [.ctor ["NormalLangTag"] x [.str s]] σ =
    lift (fun r => (val r, [none])) (NormalLangTag.variantsRange ⟨s⟩) σ := by
  rw [← Langtag.Proof.variantsRange_checked (max := max) (t := ⟨s⟩) hs, callFn_apply]
  simp only [Ast.NormalLangTag_variants_range, Checked.variantsRange, Langtag.Proof.regionRange_checked (max := max) (t := ⟨s⟩) hs]
  exec [hs]
  rcases NormalLangTag.regionRange ⟨s⟩ with _ | e | ⟨a, e⟩ <;> exec
  all_goals
    split
    · rw [find_list_end_eq s _ _ (fun _ t => .ok (StrNewtype.isOk Variant t))]
      · cases Checked.findListEnd max s _ _ <;> exec
      · intro C p t τ ht
        have h' : t.length + 1 ≤ max := by omega
        exec [h']
        cases StrNewtype.isOk Variant t <;> rfl
    · exec

@[src] theorem NormalLangTag.variants_eq :
    callFn (crate max) ⟨["NormalLangTag"], "", Ast.NormalLangTag_variants⟩ [.ctor ["NormalLangTag"] x [.str s]] σ =
    lift (fun r => (val r, [none])) (NormalLangTag.variants ⟨s⟩) σ := by
  rw [callFn_apply]
  simp only [Ast.NormalLangTag_variants, NormalLangTag.variants]
  exec [hs]
  rcases NormalLangTag.variantsRange ⟨s⟩ with _ | ⟨a, b⟩ <;> exec
  cases sliceRange s _ _ <;> exec

@[src] theorem NormalLangTag.extensions_range_eq :
    callFn (crate max) ⟨["NormalLangTag"], "", Ast.NormalLangTag_extensions_range⟩ [.ctor ["NormalLangTag"] x [.str s]] σ =
    lift (fun r => (val r, [none])) (NormalLangTag.extensionsRange ⟨s⟩) σ := by
  rw [← Langtag.Proof.extensionsRange_checked (max := max) (t := ⟨s⟩) hs, callFn_apply]
  simp only [Ast.NormalLangTag_extensions_range, Checked.extensionsRange, Langtag.Proof.variantsRange_checked (max := max) (t := ⟨s⟩) hs]
  exec [hs]
  rcases NormalLangTag.variantsRange ⟨s⟩ with _ | ⟨a, e⟩ <;> exec
  split
  · rw [find_list_end_eq s _ _ (fun _ t => do .ok ((← Singleton.fromStringIsOk t) || StrNewtype.isOk ExtensionSubtag t))]
    · cases Checked.findListEnd max s _ _ <;> exec
    · intro C p t τ ht
      have h' : t.length + 1 ≤ max := by omega
      exec [h', Singleton.fromStringIsOk]
      rcases Singleton.fromString t with _ | ⟨_ | _⟩ <;> exec [h', Bool.true_or, Bool.false_or]
      cases StrNewtype.isOk ExtensionSubtag t <;> rfl
  · exec

@[src] theorem NormalLangTag.extensions_eq :
    callFn (crate max) ⟨["NormalLangTag"], "", Ast.NormalLangTag_extensions⟩ [.ctor ["NormalLangTag"] x [.str s]] σ =
    lift (fun r => (val r, [none])) (NormalLangTag.extensions ⟨s⟩) σ := by
  rw [callFn_apply]
  simp only [Ast.NormalLangTag_extensions, NormalLangTag.extensions]
  exec [hs]
  rcases NormalLangTag.extensionsRange ⟨s⟩ with _ | ⟨a, b⟩ <;> exec
  cases sliceRange s _ _ <;> exec

@[src] theorem NormalLangTag.private_use_offset_eq :
    callFn (crate max) ⟨["NormalLangTag"], "", Ast.NormalLangTag_private_use_offset⟩ [.ctor ["NormalLangTag"] x [.str s]] σ =
    lift (fun r => (val r, [none])) (NormalLangTag.privateUseOffset ⟨s⟩) σ := by
  rw [← Langtag.Proof.privateUseOffset_checked (max := max) (t := ⟨s⟩) hs, callFn_apply]
  simp only [Ast.NormalLangTag_private_use_offset, Checked.privateUseOffset, Langtag.Proof.variantsRange_checked (max := max) (t := ⟨s⟩) hs]
  exec [hs]
  rcases NormalLangTag.variantsRange ⟨s⟩ with _ | ⟨a, e⟩ <;> exec

@[src] theorem NormalLangTag.private_use_eq :
    callFn (crate max) ⟨["NormalLangTag"], "", Ast.NormalLangTag_private_use⟩ [.ctor ["NormalLangTag"] x [.str s]] σ =
    lift (fun r => (val r, [none])) (NormalLangTag.privateUse ⟨s⟩) σ := by
  rw [callFn_apply]
  simp only [Ast.NormalLangTag_private_use, NormalLangTag.privateUse]
  exec [hs]
  rcases NormalLangTag.privateUseOffset ⟨s⟩ with _ | _ | i <;> exec
  cases sliceFrom s _ <;> exec

@[src] theorem NormalLangTag.private_use_subtags_eq :
    callFn (crate max) ⟨["NormalLangTag"], "", Ast.NormalLangTag_private_use_subtags⟩ [.ctor ["NormalLangTag"] x [.str s]] σ =
    lift (fun r => (val r, [none])) (NormalLangTag.privateUseSubtags ⟨s⟩) σ := by
  rw [callFn_apply]
  simp only [Ast.NormalLangTag_private_use_subtags, NormalLangTag.privateUseSubtags]
  exec [hs]
  rcases NormalLangTag.privateUse ⟨s⟩ with _ | _ | ⟨⟨p⟩⟩ <;> exec

end

end Langtag.Source
