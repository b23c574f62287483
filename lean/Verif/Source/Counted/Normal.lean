import Verif.Source.Counted.Singleton
import Verif.Proof.Work

/-! # `NormalLangTag` (`/repo/src/normal/mod.rs`): the text and the counting model -/

set_option autoImplicit false

namespace Langtag.Source.Counted
open Langtag.Source (val)
open Langtag.Model

variable {C : Ctx} {σ : Env} {max : Nat}

section
variable {s : List UInt8} {k : Nat}

theorem languageEnd_le {e : Nat} (h : Timed.languageEnd ⟨s⟩ = ⟨.ok e, k⟩) : e ≤ s.length := by
  have := (Langtag.Proof.work_languageEnd ⟨s⟩).1
  rw [h] at this
  exact Langtag.Proof.findListEnd_le this.symm
theorem scriptRange_le {r : Except Nat (Nat × Nat)} (h : Timed.scriptRange ⟨s⟩ = ⟨.ok r, k⟩) : Langtag.Proof.rangeEnd r ≤ s.length := by
  have := (Langtag.Proof.work_scriptRange ⟨s⟩).1
  rw [h] at this
  exact Langtag.Proof.scriptRange_le this.symm
theorem regionRange_le {r : Except Nat (Nat × Nat)} (h : Timed.regionRange ⟨s⟩ = ⟨.ok r, k⟩) : Langtag.Proof.rangeEnd r ≤ s.length := by
  have := (Langtag.Proof.work_regionRange ⟨s⟩).1
  rw [h] at this
  exact Langtag.Proof.regionRange_le this.symm
theorem variantsRange_le {r : Nat × Nat} (h : Timed.variantsRange ⟨s⟩ = ⟨.ok r, k⟩) : r.2 ≤ s.length := by
  have := (Langtag.Proof.work_variantsRange ⟨s⟩).1
  rw [h] at this
  exact Langtag.Proof.variantsRange_le this.symm

end

section
variable (x : String) (s : List UInt8) (hs : s.length + 1 ≤ max)
include hs

@[cnt] theorem NormalLangTag.language_end_eq :
    callFn (crate max) ⟨["NormalLangTag"], "", Ast.NormalLangTag_language_end⟩ [.ctor ["NormalLangTag"] x [.str s]] σ =
    liftT (fun r => (.usize r, [none])) (Timed.languageEnd ⟨s⟩) σ := by
  rw [callFn_apply]
  simp only [Ast.NormalLangTag_language_end, Timed.languageEnd]
  count
  rw [find_list_end_eq s _ _ (fun i t => if i == 0 then return true else Timed.isOk ExtendedLangTag t) hs]
  · rcases Timed.findListEnd s _ _ with ⟨_ | e', k'⟩ <;> count
  · intro C p t τ ht
    have h' : t.length + 1 ≤ max := by omega
    count [h']
    by_cases hp : p = 0 <;> cases StrNewtype.isOk ExtendedLangTag t <;> simp [hp, src, cnt]

@[cnt] theorem NormalLangTag.language_eq :
    callFn (crate max) ⟨["NormalLangTag"], "", Ast.NormalLangTag_language⟩ [.ctor ["NormalLangTag"] x [.str s]] σ =
    liftT (fun r => (val r, [none])) (Timed.language ⟨s⟩) σ := by
  rw [callFn_apply]
  simp only [Ast.NormalLangTag_language, Timed.language]
  count [hs]
  rcases Timed.languageEnd ⟨s⟩ with ⟨_ | e, k⟩ <;> count
  cases sliceRange s 0 _ <;> count

@[cnt] theorem NormalLangTag.script_range_eq :
    callFn (crate max) ⟨["NormalLangTag"], "", Ast.NormalLangTag_script_range⟩ [.ctor ["NormalLangTag"] x [.str s]] σ =
    liftT (fun r => (val r, [none])) (Timed.scriptRange ⟨s⟩) σ := by
  rw [callFn_apply]
  simp only [Ast.NormalLangTag_script_range, Timed.scriptRange]
  count [hs]
  rcases h : Timed.languageEnd ⟨s⟩ with ⟨_ | e, k⟩ <;> count
  have he : e ≤ s.length := languageEnd_le h
  rw [if_pos (by omega)]
  rw [find_list_end_eq s _ _ (fun i t => if i == e + 1 then Timed.isOk Script t else return false) hs]
  · rcases Timed.findListEnd s _ _ with ⟨_ | e', k'⟩ <;> count
  · intro C p t τ ht
    have h' : t.length + 1 ≤ max := by omega
    count [h']
    by_cases hp : p = e + 1 <;> cases StrNewtype.isOk Script t <;> simp [hp, src, cnt]

@[cnt] theorem NormalLangTag.script_eq :
    callFn (crate max) ⟨["NormalLangTag"], "", Ast.NormalLangTag_script⟩ [.ctor ["NormalLangTag"] x [.str s]] σ =
    liftT (fun r => (val r, [none])) (Timed.script ⟨s⟩) σ := by
  rw [callFn_apply]
  simp only [Ast.NormalLangTag_script, Timed.script]
  count [hs]
  rcases h : Timed.scriptRange ⟨s⟩ with ⟨_ | _ | ⟨a, b⟩, k⟩ <;> count
  cases sliceRange s _ _ <;> count

@[cnt] theorem NormalLangTag.region_range_eq :
    callFn (crate max) ⟨["NormalLangTag"], "", Ast.NormalLangTag_region_range⟩ [.ctor ["NormalLangTag"] x [.str s]] σ =
    liftT (fun r => (val r, [none])) (Timed.regionRange ⟨s⟩) σ := by
  rw [callFn_apply]
  simp only [Ast.NormalLangTag_region_range, Timed.regionRange]
  count [hs]
  rcases h : Timed.scriptRange ⟨s⟩ with ⟨_ | e | ⟨a, e⟩, k⟩ <;> count
  all_goals
    have he : e ≤ s.length := scriptRange_le h
    rw [if_pos (by omega)]
    rw [find_list_end_eq s _ _ (fun i t => if i == e + 1 then Timed.isOk Region t else return false) hs]
    · rcases Timed.findListEnd s _ _ with ⟨_ | e', k'⟩ <;> count
    · intro C p t τ ht
      have h' : t.length + 1 ≤ max := by omega
      count [h']
      by_cases hp : p = e + 1 <;> cases StrNewtype.isOk Region t <;> simp [hp, src, cnt]

@[cnt] theorem NormalLangTag.region_eq :
    callFn (crate max) ⟨["NormalLangTag"], "", Ast.NormalLangTag_region⟩ [.ctor ["NormalLangTag"] x [.str s]] σ =
    liftT (fun r => (val r, [none])) (Timed.region ⟨s⟩) σ := by
  rw [callFn_apply]
  simp only [Ast.NormalLangTag_region, Timed.region]
  count [hs]
  rcases h : Timed.regionRange ⟨s⟩ with ⟨_ | _ | ⟨a, b⟩, k⟩ <;> count
  cases sliceRange s _ _ <;> count

@[cnt] theorem NormalLangTag.variants_range_eq :
    callFn (crate max) ⟨["NormalLangTag"], "", Ast.NormalLangTag_variants_range⟩ [.ctor ["NormalLangTag"] x [.str s]] σ =
    liftT (fun r => (val r, [none])) (Timed.variantsRange ⟨s⟩) σ := by
  rw [callFn_apply]
  simp only [Ast.NormalLangTag_variants_range, Timed.variantsRange]
  count [hs]
  rcases h : Timed.regionRange ⟨s⟩ with ⟨_ | e | ⟨a, e⟩, k⟩ <;> count
  all_goals
    have he : e ≤ s.length := regionRange_le h
    rw [if_pos (by omega)]
    rw [find_list_end_eq s _ _ (fun _ t => Timed.isOk Variant t) hs]
    · rcases Timed.findListEnd s _ _ with ⟨_ | e', k'⟩ <;> count
    · intro C p t τ ht
      have h' : t.length + 1 ≤ max := by omega
      count [h']
      cases StrNewtype.isOk Variant t <;> rfl

@[cnt] theorem NormalLangTag.variants_eq :
    callFn (crate max) ⟨["NormalLangTag"], "", Ast.NormalLangTag_variants⟩ [.ctor ["NormalLangTag"] x [.str s]] σ =
    liftT (fun r => (val r, [none])) (Timed.variants ⟨s⟩) σ := by
  rw [callFn_apply]
  simp only [Ast.NormalLangTag_variants, Timed.variants]
  count [hs]
  rcases h : Timed.variantsRange ⟨s⟩ with ⟨_ | ⟨a, b⟩, k⟩ <;> count
  cases sliceRange s _ _ <;> count

@[cnt] theorem NormalLangTag.extensions_range_eq :
    callFn (crate max) ⟨["NormalLangTag"], "", Ast.NormalLangTag_extensions_range⟩ [.ctor ["NormalLangTag"] x [.str s]] σ =
    liftT (fun r => (val r, [none])) (Timed.extensionsRange ⟨s⟩) σ := by
  rw [callFn_apply]
  simp only [Ast.NormalLangTag_extensions_range, Timed.extensionsRange]
  count [hs]
  rcases h : Timed.variantsRange ⟨s⟩ with ⟨_ | ⟨a, e⟩, k⟩ <;> count
  have he : e ≤ s.length := variantsRange_le h
  rw [if_pos (by omega)]
  rw [find_list_end_eq s _ _ (fun _ t => do if ← Singleton.fromStringIsOk t then return true else Timed.isOk ExtensionSubtag t) hs]
  · rcases Timed.findListEnd s _ _ with ⟨_ | e', k'⟩ <;> count
  · intro C p t τ ht
    have h' : t.length + 1 ≤ max := by omega
    count [h', Singleton.fromStringIsOk]
    rcases Singleton.fromString t with _ | ⟨_ | _⟩ <;> count [h', Bool.true_or, Bool.false_or]
    cases StrNewtype.isOk ExtensionSubtag t <;> rfl

@[cnt] theorem NormalLangTag.extensions_eq :
    callFn (crate max) ⟨["NormalLangTag"], "", Ast.NormalLangTag_extensions⟩ [.ctor ["NormalLangTag"] x [.str s]] σ =
    liftT (fun r => (val r, [none])) (Timed.extensions ⟨s⟩) σ := by
  rw [callFn_apply]
  simp only [Ast.NormalLangTag_extensions, Timed.extensions]
  count [hs]
  rcases h : Timed.extensionsRange ⟨s⟩ with ⟨_ | ⟨a, b⟩, k⟩ <;> count
  cases sliceRange s _ _ <;> count

@[cnt] theorem NormalLangTag.private_use_offset_eq :
    callFn (crate max) ⟨["NormalLangTag"], "", Ast.NormalLangTag_private_use_offset⟩ [.ctor ["NormalLangTag"] x [.str s]] σ =
    liftT (fun r => (val r, [none])) (Timed.privateUseOffset ⟨s⟩) σ := by
  rw [callFn_apply]
  simp only [Ast.NormalLangTag_private_use_offset, Timed.privateUseOffset]
  count [hs]
  rcases h : Timed.variantsRange ⟨s⟩ with ⟨_ | ⟨a, e⟩, k⟩ <;> count
  have he : e ≤ s.length := variantsRange_le h
  rw [if_pos (show e + 1 ≤ max by omega)]

@[cnt] theorem NormalLangTag.private_use_eq :
    callFn (crate max) ⟨["NormalLangTag"], "", Ast.NormalLangTag_private_use⟩ [.ctor ["NormalLangTag"] x [.str s]] σ =
    liftT (fun r => (val r, [none])) (Timed.privateUse ⟨s⟩) σ := by
  rw [callFn_apply]
  simp only [Ast.NormalLangTag_private_use, Timed.privateUse]
  count [hs]
  rcases h : Timed.privateUseOffset ⟨s⟩ with ⟨_ | _ | i, k⟩ <;> count
  cases sliceFrom s _ <;> count

@[cnt] theorem NormalLangTag.private_use_subtags_eq :
    callFn (crate max) ⟨["NormalLangTag"], "", Ast.NormalLangTag_private_use_subtags⟩ [.ctor ["NormalLangTag"] x [.str s]] σ =
    liftT (fun r => (val r, [none])) (Timed.privateUseSubtags ⟨s⟩) σ := by
  rw [callFn_apply]
  simp only [Ast.NormalLangTag_private_use_subtags, Timed.privateUseSubtags]
  count [hs]
  rcases h : Timed.privateUse ⟨s⟩ with ⟨_ | _ | ⟨⟨p⟩⟩, k⟩ <;> count

end

end Langtag.Source.Counted
