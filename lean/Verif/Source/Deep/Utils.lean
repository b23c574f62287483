import Verif.Source.Deep.Core
import Verif.Source.Refine.Utils

/-! # `/repo/src/utils.rs`, with bounded nesting -/

set_option autoImplicit false

namespace Langtag.Source.Deep

open Langtag.Model (Panic Rust)

variable {δ : Nat} {P : Program} {C : Ctx} {σ : Env} {max : Nat}

@[dep] theorem into_smallcase_eq (c : UInt8) : callFn (δ + 1) (crate max) ⟨[], "", Ast.into_smallcase⟩ [.u8 c] σ =
    lift (fun c => (.u8 c, [none])) (Langtag.Model.intoSmallcase c) σ := by
  rw [callFn_apply]
  simp only [Ast.into_smallcase]
  deep
  unfold Langtag.Model.intoSmallcase
  split
  · split
    · simp only [lift]
      congr
    · rfl
  · rfl

@[dep] theorem case_insensitive_eq_eq (a b : List UInt8) : callFn (δ + 2) (crate max) ⟨[], "", Ast.case_insensitive_eq⟩ [.bytes a, .bytes b] σ =
    lift (fun r => (.bool r, [none, none])) (Langtag.Model.caseInsensitiveEq a b) σ := by
  rw [callFn_apply]
  simp only [Ast.case_insensitive_eq, Langtag.Model.caseInsensitiveEq]
  deep
  split
  · refine for_rule (fun r => callR _ σ (closeR _ (closeR _ (bindR r _)))) (fun _ => [("a", Val.bytes a), ("b", Val.bytes b)])
      (fun i => lift _ (Langtag.Model.caseInsensitiveEqLoop a b i) σ) (Nat.zero_le _) ?_ ?_
    · rw [Langtag.Model.caseInsensitiveEqLoop, if_neg (Nat.lt_irrefl _)]
      deep
    · intro i hi ih
      rw [Langtag.Model.caseInsensitiveEqLoop, if_pos hi]
      deep
      cases Langtag.Model.index a i <;> deep
      cases Langtag.Model.intoSmallcase _ <;> deep
      cases Langtag.Model.index b i <;> deep
      cases Langtag.Model.intoSmallcase _ <;> deep
      split
      · rfl
      · exact ih
  · rfl

@[dep] theorem case_insensitive_hash_eq (s w : List UInt8) : callFn (δ + 2) (crate max) ⟨[], "", Ast.case_insensitive_hash⟩ [.bytes s, .hasher w] σ =
    lift (fun w => (.tuple [], [none, some (.hasher w)])) (hashLog s w) σ := by
  rw [callFn_apply]
  simp only [Ast.case_insensitive_hash]
  deep
  refine for_list_rule (fun r => callR _ σ (closeR _ r)) _ (fun w => [("bytes", Val.bytes s), ("hasher", Val.hasher w)])
    (fun s w => lift (fun w => (Val.tuple [], [none, some (.hasher w)])) (hashLog s w) σ) s w ?_ ?_
  · intro w
    deep
    rfl
  · intro a as w ih
    rw [hashLog_cons]
    deep
    cases Langtag.Model.intoSmallcase a <;> deep
    exact ih _

@[dep] theorem case_insensitive_cmp_eq (a b : List UInt8) : callFn (δ + 2) (crate max) ⟨[], "", Ast.case_insensitive_cmp⟩ [.bytes a, .bytes b] σ =
    lift (fun o => (.ordering o, [none, none])) (Langtag.Model.Checked.caseInsensitiveCmp max a b) σ := by
  rw [callFn_apply]
  simp only [Ast.case_insensitive_cmp, Langtag.Model.Checked.caseInsensitiveCmp]
  deep
  refine loop_rule (fun r => callR _ σ (closeR _ r)) (fun i => [("i", Val.usize i), ("a", Val.bytes a), ("b", Val.bytes b)]) (fun _ => True)
    (fun i => a.length - i) (fun i => lift _ (Langtag.Model.Checked.caseInsensitiveCmpLoop max a b i) σ) 0 trivial ?_
  intro i _ ih
  rw [Langtag.Model.Checked.caseInsensitiveCmpLoop]
  deep
  split
  · split <;> rfl
  · split
    · rfl
    · cases Langtag.Model.index a i <;> deep
      cases Langtag.Model.intoSmallcase _ <;> deep
      cases Langtag.Model.index b i <;> deep
      cases Langtag.Model.intoSmallcase _ <;> deep
      cases compare (α := UInt8) _ _ <;> deep
      split
      · exact ih _ trivial (by omega)
      · rfl

end Langtag.Source.Deep
