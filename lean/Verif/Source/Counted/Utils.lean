import Verif.Source.Counted.Core
import Verif.Source.Refine.Utils

/-! # `/repo/src/utils.rs`: the text and the counting model -/

set_option autoImplicit false

namespace Langtag.Source.Counted
open Langtag.Model (Panic Rust Timed)

variable {P : Program} {C : Ctx} {σ : Env} {max : Nat}

/-- A count that is the same. -/
theorem addTicks_congr {α : Type} {m n : Nat} {x y : Out α} (h : m = n) (h' : x = y) : addTicks m x = addTicks n y := by rw [h, h']

@[cnt] theorem into_smallcase_eq (c : UInt8) : callFn (crate max) ⟨[], "", Ast.into_smallcase⟩ [.u8 c] σ =
    freeR (lift (fun c => (.u8 c, [none])) (Langtag.Model.intoSmallcase c) σ) := by
  rw [callFn_apply]
  simp only [Ast.into_smallcase]
  count
  unfold Langtag.Model.intoSmallcase
  split
  · split
    · simp only [lift]
      congr
    · rfl
  · rfl

@[cnt] theorem case_insensitive_eq_eq (a b : List UInt8) : callFn (crate max) ⟨[], "", Ast.case_insensitive_eq⟩ [.bytes a, .bytes b] σ =
    liftT (fun r => (.bool r, [none, none])) (Timed.caseInsensitiveEq a b) σ := by
  rw [callFn_apply]
  simp only [Ast.case_insensitive_eq, Timed.caseInsensitiveEq]
  count
  split
  · refine for_rule (fun r => callR _ σ (closeR _ (closeR _ (bindR r _)))) (fun _ => [("a", Val.bytes a), ("b", Val.bytes b)])
      (fun i => liftT _ (Timed.caseInsensitiveEqLoop a b i) σ) (Nat.zero_le _) ?_ ?_
    · rw [Timed.caseInsensitiveEqLoop, if_neg (Nat.lt_irrefl _)]
      count
    · intro i hi ih
      rw [Timed.caseInsensitiveEqLoop, if_pos hi]
      count
      cases Langtag.Model.index a i <;> count
      cases Langtag.Model.intoSmallcase _ <;> count
      cases Langtag.Model.index b i <;> count
      cases Langtag.Model.intoSmallcase _ <;> count
      split
      · rfl
      · exact addTicks_congr rfl ih
  · rfl

/-- What `case_insensitive_hash` of the counting model writes. -/
def hashLog (s w : List UInt8) : Timed (List UInt8) := Timed.caseInsensitiveHash logHasher s w
theorem hashLog_cons (b : UInt8) (s w : List UInt8) :
    hashLog (b :: s) w = (do
      Timed.tick
      let c ← (liftM (Langtag.Model.intoSmallcase b) : Timed UInt8)
      hashLog s (w ++ [c])) := rfl

@[cnt] theorem case_insensitive_hash_eq (s w : List UInt8) : callFn (crate max) ⟨[], "", Ast.case_insensitive_hash⟩ [.bytes s, .hasher w] σ =
    liftT (fun w => (.tuple [], [none, some (.hasher w)])) (hashLog s w) σ := by
  rw [callFn_apply]
  simp only [Ast.case_insensitive_hash]
  count
  refine for_list_rule (fun r => callR _ σ (closeR _ r)) _ (fun w => [("bytes", Val.bytes s), ("hasher", Val.hasher w)])
    (fun s w => liftT (fun w => (Val.tuple [], [none, some (.hasher w)])) (hashLog s w) σ) s w ?_ ?_
  · intro w
    count
    rfl
  · intro a as w ih
    rw [hashLog_cons]
    count
    cases Langtag.Model.intoSmallcase a <;> count
    exact addTicks_congr rfl (ih _)

@[cnt] theorem case_insensitive_cmp_eq (a b : List UInt8) (ha : a.length + 1 ≤ max) :
    callFn (crate max) ⟨[], "", Ast.case_insensitive_cmp⟩ [.bytes a, .bytes b] σ =
    liftT (fun o => (.ordering o, [none, none])) (Timed.caseInsensitiveCmp a b) σ := by
  rw [callFn_apply]
  simp only [Ast.case_insensitive_cmp, Timed.caseInsensitiveCmp]
  count
  refine loop_rule (fun r => callR _ σ (closeR _ r)) (fun i => [("i", Val.usize i), ("a", Val.bytes a), ("b", Val.bytes b)]) (fun _ => True)
    (fun i => a.length - i) (fun i => liftT _ (Timed.caseInsensitiveCmpLoop a b i) σ) 0 trivial ?_
  intro i _ ih
  rw [Timed.caseInsensitiveCmpLoop]
  count
  split
  · split <;> rfl
  · split
    · rfl
    · cases Langtag.Model.index a i <;> count
      cases Langtag.Model.intoSmallcase _ <;> count
      cases Langtag.Model.index b i <;> count
      cases Langtag.Model.intoSmallcase _ <;> count
      cases compare (α := UInt8) _ _ <;> count
      rw [if_pos (by omega)]
      exact addTicks_congr rfl (ih _ trivial (by omega))

end Langtag.Source.Counted
