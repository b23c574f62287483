import Verif.Source.Counted.Utils
import Verif.Source.Refine.Segments

/-! # `find_list_end`, `find_segment_end` and `find_segment_start` (`/repo/src/normal/mod.rs`): the text and the counting model -/

set_option autoImplicit false

namespace Langtag.Source.Counted
open Langtag.Model (Panic Rust Timed)

variable {P : Program} {C : Ctx} {σ : Env} {max : Nat}

@[cnt] theorem find_segment_end_eq (s : List UInt8) (offset : Nat) (hs : s.length + 1 ≤ max) :
    callFn (crate max) ⟨[], "", Ast.find_segment_end⟩ [.str s, .usize offset] σ =
    liftT (fun n => (.usize n, [none, none])) (Timed.findSegmentEnd s offset) σ := by
  rw [callFn_apply]
  simp only [Ast.find_segment_end, Timed.findSegmentEnd]
  count
  refine while_rule (fun r => callR _ σ (closeR _ (bindR r _))) (fun i => [("i", Val.usize i), ("bytes", Val.bytes s), ("string", Val.str s), ("offset", Val.usize offset)])
    (fun _ => True) (fun i => s.length - i) (fun i => liftT _ (Timed.findSegmentEndLoop s i) σ) offset trivial ?_
  intro i _ ih
  rw [Timed.findSegmentEndLoop]
  count
  split
  · cases Langtag.Model.index s i <;> count
    split
    · count
    · rw [if_pos (by omega)]
      exact addTicks_congr rfl (ih _ trivial (by omega))
  · rfl

theorem index_lt {s : List UInt8} {i : Nat} {b : UInt8} (h : Langtag.Model.index s i = .ok b) : i < s.length := by
  unfold Langtag.Model.index at h
  split at h
  · rename_i hb
    exact (List.getElem?_eq_some_iff.mp hb).1
  · cases h

@[cnt] theorem find_segment_start_eq (s : List UInt8) (e : Nat) (hs : s.length + 1 ≤ max) :
    callFn (crate max) ⟨[], "", Ast.find_segment_start⟩ [.str s, .usize e] σ =
    liftT (fun n => (.usize n, [none, none])) (Timed.findSegmentStart s e) σ := by
  rw [callFn_apply]
  simp only [Ast.find_segment_start, Timed.findSegmentStart]
  count
  split
  · rw [if_pos (by omega)]
    refine loop_rule (fun r => callR _ σ (closeR _ (closeR _ r))) (fun i => [("i", Val.usize i), ("bytes", Val.bytes s), ("string", Val.str s), ("end", Val.usize e)])
        (fun _ => True) (fun i => i) (fun i => liftT _ (Timed.findSegmentStartLoop s i) σ) (e - 1) trivial ?_
    intro i _ ih
    cases i with
    | zero =>
      unfold Timed.findSegmentStartLoop
      count
      cases hi : Langtag.Model.index s 0 <;> count
      have := index_lt hi
      split
      · rw [if_pos (by omega)]
      · rfl
    | succ i =>
      unfold Timed.findSegmentStartLoop
      count
      cases hi : Langtag.Model.index s (i + 1) <;> count
      have := index_lt hi
      split
      · rw [if_pos (by omega)]
      · rw [if_pos (by omega), if_pos (by omega)]
        exact addTicks_congr rfl (ih _ trivial (by omega))
  · rfl

/-- `find_list_end`, for a closure `g` that is the function `f` of the counting model. -/
theorem find_list_end_eq (s : List UInt8) (offset : Nat) (g : Val) (f : Nat → List UInt8 → Timed Bool) (hs : s.length + 1 ≤ max)
    (hg : ∀ C o t σ, t.length ≤ s.length → applyVal (crate max) C g [.usize o, .str t] σ = liftT .bool (f o t) σ) :
    callFn (crate max) ⟨[], "", Ast.find_list_end⟩ [.str s, .usize offset, g] σ =
    liftT (fun n => (.usize n, [none, none, none])) (Timed.findListEnd s offset f) σ := by
  rw [callFn_apply]
  simp only [Ast.find_list_end, Timed.findListEnd]
  count
  refine while_rule (ι := Nat × Nat × Nat) (fun r => callR _ σ (closeR _ (bindR r _)))
    (fun (o, i, e) => [("end", Val.usize e), ("i", Val.usize i), ("bytes", Val.bytes s), ("string", Val.str s), ("offset", Val.usize o), ("f", g)])
    (fun _ => True) (fun (o, i, e) => s.length - i) (fun (o, i, e) => liftT _ (Timed.findListEndLoop s f o i e) σ) (offset, offset, offset) trivial ?_
  rintro ⟨o, i, e⟩ _ ih
  simp only at ih ⊢
  rw [Timed.findListEndLoop]
  count
  split
  · cases Langtag.Model.index s i <;> count
    split
    · cases hsl : Langtag.Model.sliceRange s o i
      · count
      · count
        rw [hg _ _ _ _ (slice_length hsl)]
        rcases f o _ with ⟨p | b, k⟩
        · count
          exact addTicks_congr (Nat.add_comm ..) rfl
        · cases b <;> count
          · exact addTicks_congr (Nat.add_comm ..) rfl
          have hi : i + 1 ≤ max := by omega
          count [hi]
          exact addTicks_congr (Nat.add_comm ..) (ih (_, _, _) trivial (by simp only; omega))
    · rw [if_pos (by omega)]
      exact addTicks_congr rfl (ih (_, _, _) trivial (by simp only; omega))
  · cases hsl : Langtag.Model.sliceFrom s o <;> count
    rw [hg _ _ _ _ (slice_length hsl)]
    rcases f o _ with ⟨p | b, k⟩
    · count
    · cases b <;> count

end Langtag.Source.Counted
