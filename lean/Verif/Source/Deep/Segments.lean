import Verif.Source.Deep.Utils
import Verif.Source.Refine.Segments

/-! # `find_list_end`, `find_segment_end` and `find_segment_start` (`/repo/src/normal/mod.rs`), with bounded nesting -/

set_option autoImplicit false

namespace Langtag.Source.Deep

open Langtag.Model (Panic Rust)

variable {δ : Nat} {P : Program} {C : Ctx} {σ : Env} {max : Nat}

@[dep] theorem find_segment_end_eq (s : List UInt8) (offset : Nat) :
    callFn (δ + 1) (crate max) ⟨[], "", Ast.find_segment_end⟩ [.str s, .usize offset] σ =
    lift (fun n => (.usize n, [none, none])) (Langtag.Model.Checked.findSegmentEnd max s offset) σ := by
  rw [callFn_apply]
  simp only [Ast.find_segment_end, Langtag.Model.Checked.findSegmentEnd]
  deep
  refine while_rule (fun r => callR _ σ (closeR _ (bindR r _))) (fun i => [("i", Val.usize i), ("bytes", Val.bytes s), ("string", Val.str s), ("offset", Val.usize offset)])
    (fun _ => True) (fun i => s.length - i) (fun i => lift _ (Langtag.Model.Checked.findSegmentEndLoop max s i) σ) offset trivial ?_
  intro i _ ih
  rw [Langtag.Model.Checked.findSegmentEndLoop]
  deep
  split
  · cases Langtag.Model.index s i <;> deep
    split
    · deep
    · split
      · exact ih _ trivial (by omega)
      · rfl
  · rfl

@[dep] theorem find_segment_start_eq (s : List UInt8) (e : Nat) :
    callFn (δ + 1) (crate max) ⟨[], "", Ast.find_segment_start⟩ [.str s, .usize e] σ =
    lift (fun n => (.usize n, [none, none])) (Langtag.Model.Checked.findSegmentStart max s e) σ := by
  rw [callFn_apply]
  simp only [Ast.find_segment_start, Langtag.Model.Checked.findSegmentStart]
  deep
  split
  · split
    · refine loop_rule (fun r => callR _ σ (closeR _ (closeR _ r))) (fun i => [("i", Val.usize i), ("bytes", Val.bytes s), ("string", Val.str s), ("end", Val.usize e)])
        (fun _ => True) (fun i => i) (fun i => lift _ (Langtag.Model.Checked.findSegmentStartLoop max s i) σ) (e - 1) trivial ?_
      intro i _ ih
      rw [Langtag.Model.Checked.findSegmentStartLoop]
      deep
      cases Langtag.Model.index s i <;> deep
      split
      · rfl
      · split
        · split
          · exact ih _ trivial (by omega)
          · rfl
        · rfl
    · rfl
  · rfl

/-- `find_list_end`, for a closure `g` that is the function `f` of the model. -/
theorem find_list_end_eq (s : List UInt8) (offset : Nat) (g : Val) (f : Nat → List UInt8 → Rust Bool)
    (hg : ∀ C o t σ, t.length ≤ s.length → applyVal δ (crate max) C g [.usize o, .str t] σ = lift .bool (f o t) σ) :
    callFn (δ + 1) (crate max) ⟨[], "", Ast.find_list_end⟩ [.str s, .usize offset, g] σ =
    lift (fun n => (.usize n, [none, none, none])) (Langtag.Model.Checked.findListEnd max s offset f) σ := by
  rw [callFn_apply]
  simp only [Ast.find_list_end, Langtag.Model.Checked.findListEnd]
  deep
  refine while_rule (ι := Nat × Nat × Nat) (fun r => callR _ σ (closeR _ (bindR r _)))
    (fun (o, i, e) => [("end", Val.usize e), ("i", Val.usize i), ("bytes", Val.bytes s), ("string", Val.str s), ("offset", Val.usize o), ("f", g)])
    (fun _ => True) (fun (o, i, e) => s.length - i) (fun (o, i, e) => lift _ (Langtag.Model.Checked.findListEndLoop max s f o i e) σ) (offset, offset, offset) trivial ?_
  rintro ⟨o, i, e⟩ _ ih
  simp only at ih ⊢
  rw [Langtag.Model.Checked.findListEndLoop]
  deep
  split
  · cases Langtag.Model.index s i <;> deep
    split
    · cases hsl : Langtag.Model.sliceRange s o i
      · deep
      · deep
        rw [hg _ _ _ _ (slice_length hsl)]
        cases f o _ with
        | error p => deep
        | ok b =>
          cases b <;> deep
          split
          · exact ih (_, _, _) trivial (by simp only; omega)
          · rfl
    · split
      · exact ih (_, _, _) trivial (by simp only; omega)
      · rfl
  · cases hsl : Langtag.Model.sliceFrom s o <;> deep
    rw [hg _ _ _ _ (slice_length hsl)]
    cases f o _ with
    | error p => deep
    | ok b => cases b <;> deep

end Langtag.Source.Deep
