import Verif.Source.Core
import Verif.Model.Checked

/-! # `/repo/src/utils.rs`: the text and the model -/

set_option autoImplicit false

namespace Langtag.Source
open Langtag.Model (Panic Rust)

variable {P : Program} {C : Ctx} {σ : Env} {max : Nat}

@[src] theorem ordering_lt : Val.ordering .lt = .ctor ["Ordering"] "Less" [] := rfl
@[src] theorem ordering_eq : Val.ordering .eq = .ctor ["Ordering"] "Equal" [] := rfl
@[src] theorem ordering_gt : Val.ordering .gt = .ctor ["Ordering"] "Greater" [] := rfl
attribute [src] Langtag.Model.Checked.add Langtag.Model.Checked.sub

@[src] theorem into_smallcase_eq (c : UInt8) : callFn (crate max) ⟨[], "", Ast.into_smallcase⟩ [.u8 c] σ =
    lift (fun c => (.u8 c, [none])) (Langtag.Model.intoSmallcase c) σ := by
  rw [callFn_apply]
  simp only [Ast.into_smallcase]
  exec
  unfold Langtag.Model.intoSmallcase
  split
  · split
    · simp only [lift]
      congr
    · rfl
  · rfl

@[src] theorem case_insensitive_eq_eq (a b : List UInt8) : callFn (crate max) ⟨[], "", Ast.case_insensitive_eq⟩ [.bytes a, .bytes b] σ =
    lift (fun r => (.bool r, [none, none])) (Langtag.Model.caseInsensitiveEq a b) σ := by
  rw [callFn_apply]
  simp only [Ast.case_insensitive_eq, Langtag.Model.caseInsensitiveEq]
  exec
  split
  · refine for_rule (fun r => callR _ σ (closeR _ (closeR _ (bindR r _)))) (fun _ => [("a", Val.bytes a), ("b", Val.bytes b)])
      (fun i => lift _ (Langtag.Model.caseInsensitiveEqLoop a b i) σ) (Nat.zero_le _) ?_ ?_
    · rw [Langtag.Model.caseInsensitiveEqLoop, if_neg (Nat.lt_irrefl _)]
      exec
    · intro i hi ih
      rw [Langtag.Model.caseInsensitiveEqLoop, if_pos hi]
      exec
      cases Langtag.Model.index a i <;> exec
      cases Langtag.Model.intoSmallcase _ <;> exec
      cases Langtag.Model.index b i <;> exec
      cases Langtag.Model.intoSmallcase _ <;> exec
      split
      · rfl
      · exact ih
  · rfl

/-- The hasher of the semantics, as one of the model: it keeps what is written to it. -/
def logHasher : Langtag.Model.Hasher := ⟨List UInt8, fun w c => w ++ [c]⟩

/-- What `case_insensitive_hash` of the model writes. -/
def hashLog (s w : List UInt8) : Rust (List UInt8) := Langtag.Model.caseInsensitiveHash logHasher s w
theorem hashLog_cons (b : UInt8) (s w : List UInt8) :
    hashLog (b :: s) w = (Langtag.Model.intoSmallcase b >>= fun c => hashLog s (w ++ [c])) := rfl

@[src] theorem case_insensitive_hash_eq (s w : List UInt8) : callFn (crate max) ⟨[], "", Ast.case_insensitive_hash⟩ [.bytes s, .hasher w] σ =
    lift (fun w => (.tuple [], [none, some (.hasher w)])) (hashLog s w) σ := by
  rw [callFn_apply]
  simp only [Ast.case_insensitive_hash]
  exec
  refine for_list_rule (fun r => callR _ σ (closeR _ r)) _ (fun w => [("bytes", Val.bytes s), ("hasher", Val.hasher w)])
    (fun s w => lift (fun w => (Val.tuple [], [none, some (.hasher w)])) (hashLog s w) σ) s w ?_ ?_
  · intro w
    exec
    rfl
  · intro a as w ih
    rw [hashLog_cons]
    exec
    cases Langtag.Model.intoSmallcase a <;> exec
    exact ih _

@[src] theorem case_insensitive_cmp_eq (a b : List UInt8) : callFn (crate max) ⟨[], "", Ast.case_insensitive_cmp⟩ [.bytes a, .bytes b] σ =
    lift (fun o => (.ordering o, [none, none])) (Langtag.Model.Checked.caseInsensitiveCmp max a b) σ := by
  rw [callFn_apply]
  simp only [Ast.case_insensitive_cmp, Langtag.Model.Checked.caseInsensitiveCmp]
  exec
  refine loop_rule (fun r => callR _ σ (closeR _ r)) (fun i => [("i", Val.usize i), ("a", Val.bytes a), ("b", Val.bytes b)]) (fun _ => True)
    (fun i => a.length - i) (fun i => lift _ (Langtag.Model.Checked.caseInsensitiveCmpLoop max a b i) σ) 0 trivial ?_
  intro i _ ih
  rw [Langtag.Model.Checked.caseInsensitiveCmpLoop]
  exec
  split
  · split <;> rfl
  · split
    · rfl
    · cases Langtag.Model.index a i <;> exec
      cases Langtag.Model.intoSmallcase _ <;> exec
      cases Langtag.Model.index b i <;> exec
      cases Langtag.Model.intoSmallcase _ <;> exec
      cases compare (α := UInt8) _ _ <;> exec
      split
      · exact ih _ trivial (by omega)
      · rfl

end Langtag.Source
