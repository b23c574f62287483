import Verif.Model.Timed
import Verif.Proof.Checked

/-! # Counting loop iterations: the results do not change, and the counts are bounded -/

set_option autoImplicit false

namespace Langtag.Proof
open Langtag.Spec Langtag.Model

variable {α β : Type}

@[simp] theorem timed_pure_result (a : α) : (pure a : Timed α).result = .ok a := rfl
@[simp] theorem timed_pure_steps (a : α) : (pure a : Timed α).steps = 0 := rfl
@[simp] theorem timed_tick_result : Timed.tick.result = .ok () := rfl
@[simp] theorem timed_tick_steps : Timed.tick.steps = 1 := rfl
@[simp] theorem timed_lift_result (x : Rust α) : (liftM x : Timed α).result = x := rfl
@[simp] theorem timed_lift_steps (x : Rust α) : (liftM x : Timed α).steps = 0 := rfl

@[simp] theorem timed_bind_result (x : Timed α) (f : α → Timed β) :
    (x >>= f).result = x.result >>= fun a => (f a).result := by
  obtain ⟨r, n⟩ := x
  cases r <;> rfl

theorem timed_bind_steps_ok {x : Timed α} {a : α} (f : α → Timed β) (h : x.result = .ok a) :
    (x >>= f).steps = x.steps + (f a).steps := by
  obtain ⟨r, n⟩ := x
  cases h
  rfl

theorem timed_bind_steps_error {x : Timed α} {e : Panic} (f : α → Timed β) (h : x.result = .error e) :
    (x >>= f).steps = x.steps := by
  obtain ⟨r, n⟩ := x
  cases h
  rfl

/-- A bound on a sequence. -/
theorem timed_bind_le {x : Timed α} {f : α → Timed β} {n m : Nat} (hx : x.steps ≤ n)
    (hf : ∀ a, x.result = .ok a → (f a).steps ≤ m) : (x >>= f).steps ≤ n + m := by
  obtain ⟨r, k⟩ := x
  cases r with
  | error e => exact Nat.le_trans hx (Nat.le_add_right _ _)
  | ok a => exact Nat.add_le_add hx (hf a rfl)

/-- Something of constant time comes first. -/
theorem timed_lift_bind_le {x : Rust α} {f : α → Timed β} {m : Nat} (hf : ∀ a, x = .ok a → (f a).steps ≤ m) :
    ((liftM x : Timed α) >>= f).steps ≤ m := by
  have := timed_bind_le (x := (liftM x : Timed α)) (f := f) (n := 0) (m := m) (Nat.le_refl 0) hf
  omega

/-- One iteration comes first. -/
theorem timed_tick_bind_le {f : Unit → Timed β} {m : Nat} (hf : (f ()).steps ≤ m) : (Timed.tick >>= f).steps ≤ m + 1 := by
  have := timed_bind_le (x := Timed.tick) (f := f) (n := 1) (m := m) (Nat.le_refl 1) (fun _ _ => hf)
  omega

/-- Only constant time follows. -/
theorem timed_bind_pure_le {x : Timed α} {f : α → Timed β} {n : Nat} (hx : x.steps ≤ n) (hf : ∀ a, x.result = .ok a → (f a).steps = 0) :
    (x >>= f).steps ≤ n := timed_bind_le (m := 0) hx (fun a h => Nat.le_of_eq (hf a h))

/-! ## Validation -/

theorem validateLoop_timed (dec : Decoder) (d : Dfa) (s : Str) (fuel i q : Nat) :
    (Timed.validateLoop dec d s fuel i q).result = .ok (d.validateLoop dec s fuel i q) := by
  induction fuel generalizing i q with
  | zero => rfl
  | succ fuel ih =>
    rw [Timed.validateLoop.eq_def, Dfa.validateLoop.eq_def]
    dsimp only
    by_cases hi : i < s.length
    · rw [if_pos hi, if_pos hi, timed_bind_result, timed_tick_result, ok_bind]
      cases dec s i with
      | none => rfl
      | some p =>
        obtain ⟨c, len⟩ := p
        dsimp only
        cases d.push q c with
        | none => rfl
        | some q' => exact ih _ _
    · rw [if_neg hi, if_neg hi]; rfl

theorem validateLoop_steps {dec : Decoder} (hdec : ∀ s i c len, dec s i = some (c, len) → 1 ≤ len) (d : Dfa) (s : Str) (fuel i q : Nat) :
    (Timed.validateLoop dec d s fuel i q).steps ≤ s.length - i := by
  induction fuel generalizing i q with
  | zero => exact Nat.zero_le _
  | succ fuel ih =>
    rw [Timed.validateLoop.eq_def]
    dsimp only
    by_cases hi : i < s.length
    · rw [if_pos hi]
      have key : ∀ m, m ≤ s.length - i - 1 → m + 1 ≤ s.length - i := by omega
      refine Nat.le_trans (timed_tick_bind_le (m := s.length - i - 1) ?_) (key _ (Nat.le_refl _))
      cases hd : dec s i with
      | none => exact Nat.zero_le _
      | some p =>
        obtain ⟨c, len⟩ := p
        dsimp only
        cases d.push q c with
        | none => exact Nat.zero_le _
        | some q' =>
          have := hdec s i c len hd
          exact Nat.le_trans (ih (i + len) q') (by omega)
    · rw [if_neg hi]; exact Nat.zero_le _

theorem decodeUtf8Char_pos (s : Str) (i : Nat) (c : Char) (len : Nat) (h : decodeUtf8Char s i = some (c, len)) : 1 ≤ len := by
  have hm : ∀ {o : Option Char} {n : Nat}, 1 ≤ n → o.map (·, n) = some (c, len) → 1 ≤ len := by
    intro o n hn ho
    obtain ⟨d, _, hd⟩ := Option.map_eq_some_iff.mp ho
    cases hd
    exact hn
  unfold decodeUtf8Char at h
  split at h
  · cases h
  · split at h
    · exact hm (by omega) h
    · split at h
      · cases h
      · split at h
        · obtain ⟨c1, _, h⟩ := Option.bind_eq_some_iff.mp h
          exact hm (by omega) h
        · split at h
          · obtain ⟨c1, _, h⟩ := Option.bind_eq_some_iff.mp h
            obtain ⟨c2, _, h⟩ := Option.bind_eq_some_iff.mp h
            dsimp only at h
            split at h
            · cases h
            · exact hm (by omega) h
          · split at h
            · obtain ⟨c1, _, h⟩ := Option.bind_eq_some_iff.mp h
              obtain ⟨c2, _, h⟩ := Option.bind_eq_some_iff.mp h
              obtain ⟨c3, _, h⟩ := Option.bind_eq_some_iff.mp h
              dsimp only at h
              split at h
              · cases h
              · exact hm (by omega) h
            · cases h

theorem validateStr_timed (d : Dfa) (s : Str) : (Timed.validateStr d s).result = .ok (d.validateStr s) := validateLoop_timed _ _ _ _ _ _

theorem validateStr_steps (d : Dfa) (s : Str) : (Timed.validateStr d s).steps ≤ s.length := by
  have := validateLoop_steps decodeUtf8Char_pos d s (s.length + 1) 0 d.init
  simpa [Timed.validateStr] using this

section
variable (T : Type) [StrNewtype T]

theorem new_timed (s : Str) : (Timed.new T s).result = .ok (StrNewtype.new T s) := by
  rw [Timed.new, timed_bind_result, validateStr_timed, ok_bind]
  unfold StrNewtype.new
  cases (StrNewtype.automaton T).validateStr s <;> rfl

theorem new_steps (s : Str) : (Timed.new T s).steps ≤ s.length := by
  refine timed_bind_pure_le (validateStr_steps _ _) fun a _ => ?_
  split <;> rfl

theorem isOk_timed (s : Str) : (Timed.isOk T s).result = .ok (StrNewtype.isOk T s) := by
  rw [Timed.isOk, timed_bind_result, new_timed, ok_bind]
  unfold StrNewtype.isOk
  cases StrNewtype.new T s <;> rfl

theorem isOk_steps (s : Str) : (Timed.isOk T s).steps ≤ s.length := by
  refine timed_bind_pure_le (new_steps T s) fun a _ => ?_
  split <;> rfl
end

/-! ## Comparison -/

theorem eqLoop_timed (a b : Str) (i : Nat) : (Timed.caseInsensitiveEqLoop a b i).result = caseInsensitiveEqLoop a b i := by
  induction h : a.length - i generalizing i with
  | zero => rw [Timed.caseInsensitiveEqLoop.eq_def, caseInsensitiveEqLoop.eq_def, if_neg (by omega), if_neg (by omega)]; rfl
  | succ n ih =>
    rw [Timed.caseInsensitiveEqLoop.eq_def, caseInsensitiveEqLoop.eq_def, if_pos (by omega), if_pos (by omega)]
    simp only [timed_bind_result, timed_tick_result, timed_lift_result, ok_bind]
    refine bind_congr_ok fun x _ => bind_congr_ok fun x' _ => bind_congr_ok fun y _ => bind_congr_ok fun y' _ => ?_
    split
    · rfl
    · exact ih (i + 1) (by omega)

theorem eqLoop_steps (a b : Str) (i : Nat) : (Timed.caseInsensitiveEqLoop a b i).steps ≤ a.length - i := by
  induction h : a.length - i generalizing i with
  | zero => rw [Timed.caseInsensitiveEqLoop.eq_def, if_neg (by omega)]; exact Nat.le_refl 0
  | succ n ih =>
    rw [Timed.caseInsensitiveEqLoop.eq_def, if_pos (by omega)]
    refine timed_tick_bind_le ?_
    refine timed_lift_bind_le fun _ _ => timed_lift_bind_le fun _ _ => timed_lift_bind_le fun _ _ => timed_lift_bind_le fun _ _ => ?_
    split
    · exact Nat.zero_le _
    · exact ih (i + 1) (by omega)

theorem caseInsensitiveEq_timed (a b : Str) : (Timed.caseInsensitiveEq a b).result = caseInsensitiveEq a b := by
  unfold Timed.caseInsensitiveEq caseInsensitiveEq
  split
  · exact eqLoop_timed a b 0
  · rfl

theorem caseInsensitiveEq_steps (a b : Str) : (Timed.caseInsensitiveEq a b).steps ≤ min a.length b.length := by
  unfold Timed.caseInsensitiveEq
  split
  · have := eqLoop_steps a b 0
    omega
  · exact Nat.zero_le _

theorem hash_timed (H : Hasher) (s : Str) (st : H.State) : (Timed.caseInsensitiveHash H s st).result = caseInsensitiveHash H s st := by
  induction s generalizing st with
  | nil => rfl
  | cons b s ih =>
    simp only [Timed.caseInsensitiveHash, caseInsensitiveHash, timed_bind_result, timed_tick_result, timed_lift_result, ok_bind]
    exact bind_congr_ok fun c _ => ih _

theorem hash_steps (H : Hasher) (s : Str) (st : H.State) : (Timed.caseInsensitiveHash H s st).steps ≤ s.length := by
  induction s generalizing st with
  | nil => exact Nat.le_refl 0
  | cons b s ih =>
    rw [Timed.caseInsensitiveHash.eq_def]
    exact timed_tick_bind_le (timed_lift_bind_le fun c _ => ih _)

theorem cmpLoop_timed (a b : Str) (i : Nat) : (Timed.caseInsensitiveCmpLoop a b i).result = caseInsensitiveCmpLoop a b i := by
  induction h : a.length - i generalizing i with
  | zero =>
    have ha : a.length ≤ i := by omega
    rw [Timed.caseInsensitiveCmpLoop.eq_def, caseInsensitiveCmpLoop.eq_def]
    simp only [if_pos ha, timed_bind_result, timed_tick_result, ok_bind]
    split <;> rfl
  | succ n ih =>
    have ha : ¬ a.length ≤ i := by omega
    rw [Timed.caseInsensitiveCmpLoop.eq_def, caseInsensitiveCmpLoop.eq_def]
    simp only [if_neg ha, timed_bind_result, timed_tick_result, ok_bind]
    by_cases hb : b.length ≤ i
    · simp only [if_pos hb]; rfl
    · simp only [if_neg hb, timed_bind_result, timed_lift_result]
      refine bind_congr_ok fun x _ => bind_congr_ok fun x' _ => bind_congr_ok fun y _ => bind_congr_ok fun y' _ => ?_
      cases compare x' y' with
      | eq => exact ih (i + 1) (by omega)
      | lt => rfl
      | gt => rfl

theorem cmpLoop_steps (a b : Str) (i : Nat) : (Timed.caseInsensitiveCmpLoop a b i).steps ≤ min (a.length - i) (b.length - i) + 1 := by
  induction h : a.length - i generalizing i with
  | zero =>
    have ha : a.length ≤ i := by omega
    rw [Timed.caseInsensitiveCmpLoop.eq_def]
    simp only [if_pos ha]
    refine Nat.le_trans (timed_tick_bind_le (m := 0) ?_) (by omega)
    split <;> exact Nat.le_refl 0
  | succ n ih =>
    have ha : ¬ a.length ≤ i := by omega
    rw [Timed.caseInsensitiveCmpLoop.eq_def]
    simp only [if_neg ha]
    refine timed_tick_bind_le ?_
    by_cases hb : b.length ≤ i
    · simp only [if_pos hb]; exact Nat.zero_le _
    · simp only [if_neg hb]
      refine timed_lift_bind_le fun _ _ => timed_lift_bind_le fun _ _ => timed_lift_bind_le fun _ _ => timed_lift_bind_le fun _ _ => ?_
      split
      · exact Nat.le_trans (ih (i + 1) (by omega)) (by omega)
      · exact Nat.zero_le _

theorem caseInsensitiveCmp_timed (a b : Str) : (Timed.caseInsensitiveCmp a b).result = caseInsensitiveCmp a b := cmpLoop_timed a b 0

theorem caseInsensitiveCmp_steps (a b : Str) : (Timed.caseInsensitiveCmp a b).steps ≤ min a.length b.length + 1 := by
  simpa [Timed.caseInsensitiveCmp] using cmpLoop_steps a b 0

/-! ## The scanning helpers -/

theorem findListEndLoop_timed {s : Str} {f : Nat → Str → Timed Bool} {f' : Nat → Str → Rust Bool}
    (hf : ∀ o u, (f o u).result = f' o u) (offset i e : Nat) :
    (Timed.findListEndLoop s f offset i e).result = findListEndLoop s f' offset i e := by
  induction h : s.length - i generalizing offset i e with
  | zero =>
    rw [Timed.findListEndLoop.eq_def, findListEndLoop.eq_def, if_neg (by omega), if_neg (by omega)]
    simp only [timed_bind_result, timed_lift_result, hf]
    refine bind_congr_ok fun _ _ => bind_congr_ok fun b _ => ?_
    split <;> rfl
  | succ n ih =>
    rw [Timed.findListEndLoop.eq_def, findListEndLoop.eq_def, if_pos (by omega), if_pos (by omega)]
    simp only [timed_bind_result, timed_tick_result, timed_lift_result, ok_bind]
    refine bind_congr_ok fun b _ => ?_
    by_cases hb : b = 45
    · simp only [if_pos hb, timed_bind_result, timed_lift_result, hf]
      refine bind_congr_ok fun _ _ => bind_congr_ok fun b _ => ?_
      split
      · exact ih _ _ _ (by omega)
      · rfl
    · simp only [if_neg hb]
      exact ih _ _ _ (by omega)

theorem findListEnd_timed {s : Str} {f : Nat → Str → Timed Bool} {f' : Nat → Str → Rust Bool}
    (hf : ∀ o u, (f o u).result = f' o u) (offset : Nat) :
    (Timed.findListEnd s offset f).result = findListEnd s offset f' := findListEndLoop_timed hf _ _ _

theorem length_sliceRange {s u : Str} {a b : Nat} (h : sliceRange s a b = .ok u) : u.length = b - a := by
  unfold sliceRange at h
  split at h
  · rename_i hc
    cases h
    simp only [List.length_take, List.length_drop]
    omega
  · cases h

/-- One pass over what follows, and one validation of each subtag. -/
theorem findListEndLoop_steps {s : Str} {f : Nat → Str → Timed Bool} {k : Nat} (hf : ∀ o u, (f o u).steps ≤ k * u.length)
    (offset i e : Nat) (hoi : offset ≤ i) :
    (Timed.findListEndLoop s f offset i e).steps ≤ (s.length - i) + k * (s.length - offset) := by
  induction h : s.length - i generalizing offset i e with
  | zero =>
    rw [Timed.findListEndLoop.eq_def, if_neg (by omega), Nat.zero_add]
    refine timed_lift_bind_le fun u hu => timed_bind_pure_le ?_ fun b _ => ?_
    · have := hf offset u
      rw [length_sliceRange hu] at this
      exact this
    · split <;> rfl
  | succ n ih =>
    rw [Timed.findListEndLoop.eq_def, if_pos (by omega)]
    have e1 : n + 1 + k * (s.length - offset) = n + k * (s.length - offset) + 1 := by omega
    rw [e1]
    refine timed_tick_bind_le (timed_lift_bind_le fun b _ => ?_)
    by_cases hb : b = 45
    · simp only [if_pos hb]
      refine timed_lift_bind_le fun u hu => ?_
      have h1 := hf offset u
      rw [length_sliceRange hu] at h1
      have e2 : k * (i - offset) + (n + k * (s.length - (i + 1))) ≤ n + k * (s.length - offset) := by
        have : k * (i - offset) + k * (s.length - (i + 1)) ≤ k * (s.length - offset) := by
          rw [← Nat.mul_add]
          exact Nat.mul_le_mul_left k (by omega)
        omega
      refine Nat.le_trans (timed_bind_le h1 fun b _ => ?_) e2
      split
      · exact ih _ _ _ (by omega) (by omega)
      · exact Nat.zero_le _
    · simp only [if_neg hb]
      exact ih _ _ _ (by omega) (by omega)

theorem findListEnd_steps {s : Str} {f : Nat → Str → Timed Bool} {k : Nat} (hf : ∀ o u, (f o u).steps ≤ k * u.length) (offset : Nat) :
    (Timed.findListEnd s offset f).steps ≤ (k + 1) * (s.length - offset) := by
  have := findListEndLoop_steps (s := s) hf offset offset offset (Nat.le_refl _)
  rw [Nat.add_mul, Nat.one_mul, Nat.add_comm]
  exact this

theorem findSegmentEndLoop_timed (s : Str) (i : Nat) : (Timed.findSegmentEndLoop s i).result = findSegmentEndLoop s i := by
  induction h : s.length - i generalizing i with
  | zero => rw [Timed.findSegmentEndLoop.eq_def, findSegmentEndLoop.eq_def, if_neg (by omega), if_neg (by omega)]; rfl
  | succ n ih =>
    rw [Timed.findSegmentEndLoop.eq_def, findSegmentEndLoop.eq_def, if_pos (by omega), if_pos (by omega)]
    simp only [timed_bind_result, timed_tick_result, timed_lift_result, ok_bind]
    refine bind_congr_ok fun b _ => ?_
    split
    · rfl
    · exact ih _ (by omega)

theorem findSegmentEnd_timed (s : Str) (i : Nat) : (Timed.findSegmentEnd s i).result = findSegmentEnd s i := findSegmentEndLoop_timed s i

theorem findSegmentStartLoop_timed (s : Str) (i : Nat) : (Timed.findSegmentStartLoop s i).result = findSegmentStartLoop s i := by
  induction i with
  | zero =>
    rw [Timed.findSegmentStartLoop.eq_def, findSegmentStartLoop.eq_def]
    simp only [timed_bind_result, timed_tick_result, timed_lift_result, ok_bind]
    refine bind_congr_ok fun b _ => ?_
    split <;> rfl
  | succ i ih =>
    rw [Timed.findSegmentStartLoop.eq_def, findSegmentStartLoop.eq_def]
    simp only [timed_bind_result, timed_tick_result, timed_lift_result, ok_bind]
    refine bind_congr_ok fun b _ => ?_
    split
    · rfl
    · exact ih

theorem findSegmentStart_timed (s : Str) (e : Nat) : (Timed.findSegmentStart s e).result = findSegmentStart s e := by
  unfold Timed.findSegmentStart findSegmentStart
  split
  · exact findSegmentStartLoop_timed s _
  · rfl

end Langtag.Proof
