import Verif.Model.Utils
import Verif.Spec.Order
import Verif.Proof.Case

/-! # `utils.rs` -/

set_option autoImplicit false

namespace Langtag.Proof
open Langtag.Spec Langtag.Model

theorem intoSmallcase_eq (b : UInt8) : intoSmallcase b = .ok (lower b) := by
  unfold intoSmallcase lower isAsciiUppercase
  simp only [Bool.and_eq_true, decide_eq_true_eq]
  by_cases h : 65 ≤ b ∧ b ≤ 90
  · rw [if_pos h, if_pos h, if_pos]
    have := h.2
    rw [UInt8.le_iff_toNat_le] at this
    have h90 : (90 : UInt8).toNat = 90 := rfl
    omega
  · rw [if_neg h, if_neg h]

theorem eqLoop_eq (a b : Str) (hl : a.length = b.length) (i : Nat) :
    caseInsensitiveEqLoop a b i = .ok (decide (CaseEq (a.drop i) (b.drop i))) := by
  induction h : a.length - i generalizing i with
  | zero =>
    rw [caseInsensitiveEqLoop.eq_def, if_neg (by omega)]
    rw [List.drop_eq_nil_of_le (by omega), List.drop_eq_nil_of_le (by omega)]
    rfl
  | succ n ih =>
    have hia : i < a.length := by omega
    have hib : i < b.length := by omega
    have ha : index a i = .ok a[i] := by simp [index, hia]
    have hb : index b i = .ok b[i] := by simp [index, hib]
    rw [caseInsensitiveEqLoop.eq_def, if_pos hia, ha, hb]
    simp only [bind, Except.bind, intoSmallcase_eq]
    rw [List.drop_eq_getElem_cons hia, List.drop_eq_getElem_cons hib]
    by_cases he : lower a[i] = lower b[i]
    · rw [if_neg (by simpa using he), ih (i + 1) (by omega)]
      congr 1
      rw [decide_eq_decide]
      simp only [CaseEq, lowerText, List.map_cons, he, List.cons.injEq, true_and]
    · rw [if_pos he]
      simp only [CaseEq, lowerText, List.map_cons, he, List.cons.injEq, false_and, decide_false, pure, Except.pure]

theorem caseInsensitiveEq_eq (a b : Str) : caseInsensitiveEq a b = .ok (decide (CaseEq a b)) := by
  unfold caseInsensitiveEq
  by_cases h : a.length = b.length
  · rw [if_pos h, eqLoop_eq a b h 0]; rfl
  · rw [if_neg h]
    have : ¬ CaseEq a b := fun hh => h (CaseEq.length hh)
    simp [this]

theorem hash_eq (H : Hasher) (s : Str) (st : H.State) :
    caseInsensitiveHash H s st = .ok ((lowerText s).foldl H.writeU8 st) := by
  induction s generalizing st with
  | nil => rfl
  | cons b s ih =>
    simp only [caseInsensitiveHash, intoSmallcase_eq, bind, Except.bind, ih]
    rfl

/-- The comparison, by recursion. -/
def cmpText : Text → Text → Ordering
  | [], [] => .eq
  | [], _ :: _ => .gt
  | _ :: _, [] => .lt
  | x :: u, y :: v =>
    match compare x y with
    | .eq => cmpText u v
    | o => o

theorem cmpLoop_eq (a b : Str) (i : Nat) :
    caseInsensitiveCmpLoop a b i = .ok (cmpText (lowerText (a.drop i)) (lowerText (b.drop i))) := by
  induction h : a.length - i generalizing i with
  | zero =>
    rw [caseInsensitiveCmpLoop.eq_def, if_pos (by omega)]
    rw [List.drop_eq_nil_of_le (as := a) (by omega)]
    by_cases hb : b.length ≤ i
    · rw [if_pos hb, List.drop_eq_nil_of_le hb]; rfl
    · rw [if_neg hb, List.drop_eq_getElem_cons (by omega : i < b.length)]; rfl
  | succ n ih =>
    have hia : i < a.length := by omega
    rw [caseInsensitiveCmpLoop.eq_def, if_neg (by omega)]
    rw [List.drop_eq_getElem_cons hia]
    by_cases hb : b.length ≤ i
    · rw [if_pos hb, List.drop_eq_nil_of_le hb]; rfl
    · have hib : i < b.length := by omega
      have ha : index a i = .ok a[i] := by simp [index, hia]
      have hb' : index b i = .ok b[i] := by simp [index, hib]
      rw [if_neg hb, ha, hb', List.drop_eq_getElem_cons hib]
      simp only [bind, Except.bind, intoSmallcase_eq, lowerText, List.map_cons, cmpText]
      cases hc : compare (lower a[i]) (lower b[i]) with
      | eq =>
        simp only
        rw [ih (i + 1) (by omega)]
        rfl
      | lt => rfl
      | gt => rfl

theorem caseInsensitiveCmp_eq (a b : Str) :
    caseInsensitiveCmp a b = .ok (cmpText (lowerText a) (lowerText b)) := by
  unfold caseInsensitiveCmp
  rw [cmpLoop_eq]
  rfl

theorem compare_lt_iff (x y : UInt8) : compare x y = .lt ↔ x < y := by
  simp only [compare, compareOfLessAndEq]
  split
  · simp [*]
  · split <;> simp [*]

theorem compare_eq_iff (x y : UInt8) : compare x y = .eq ↔ x = y := by
  simp only [compare, compareOfLessAndEq]
  split
  · rename_i h
    simp only [reduceCtorEq, false_iff]
    rintro rfl
    exact absurd h (UInt8.lt_irrefl x)
  · split <;> simp [*]

theorem compare_gt_iff (x y : UInt8) : compare x y = .gt ↔ y < x := by
  simp only [compare, compareOfLessAndEq]
  split
  · rename_i h
    simp only [reduceCtorEq, false_iff]
    exact UInt8.lt_asymm h
  · split
    · rename_i h; subst h; simp
    · rename_i h1 h2
      simp only [true_iff]
      rw [UInt8.lt_iff_toNat_lt] at *
      have : x.toNat ≠ y.toNat := fun h => h2 (UInt8.toNat_inj.mp h)
      omega

theorem cmpText_eq_iff (u v : Text) : cmpText u v = .eq ↔ u = v := by
  fun_induction cmpText u v with
  | case1 => simp
  | case2 => simp
  | case3 => simp
  | case4 x u y v h ih =>
    rw [compare_eq_iff] at h
    simp [ih, h]
  | case5 x u y v h1 =>
    have : x ≠ y := fun hh => h1 ((compare_eq_iff x y).mpr hh)
    simp only [List.cons.injEq]
    constructor
    · intro hh; exact absurd hh h1
    · rintro ⟨hh, _⟩; exact absurd hh this

theorem precedes_cons (x y : UInt8) (u v : Text) :
    Precedes (x :: u) (y :: v) ↔ x < y ∨ (x = y ∧ Precedes u v) := by
  constructor
  · rintro (⟨c, a, u', b, v', h1, h2, h3⟩ | ⟨a, u', h⟩)
    · cases c with
      | nil =>
        simp only [List.nil_append, List.cons.injEq] at h1 h2
        rw [h1.1, h2.1]; exact Or.inl h3
      | cons z c =>
        simp only [List.cons_append, List.cons.injEq] at h1 h2
        exact Or.inr ⟨h1.1.trans h2.1.symm, Or.inl ⟨c, a, u', b, v', h1.2, h2.2, h3⟩⟩
    · simp only [List.cons_append, List.cons.injEq] at h
      exact Or.inr ⟨h.1, Or.inr ⟨a, u', h.2⟩⟩
  · rintro (h | ⟨rfl, ⟨c, a, u', b, v', rfl, rfl, h3⟩ | ⟨a, u', rfl⟩⟩)
    · exact Or.inl ⟨[], x, u, y, v, rfl, rfl, h⟩
    · exact Or.inl ⟨x :: c, a, u', b, v', rfl, rfl, h3⟩
    · exact Or.inr ⟨a, u', rfl⟩

theorem not_precedes_nil_left (v : Text) : ¬ Precedes [] v := by
  rintro (⟨c, a, u', b, v', h1, _⟩ | ⟨a, u', h⟩)
  · simp at h1
  · simp at h

theorem precedes_nil_right (x : UInt8) (u : Text) : Precedes (x :: u) [] := Or.inr ⟨x, u, rfl⟩

theorem cmpText_lt_iff (u v : Text) : cmpText u v = .lt ↔ Precedes u v := by
  fun_induction cmpText u v with
  | case1 => simp [not_precedes_nil_left]
  | case2 => simp [not_precedes_nil_left]
  | case3 => simp [precedes_nil_right]
  | case4 x u y v h ih =>
    rw [compare_eq_iff] at h
    subst h
    simp [ih, precedes_cons, UInt8.lt_irrefl]
  | case5 x u y v h1 =>
    have hne : x ≠ y := fun hh => h1 ((compare_eq_iff x y).mpr hh)
    rw [precedes_cons, compare_lt_iff]
    simp [hne]

theorem cmpText_swap (u v : Text) : (cmpText u v).swap = cmpText v u := by
  fun_induction cmpText u v with
  | case1 => rfl
  | case2 => rfl
  | case3 => rfl
  | case4 x u y v h ih =>
    rw [compare_eq_iff] at h
    subst h
    simp [cmpText, ih]
  | case5 x u y v h1 =>
    simp only [cmpText]
    cases h : compare x y with
    | eq => exact absurd h h1
    | lt =>
      have := (compare_gt_iff y x).mpr ((compare_lt_iff x y).mp h)
      rw [this]; rfl
    | gt =>
      have := (compare_lt_iff y x).mpr ((compare_gt_iff x y).mp h)
      rw [this]; rfl

theorem cmpText_gt_iff (u v : Text) : cmpText u v = .gt ↔ Precedes v u := by
  rw [← cmpText_lt_iff, ← cmpText_swap u v]
  cases cmpText u v <;> simp

theorem precedes_trans {u v w : Text} (h1 : Precedes u v) (h2 : Precedes v w) : Precedes u w := by
  induction u generalizing v w with
  | nil => exact absurd h1 (not_precedes_nil_left v)
  | cons x u ih =>
    cases w with
    | nil => exact precedes_nil_right x u
    | cons z w =>
      cases v with
      | nil => exact absurd h2 (not_precedes_nil_left _)
      | cons y v =>
        rw [precedes_cons] at *
        rcases h1 with h1 | ⟨rfl, h1⟩
        · rcases h2 with h2 | ⟨rfl, h2⟩
          · exact Or.inl (UInt8.lt_trans h1 h2)
          · exact Or.inl h1
        · rcases h2 with h2 | ⟨rfl, h2⟩
          · exact Or.inl h2
          · exact Or.inr ⟨rfl, ih h1 h2⟩

end Langtag.Proof
