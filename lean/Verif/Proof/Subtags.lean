import Verif.Spec.Text

/-! # Joining and splitting at `-` -/

set_option autoImplicit false

namespace Langtag.Proof
open Langtag.Spec

theorem joinDash_cons (u : Text) (ws : List Text) : joinDash (u :: ws) = u ++ ws.flatMap (dash :: ·) := by
  induction ws generalizing u with
  | nil => simp [joinDash]
  | cons v ws ih => simp [joinDash, ih]

theorem joinDash_cons_of_ne_nil (u : Text) {ws : List Text} (h : ws ≠ []) :
    joinDash (u :: ws) = u ++ dash :: joinDash ws := by
  cases ws with
  | nil => exact absurd rfl h
  | cons v ws => rfl

theorem joinDash_append {us vs : List Text} (hu : us ≠ []) (hv : vs ≠ []) :
    joinDash (us ++ vs) = joinDash us ++ dash :: joinDash vs := by
  cases us with
  | nil => exact absurd rfl hu
  | cons u us =>
    cases vs with
    | nil => exact absurd rfl hv
    | cons v vs => simp [joinDash_cons]

theorem subtags_ne_nil (w : Text) : subtags w ≠ [] := by
  cases w with
  | nil => simp [subtags]
  | cons b w =>
    simp only [subtags]
    split
    · simp
    · split <;> simp

theorem joinDash_subtags (w : Text) : joinDash (subtags w) = w := by
  induction w with
  | nil => rfl
  | cons b w ih =>
    simp only [subtags]
    split <;> rename_i h
    · rw [joinDash_cons_of_ne_nil _ (subtags_ne_nil w), ih, h]; rfl
    · split <;> rename_i h'
      · exact absurd h' (subtags_ne_nil w)
      · rename_i u us
        rw [h'] at ih
        rw [joinDash_cons] at ih ⊢
        simp [ih]

theorem subtags_dashFree (w : Text) : ∀ u ∈ subtags w, dash ∉ u := by
  induction w with
  | nil => simp [subtags]
  | cons b w ih =>
    simp only [subtags]
    split <;> rename_i h
    · simpa using ih
    · split <;> rename_i h'
      · exact absurd h' (subtags_ne_nil w)
      · rename_i u us
        rw [h'] at ih
        rw [List.forall_mem_cons] at ih ⊢
        rw [List.mem_cons, not_or]
        exact ⟨⟨fun e => h e.symm, ih.1⟩, ih.2⟩

theorem subtags_of_dashFree {u : Text} (h : dash ∉ u) : subtags u = [u] := by
  induction u with
  | nil => rfl
  | cons b u ih =>
    simp only [List.mem_cons, not_or] at h
    simp [subtags, ih h.2, Ne.symm h.1]

theorem subtags_append_dash (u v : Text) : subtags (u ++ dash :: v) = subtags u ++ subtags v := by
  induction u with
  | nil => simp [subtags]
  | cons b u ih =>
    simp only [List.cons_append, subtags, ih]
    split
    · simp
    · cases h : subtags u with
      | nil => exact absurd h (subtags_ne_nil u)
      | cons x xs => simp

theorem subtags_joinDash {ws : List Text} (hne : ws ≠ []) : subtags (joinDash ws) = ws.flatMap subtags := by
  induction ws with
  | nil => exact absurd rfl hne
  | cons u ws ih =>
    cases ws with
    | nil => simp [joinDash]
    | cons v ws =>
      rw [joinDash_cons_of_ne_nil u (by simp), subtags_append_dash, ih (by simp)]
      simp

theorem flatMap_subtags_of_dashFree {ws : List Text} (h : ∀ u ∈ ws, dash ∉ u) : ws.flatMap subtags = ws := by
  induction ws with
  | nil => rfl
  | cons u ws ih =>
    simp only [List.forall_mem_cons] at h
    simp [subtags_of_dashFree h.1, ih h.2]

theorem subtags_joinDash_of_dashFree {ws : List Text} (hne : ws ≠ []) (h : ∀ u ∈ ws, dash ∉ u) :
    subtags (joinDash ws) = ws := by
  rw [subtags_joinDash hne, flatMap_subtags_of_dashFree h]

theorem flatMap_subtags_ne_nil {ws : List Text} (h : ws ≠ []) : ws.flatMap subtags ≠ [] := by
  cases ws with
  | nil => exact absurd rfl h
  | cons u ws => simp [subtags_ne_nil u]

theorem joinDash_flatMap_subtags (ws : List Text) : joinDash (ws.flatMap subtags) = joinDash ws := by
  cases ws with
  | nil => rfl
  | cons u ws => rw [← subtags_joinDash (by simp), joinDash_subtags]

theorem joinDash_inj {us vs : List Text} (hu : us ≠ []) (hv : vs ≠ []) (hud : ∀ u ∈ us, dash ∉ u)
    (hvd : ∀ u ∈ vs, dash ∉ u) (h : joinDash us = joinDash vs) : us = vs := by
  rw [← subtags_joinDash_of_dashFree hu hud, h, subtags_joinDash_of_dashFree hv hvd]

theorem mem_joinDash {b : UInt8} {ws : List Text} (h : b ∈ joinDash ws) : b = dash ∨ ∃ u ∈ ws, b ∈ u := by
  induction ws with
  | nil => simp [joinDash] at h
  | cons u ws ih =>
    rw [joinDash_cons] at h
    simp only [List.mem_append, List.mem_flatMap, List.mem_cons] at h
    rcases h with h | ⟨v, hv, h | h⟩
    · exact Or.inr ⟨u, by simp, h⟩
    · exact Or.inl h
    · exact Or.inr ⟨v, by simp [hv], h⟩

end Langtag.Proof
