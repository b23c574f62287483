import Verif.Proof.Bisim
import Verif.Spec.Text

/-! # Letter case -/

set_option autoImplicit false

namespace Langtag.Proof
open Langtag.Spec

theorem lower_toNat (b : UInt8) : (lower b).toNat = lowerCode b.toNat := by
  unfold lower lowerCode
  simp only [UInt8.le_iff_toNat_le]
  split <;> rename_i h
  · have h' : 65 ≤ b.toNat ∧ b.toNat ≤ 90 := by simpa using h
    rw [if_pos (by simpa using h'), UInt8.toNat_add]
    simp; omega
  · rw [if_neg (by simpa using h)]

theorem lower_eq_iff (b c : UInt8) : lower b = lower c ↔ lowerCode b.toNat = lowerCode c.toNat := by
  rw [← lower_toNat, ← lower_toNat, UInt8.toNat_inj]

theorem repOf_lower {b c : UInt8} (h : lower b = lower c) : repOf b.toNat = repOf c.toNat := by
  rw [lower_eq_iff] at h
  unfold lowerCode at h
  unfold repOf
  grind

theorem CaseEq.refl (u : Text) : CaseEq u u := rfl
theorem CaseEq.symm {u v : Text} (h : CaseEq u v) : CaseEq v u := Eq.symm h
theorem CaseEq.trans {u v w : Text} (h : CaseEq u v) (h' : CaseEq v w) : CaseEq u w := Eq.trans h h'

theorem CaseEq.length {u v : Text} (h : CaseEq u v) : u.length = v.length := by
  have := congrArg List.length h
  simpa [lowerText] using this

theorem caseEq_nil_left {v : Text} : CaseEq [] v ↔ v = [] := by
  simp [CaseEq, lowerText, eq_comm]

theorem caseEq_cons_left {b : UInt8} {u v : Text} :
    CaseEq (b :: u) v ↔ ∃ c w, v = c :: w ∧ lower b = lower c ∧ CaseEq u w := by
  simp only [CaseEq, lowerText, List.map_cons]
  cases v with
  | nil => simp
  | cons c w =>
    simp only [List.map_cons, List.cons.injEq]
    constructor
    · rintro ⟨h1, h2⟩; exact ⟨c, w, ⟨rfl, rfl⟩, h1, h2⟩
    · rintro ⟨_, _, ⟨rfl, rfl⟩, h1, h2⟩; exact ⟨h1, h2⟩

theorem caseEq_append_left {u u' v : Text} :
    CaseEq (u ++ u') v ↔ ∃ w w', v = w ++ w' ∧ CaseEq u w ∧ CaseEq u' w' := by
  constructor
  · intro h
    simp only [CaseEq, lowerText, List.map_append] at h
    obtain ⟨w, w', rfl, h1, h2⟩ := List.map_eq_append_iff.mp h.symm
    exact ⟨w, w', rfl, h1.symm, h2.symm⟩
  · rintro ⟨w, w', rfl, h1, h2⟩
    simp only [CaseEq, lowerText, List.map_append] at *
    rw [h1, h2]

theorem caseEq_flatten {ws : List Text} {v : Text} (h : CaseEq ws.flatten v) :
    ∃ vs : List Text, v = vs.flatten ∧ vs.map lowerText = ws.map lowerText := by
  induction ws generalizing v with
  | nil =>
    simp only [List.flatten_nil, caseEq_nil_left] at h
    exact ⟨[], by simpa using h, rfl⟩
  | cons w ws ih =>
    simp only [List.flatten_cons, caseEq_append_left] at h
    obtain ⟨w', v', rfl, h1, h2⟩ := h
    obtain ⟨vs, rfl, h3⟩ := ih h2
    exact ⟨w' :: vs, rfl, by simp only [List.map_cons, h3]; rw [← show lowerText w = lowerText w' from h1]⟩

theorem mem_of_map_lower {vs ws : List Text} (h : vs.map lowerText = ws.map lowerText) :
    ∀ v ∈ vs, ∃ w ∈ ws, CaseEq w v := by
  intro v hv
  have : lowerText v ∈ ws.map lowerText := h ▸ List.mem_map_of_mem hv
  obtain ⟨w, hw, e⟩ := List.mem_map.mp this
  exact ⟨w, hw, e⟩

namespace Re

theorem lang_caseEq {r : Re} (hr : okRe r = true) {u v : Text} (h : CaseEq u v) (hu : Lang r u) : Lang r v := by
  induction r generalizing u v with
  | empty => exact hu
  | eps => cases hu; exact caseEq_nil_left.mp h
  | cls rs =>
    obtain ⟨b, rfl, hb⟩ := hu
    obtain ⟨c, w, rfl, h1, h2⟩ := caseEq_cons_left.mp h
    rw [caseEq_nil_left] at h2
    subst h2
    refine ⟨c, rfl, ?_⟩
    rw [inRanges_rep hr] at hb ⊢
    rwa [← repOf_lower h1]
  | alt a b ha hb =>
    simp only [okRe, Bool.and_eq_true] at hr
    exact hu.imp (ha hr.1 h) (hb hr.2 h)
  | cat a b ha hb =>
    simp only [okRe, Bool.and_eq_true] at hr
    obtain ⟨x, y, rfl, hx, hy⟩ := hu
    obtain ⟨x', y', rfl, h1, h2⟩ := caseEq_append_left.mp h
    exact ⟨x', y', rfl, ha hr.1 h1 hx, hb hr.2 h2 hy⟩
  | star a ha =>
    obtain ⟨ws, rfl, hall⟩ := hu
    obtain ⟨vs, rfl, h2⟩ := caseEq_flatten h
    refine ⟨vs, rfl, ?_⟩
    intro v hv
    obtain ⟨w, hw, h3⟩ := mem_of_map_lower h2 v hv
    exact ha hr h3 (hall w hw)

end Re

theorem matches_caseEq {a : Abnf} (ha : (Re.ofAbnf a).okRe = true) {u v : Text} (h : CaseEq u v) :
    a.Matches u ↔ a.Matches v := by
  rw [← Re.lang_ofAbnf, ← Re.lang_ofAbnf]
  exact ⟨Re.lang_caseEq ha h, Re.lang_caseEq ha (CaseEq.symm h)⟩

end Langtag.Proof
