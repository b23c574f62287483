import Verif.Proof.Bisim
import Verif.Spec.Decoder

/-! # `validate_bytes` is the run of the automaton -/

set_option autoImplicit false

namespace Langtag.Proof
open Langtag.Spec Langtag.Model

theorem stepNat_nonAscii {d : Dfa} (h : okDfa d = true) (q : Nat) {n : Nat} (hn : 0x80 ≤ n) : stepNat d q n = none := by
  rw [stepNat_rep h]
  have : repOf n = none := by unfold repOf; grind
  rw [this]

theorem validateLoop_eq {d : Dfa} (h : okDfa d = true) {dec : Decoder} (hdec : AsciiCompatible dec) (s : Str)
    (fuel i q : Nat) (hf : s.length - i < fuel) : d.validateLoop dec s fuel i q = run d q (s.drop i) := by
  induction fuel generalizing i q with
  | zero => omega
  | succ fuel ih =>
    unfold Dfa.validateLoop
    split <;> rename_i hi
    · have hget : s[i]? = some s[i] := List.getElem?_eq_getElem hi
      rw [List.drop_eq_getElem_cons hi]
      simp only [run]
      by_cases hb : s[i].toNat < 0x80
      · obtain ⟨c, hc, hd⟩ := hdec.ascii s i _ hget hb
        rw [hd]
        simp only [push_eq, hc]
        cases stepNat d q s[i].toNat with
        | none => rfl
        | some q' => exact ih (i + 1) q' (by omega)
      · rw [stepNat_nonAscii h q (by omega : 0x80 ≤ s[i].toNat)]
        cases hd : dec s i with
        | none => rfl
        | some p =>
          obtain ⟨c, len⟩ := p
          have := hdec.nonAscii s i _ c len hget (by omega) hd
          simp only [push_eq, stepNat_nonAscii h q this]
    · rw [List.drop_eq_nil_of_le (by omega)]
      rfl

theorem validateBytesWith_eq {d : Dfa} (h : okDfa d = true) {dec : Decoder} (hdec : AsciiCompatible dec) (s : Str) :
    d.validateBytesWith dec s = run d d.init s := by
  unfold Dfa.validateBytesWith
  rw [validateLoop_eq h hdec s _ _ _ (by omega)]
  rfl

theorem charOfNat?_toNat {n : Nat} {c : Char} (h : charOfNat? n = some c) : c.toNat = n := by
  unfold charOfNat? at h
  split at h <;> simp at h
  subst h
  rfl

theorem charOfNat?_ascii {n : Nat} (h : n < 0x80) : ∃ c, charOfNat? n = some c := by
  unfold charOfNat?
  rw [dif_pos (Or.inl (by omega))]
  exact ⟨_, rfl⟩

theorem asciiCompatible_decodeUtf8Char : AsciiCompatible decodeUtf8Char where
  ascii s i b hb hlt := by
    obtain ⟨c, hc⟩ := charOfNat?_ascii hlt
    refine ⟨c, charOfNat?_toNat hc, ?_⟩
    unfold decodeUtf8Char
    simp only [hb]
    rw [if_pos (by rw [UInt8.lt_iff_toNat_lt]; exact hlt), hc]
    rfl
  nonAscii s i b c len hb hge h := by
    unfold decodeUtf8Char at h
    simp only [hb] at h
    rw [if_neg (by rw [UInt8.lt_iff_toNat_lt]; simp; omega)] at h
    split at h
    · simp at h
    · rename_i h1
      simp only [UInt8.lt_iff_toNat_lt] at h1
      simp at h1
      split at h
      · simp only [Option.bind_eq_bind, Option.bind_eq_some_iff, Option.map_eq_some_iff, Prod.mk.injEq] at h
        obtain ⟨c1, _, c', hc', rfl, _⟩ := h
        rw [charOfNat?_toNat hc']; omega
      · split at h
        · simp only [Option.bind_eq_bind, Option.bind_eq_some_iff] at h
          obtain ⟨c1, _, c2, _, h⟩ := h
          split at h
          · simp at h
          · simp only [Option.map_eq_some_iff, Prod.mk.injEq] at h
            obtain ⟨c', hc', rfl, _⟩ := h
            rw [charOfNat?_toNat hc']; omega
        · split at h
          · simp only [Option.bind_eq_bind, Option.bind_eq_some_iff] at h
            obtain ⟨c1, _, c2, _, c3, _, h⟩ := h
            split at h
            · simp at h
            · simp only [Option.map_eq_some_iff, Prod.mk.injEq] at h
              obtain ⟨c', hc', rfl, _⟩ := h
              rw [charOfNat?_toNat hc']; omega
          · simp at h

theorem validateStr_eq {d : Dfa} (h : okDfa d = true) (s : Str) : d.validateStr s = run d d.init s :=
  validateBytesWith_eq h asciiCompatible_decodeUtf8Char s

theorem validateStr_iff {d : Dfa} {a : Abnf} {B : Rel} (h : checkRel d (.ofAbnf a) B = true) (s : Str) :
    d.validateStr s = true ↔ a.Matches s := by
  have hd : okDfa d = true := by
    simp only [checkRel, Bool.and_eq_true] at h
    exact h.1.1.1
  rw [validateStr_eq hd, run_iff_lang h, Re.lang_ofAbnf]

end Langtag.Proof
