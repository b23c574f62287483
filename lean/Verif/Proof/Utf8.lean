import Verif.Spec.Utf8
import Verif.Proof.Singleton

/-! # Valid UTF-8 -/

set_option autoImplicit false

namespace Langtag.Proof
open Langtag.Spec Langtag.Model

theorem encodeChar_length (c : Char) : (encodeChar c).length = c.utf8Size := String.length_utf8EncodeChar c

/-- A text of one byte that is valid UTF-8 is ASCII. -/
theorem encodeChar_one {c : Char} {b : UInt8} (h : encodeChar c = [b]) : b.toNat < 0x80 ∧ c.toNat = b.toNat := by
  have h1 : c.utf8Size = 1 := by rw [← encodeChar_length, h]; rfl
  have h2 : encodeChar c = [c.val.toUInt8] := String.utf8EncodeChar_eq_singleton h1
  have h3 : c.toNat ≤ 0x7f := by
    have := Char.utf8Size_eq_one_iff.mp h1
    exact this
  rw [h] at h2
  simp only [List.cons.injEq, and_true] at h2
  have h4 : b.toNat = c.toNat := by
    rw [h2]
    simp only [UInt32.toNat_toUInt8]
    exact Nat.mod_eq_of_lt (by have : c.val.toNat = c.toNat := rfl; omega)
  omega

theorem utf8_one {b : UInt8} (h : IsUtf8 [b]) : b.toNat < 0x80 := by
  obtain ⟨cs, h⟩ := h
  match cs with
  | [] => simp at h
  | [c] =>
    simp only [List.flatMap_cons, List.flatMap_nil, List.append_nil] at h
    exact (encodeChar_one h.symm).1
  | c :: d :: cs =>
    have := congrArg List.length h
    simp only [List.flatMap_cons, List.length_append, encodeChar_length, List.length_cons, List.length_nil] at this
    have h1 := Char.utf8Size_pos c
    have h2 := Char.utf8Size_pos d
    omega

theorem encodeChar_ascii {c : Char} {b : UInt8} (hb : b.toNat < 0x80) (h : c.toNat = b.toNat) : encodeChar c = [b] := by
  have h1 : c.utf8Size = 1 := Char.utf8Size_eq_one_iff.mpr (show c.toNat ≤ 0x7f by omega)
  have h2 : encodeChar c = [c.val.toUInt8] := String.utf8EncodeChar_eq_singleton h1
  rw [h2]
  simp only [List.cons.injEq, and_true]
  rw [← UInt8.toNat_inj]
  simp only [UInt32.toNat_toUInt8]
  have : c.val.toNat = c.toNat := rfl
  rw [this, h]
  exact Nat.mod_eq_of_lt (by omega)

end Langtag.Proof
