import Verif.Model.Extension
import Verif.Proof.Shapes
import Verif.Proof.Validate

/-! # `Singleton` -/

set_option autoImplicit false

namespace Langtag.Proof
open Langtag.Spec Langtag.Model

theorem isAsciiAlphanumeric_iff (b : UInt8) : isAsciiAlphanumeric b = true ↔ IsAlphanum b := by
  simp only [isAsciiAlphanumeric, IsAlphanum, IsAlpha, IsDigit, Bool.or_eq_true, Bool.and_eq_true, decide_eq_true_eq]
  constructor
  · rintro ((h | h) | h)
    · exact Or.inr h
    · exact Or.inl (Or.inl h)
    · exact Or.inl (Or.inr h)
  · rintro ((h | h) | h)
    · exact Or.inl (Or.inr h)
    · exact Or.inr h
    · exact Or.inl (Or.inl h)

theorem isAlphanum_lt {b : UInt8} (h : IsAlphanum b) : b.toNat < 0x80 := by
  simp only [IsAlphanum, IsAlpha, IsDigit, UInt8.le_iff_toNat_le, UInt8.reduceToNat] at h
  omega

theorem singleton_new_ok {b : UInt8} (h : IsSingleton b) : Singleton.new b = .ok ⟨b⟩ := by
  unfold Singleton.new
  rw [if_pos ⟨h.2.1, h.2.2, (isAsciiAlphanumeric_iff b).mpr h.1⟩]

theorem singleton_new_error {b : UInt8} (h : ¬ IsSingleton b) : Singleton.new b = .error b := by
  unfold Singleton.new
  rw [if_neg]
  rintro ⟨h1, h2, h3⟩
  exact h ⟨(isAsciiAlphanumeric_iff b).mp h3, h1, h2⟩

theorem tryFromChar_eq (c : Char) :
    Singleton.tryFromChar c =
      if c.toNat < 255 then (match Singleton.new (UInt8.ofNat c.toNat) with
        | .ok s => .ok s
        | .error _ => .error c) else .error c := rfl

theorem tryFromChar_byte {c : Char} {b : UInt8} (hb : c.toNat = b.toNat) :
    (IsSingleton b → Singleton.tryFromChar c = .ok ⟨b⟩) ∧ (¬ IsSingleton b → Singleton.tryFromChar c = .error c) := by
  rw [tryFromChar_eq, hb]
  have hbb : UInt8.ofNat b.toNat = b := by simp
  rw [hbb]
  constructor
  · intro h
    have := isAlphanum_lt h.1
    rw [if_pos (by omega), singleton_new_ok h]
  · intro h
    split
    · rw [singleton_new_error h]
    · rfl

theorem charsNext_ascii {b : UInt8} (h : b.toNat < 0x80) : ∃ c, Singleton.charsNext [b] = some c ∧ c.toNat = b.toNat := by
  obtain ⟨c, hc, hd⟩ := asciiCompatible_decodeUtf8Char.ascii [b] 0 b rfl h
  exact ⟨c, by simp [Singleton.charsNext, hd], hc⟩

theorem fromString_one {b : UInt8} (h : b.toNat < 0x80) :
    (IsSingleton b → Singleton.fromString [b] = .ok (.ok ⟨b⟩)) ∧
    (¬ IsSingleton b → Singleton.fromString [b] = .ok (.error [b])) := by
  obtain ⟨c, hc, hcb⟩ := charsNext_ascii h
  unfold Singleton.fromString
  rw [if_pos (show [b].length = 1 from rfl), hc]
  simp only
  constructor
  · intro hs
    rw [(tryFromChar_byte hcb).1 hs]
  · intro hs
    rw [(tryFromChar_byte hcb).2 hs]

theorem fromString_other {s : Text} (h : s.length ≠ 1) : Singleton.fromString s = .ok (.error s) := by
  unfold Singleton.fromString
  rw [if_neg h]

theorem fromStringIsOk_singleton {b : UInt8} (h : IsSingleton b) : Singleton.fromStringIsOk [b] = .ok true := by
  unfold Singleton.fromStringIsOk
  rw [(fromString_one (isAlphanum_lt h.1)).1 h]
  rfl

theorem fromStringIsOk_not {b : UInt8} (hlt : b.toNat < 0x80) (h : ¬ IsSingleton b) :
    Singleton.fromStringIsOk [b] = .ok false := by
  unfold Singleton.fromStringIsOk
  rw [(fromString_one hlt).2 h]
  rfl

theorem fromStringIsOk_other {s : Text} (h : s.length ≠ 1) : Singleton.fromStringIsOk s = .ok false := by
  unfold Singleton.fromStringIsOk
  rw [fromString_other h]
  rfl

end Langtag.Proof
