import Verif.Proof.Utf8
import Verif.Proof.Validate

/-!
# The reference decoder decodes UTF-8

`decodeUtf8Char` stands for a function of another crate.  It is the inverse of the encoder of Lean's core library, so the automata are fed the
characters of the text.
-/

set_option autoImplicit false

namespace Langtag.Tight
open Langtag.Spec Langtag.Model Langtag.Proof

theorem charOfNat?_toNat (c : Char) : charOfNat? c.toNat = some c := by
  have hv : c.toNat.isValidChar := c.valid
  unfold charOfNat?
  rw [dif_pos hv]
  congr 1

theorem toNat_of_charOfNat? {n : Nat} {c : Char} (h : charOfNat? n = some c) : c.toNat = n := by
  unfold charOfNat? at h
  split at h
  · rename_i hv
    cases h
    show (UInt32.ofNatLT n _).toNat = n
    simp
  · cases h

theorem contByte_some {b : UInt8} {n : Nat} (h1 : n < 64) (h2 : b.toNat = n + 128) : contByte (some b) = some n := by
  have h3 : (0x80 ≤ b && b ≤ 0xBF) = true := by
    simp only [Bool.and_eq_true, decide_eq_true_eq, UInt8.le_iff_toNat_le, UInt8.reduceToNat]
    omega
  unfold contByte
  simp only [h3, if_true, Option.some.injEq]
  omega

theorem of_contByte {o : Option UInt8} {n : Nat} (h : contByte o = some n) : n < 64 ∧ ∃ b : UInt8, o = some b ∧ b.toNat = n + 128 := by
  unfold contByte at h
  cases o with
  | none => cases h
  | some b =>
    simp only [] at h
    split at h
    · rename_i hb
      simp only [Bool.and_eq_true, decide_eq_true_eq, UInt8.le_iff_toNat_le, UInt8.reduceToNat] at hb
      have := Option.some.inj h
      exact ⟨by omega, b, rfl, by omega⟩
    · cases h

theorem toNat_ofNat_lt {n : Nat} (h : n < 256) : (UInt8.ofNat n).toNat = n := by
  rw [UInt8.toNat_ofNat']
  exact Nat.mod_eq_of_lt h

/-- Decoding the encoding of a character, wherever it stands, gives the character and its length. -/
theorem decode_encode (pre post : Text) (c : Char) :
    decodeUtf8Char (pre ++ encodeChar c ++ post) pre.length = some (c, (encodeChar c).length) := by
  have hget : ∀ k, (pre ++ encodeChar c ++ post)[pre.length + k]? = (encodeChar c ++ post)[k]? := by
    intro k
    rw [List.append_assoc, List.getElem?_append_right (by omega)]
    congr 1; omega
  have h0 := hget 0
  have h1 := hget 1
  have h2 := hget 2
  have h3 := hget 3
  rw [Nat.add_zero] at h0
  have hc : c.val.toNat = c.toNat := rfl
  have hv : c.toNat < 0x110000 := by
    have := c.valid
    unfold UInt32.isValidChar Nat.isValidChar at this
    omega
  unfold decodeUtf8Char
  rw [h0, h1, h2, h3]
  have lt : ∀ {n : Nat} (m : UInt8), n < 256 → (UInt8.ofNat n < m ↔ n < m.toNat) := fun m h => by rw [UInt8.lt_iff_toNat_lt, toNat_ofNat_lt h]
  by_cases hs1 : c.toNat ≤ 127
  · have henc : encodeChar c = [UInt8.ofNat c.toNat] := by
      unfold encodeChar String.utf8EncodeChar
      simp only [hc, if_pos hs1]
    have hb := toNat_ofNat_lt (n := c.toNat) (by omega)
    rw [henc]
    simp only [List.cons_append, List.getElem?_cons_zero, lt _ (show c.toNat < 256 by omega), UInt8.reduceToNat]
    rw [if_pos (by omega), hb, charOfNat?_toNat]
    rfl
  by_cases hs2 : c.toNat ≤ 2047
  · have henc : encodeChar c = [UInt8.ofNat (c.toNat / 64 % 32 + 192), UInt8.ofNat (c.toNat % 64 + 128)] := by
      unfold encodeChar String.utf8EncodeChar
      simp only [hc, if_neg hs1, if_pos hs2]
    have hb := toNat_ofNat_lt (n := c.toNat / 64 % 32 + 192) (by omega)
    have hb1 := toNat_ofNat_lt (n := c.toNat % 64 + 128) (by omega)
    rw [henc]
    simp only [List.cons_append, List.getElem?_cons_zero, List.getElem?_cons_succ, lt _ (show c.toNat / 64 % 32 + 192 < 256 by omega),
      UInt8.reduceToNat]
    rw [if_neg (by omega), if_neg (by omega), if_pos (by omega), contByte_some (Nat.mod_lt _ (by omega)) hb1, hb]
    have e : (c.toNat / 64 % 32 + 192 - 192) * 64 + c.toNat % 64 = c.toNat := by omega
    simp only [bind, Option.bind, e, charOfNat?_toNat]
    rfl
  by_cases hs3 : c.toNat ≤ 65535
  · have henc : encodeChar c = [UInt8.ofNat (c.toNat / 4096 % 16 + 224), UInt8.ofNat (c.toNat / 64 % 64 + 128),
        UInt8.ofNat (c.toNat % 64 + 128)] := by
      unfold encodeChar String.utf8EncodeChar
      simp only [hc, if_neg hs1, if_neg hs2, if_pos hs3]
    have hb := toNat_ofNat_lt (n := c.toNat / 4096 % 16 + 224) (by omega)
    have hb1 := toNat_ofNat_lt (n := c.toNat / 64 % 64 + 128) (by omega)
    have hb2 := toNat_ofNat_lt (n := c.toNat % 64 + 128) (by omega)
    rw [henc]
    simp only [List.cons_append, List.getElem?_cons_zero, List.getElem?_cons_succ, lt _ (show c.toNat / 4096 % 16 + 224 < 256 by omega),
      UInt8.reduceToNat]
    rw [if_neg (by omega), if_neg (by omega), if_neg (by omega), if_pos (by omega), contByte_some (Nat.mod_lt _ (by omega)) hb1,
      contByte_some (Nat.mod_lt _ (by omega)) hb2, hb]
    have e : ((c.toNat / 4096 % 16 + 224 - 224) * 64 + c.toNat / 64 % 64) * 64 + c.toNat % 64 = c.toNat := by omega
    simp only [bind, Option.bind, e, charOfNat?_toNat]
    rw [if_neg (by omega)]
    rfl
  · have henc : encodeChar c = [UInt8.ofNat (c.toNat / 262144 % 8 + 240), UInt8.ofNat (c.toNat / 4096 % 64 + 128),
        UInt8.ofNat (c.toNat / 64 % 64 + 128), UInt8.ofNat (c.toNat % 64 + 128)] := by
      unfold encodeChar String.utf8EncodeChar
      simp only [hc, if_neg hs1, if_neg hs2, if_neg hs3]
    have hb := toNat_ofNat_lt (n := c.toNat / 262144 % 8 + 240) (by omega)
    have hb1 := toNat_ofNat_lt (n := c.toNat / 4096 % 64 + 128) (by omega)
    have hb2 := toNat_ofNat_lt (n := c.toNat / 64 % 64 + 128) (by omega)
    have hb3 := toNat_ofNat_lt (n := c.toNat % 64 + 128) (by omega)
    rw [henc]
    simp only [List.cons_append, List.getElem?_cons_zero, List.getElem?_cons_succ, lt _ (show c.toNat / 262144 % 8 + 240 < 256 by omega),
      UInt8.reduceToNat]
    rw [if_neg (by omega), if_neg (by omega), if_neg (by omega), if_neg (by omega), if_pos (by omega),
      contByte_some (Nat.mod_lt _ (by omega)) hb1, contByte_some (Nat.mod_lt _ (by omega)) hb2,
      contByte_some (Nat.mod_lt _ (by omega)) hb3, hb]
    have e : (((c.toNat / 262144 % 8 + 240 - 240) * 64 + c.toNat / 4096 % 64) * 64 + c.toNat / 64 % 64) * 64 + c.toNat % 64 = c.toNat := by
      omega
    simp only [bind, Option.bind, e, charOfNat?_toNat]
    rw [if_neg (by omega)]
    rfl

example : decodeUtf8Char ([0x61] ++ encodeChar '€' ++ [0x62]) 1 = some ('€', 3) := decode_encode [0x61] [0x62] '€'

theorem drop_eq {s : Text} {i : Nat} {b : UInt8} (h : s[i]? = some b) : s.drop i = b :: s.drop (i + 1) := by
  obtain ⟨hi, rfl⟩ := List.getElem?_eq_some_iff.mp h
  exact List.drop_eq_getElem_cons hi

/-- What is decoded is the encoding of the character, of the length given. -/
theorem encode_decode (s : Text) (i : Nat) (c : Char) (len : Nat) (h : decodeUtf8Char s i = some (c, len)) :
    s.drop i = encodeChar c ++ s.drop (i + len) ∧ len = (encodeChar c).length := by
  have hc : c.val.toNat = c.toNat := rfl
  have hmap : ∀ {n k : Nat}, (charOfNat? n).map (·, k) = some (c, len) → c.toNat = n ∧ len = k := by
    intro n k hm
    obtain ⟨d, hd, he⟩ := Option.map_eq_some_iff.mp hm
    cases he
    exact ⟨toNat_of_charOfNat? hd, rfl⟩
  have hbyte : ∀ {b : UInt8} {n : Nat}, b.toNat = n → b = UInt8.ofNat n := by
    rintro b n rfl
    simp
  unfold decodeUtf8Char at h
  cases hb0 : s[i]? with
  | none => rw [hb0] at h; cases h
  | some b0 =>
    rw [hb0] at h
    simp only [] at h
    have hlt := b0.toNat_lt
    split at h
    · rename_i h0
      rw [UInt8.lt_iff_toNat_lt] at h0
      simp only [UInt8.reduceToNat] at h0
      obtain ⟨e, rfl⟩ := hmap h
      unfold encodeChar String.utf8EncodeChar
      simp only [hc]
      rw [if_pos (by omega), drop_eq hb0, e]
      simp
    · split at h
      · cases h
      · split at h
        · rename_i h0 h1 h2
          simp only [UInt8.lt_iff_toNat_lt, UInt8.reduceToNat] at h0 h1 h2
          obtain ⟨c1, hc1, h⟩ := Option.bind_eq_some_iff.mp h
          obtain ⟨l1, b1, hb1, n1⟩ := of_contByte hc1
          obtain ⟨e, rfl⟩ := hmap h
          unfold encodeChar String.utf8EncodeChar
          simp only [hc]
          rw [if_neg (by omega), if_pos (by omega), drop_eq hb0, drop_eq hb1, hbyte (b := b0) (n := c.toNat / 64 % 32 + 192) (by omega),
            hbyte (b := b1) (n := c.toNat % 64 + 128) (by omega)]
          simp
        · split at h
          · rename_i h0 h1 h2 h3
            simp only [UInt8.lt_iff_toNat_lt, UInt8.reduceToNat] at h0 h1 h2 h3
            obtain ⟨c1, hc1, h⟩ := Option.bind_eq_some_iff.mp h
            obtain ⟨c2, hc2, h⟩ := Option.bind_eq_some_iff.mp h
            obtain ⟨l1, b1, hb1, n1⟩ := of_contByte hc1
            obtain ⟨l2, b2, hb2, n2⟩ := of_contByte hc2
            split at h
            · cases h
            rename_i hn
            obtain ⟨e, rfl⟩ := hmap h
            unfold encodeChar String.utf8EncodeChar
            simp only [hc]
            rw [if_neg (by omega), if_neg (by omega), if_pos (by omega), drop_eq hb0, drop_eq hb1, drop_eq hb2,
              hbyte (b := b0) (n := c.toNat / 4096 % 16 + 224) (by omega), hbyte (b := b1) (n := c.toNat / 64 % 64 + 128) (by omega),
              hbyte (b := b2) (n := c.toNat % 64 + 128) (by omega)]
            simp
          · split at h
            · rename_i h0 h1 h2 h3 h4
              simp only [UInt8.lt_iff_toNat_lt, UInt8.reduceToNat] at h0 h1 h2 h3 h4
              obtain ⟨c1, hc1, h⟩ := Option.bind_eq_some_iff.mp h
              obtain ⟨c2, hc2, h⟩ := Option.bind_eq_some_iff.mp h
              obtain ⟨c3, hc3, h⟩ := Option.bind_eq_some_iff.mp h
              obtain ⟨l1, b1, hb1, n1⟩ := of_contByte hc1
              obtain ⟨l2, b2, hb2, n2⟩ := of_contByte hc2
              obtain ⟨l3, b3, hb3, n3⟩ := of_contByte hc3
              split at h
              · cases h
              rename_i hn
              obtain ⟨e, rfl⟩ := hmap h
              unfold encodeChar String.utf8EncodeChar
              simp only [hc]
              rw [if_neg (by omega), if_neg (by omega), if_neg (by omega), drop_eq hb0, drop_eq hb1, drop_eq hb2, drop_eq hb3,
                hbyte (b := b0) (n := c.toNat / 262144 % 8 + 240) (by omega), hbyte (b := b1) (n := c.toNat / 4096 % 64 + 128) (by omega),
                hbyte (b := b2) (n := c.toNat / 64 % 64 + 128) (by omega), hbyte (b := b3) (n := c.toNat % 64 + 128) (by omega)]
              simp
            · cases h

/-- From position `i` on, the loop accepts when the rest is the encoding of characters that lead to an accepting state. -/
theorem validateLoop_chars (d : Dfa) (s : Text) (fuel i q : Nat) (hf : s.length - i < fuel) :
    d.validateLoop decodeUtf8Char s fuel i q = true ↔
      ∃ cs : List Char, s.drop i = cs.flatMap encodeChar ∧ ∃ q', cs.foldlM d.push q = some q' ∧ d.isAccepting q' = true := by
  induction fuel generalizing i q with
  | zero => omega
  | succ fuel ih =>
    rw [Dfa.validateLoop.eq_def]
    dsimp only
    by_cases hi : i < s.length
    · rw [if_pos hi]
      cases hd : decodeUtf8Char s i with
      | none =>
        simp only [Bool.false_eq_true, false_iff, not_exists, not_and]
        intro cs hcs
        cases cs with
        | nil => have := congrArg List.length hcs; simp at this; omega
        | cons c cs =>
          have := decode_encode (s.take i) (cs.flatMap encodeChar) c
          rw [List.append_assoc, ← List.flatMap_cons, ← hcs, List.take_append_drop, List.length_take, Nat.min_eq_left (by omega), hd] at this
          cases this
      | some p =>
        obtain ⟨c, len⟩ := p
        obtain ⟨he, hl⟩ := encode_decode s i c len hd
        have hpos : 1 ≤ len := by
          rw [hl, encodeChar_length]
          exact Char.utf8Size_pos c
        have hsplit : ∀ cs : List Char, s.drop i = cs.flatMap encodeChar → ∃ cs', cs = c :: cs' ∧ s.drop (i + len) = cs'.flatMap encodeChar := by
          intro cs hcs
          cases cs with
          | nil => have := congrArg List.length hcs; simp at this; omega
          | cons c' cs' =>
            have := decode_encode (s.take i) (cs'.flatMap encodeChar) c'
            rw [List.append_assoc, ← List.flatMap_cons, ← hcs, List.take_append_drop, List.length_take, Nat.min_eq_left (by omega), hd] at this
            cases this
            refine ⟨cs', rfl, ?_⟩
            rw [he, List.flatMap_cons] at hcs
            exact List.append_cancel_left hcs
        dsimp only
        cases hp : d.push q c with
        | none =>
          simp only [Bool.false_eq_true, false_iff, not_exists, not_and]
          intro cs hcs q' hq
          obtain ⟨cs', rfl, _⟩ := hsplit cs hcs
          rw [List.foldlM_cons, hp] at hq
          cases hq
        | some q1 =>
          rw [ih (i + len) q1 (by omega)]
          constructor
          · rintro ⟨cs, h1, q', h2, h3⟩
            refine ⟨c :: cs, by rw [he, h1]; rfl, q', ?_, h3⟩
            rw [List.foldlM_cons, hp]
            exact h2
          · rintro ⟨cs, h1, q', h2, h3⟩
            obtain ⟨cs', rfl, h4⟩ := hsplit cs h1
            rw [List.foldlM_cons, hp] at h2
            exact ⟨cs', h4, q', h2, h3⟩
    · rw [if_neg hi, List.drop_eq_nil_of_le (by omega)]
      constructor
      · intro h
        exact ⟨[], rfl, q, rfl, h⟩
      · rintro ⟨cs, h1, q', h2, h3⟩
        cases cs with
        | nil => cases h2; exact h3
        | cons c cs =>
          have h4 := congrArg List.length h1
          simp only [List.flatMap_cons, List.length_append, List.length_nil, encodeChar_length] at h4
          have := Char.utf8Size_pos c
          omega

/-- `validate_str` accepts exactly the encodings of the sequences of characters that lead the automaton to an accepting state: the bytes that are not
UTF-8 are rejected. -/
theorem validateStr_chars (d : Dfa) (s : Text) :
    d.validateStr s = true ↔
      ∃ cs : List Char, s = cs.flatMap encodeChar ∧ ∃ q, cs.foldlM d.push d.init = some q ∧ d.isAccepting q = true := by
  have := validateLoop_chars d s (s.length + 1) 0 d.init (by omega)
  rwa [List.drop_zero] at this

end Langtag.Tight
