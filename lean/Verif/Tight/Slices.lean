import Verif.Tight.Decoder

/-!
# Slicing a `str`

`isCharBoundary` and `sliceRange` stand for functions of `core`.  On the UTF-8 encoding of a sequence of characters the boundaries are the ends of
the encodings of its prefixes, and slicing gives the encoding of consecutive characters or panics.
-/

set_option autoImplicit false

namespace Langtag.Tight
open Langtag.Spec Langtag.Model Langtag.Proof

/-- A byte that starts the encoding of a character. -/
def StartByte (b : UInt8) : Prop := (b < 0x80 || 0xC0 ≤ b) = true

theorem startByte_ofNat {n : Nat} (h : n < 256) : StartByte (UInt8.ofNat n) ↔ n < 128 ∨ 192 ≤ n := by
  unfold StartByte
  simp only [Bool.or_eq_true, decide_eq_true_eq, UInt8.lt_iff_toNat_lt, UInt8.le_iff_toNat_le, toNat_ofNat_lt h, UInt8.reduceToNat]

theorem encodeChar_bytes (c : Char) : ∃ b bs, encodeChar c = b :: bs ∧ StartByte b ∧ ∀ x ∈ bs, ¬ StartByte x := by
  have hc : c.val.toNat = c.toNat := rfl
  have hv : c.toNat < 0x110000 := by
    have := c.valid
    unfold UInt32.isValidChar Nat.isValidChar at this
    omega
  by_cases hs1 : c.toNat ≤ 127
  · refine ⟨UInt8.ofNat c.toNat, [], ?_, (startByte_ofNat (by omega)).mpr (by omega), nofun⟩
    unfold encodeChar String.utf8EncodeChar
    simp only [hc, if_pos hs1]
  by_cases hs2 : c.toNat ≤ 2047
  · refine ⟨UInt8.ofNat (c.toNat / 64 % 32 + 192), [UInt8.ofNat (c.toNat % 64 + 128)], ?_,
      (startByte_ofNat (by omega)).mpr (by omega), ?_⟩
    · unfold encodeChar String.utf8EncodeChar
      simp only [hc, if_neg hs1, if_pos hs2]
    · simp only [List.mem_cons, List.not_mem_nil, or_false, forall_eq]
      rw [startByte_ofNat (by omega)]; omega
  by_cases hs3 : c.toNat ≤ 65535
  · refine ⟨UInt8.ofNat (c.toNat / 4096 % 16 + 224), [UInt8.ofNat (c.toNat / 64 % 64 + 128), UInt8.ofNat (c.toNat % 64 + 128)], ?_,
      (startByte_ofNat (by omega)).mpr (by omega), ?_⟩
    · unfold encodeChar String.utf8EncodeChar
      simp only [hc, if_neg hs1, if_neg hs2, if_pos hs3]
    · simp only [List.mem_cons, List.not_mem_nil, or_false, forall_eq_or_imp, forall_eq]
      rw [startByte_ofNat (by omega), startByte_ofNat (by omega)]; omega
  · refine ⟨UInt8.ofNat (c.toNat / 262144 % 8 + 240), [UInt8.ofNat (c.toNat / 4096 % 64 + 128),
        UInt8.ofNat (c.toNat / 64 % 64 + 128), UInt8.ofNat (c.toNat % 64 + 128)], ?_,
      (startByte_ofNat (by omega)).mpr (by omega), ?_⟩
    · unfold encodeChar String.utf8EncodeChar
      simp only [hc, if_neg hs1, if_neg hs2, if_neg hs3]
    · simp only [List.mem_cons, List.not_mem_nil, or_false, forall_eq_or_imp, forall_eq]
      rw [startByte_ofNat (by omega), startByte_ofNat (by omega), startByte_ofNat (by omega)]; omega

/-- The bytes of a sequence of characters. -/
abbrev encode (cs : List Char) : Text := cs.flatMap encodeChar

theorem isCharBoundary_iff (s : Text) (i : Nat) :
    isCharBoundary s i = true ↔ i = 0 ∨ i = s.length ∨ ∃ b, s[i]? = some b ∧ StartByte b := by
  unfold isCharBoundary
  by_cases h0 : i = 0
  · simp [h0]
  · rw [if_neg h0]
    cases hb : s[i]? with
    | none =>
      have := List.getElem?_eq_none_iff.mp hb
      simp [h0]
    | some b =>
      obtain ⟨hi, _⟩ := List.getElem?_eq_some_iff.mp hb
      have : i ≠ s.length := by omega
      simp [h0, this, StartByte]

/-- `str::is_char_boundary`: `i` is the length of the encoding of some of the characters at the start. -/
theorem charBoundary (cs : List Char) : ∀ i, isCharBoundary (encode cs) i = true ↔ ∃ pre post, cs = pre ++ post ∧ i = (encode pre).length := by
  induction cs with
  | nil =>
    intro i
    rw [isCharBoundary_iff]
    constructor
    · rintro (rfl | rfl | ⟨b, hb, _⟩)
      · exact ⟨[], [], rfl, rfl⟩
      · exact ⟨[], [], rfl, rfl⟩
      · simp at hb
    · rintro ⟨pre, post, h, rfl⟩
      obtain ⟨rfl, rfl⟩ := List.append_eq_nil_iff.mp h.symm
      exact Or.inl rfl
  | cons c cs ih =>
    intro i
    obtain ⟨b, bs, he, hb, hbs⟩ := encodeChar_bytes c
    have hl : (encodeChar c).length = bs.length + 1 := by rw [he]; rfl
    have hcs : encode (c :: cs) = encodeChar c ++ encode cs := rfl
    have shift : (encodeChar c).length ≤ i →
        (isCharBoundary (encode (c :: cs)) i = true ↔ isCharBoundary (encode cs) (i - (encodeChar c).length) = true) := by
      intro h
      rw [isCharBoundary_iff, isCharBoundary_iff, hcs, List.length_append, List.getElem?_append_right h]
      by_cases h1 : i = (encodeChar c).length
      · subst h1
        simp only [Nat.sub_self, true_or, iff_true]
        cases cs with
        | nil => exact Or.inr (Or.inl (by simp [encode]))
        | cons d cs =>
          obtain ⟨b', bs', he', hb', _⟩ := encodeChar_bytes d
          refine Or.inr (Or.inr ⟨b', ?_, hb'⟩)
          simp [encode, he']
      · have h2 : i ≠ 0 := by omega
        have h3 : i - (encodeChar c).length ≠ 0 := by omega
        have h4 : i = (encodeChar c).length + (encode cs).length ↔ i - (encodeChar c).length = (encode cs).length := by omega
        simp only [h2, h3, h4, false_or]
    by_cases hi : (encodeChar c).length ≤ i
    · rw [shift hi, ih]
      constructor
      · rintro ⟨pre, post, rfl, h⟩
        refine ⟨c :: pre, post, rfl, ?_⟩
        show i = (encodeChar c ++ encode pre).length
        rw [List.length_append]; omega
      · rintro ⟨pre, post, h, rfl⟩
        cases pre with
        | nil => have : (encode []).length = 0 := rfl; omega
        | cons d pre =>
          obtain ⟨rfl, rfl⟩ := List.cons.inj h
          refine ⟨pre, post, rfl, ?_⟩
          show (encodeChar c ++ encode pre).length - _ = _
          rw [List.length_append]; omega
    · rw [isCharBoundary_iff]
      have h0 : i = 0 → ∃ pre post, c :: cs = pre ++ post ∧ i = (encode pre).length := fun h => ⟨[], c :: cs, rfl, h⟩
      constructor
      · rintro (h | h | ⟨x, hx, hs⟩)
        · exact h0 h
        · rw [hcs, List.length_append] at h; omega
        · rw [hcs, List.getElem?_append_left (by omega), he] at hx
          cases i with
          | zero => exact h0 rfl
          | succ j => exact absurd hs (hbs x (List.mem_of_getElem? (by simpa using hx)))
      · rintro ⟨pre, post, h, rfl⟩
        cases pre with
        | nil => exact Or.inl rfl
        | cons d pre =>
          obtain ⟨rfl, rfl⟩ := List.cons.inj h
          exfalso; apply hi
          show _ ≤ (encodeChar c ++ encode pre).length
          rw [List.length_append]; omega

/-- `&s[a..b]` on a `str`: the encoding of consecutive characters if `a` and `b` are the ends of the encodings of two prefixes, the first of which is
not longer; otherwise a panic. -/
theorem slice_chars (cs : List Char) (a b : Nat) :
    (∀ pre mid post : List Char, cs = pre ++ mid ++ post → a = (encode pre).length → b = a + (encode mid).length →
      sliceRange (encode cs) a b = .ok (encode mid)) ∧
    ((¬ ∃ pre mid post : List Char, cs = pre ++ mid ++ post ∧ a = (encode pre).length ∧ b = a + (encode mid).length) →
      sliceRange (encode cs) a b = .error .slice) := by
  have happ : ∀ u v : List Char, encode (u ++ v) = encode u ++ encode v := fun u v => List.flatMap_append
  constructor
  · rintro pre mid post rfl rfl rfl
    have h1 : isCharBoundary (encode (pre ++ mid ++ post)) (encode pre).length = true :=
      (charBoundary _ _).mpr ⟨pre, mid ++ post, by simp, rfl⟩
    have h2 : isCharBoundary (encode (pre ++ mid ++ post)) ((encode pre).length + (encode mid).length) = true :=
      (charBoundary _ _).mpr ⟨pre ++ mid, post, rfl, by rw [happ, List.length_append]⟩
    have h3 : (encode pre).length + (encode mid).length ≤ (encode (pre ++ mid ++ post)).length := by
      rw [happ, happ, List.length_append, List.length_append]; omega
    unfold sliceRange
    rw [if_pos ⟨Nat.le_add_right _ _, h3, h1, h2⟩, happ, happ, List.append_assoc, List.drop_left, Nat.add_sub_cancel_left, List.take_left]
  · intro hn
    unfold sliceRange
    refine if_neg fun ⟨h1, h2, h3, h4⟩ => hn ?_
    obtain ⟨p, q, rfl, rfl⟩ := (charBoundary _ _).mp h3
    obtain ⟨p', q', h5, rfl⟩ := (charBoundary _ _).mp h4
    rcases List.append_eq_append_iff.mp h5 with ⟨m, rfl, rfl⟩ | ⟨m, rfl, rfl⟩
    · exact ⟨p, m, q', by simp, rfl, by rw [happ, List.length_append]⟩
    · rw [happ, List.length_append] at h1
      have hm : m = [] := by
        cases m with
        | nil => rfl
        | cons d m =>
          obtain ⟨x, xs, he, _⟩ := encodeChar_bytes d
          simp [encode, he] at h1; omega
      subst hm
      exact ⟨p' ++ [], [], q, by simp, rfl, by simp⟩

/-- A slice of a `str` is a `str`. -/
theorem slice_utf8 (s u : Text) (a b : Nat) (hs : IsUtf8 s) (h : sliceRange s a b = .ok u) : IsUtf8 u := by
  obtain ⟨cs, rfl⟩ := hs
  refine Classical.byContradiction fun hn => ?_
  have := (slice_chars cs a b).2 fun ⟨pre, mid, post, h1, h2, h3⟩ => by
    have e := (slice_chars cs a b).1 pre mid post h1 h2 h3
    rw [show cs.flatMap encodeChar = encode cs from rfl, e] at h
    exact hn ⟨mid, (Except.ok.inj h).symm⟩
  rw [show cs.flatMap encodeChar = encode cs from rfl, this] at h
  cases h

-- `a€b`: the slice from 1 to 4 is `€`; 2 is not a boundary
example : sliceRange (encode ['a', '€', 'b']) 1 4 = .ok (encode ['€']) :=
  (slice_chars ['a', '€', 'b'] 1 4).1 ['a'] ['€'] ['b'] rfl (by decide +kernel) (by decide +kernel)
example : isCharBoundary (encode ['a', '€', 'b']) 2 = false := by decide +kernel

end Langtag.Tight
