import Verif.Source.Lexer
import Verif.Spec.Rust

/-!
# The lexer reads by the grammar

What the lexer of `Verif/Source/Lexer.lean` reads are the tokens of the text by the rules of `Verif/Spec/Rust.lean`.
-/

set_option autoImplicit false

namespace Langtag.Source
open Langtag.Spec.Rust

theorem identStart_iff {c : Nat} : identStart c = true ↔ IsLetter c := by
  simp only [identStart, IsLetter, Bool.or_eq_true, Bool.and_eq_true, decide_eq_true_eq, beq_iff_eq]
  omega

theorem isDigit_iff {c : Nat} : isDigit c = true ↔ IsDigit c := by
  simp only [isDigit, IsDigit, Bool.and_eq_true, decide_eq_true_eq]

theorem identCont_iff {c : Nat} : identCont c = true ↔ IsLetter c ∨ IsDigit c := by
  simp only [identCont, Bool.or_eq_true, identStart_iff, isDigit_iff]

theorem spanOf_eq (p : Nat → Bool) (cs : List Nat) :
    cs = (spanOf p cs).1 ++ (spanOf p cs).2 ∧ (∀ c ∈ (spanOf p cs).1, p c = true) ∧ ∀ c ∈ (spanOf p cs).2.head?, p c = false := by
  fun_induction spanOf p cs with
  | case1 => simp
  | case2 c cs h a b e ih =>
    rw [e] at ih
    obtain ⟨h1, h2, h3⟩ := ih
    exact ⟨by rw [h1]; rfl, by simpa using ⟨h, h2⟩, h3⟩
  | case3 c cs h => simpa using h

theorem quoted_some {cs s rest : List Nat} (h : quoted cs = some (s, rest)) : cs = s ++ 34 :: rest ∧ ∀ c ∈ s, c ≠ 34 ∧ c ≠ 92 := by
  fun_induction quoted cs generalizing s with
  | case1 => cases h
  | case2 rest => cases h; simp
  | case3 => cases h
  | case4 c cs h1 h2 ih =>
    rw [Option.map_eq_some_iff] at h
    obtain ⟨⟨s', r'⟩, h, e⟩ := h
    cases e
    obtain ⟨rfl, k⟩ := ih h
    exact ⟨rfl, by simpa using ⟨⟨h1, h2⟩, k⟩⟩

/-! ## Words -/

theorem points_name {cs : List Nat} (h : ∀ c ∈ cs, c < 128) : points (name cs) = cs := by
  unfold points name
  rw [String.toList_ofList, List.map_map]
  induction cs with
  | nil => rfl
  | cons c cs ih =>
    rw [List.map_cons, ih fun d hd => h d (List.mem_cons_of_mem _ hd)]
    have : c.isValidChar := .inl (Nat.lt_trans (h c List.mem_cons_self) (by decide))
    simp [Function.comp, Char.ofNat, this, Char.toNat, Char.ofNatAux]

theorem keywords_lookup (k : Kw) : keywords.lookup (points (keyword k)) = some k := by
  cases k <;> decide +kernel

theorem lookup_mem {α β : Type} [BEq α] [LawfulBEq α] {l : List (α × β)} {a : α} {b : β} (h : l.lookup a = some b) : (a, b) ∈ l := by
  induction l with
  | nil => cases h
  | cons p l ih =>
    obtain ⟨x, y⟩ := p
    rw [List.lookup_cons] at h
    split at h
    · rename_i e
      cases h
      rw [eq_of_beq e]
      exact List.mem_cons_self
    · exact List.mem_cons_of_mem _ (ih h)

theorem keywords_spelled : ∀ p ∈ keywords, p.1 = points (keyword p.2) := by decide +kernel

theorem letter_lt {c : Nat} (h : IsLetter c ∨ IsDigit c) : c < 128 := by
  unfold IsLetter IsDigit at h
  omega

theorem word_spells {w : List Nat} (h : IsWord w) : Spells w (word w) := by
  unfold word
  split
  · rename_i k e
    have := keywords_spelled _ (lookup_mem e)
    simp only at this
    rw [this]
    exact .keyword k
  · rename_i e
    have hp : points (name w) = w := points_name (by
      obtain ⟨c, cs, rfl, h1, h2⟩ := h
      intro d hd
      rcases List.mem_cons.mp hd with rfl | hd
      · exact letter_lt (.inl h1)
      · exact letter_lt (h2 d hd))
    refine .word _ _ h hp ?_
    intro k hk
    rw [hk] at hp
    rw [← hp, keywords_lookup] at e
    cases e

/-- The text after a word does not go on with a letter, a digit or a quotation mark. -/
theorem ends_word {rest : List Nat} (h : ∀ c ∈ rest.head?, identCont c = false) (hq : ¬ startsQuote rest = true) :
    ∀ c ∈ rest.head?, ¬ (IsLetter c ∨ IsDigit c ∨ c = 34 ∨ c = 39) := by
  intro c hc hn
  have h1 := h c hc
  cases rest with
  | nil => cases hc
  | cons d rest =>
    cases hc
    simp only [startsQuote, Bool.or_eq_true, beq_iff_eq, not_or] at hq
    rw [← Bool.not_eq_true, identCont_iff] at h1
    rcases hn with h | h | h | h
    · exact h1 (.inl h)
    · exact h1 (.inr h)
    · exact hq.1 h
    · exact hq.2 h

/-! ## Numbers -/

theorem digitValue_spec {c : Nat} (h : isHexDigit c = true) : DigitValue c (digitValue c) ∧ digitValue c < 16 := by
  simp only [isHexDigit, isDigit, Bool.or_eq_true, Bool.and_eq_true, decide_eq_true_eq] at h
  unfold digitValue
  split
  · have : c = 48 + (c - 48) := by omega
    exact ⟨by rw (occs := .pos [1]) [this]; exact .decimal _ (by omega), by omega⟩
  · split
    · have h1 : c = 97 + (c - 97) := by omega
      have h2 : c - 87 = 10 + (c - 97) := by omega
      exact ⟨by rw [h2]; rw (occs := .pos [1]) [h1]; exact .lower _ (by omega), by omega⟩
    · have h1 : c = 65 + (c - 65) := by omega
      have h2 : c - 55 = 10 + (c - 65) := by omega
      exact ⟨by rw [h2]; rw (occs := .pos [1]) [h1]; exact .upper _ (by omega), by omega⟩

theorem number_foldl {base : Nat} {ds : List Nat} (h : ∀ d ∈ ds, DigitValue d (digitValue d) ∧ digitValue d < base) (m : Nat) :
    Number base m ds (ds.foldl (fun n c => n * base + digitValue c) m) := by
  induction ds generalizing m with
  | nil => exact .nil m
  | cons d ds ih =>
    have hd := h d List.mem_cons_self
    exact .cons _ _ _ _ _ hd.1 hd.2 (ih (fun c hc => h c (List.mem_cons_of_mem _ hc)) _)

theorem suffix_spec {s : List Nat} (h : suffixes.contains s = true) : points (name s) = s ∧ name s ∈ ["", "u8", "u32", "usize"] := by
  have : ∀ s ∈ suffixes, points (name s) = s ∧ name s ∈ ["", "u8", "u32", "usize"] := by decide +kernel
  exact this s (List.contains_iff_mem.mp h)

theorem ends_number {rest : List Nat} (h : ∀ c ∈ rest.head?, identCont c = false) (hf : ¬ startsFraction rest = true) (w : List Nat) (n : Nat)
    (s : String) : EndsBefore w rest (.int n s) := by
  refine ⟨fun c hc hn => ?_, fun c hc hd => ?_⟩
  · have := h c hc
    rw [← Bool.not_eq_true, identCont_iff] at this
    exact this hn
  · apply hf
    match rest, hc with
    | a :: b :: rest, hc =>
      simp only [List.take_succ_cons, List.take_zero, List.cons.injEq, and_true] at hc
      obtain ⟨rfl, rfl⟩ := hc
      exact isDigit_iff.mpr hd
    | [a], hc => simp at hc
    | [], hc => simp at hc

/-! ## Operators -/

theorem punct1_spelled : ∀ p ∈ punct1, [p.1] = points (operator p.2) := by decide +kernel

theorem punct2_spelled : ∀ p ∈ punct2, [p.1.1, p.1.2] = points (operator p.2) := by decide +kernel

/-- Every operator is in the tables. -/
theorem operator_cases (q : Punct) :
    (∃ a, points (operator q) = [a] ∧ punct1.lookup a = some q) ∨
    (∃ a b, points (operator q) = [a, b] ∧ punct2.lookup (a, b) = some q) ∨ (points (operator q) = [46, 46, 61]) := by
  cases q <;> first
    | exact .inr (.inr (by decide +kernel))
    | exact .inl ⟨_, rfl, by decide +kernel⟩
    | exact .inr (.inl ⟨_, _, rfl, by decide +kernel⟩)

theorem punctuation_some {cs rest : List Nat} {p : Punct} (h : punctuation cs = some (p, rest)) :
    cs = points (operator p) ++ rest ∧ EndsBefore (points (operator p)) rest (.punct p) := by
  unfold punctuation at h
  split at h
  · cases h
  · rename_i a
    rw [Option.map_eq_some_iff] at h
    obtain ⟨q, h, e⟩ := h
    cases e
    have := punct1_spelled _ (lookup_mem h)
    simp only at this
    refine ⟨by rw [← this]; rfl, ?_⟩
    intro q hq
    have := hq.length_le
    simpa using this
  · rename_i a b rest'
    split at h
    · rename_i e
      have h2 := punct2_spelled _ (lookup_mem e)
      simp only [show points (operator .dotDot) = [46, 46] by decide +kernel, List.cons.injEq, and_true] at h2
      obtain ⟨rfl, rfl⟩ := h2
      split at h
      · cases h
        refine ⟨by rw [show points (operator .dotDotEq) = [46, 46, 61] by decide +kernel]; rfl, ?_⟩
        intro q hq
        rw [show points (operator .dotDotEq) = [46, 46, 61] by decide +kernel]
        rcases operator_cases q with ⟨a, e, _⟩ | ⟨a, b, e, _⟩ | e <;> rw [e] <;> simp
      · rename_i hne
        cases h
        have hd : points (operator .dotDot) = [46, 46] := by decide +kernel
        refine ⟨by rw [hd]; rfl, ?_⟩
        intro q hq
        rw [hd] at hq ⊢
        rcases operator_cases q with ⟨a, e, _⟩ | ⟨a, b, e, _⟩ | e
        · rw [e]; simp
        · rw [e]; simp
        · rw [e] at hq
          obtain ⟨zs, hz⟩ := hq
          simp only [List.cons_append, List.nil_append, List.cons.injEq, true_and] at hz
          exact absurd hz.symm (hne _)
    · rename_i q hne e
      cases h
      have h2 := punct2_spelled _ (lookup_mem e)
      simp only at h2
      refine ⟨by rw [← h2]; rfl, ?_⟩
      intro q' hq
      rw [← h2] at hq ⊢
      rcases operator_cases q' with ⟨a', e', _⟩ | ⟨a', b', e', _⟩ | e'
      · rw [e']; simp
      · rw [e']; simp
      · rw [e'] at hq
        obtain ⟨zs, hz⟩ := hq
        simp only [List.cons_append, List.nil_append, List.cons.injEq] at hz
        obtain ⟨rfl, rfl, _⟩ := hz
        rw [show punct2.lookup (46, 46) = some .dotDot by decide +kernel] at e
        cases e
        exact absurd rfl hne
    · rename_i e
      rw [Option.map_eq_some_iff] at h
      obtain ⟨q, h, e1⟩ := h
      cases e1
      have h1 := punct1_spelled _ (lookup_mem h)
      simp only at h1
      refine ⟨by rw [← h1]; rfl, ?_⟩
      intro q' hq
      rw [← h1] at hq ⊢
      rcases operator_cases q' with ⟨a', e', _⟩ | ⟨a', b', e', l⟩ | e'
      · rw [e']; simp
      · rw [e'] at hq
        obtain ⟨zs, hz⟩ := hq
        simp only [List.cons_append, List.nil_append, List.cons.injEq] at hz
        obtain ⟨rfl, rfl, _⟩ := hz
        rw [e] at l
        cases l
      · rw [e'] at hq
        obtain ⟨zs, hz⟩ := hq
        simp only [List.cons_append, List.nil_append, List.cons.injEq] at hz
        obtain ⟨rfl, rfl, _⟩ := hz
        rw [show punct2.lookup (46, 46) = some .dotDot by decide +kernel] at e
        cases e

/-! ## Lines -/

variable {f : List Nat → Option (List Tok)} (hf : ∀ cs ts, f cs = some ts → IsLine cs ts)
include hf

theorem lexString_sound {cs : List Nat} {ts : List Tok} {mk : List Nat → Tok} (h : lexString f mk cs = some ts) :
    ∃ s rest us, cs = s ++ 34 :: rest ∧ (∀ c ∈ s, c ≠ 34 ∧ c ≠ 92) ∧ ts = mk s :: us ∧ IsLine rest us := by
  unfold lexString at h
  split at h
  · rename_i s rest e
    rw [Option.map_eq_some_iff] at h
    obtain ⟨us, h, rfl⟩ := h
    obtain ⟨rfl, k⟩ := quoted_some e
    exact ⟨s, rest, us, rfl, k, rfl, hf _ _ h⟩
  · cases h

theorem lexWord_sound {c : Nat} {cs : List Nat} {ts : List Tok} (hc : identStart c = true) (h : lexWord f (c :: cs) = some ts) :
    IsLine (c :: cs) ts := by
  unfold lexWord at h
  obtain ⟨h1, h2, h3⟩ := spanOf_eq identCont (c :: cs)
  revert h h1 h2 h3
  generalize e : spanOf identCont (c :: cs) = p
  obtain ⟨w, rest⟩ := p
  intro h h1 h2 h3
  simp only at h h1 h2 h3
  split at h
  · cases h
  · rename_i hq
    rw [Option.map_eq_some_iff] at h
    obtain ⟨us, h, rfl⟩ := h
    have hw : IsWord w := by
      cases w with
      | nil =>
        rw [List.nil_append] at h1
        rw [← h1] at h3
        have := h3 c rfl
        simp [identCont, hc] at this
      | cons d w =>
        cases h1
        exact ⟨c, w, rfl, identStart_iff.mp hc, fun d hd => identCont_iff.mp (h2 d (List.mem_cons_of_mem _ hd))⟩
    rw [h1]
    refine .token _ _ _ _ (word_spells hw) ?_ (hf _ _ h)
    have := ends_word h3 hq
    unfold word
    split <;> exact this

theorem lexNumber_sound {base : Nat} {digit : Nat → Bool} {cs : List Nat} {ts : List Tok}
    (hd : ∀ c, digit c = true → DigitValue c (digitValue c) ∧ digitValue c < base) (h : lexNumber f base digit cs = some ts) :
    ∃ ds s n rest us, cs = ds ++ points s ++ rest ∧ ds ≠ [] ∧ Number base 0 ds n ∧ s ∈ ["", "u8", "u32", "usize"] ∧ ts = .int n s :: us ∧
      (∀ w, EndsBefore w rest (.int n s)) ∧ IsLine rest us := by
  unfold lexNumber at h
  obtain ⟨h1, h2, h3⟩ := spanOf_eq digit cs
  revert h h1 h2 h3
  generalize spanOf digit cs = p
  obtain ⟨ds, cs1⟩ := p
  intro h h1 h2 h3
  simp only at h h1 h2 h3
  obtain ⟨k1, k2, k3⟩ := spanOf_eq identCont cs1
  revert h k1 k2 k3
  generalize spanOf identCont cs1 = p
  obtain ⟨s, rest⟩ := p
  intro h k1 k2 k3
  simp only at h k1 k2 k3
  split at h
  · cases h
  · rename_i hn
    rw [Option.map_eq_some_iff] at h
    obtain ⟨us, h, rfl⟩ := h
    simp only [Bool.or_eq_true, Bool.not_eq_eq_eq_not, Bool.not_true, not_or, Bool.not_eq_false, List.isEmpty_iff] at hn
    obtain ⟨⟨n1, n2⟩, n3⟩ := hn
    obtain ⟨e, hs⟩ := suffix_spec n2
    exact ⟨ds, name s, _, rest, us, by rw [e, List.append_assoc, ← k1, ← h1], n1, number_foldl (fun d hm => hd d (h2 d hm)) 0, hs, rfl,
      fun w => ends_number k3 n3 w _ _, hf _ _ h⟩

theorem lexPunct_sound {cs : List Nat} {ts : List Tok} (h : lexPunct f cs = some ts) : IsLine cs ts := by
  unfold lexPunct at h
  split at h
  · rename_i p rest e
    rw [Option.map_eq_some_iff] at h
    obtain ⟨us, h, rfl⟩ := h
    obtain ⟨rfl, k⟩ := punctuation_some e
    exact .token _ _ _ _ (.operator p) k (hf _ _ h)
  · cases h

theorem lexQuote_sound {cs : List Nat} {ts : List Tok} (h : lexQuote f cs = some ts) : IsLine (39 :: cs) ts := by
  unfold lexQuote at h
  split at h
  · rename_i c rest
    split at h
    · cases h
    · rename_i hc
      rw [not_or] at hc
      rw [Option.map_eq_some_iff] at h
      obtain ⟨us, h, rfl⟩ := h
      exact .token [39, c, 39] _ _ _ (.char c hc.1 hc.2) trivial (hf _ _ h)
  · rename_i c cs' _
    split at h
    · rename_i hc
      obtain ⟨h1, h2, h3⟩ := spanOf_eq identCont cs'
      revert h h1 h2 h3
      generalize spanOf identCont cs' = p
      obtain ⟨w, rest⟩ := p
      intro h h1 h2 h3
      simp only at h h1 h2 h3
      split at h
      · cases h
      · rename_i hq
        rw [Option.map_eq_some_iff] at h
        obtain ⟨us, h, rfl⟩ := h
        rw [h1]
        exact .token (39 :: c :: w) _ _ _ (.lifetime _ ⟨c, w, rfl, identStart_iff.mp hc, fun d hd => identCont_iff.mp (h2 d hd)⟩)
          (ends_word h3 hq) (hf _ _ h)
    · cases h
  · cases h

omit hf in
theorem lexLine_sound : (n : Nat) → (cs : List Nat) → (ts : List Tok) → lexLine n cs = some ts → IsLine cs ts
  | 0, _, _, h => by cases h
  | n + 1, cs, ts, h => by
    have ih := lexLine_sound n
    unfold lexLine at h
    split at h
    · cases h; exact .nil
    · rename_i c rest
      split at h
      · rename_i hc
        exact .space _ _ _ hc (ih _ _ h)
      split at h
      · rename_i hc
        split at h
        · rename_i x rest _
          split at h
          · cases h
          · rename_i hx
            rw [not_or] at hx
            rw [Option.map_eq_some_iff] at h
            obtain ⟨us, h, rfl⟩ := h
            exact .token [98, 39, x, 39] _ _ _ (.byte x hx.1 hx.2) trivial (ih _ _ h)
        · obtain ⟨s, rest, us, rfl, k, rfl, hl⟩ := lexString_sound ih h
          have := IsLine.token (98 :: 34 :: s ++ [34]) _ rest us (.bstr s k) trivial hl
          simpa using this
        · exact lexWord_sound ih hc h
      split at h
      · rename_i hc
        split at h
        · obtain ⟨ds, s, m, rest, us, rfl, h1, h2, h3, rfl, h4, h5⟩ := lexNumber_sound ih (fun _ => digitValue_spec) h
          have := IsLine.token _ _ rest us (.hexadecimal ds m s h1 h2 h3) (h4 _) h5
          simpa using this
        · obtain ⟨ds, s, m, rest, us, e, h1, h2, h3, rfl, h4, h5⟩ := lexNumber_sound (base := 10) ih (fun c hc => by
            simp only [isDigit, Bool.and_eq_true, decide_eq_true_eq] at hc
            refine ⟨(digitValue_spec (by simp [isHexDigit, isDigit, hc])).1, ?_⟩
            unfold digitValue
            rw [if_pos hc.2]
            omega) h
          rw [e]
          exact IsLine.token _ _ rest us (.decimal ds m s h1 h2 h3) (h4 _) h5
      split at h
      · rename_i hc
        subst hc
        obtain ⟨s, rest, us, rfl, k, rfl, hl⟩ := lexString_sound ih h
        have := IsLine.token (34 :: s ++ [34]) _ rest us (.str s k) trivial hl
        simpa using this
      split at h
      · rename_i hc
        subst hc
        exact lexQuote_sound ih h
      split at h
      · cases h
        exact .comment _
      · exact lexPunct_sound ih h

omit hf in
/-- What the lexer reads are the tokens of the text. -/
theorem lex_sound : (lines : List (List Nat)) → (ts : List Tok) → lex lines = some ts → IsText lines ts
  | [], _, h => by cases h; exact .nil
  | l :: ls, ts, h => by
    unfold lex at h
    split at h
    · cases h
    · rename_i us e
      rw [Option.map_eq_some_iff] at h
      obtain ⟨vs, h, rfl⟩ := h
      exact .cons _ _ _ _ (lexLine_sound _ _ _ e) (lex_sound ls vs h)

end Langtag.Source
