import Verif.Source.LexerSound

/-!
Every text that `Spec/Rust.lean` says has these tokens is read by the lexer as these tokens: so the rules give each text at most one
sequence of tokens.
-/

set_option autoImplicit false

namespace Langtag.Source
open Langtag.Spec.Rust

theorem spanOf_append {p : Nat → Bool} {a rest : List Nat} (h : ∀ c ∈ a, p c = true) (hr : ∀ c ∈ rest.head?, p c = false) :
    spanOf p (a ++ rest) = (a, rest) := by
  induction a with
  | nil =>
    cases rest with
    | nil => rfl
    | cons c cs => simp [spanOf, hr c rfl]
  | cons c cs ih =>
    rw [List.cons_append, spanOf, h c List.mem_cons_self]
    simp [ih fun d hd => h d (List.mem_cons_of_mem _ hd)]

theorem quoted_append {s rest : List Nat} (h : ∀ c ∈ s, c ≠ 34 ∧ c ≠ 92) : quoted (s ++ 34 :: rest) = some (s, rest) := by
  induction s with
  | nil => simp [quoted]
  | cons c cs ih =>
    have hc := h c List.mem_cons_self
    simp [quoted, hc.1, hc.2, ih fun d hd => h d (List.mem_cons_of_mem _ hd)]

/-! ## Words -/

theorem points_injective {s s' : String} (h : points s = points s') : s = s' := by
  apply String.toList_inj.mp
  unfold points at h
  revert h
  generalize s.toList = l
  generalize s'.toList = l'
  intro h
  induction l generalizing l' with
  | nil =>
    cases l' with
    | nil => rfl
    | cons => cases h
  | cons c l ih =>
    cases l' with
    | nil => cases h
    | cons c' l' =>
      simp only [List.map_cons, List.cons.injEq] at h
      rw [ih l' h.2]
      congr 1
      exact Char.ext (UInt32.toNat.inj h.1)

theorem keyword_isWord (k : Kw) : IsWord (points (keyword k)) := by
  have h : ∀ w : List Nat, (match w with | c :: cs => identStart c && cs.all identCont | [] => false) = true → IsWord w := by
    intro w hw
    cases w with
    | nil => cases hw
    | cons c cs =>
      simp only [Bool.and_eq_true, List.all_eq_true] at hw
      exact ⟨c, cs, rfl, identStart_iff.mp hw.1, fun d hd => identCont_iff.mp (hw.2 d hd)⟩
  apply h
  cases k <;> decide +kernel

theorem word_lt {w : List Nat} (h : IsWord w) : ∀ c ∈ w, c < 128 := by
  obtain ⟨c, cs, rfl, h1, h2⟩ := h
  intro d hd
  rcases List.mem_cons.mp hd with rfl | hd
  · exact letter_lt (.inl h1)
  · exact letter_lt (h2 d hd)

theorem word_ident {w : List Nat} {s : String} (h : IsWord w) (hs : points s = w) (hk : ∀ k, s ≠ keyword k) : word w = .ident s := by
  unfold word
  split
  · rename_i k e
    have := keywords_spelled _ (lookup_mem e)
    simp only at this
    exact absurd (points_injective (hs.trans this)) (hk k)
  · rw [points_injective (hs.trans (points_name (word_lt h)).symm)]

theorem word_keyword (k : Kw) : word (points (keyword k)) = .kw k := by
  unfold word
  rw [keywords_lookup]

theorem word_cont {w : List Nat} (h : IsWord w) : ∀ c ∈ w, identCont c = true := by
  obtain ⟨c, cs, rfl, h1, h2⟩ := h
  intro d hd
  rw [identCont_iff]
  rcases List.mem_cons.mp hd with rfl | hd
  · exact .inl h1
  · exact h2 d hd

theorem head_not_cont {rest : List Nat} (h : ∀ c ∈ rest.head?, ¬ (IsLetter c ∨ IsDigit c ∨ c = 34 ∨ c = 39)) :
    (∀ c ∈ rest.head?, identCont c = false) ∧ startsQuote rest = false := by
  refine ⟨fun c hc => ?_, ?_⟩
  · rw [← Bool.not_eq_true, identCont_iff]
    intro k
    apply h c hc
    rcases k with k | k
    · exact .inl k
    · exact .inr (.inl k)
  · cases rest with
    | nil => rfl
    | cons c cs =>
      have := h c rfl
      simp only [not_or] at this
      simp [startsQuote, this.2.2.1, this.2.2.2]

section
variable {f : List Nat → Option (List Tok)}

theorem lexWord_complete {w rest : List Nat} {ts : List Tok} (h : IsWord w)
    (hr : ∀ c ∈ rest.head?, ¬ (IsLetter c ∨ IsDigit c ∨ c = 34 ∨ c = 39)) (hf : f rest = some ts) :
    lexWord f (w ++ rest) = some (word w :: ts) := by
  obtain ⟨h1, h2⟩ := head_not_cont hr
  unfold lexWord
  rw [spanOf_append (word_cont h) h1]
  simp [h2, hf]

/-! ## Numbers -/

theorem digit_hex {c d : Nat} (h : DigitValue c d) : isHexDigit c = true ∧ digitValue c = d := by
  cases h with
  | decimal n h =>
    refine ⟨by simp [isHexDigit, isDigit]; omega, ?_⟩
    unfold digitValue
    rw [if_pos (by omega)]
    omega
  | lower n h =>
    refine ⟨by simp [isHexDigit, isDigit]; omega, ?_⟩
    unfold digitValue
    rw [if_neg (by omega), if_pos (by omega)]
    omega
  | upper n h =>
    refine ⟨by simp [isHexDigit, isDigit]; omega, ?_⟩
    unfold digitValue
    rw [if_neg (by omega), if_neg (by omega)]
    omega

theorem digit_dec {c d : Nat} (h : DigitValue c d) (hd : d < 10) : isDigit c = true := by
  cases h with
  | decimal n h => simp [isDigit]; omega
  | lower n h => omega
  | upper n h => omega

theorem number_eq {base m n : Nat} {ds : List Nat} (h : Number base m ds n) : n = ds.foldl (fun n c => n * base + digitValue c) m := by
  induction h with
  | nil => rfl
  | cons m c d n cs h hd _ ih => rw [ih, List.foldl_cons, (digit_hex h).2]

theorem number_hex {base m n : Nat} {ds : List Nat} (h : Number base m ds n) : ∀ c ∈ ds, isHexDigit c = true := by
  induction h with
  | nil => simp
  | cons m c d n cs h hd _ ih => simpa using ⟨(digit_hex h).1, ih⟩

theorem number_dec {m n : Nat} {ds : List Nat} (h : Number 10 m ds n) : ∀ c ∈ ds, isDigit c = true := by
  induction h with
  | nil => simp
  | cons m c d n cs h hd _ ih => simpa using ⟨digit_dec h hd, ih⟩

theorem suffix_points {s : String} (h : s ∈ ["", "u8", "u32", "usize"]) :
    suffixes.contains (points s) = true ∧ name (points s) = s ∧ (∀ c ∈ points s, identCont c = true) ∧
      ∀ c ∈ (points s).head?, isHexDigit c = false := by
  have : ∀ s ∈ ["", "u8", "u32", "usize"], suffixes.contains (points s) = true ∧ name (points s) = s ∧ (∀ c ∈ points s, identCont c = true) ∧
      ∀ c ∈ (points s).head?, isHexDigit c = false := by decide +kernel
  exact this s h

theorem cont_of_hex {c : Nat} (h : isHexDigit c = true) : identCont c = true := by
  simp only [isHexDigit, isDigit, identCont, identStart, Bool.or_eq_true, Bool.and_eq_true, decide_eq_true_eq, beq_iff_eq] at h ⊢
  omega

theorem hex_of_dec {c : Nat} (h : isDigit c = true) : isHexDigit c = true := by
  simp [isHexDigit, h]

theorem lexNumber_complete {base : Nat} {digit : Nat → Bool} {ds rest : List Nat} {n : Nat} {s : String} {ts : List Tok}
    (hd : ∀ c ∈ ds, digit c = true) (hx : ∀ c, digit c = true → isHexDigit c = true) (h : ds ≠ []) (hn : Number base 0 ds n)
    (hs : s ∈ ["", "u8", "u32", "usize"]) {w : List Nat} (he : EndsBefore w rest (.int n s)) (hf : f rest = some ts) :
    lexNumber f base digit (ds ++ points s ++ rest) = some (.int n s :: ts) := by
  obtain ⟨s1, s2, s3, s4⟩ := suffix_points hs
  have hr : ∀ c ∈ rest.head?, identCont c = false := by
    intro c hc
    rw [← Bool.not_eq_true, identCont_iff]
    exact he.1 c hc
  have hh : ∀ c ∈ (points s ++ rest).head?, digit c = false := by
    intro c hc
    rw [← Bool.not_eq_true]
    intro k
    cases e : points s with
    | nil =>
      rw [e, List.nil_append] at hc
      have := hr c hc
      rw [cont_of_hex (hx c k)] at this
      cases this
    | cons a l =>
      rw [e] at hc s4
      have := s4 c (by simpa using hc)
      rw [hx c k] at this
      cases this
  unfold lexNumber
  rw [List.append_assoc, spanOf_append hd hh]
  simp only
  rw [spanOf_append s3 hr]
  simp only
  have hfr : startsFraction rest = false := by
    unfold startsFraction
    split
    · rename_i c _
      rw [← Bool.not_eq_true, isDigit_iff]
      exact he.2 c rfl
    · rfl
  have hemp : ds.isEmpty = false := by
    cases ds with
    | nil => exact absurd rfl h
    | cons => rfl
  rw [s1, hfr, hemp, s2, hf, numberValue, ← number_eq hn]
  rfl

/-! ## Operators -/

theorem operator_dotDotEq {p : Punct} (h : points (operator p) = [46, 46, 61]) : p = .dotDotEq :=
  by
    revert h
    cases p <;> decide +kernel

theorem punctuation_complete {p : Punct} {rest : List Nat} (h : EndsBefore (points (operator p)) rest (.punct p)) :
    punctuation (points (operator p) ++ rest) = some (p, rest) := by
  rcases operator_cases p with ⟨a, e, l⟩ | ⟨a, b, e, l⟩ | e
  · rw [e] at h ⊢
    cases rest with
    | nil => simp [punctuation, l]
    | cons b rest =>
      rw [List.cons_append, List.nil_append]
      unfold punctuation
      have hn : punct2.lookup (a, b) = none := by
        cases e2 : punct2.lookup (a, b) with
        | none => rfl
        | some q =>
          have h2 := punct2_spelled _ (lookup_mem e2)
          simp only at h2
          have := h q (by rw [← h2]; exact ⟨rest, rfl⟩)
          rw [← h2] at this
          simp at this
      simp [hn, l]
  · rw [e] at h ⊢
    rw [List.cons_append, List.cons_append, List.nil_append]
    unfold punctuation
    simp only [l]
    split
    · rename_i e1
      cases e1
      split
      · rename_i rest'
        have h3 := h .dotDotEq (by
          rw [show points (operator .dotDotEq) = [46, 46, 61] by decide +kernel]
          have : [46, 46] = [a, b] := by rw [← e]; decide +kernel
          cases this
          exact ⟨rest', rfl⟩)
        rw [show points (operator .dotDotEq) = [46, 46, 61] by decide +kernel] at h3
        simp at h3
      · rfl
    · rename_i e1
      cases e1
      rfl
    · rename_i e1
      cases e1
  · cases operator_dotDotEq e
    rw [e]
    rfl

theorem lexPunct_complete {p : Punct} {rest : List Nat} {ts : List Tok} (h : EndsBefore (points (operator p)) rest (.punct p))
    (hf : f rest = some ts) : lexPunct f (points (operator p) ++ rest) = some (.punct p :: ts) := by
  unfold lexPunct
  rw [punctuation_complete h]
  simp [hf]

theorem lexString_complete {mk : List Nat → Tok} {s rest : List Nat} {ts : List Tok} (h : ∀ c ∈ s, c ≠ 34 ∧ c ≠ 92) (hf : f rest = some ts) :
    lexString f mk (s ++ 34 :: rest) = some (mk s :: ts) := by
  unfold lexString
  rw [quoted_append h]
  simp [hf]

theorem lexQuote_lifetime {w rest : List Nat} {ts : List Tok} (h : IsWord w)
    (hr : ∀ c ∈ rest.head?, ¬ (IsLetter c ∨ IsDigit c ∨ c = 34 ∨ c = 39)) (hf : f rest = some ts) :
    lexQuote f (w ++ rest) = some (.lifetime :: ts) := by
  obtain ⟨c, cs, rfl, h1, h2⟩ := h
  obtain ⟨k1, k2⟩ := head_not_cont hr
  rw [List.cons_append]
  unfold lexQuote
  split
  · rename_i e
    exfalso
    simp only [List.cons.injEq] at e
    obtain ⟨rfl, e⟩ := e
    cases cs with
    | nil =>
      rw [List.nil_append] at e
      rw [e] at hr
      exact hr 39 rfl (by simp)
    | cons d cs =>
      cases e
      have := h2 39 List.mem_cons_self
      unfold IsLetter IsDigit at this
      omega
  · rename_i e
    cases e
    rw [identStart_iff.mpr h1]
    simp only
    rw [spanOf_append (fun d hd => identCont_iff.mpr (h2 d hd)) k1]
    simp [k2, hf]
  · rename_i e
    cases e

end

/-! ## Lines -/

theorem operator_head (p : Punct) : ∃ c cs, points (operator p) = c :: cs ∧
    ¬ (c = 32 ∨ c = 9) ∧ identStart c = false ∧ isDigit c = false ∧ c ≠ 34 ∧ c ≠ 39 ∧ c ≠ 47 := by
  have h : ∀ w : List Nat, (match w with
      | c :: _ => !(c == 32 || c == 9) && !identStart c && !isDigit c && !(c == 34) && !(c == 39) && !(c == 47)
      | [] => false) = true →
      ∃ c cs, w = c :: cs ∧ ¬ (c = 32 ∨ c = 9) ∧ identStart c = false ∧ isDigit c = false ∧ c ≠ 34 ∧ c ≠ 39 ∧ c ≠ 47 := by
    intro w hw
    cases w with
    | nil => cases hw
    | cons c cs =>
      simp only [Bool.and_eq_true, Bool.not_eq_eq_eq_not, Bool.not_true, Bool.or_eq_false_iff, beq_eq_false_iff_ne] at hw
      obtain ⟨⟨⟨⟨⟨h1, h2⟩, h3⟩, h4⟩, h5⟩, h6⟩ := hw
      exact ⟨c, cs, rfl, by simpa using h1, h2, h3, h4, h5, h6⟩
  apply h
  cases p <;> decide +kernel

theorem lexLine_cons (n c : Nat) (rest : List Nat) : lexLine (n + 1) (c :: rest) =
    (if c = 32 ∨ c = 9 then lexLine n rest
      else if identStart c then
        match c, rest with
        | 98, 39 :: x :: 39 :: rest => if x = 92 ∨ x = 39 then none else (lexLine n rest).map (.byte x :: ·)
        | 98, 34 :: rest => lexString (lexLine n) .bstr rest
        | c, rest => lexWord (lexLine n) (c :: rest)
      else if isDigit c then
        match c, rest with
        | 48, 120 :: rest => lexNumber (lexLine n) 16 isHexDigit rest
        | c, rest => lexNumber (lexLine n) 10 isDigit (c :: rest)
      else if c = 34 then lexString (lexLine n) .str rest
      else if c = 39 then lexQuote (lexLine n) rest
      else
        match c, rest with
        | 47, 47 :: _ => some []
        | c, rest => lexPunct (lexLine n) (c :: rest)) := rfl

theorem letter_head {c : Nat} (h : IsLetter c) : ¬ (c = 32 ∨ c = 9) ∧ identStart c = true := by
  refine ⟨?_, identStart_iff.mpr h⟩
  unfold IsLetter at h
  omega

theorem lexLine_word {n : Nat} {w rest : List Nat} (h : IsWord w)
    (hr : ∀ c ∈ rest.head?, ¬ (IsLetter c ∨ IsDigit c ∨ c = 34 ∨ c = 39)) :
    lexLine (n + 1) (w ++ rest) = lexWord (lexLine n) (w ++ rest) := by
  obtain ⟨c, cs, rfl, h1, h2⟩ := h
  obtain ⟨k1, k2⟩ := letter_head h1
  have hq : ∀ q, q = 34 ∨ q = 39 → ∀ l, cs ++ rest ≠ q :: l := by
    intro q hq l e
    cases cs with
    | nil =>
      rw [List.nil_append] at e
      rw [e] at hr
      exact hr q rfl (.inr (.inr hq))
    | cons d cs =>
      cases e
      have := h2 q List.mem_cons_self
      unfold IsLetter IsDigit at this
      omega
  rw [List.cons_append]
  rw [lexLine_cons, if_neg k1, if_pos k2]
  split
  · rename_i e
    exact absurd e (hq 39 (.inr rfl) _)
  · rename_i e
    exact absurd e (hq 34 (.inl rfl) _)
  · rfl

theorem lexLine_digit {n c : Nat} {rest : List Nat} (h : isDigit c = true) : lexLine (n + 1) (c :: rest) =
    if c = 48 ∧ rest.head? = some 120 then lexNumber (lexLine n) 16 isHexDigit rest.tail else lexNumber (lexLine n) 10 isDigit (c :: rest) := by
  have hd := isDigit_iff.mp h
  unfold IsDigit at hd
  have h1 : ¬ (c = 32 ∨ c = 9) := by omega
  have h2 : ¬ identStart c = true := by
    rw [identStart_iff]
    unfold IsLetter
    omega
  rw [lexLine_cons, if_neg h1, if_neg h2, if_pos h]
  split
  · rfl
  · rename_i hn
    rw [if_neg]
    rintro ⟨rfl, e⟩
    cases rest with
    | nil => cases e
    | cons d rest => cases e; exact hn _ rfl rfl

theorem lexLine_complete {cs : List Nat} {ts : List Tok} (h : IsLine cs ts) : ∀ n, cs.length < n → lexLine n cs = some ts := by
  induction h with
  | nil =>
    intro n hn
    obtain ⟨n, rfl⟩ : ∃ g, n = g + 1 := ⟨n - 1, by simp at hn; omega⟩
    rfl
  | space c cs ts h _ ih =>
    intro n hn
    obtain ⟨n, rfl⟩ : ∃ g, n = g + 1 := ⟨n - 1, by omega⟩
    rw [lexLine_cons, if_pos h]
    exact ih n (by simp at hn; omega)
  | comment cs =>
    intro n hn
    obtain ⟨n, rfl⟩ : ∃ g, n = g + 1 := ⟨n - 1, by omega⟩
    rfl
  | token w t cs ts h he _ ih =>
    intro n hn
    obtain ⟨n, rfl⟩ : ∃ g, n = g + 1 := ⟨n - 1, by omega⟩
    simp only [List.length_append] at hn
    cases h with
    | word w s h hs hk =>
      have hw : 0 < w.length := by obtain ⟨c, cs, rfl, _⟩ := h; simp
      rw [lexLine_word h he, lexWord_complete h he (ih n (by omega)), word_ident h hs hk]
    | keyword k =>
      have h := keyword_isWord k
      have hw : 0 < (points (keyword k)).length := by obtain ⟨c, cs, e, _⟩ := h; rw [e]; simp
      rw [lexLine_word h he, lexWord_complete h he (ih n (by omega)), word_keyword]
    | lifetime w h =>
      rw [List.cons_append, lexLine_cons]
      simp only [List.length_cons] at hn
      exact lexQuote_lifetime h he (ih n (by omega))
    | decimal ds m s h hm hs =>
      have hds := number_dec hm
      cases ds with
      | nil => exact absurd rfl h
      | cons d ds =>
        simp only [List.length_cons, List.cons_append, List.length_append] at hn
        have e := lexNumber_complete (f := lexLine n) hds (fun _ => hex_of_dec) h hm hs he (ih n (by omega))
        simp only [List.cons_append] at e ⊢
        rw [lexLine_digit (hds d List.mem_cons_self)]
        split
        · rename_i e1
          exfalso
          replace e1 := e1.2
          obtain ⟨_, _, s3, s4⟩ := suffix_points hs
          cases ds with
          | cons a ds =>
            cases e1
            have := hds 120 (by simp)
            cases this
          | nil =>
            rw [List.nil_append] at e1
            cases ep : points s with
            | nil =>
              rw [ep, List.nil_append] at e1
              exact he.1 120 e1 (.inl (by unfold IsLetter; omega))
            | cons a l =>
              rw [ep] at e1
              cases e1
              have : ∀ s ∈ ["", "u8", "u32", "usize"], (points s).head? ≠ some 120 := by decide +kernel
              exact this s hs (by rw [ep]; rfl)
        · exact e
    | hexadecimal ds m s h hm hs =>
      simp only [List.length_cons, List.cons_append, List.length_append] at hn
      have e := lexNumber_complete (f := lexLine n) (number_hex hm) (fun _ h => h) h hm hs he (ih n (by omega))
      simp only [List.cons_append] at e ⊢
      rw [lexLine_digit (by rfl), if_pos ⟨rfl, rfl⟩]
      exact e
    | char c h h' =>
      simp only [List.length_cons] at hn
      have e := ih n (by omega)
      have : lexLine (n + 1) ([39, c, 39] ++ cs) = (if c = 92 ∨ c = 39 then none else (lexLine n cs).map (.char c :: ·)) := rfl
      rw [this, if_neg (by omega), e]
      rfl
    | byte c h h' =>
      simp only [List.length_cons] at hn
      have e := ih n (by omega)
      have : lexLine (n + 1) ([98, 39, c, 39] ++ cs) = (if c = 92 ∨ c = 39 then none else (lexLine n cs).map (.byte c :: ·)) := rfl
      rw [this, if_neg (by omega), e]
      rfl
    | str s h =>
      simp only [List.length_cons, List.cons_append, List.length_append] at hn
      have e := lexString_complete (f := lexLine n) (mk := .str) h (ih n (by omega))
      simp only [List.cons_append, List.append_assoc, List.nil_append]
      exact e
    | bstr s h =>
      simp only [List.length_cons, List.cons_append, List.length_append] at hn
      have e := lexString_complete (f := lexLine n) (mk := .bstr) h (ih n (by omega))
      simp only [List.cons_append, List.append_assoc, List.nil_append]
      exact e
    | operator p =>
      obtain ⟨c, l, ep, h1, h2, h3, h4, h5, h6⟩ := operator_head p
      have e := lexPunct_complete (f := lexLine n) he (ih n (by rw [ep] at hn; simp at hn; omega))
      rw [ep] at e ⊢
      rw [List.cons_append] at e ⊢
      rw [lexLine_cons, if_neg h1, if_neg (by simp [h2]), if_neg (by simp [h3]), if_neg h4, if_neg h5]
      split
      · exact absurd rfl h6
      · exact e

theorem lex_complete {lines : List (List Nat)} {ts : List Tok} (h : IsText lines ts) : lex lines = some ts := by
  induction h with
  | nil => rfl
  | cons l ls ts us h _ ih =>
    rw [lex, lexLine_complete h _ (by omega), ih]
    rfl

/-- The rules give a text at most one sequence of tokens. -/
theorem text_unique {lines : List (List Nat)} {ts ts' : List Tok} (h : IsText lines ts) (h' : IsText lines ts') : ts = ts' := by
  have e := lex_complete h
  rw [lex_complete h'] at e
  cases e
  rfl

end Langtag.Source
