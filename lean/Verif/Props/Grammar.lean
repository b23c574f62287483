import Verif.Source.ItemsComplete
import Verif.Source.LexerComplete
import Verif.Source.Langtag
import Verif.Source.KernelRfl

/-!
# C69: the text of the crate is read by the grammar of Rust

`run` reads the files with the lexer and the parser of `Verif/Source`.  They need not be trusted: whatever they accept is a file with
these items by the rules of `Verif/Spec/Rust.lean`, and by these rules a file has no other items.
-/

set_option autoImplicit false

namespace Langtag.Props
open Langtag.Source Langtag.Spec.Rust

/-- C69: what is read of a text, whatever the text, is what it says by the grammar. -/
theorem C69_reader (lines : List (List Nat)) (is : List Item) (h : parseCodes lines = some is) : IsFile lines is := by
  unfold parseCodes at h
  split at h
  · rename_i ts e
    exact ⟨ts, lex_sound _ _ e, items_sound (parsers_sound _) _ _ _ _ h⟩
  · cases h

/-- C69: the grammar is unambiguous: no text, of whatever length, says two things. -/
theorem C69_unambiguous (lines : List (List Nat)) (is is' : List Item) (h : IsFile lines is) (h' : IsFile lines is') : is = is' := by
  obtain ⟨ts, h1, h2⟩ := h
  obtain ⟨ts', h1', h2'⟩ := h'
  cases text_unique h1 h1'
  exact items_unique h2 h2'

section
/-- `fn f(a: u8) -> bool { a - 1 - 2 == 3 || !a.b as u8 + 1 > 4 }` -/
private def sample : List (List Nat) := [points "fn f(a: u8) -> bool {", points "  a - 1 - 2 == 3 || !a.b as u8 + 1 > 4 // ?", points "}"]

private def num (n : Nat) : Expr := .lit (.int n "")

private def sampleItems (sum : Expr) : List Item := [.fn ⟨"f", [("a", .path ["u8"] [])], .path ["bool"] [],
  .block [] (.bin .or (.bin .eq sum (num 3)) (.bin .gt (.bin .add (.cast (.not (.field (.path ["a"]) "b")) (.path ["u8"] [])) (num 1)) (num 4)))⟩]

/-- A text with operators of several strengths, a cast, a prefix, a field and a comment. -/
private theorem sample_read : IsFile sample (sampleItems (.bin .sub (.bin .sub (.path ["a"]) (num 1)) (num 2))) :=
  C69_reader _ _ (by kernel_rfl)

/-- `a - 1 - 2` is `(a - 1) - 2` only. -/
example : ¬ IsFile sample (sampleItems (.bin .sub (.path ["a"]) (.bin .sub (num 1) (num 2)))) := fun h => by
  have := C69_unambiguous _ _ _ h sample_read
  simp [sampleItems, num] at this

/-- An identifier with a digit first is not read, and has no meaning either: the rules have no word for it. -/
example : parseCodes [points "fn 1f() {}"] = none := by kernel_rfl
end

/-- C69: the program that is executed is the one the files of the crate say by the grammar, and they say no other. -/
theorem C69_grammar (max : Nat) : ∃ grammar files, readCrate max = some (program max grammar files) ∧
    files.length = texts.length ∧ IsFile Text.grammarRs grammar ∧ (∀ p ∈ texts.zip files, IsFile p.1 p.2) ∧
    ∀ grammar' files', files'.length = texts.length → IsFile Text.grammarRs grammar' → (∀ p ∈ texts.zip files', IsFile p.1 p.2) →
      grammar' = grammar ∧ files' = files := by
  have hg := C69_reader _ _ Parsed.grammarRs
  have hfiles : ∀ p ∈ texts.zip files, IsFile p.1 p.2 := by
    simp only [texts, files, List.zip_cons_cons, List.zip_nil_left, List.mem_cons, List.not_mem_nil, or_false]
    rintro p (rfl | rfl | rfl | rfl | rfl | rfl | rfl | rfl | rfl | rfl | rfl | rfl | rfl)
    · exact C69_reader _ _ Parsed.utilsRs
    · exact C69_reader _ _ Parsed.privateUseAliasRs
    · exact C69_reader _ _ Parsed.grandfatheredRs
    · exact C69_reader _ _ Parsed.libRs
    · exact C69_reader _ _ Parsed.normalRs
    · exact C69_reader _ _ Parsed.extensionRs
    · exact C69_reader _ _ Parsed.privateUseRs
    · exact C69_reader _ _ Parsed.regionRs
    · exact C69_reader _ _ Parsed.scriptRs
    · exact C69_reader _ _ Parsed.variantRs
    · exact C69_reader _ _ Parsed.languageRs
    · exact C69_reader _ _ Parsed.extlangRs
    · exact C69_reader _ _ Parsed.primaryRs
  refine ⟨Automata.grammarRs, files, readCrate_eq max, rfl, hg, hfiles, fun grammar' files' hl hg' hf' => ?_⟩
  refine ⟨C69_unambiguous _ _ _ hg' hg, ?_⟩
  have all : ∀ (ts : List (List (List Nat))) (fs fs' : List (List Item)), fs.length = ts.length → fs'.length = ts.length →
      (∀ p ∈ ts.zip fs, IsFile p.1 p.2) → (∀ p ∈ ts.zip fs', IsFile p.1 p.2) → fs' = fs := by
    intro ts
    induction ts with
    | nil =>
      intro fs fs' h h' _ _
      rw [List.length_eq_zero_iff.mp h, List.length_eq_zero_iff.mp h']
    | cons t ts ih =>
      intro fs fs' h h' k k'
      match fs, fs', h, h' with
      | f :: fs, f' :: fs', h, h' =>
        simp only [List.zip_cons_cons, List.mem_cons, forall_eq_or_imp] at k k'
        rw [C69_unambiguous _ _ _ k'.1 k.1, ih fs fs' (by simpa using h) (by simpa using h') k.2 k'.2]
  exact all texts files files' rfl hl hfiles hf'

end Langtag.Props
