import Verif.Proof.Checked
import Verif.Props.Acceptance
import Verif.Props.Iterators

/-!
# C57: no index computation overflows or underflows

`Checked.f max` is `f` where every `usize` addition fails when its result exceeds `max` and every subtraction fails when its
result would be negative.  A Rust string has at most `isize::MAX` bytes, so with `max = usize::MAX` the hypothesis
`length + 1 ≤ max` holds of every string there is.
-/

set_option autoImplicit false

namespace Langtag.Props
open Langtag.Spec Langtag.Model Langtag.Proof

/-- C57: the six accessors, on any text. -/
theorem C57_accessors (max : Nat) (t : NormalLangTag) (h : t.str.length + 1 ≤ max) :
    Checked.language max t = t.language ∧ Checked.script max t = t.script ∧ Checked.region max t = t.region ∧
    Checked.variants max t = t.variants ∧ Checked.extensions max t = t.extensions ∧ Checked.privateUse max t = t.privateUse :=
  ⟨language_checked h, script_checked h, region_checked h, variants_checked h, extensions_checked h, privateUse_checked h⟩

/-- C57: `Extensions::get`, on any text and singleton. -/
theorem C57_get (max : Nat) (e : Extensions) (g : Singleton) (h : e.str.length + 1 ≤ max) :
    Checked.get max e g = e.get g := getLoop_checked h g 0 true (Nat.zero_le _)

/-- C57: any number of calls of `next` on the iterators over subtags, on any text. -/
theorem C57_iterators (max n : Nat) :
    (∀ e : Extension, e.str.length + 1 ≤ max →
      collect (Checked.extensionNext max) n e.iter = collect ExtensionIter.next n e.iter) ∧
    (∀ e : Extensions, e.str.length + 1 ≤ max →
      collect (Checked.extensionsNext max) n e.iter = collect ExtensionsIter.next n e.iter) ∧
    (∀ p : PrivateUse, p.str.length + 1 ≤ max →
      collect (Checked.privateUseNext max) n p.iter = collect PrivateUseIter.next n p.iter) ∧
    (∀ l : LanguageExtension, l.str.length + 1 ≤ max →
      collect (Checked.languageExtensionNext max) n l.iter = collect LanguageExtensionIter.next n l.iter) := by
  refine ⟨fun e h => ?_, fun e h => ?_, fun e h => ?_, fun e h => ?_⟩
  · exact collect_congr (fun it => it.data.length + 1 ≤ max) (fun it h => extensionNext_checked h)
      (fun it x it' hi h => by rw [data_extension h]; exact hi) n h
  · exact collect_congr (fun it => it.data.length + 1 ≤ max) (fun it h => extensionsNext_checked h)
      (fun it x it' hi h => by rw [data_extensions h]; exact hi) n h
  · exact collect_congr (fun it => it.data.length + 1 ≤ max) (fun it h => privateUseNext_checked h)
      (fun it x it' hi h => by rw [data_privateUse h]; exact hi) n h
  · exact collect_congr (fun it => it.data.length + 1 ≤ max) (fun it h => languageExtensionNext_checked h)
      (fun it x it' hi h => by rw [data_languageExtension h]; exact hi) n h

/-- C57: any history of calls of `next` and `next_back` on the variants, on any text. -/
theorem C57_variants (max : Nat) (v : Variants) (h : v.str.length + 1 ≤ max) (history : List Side) :
    collectSides (Checked.variantsNext max) (Checked.variantsNextBack max) history v.iter =
      collectSides VariantsIter.next VariantsIter.nextBack history v.iter :=
  collectSides_congr (fun it => it.data = v.str ∧ it.end_ ≤ it.data.length)
    (fun it hi => ⟨variantsNext_checked (by rw [hi.1]; exact h) hi.2, variantsNextBack_checked (by rw [hi.1]; exact h)⟩)
    (fun _ _ _ hi h => variants_inv hi h) history ⟨rfl, Nat.le_refl _⟩

/-- C57: the comparison behind `cmp`, on any two texts. -/
theorem C57_cmp (max : Nat) (a b : Text) (h : a.length ≤ max) :
    Checked.caseInsensitiveCmp max a b = caseInsensitiveCmp a b := caseInsensitiveCmp_checked h

/-- C57: the validation of a text by each of the fifteen automata, whatever the decoder does on non-ASCII bytes. -/
theorem C57_validate (max : Nat) (dec : Decoder) (hdec : AsciiCompatible dec) (s : Text) (h : s.length ≤ max) (d : Dfa)
    (hd : d ∈ [StrNewtype.automaton LangTag, StrNewtype.automaton NormalLangTag, StrNewtype.automaton Language,
      StrNewtype.automaton PrimaryLanguage, StrNewtype.automaton LanguageExtension,
      StrNewtype.automaton ExtendedLangTag, StrNewtype.automaton Script, StrNewtype.automaton Region,
      StrNewtype.automaton Variant, StrNewtype.automaton Variants, StrNewtype.automaton Extension,
      StrNewtype.automaton ExtensionSubtag, StrNewtype.automaton Extensions, StrNewtype.automaton PrivateUse,
      StrNewtype.automaton PrivateUseSubtag]) :
    Checked.validateBytesWith max dec d s = .ok (d.validateBytesWith dec s) := by
  have key : ∀ d ∈ [StrNewtype.automaton LangTag, StrNewtype.automaton NormalLangTag, StrNewtype.automaton Language,
      StrNewtype.automaton PrimaryLanguage, StrNewtype.automaton LanguageExtension,
      StrNewtype.automaton ExtendedLangTag, StrNewtype.automaton Script, StrNewtype.automaton Region,
      StrNewtype.automaton Variant, StrNewtype.automaton Variants, StrNewtype.automaton Extension,
      StrNewtype.automaton ExtensionSubtag, StrNewtype.automaton Extensions, StrNewtype.automaton PrivateUse,
      StrNewtype.automaton PrivateUseSubtag], okDfa d = true := by decide +kernel
  exact validateBytesWith_checked (key d hd) hdec h

-- the hypothesis holds with 64-bit and with 32-bit `usize` for the longest text there can be
example (s : Text) (h : s.length ≤ 2 ^ 63 - 1) : s.length + 1 ≤ 2 ^ 64 - 1 := by omega
example (s : Text) (h : s.length ≤ 2 ^ 31 - 1) : s.length + 1 ≤ 2 ^ 32 - 1 := by omega
-- the bound is what matters: with `max` equal to the length the addition after the last part overflows
example : Checked.variants 5 ⟨ascii "en-US"⟩ = .error .overflow := by decide +kernel
example : Checked.region 6 ⟨ascii "en-US"⟩ = .ok (some ⟨ascii "US"⟩) := by decide +kernel
example : Checked.extensionsNext 7 (Extensions.iter ⟨ascii "u-ca-jp"⟩) = .error .overflow := by decide +kernel
example : Checked.extensionsNext 8 (Extensions.iter ⟨ascii "u-ca-jp"⟩) = ExtensionsIter.next (Extensions.iter ⟨ascii "u-ca-jp"⟩) := by
  decide +kernel

end Langtag.Props
