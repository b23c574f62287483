import Verif.Spec.Format
import Verif.Props.SourceMore

/-! # C66: printing with all the options together, of grandfathered tags and of singletons -/

set_option autoImplicit false

namespace Langtag.Props
open Langtag.Model hiding Singleton
open Langtag.Source Langtag.Spec Langtag.Proof

theorem pad_cut (f : Formatter) (s : List Char) : f.pad s = ({ f with precision := none } : Formatter).pad (cut f.precision s) := by
  obtain ⟨fill, al, w, p⟩ := f
  cases p with
  | none => simp [Formatter.pad, cut]
  | some p => simp only [Formatter.pad, cut, Option.getD_some]; rfl

theorem pad_shows (f : Formatter) (s : List Char) : Shows f s (f.pad s) := by
  rw [pad_cut]
  exact pad_noPrecision { f with precision := none } rfl (cut f.precision s)

theorem singleton_display (b : UInt8) : (Model.Singleton.mk b).fmt .default = [Char.ofNat b.toNat] := by
  simp [Model.Singleton.fmt, pad_default, Model.Singleton.display]

/-- C66: whatever the options, a grandfathered tag and a singleton are printed as the options ask for; and a singleton printed without a precision, trimmed of
the fill character, if that is not alphanumeric, reads back as the same singleton. -/
theorem C66_options (g : GrandfatheredLangTag) (s : Model.Singleton) (f : Formatter) :
    Shows f (registered g).toList (g.fmt f) ∧ Shows f (s.fmt .default) (s.fmt f) ∧
    (∀ b, Singleton.new b = .ok s → f.precision = none → ¬ Grammar.alphanum.Matches (encodeChar f.fill) →
      Model.Singleton.fromString (utf8 (trimMatches f.fill (s.fmt f))) = .ok (.ok s)) := by
  refine ⟨?_, pad_shows f _, fun b hb hp hf => ?_⟩
  · rw [show (registered g).toList = asciiChars g.asStr from by cases g <;> decide +kernel]
    exact pad_shows f _
  · obtain ⟨h1, h2, _, h4⟩ := C66_singleton b s hb
    obtain ⟨_, _, h, _⟩ := h4 f hp
    have hm : Grammar.alphanum.Matches [b] := by
      refine (isClass_alphanum _).mpr ⟨b, rfl, (isAsciiAlphanumeric_iff b).mp ?_⟩
      unfold Model.Singleton.new at hb
      split at hb
      · exact (by assumption : _ ∧ _ ∧ _).2.2
      · cases hb
    rw [trimMatches_padded (s := s.fmt .default) (by cases s; rw [singleton_display]; simp) (fun hc => ?_) h, h2]
    cases s
    rw [singleton_display] at hc h1
    rw [List.mem_singleton] at hc
    rw [hc] at hf
    rw [show encodeChar (Char.ofNat _) = [b] from by simpa [utf8] using h1] at hf
    exact hf hm

-- `{:*^6.3}`, `{:>3}`, `{:.0}`
example : GrandfatheredLangTag.IHak.fmt ⟨'*', some .Center, some 6, some 3⟩ = "*i-h**".toList := by decide +kernel
example : (Model.Singleton.mk 117).fmt ⟨' ', some .Right, some 3, none⟩ = "  u".toList ∧
    (Model.Singleton.mk 117).fmt ⟨' ', none, none, some 0⟩ = [] := by decide +kernel

/-- C66: so by the text of the crate, whatever is in the formatter already. -/
theorem C66_source_options (max : Nat) (g : GrandfatheredLangTag) (b : UInt8) (hb : Grammar.singleton.Matches [b]) (f : Formatter) (out : List Char) :
    (∃ text, Shows f (registered g).toList text ∧
      run max ["GrandfatheredLangTag"] "fmt" [variantVal g, .formatter f out] = some (.returns (.ok (.tuple [])) [.formatter f (out ++ text)])) ∧
    ∃ c text, encodeChar c = [b] ∧ Shows f [c] text ∧
      run max ["Singleton"] "fmt" [singletonVal b, .formatter f out] = some (.returns (.ok (.tuple [])) [.formatter f (out ++ text)]) ∧
      (f.precision = none → ¬ Grammar.alphanum.Matches (encodeChar f.fill) →
        run max ["Singleton"] "from_string" [.str (utf8 (trimMatches f.fill text))] = returns (.ok (singletonVal b))) := by
  obtain ⟨⟨s⟩, e1, _, hs⟩ := (C32_u8 b).1 hb
  obtain rfl : s = b := hs
  obtain ⟨o1, o2, o3⟩ := C66_options g ⟨s⟩ f
  refine ⟨⟨_, o1, (C69_grandfathered max g [] f out).2.2.2.2.2⟩, Char.ofNat s.toNat, _, ?_, singleton_display s ▸ o2,
    (C69_singleton max ⟨s⟩ [] 0 ' ' f out).2.2.2.2.2.2.2.2.1, fun hp hf => ?_⟩
  · have h1 := (C66_singleton s ⟨s⟩ e1).1
    rw [singleton_display] at h1
    simpa [utf8] using h1
  · have k := (C69_singleton max ⟨s⟩ (utf8 (trimMatches f.fill ((Model.Singleton.mk s).fmt f))) 0 ' ' f out).2.2.2.1
    rw [o3 s e1 hp hf] at k
    exact k

example : ∃ c text, encodeChar c = [117] ∧ Shows ⟨'-', some .Center, some 4, none⟩ [c] text ∧
    run 100 ["Singleton"] "fmt" [singletonVal 117, .formatter ⟨'-', some .Center, some 4, none⟩ ['>']] =
      some (.returns (.ok (.tuple [])) [.formatter ⟨'-', some .Center, some 4, none⟩ ('>' :: text)]) := by
  obtain ⟨c, t, h1, h2, h3, _⟩ := (C66_source_options 100 .IHak 117
    (Classical.byContradiction fun hn => absurd ((C32_u8 117).2 hn).1 (by decide +kernel)) ⟨'-', some .Center, some 4, none⟩ ['>']).2
  exact ⟨c, t, h1, h2, h3⟩

end Langtag.Props
