import Verif.Proof.Parser
import Verif.Props.Components

/-! # C55: reading a tag from left to right -/

set_option autoImplicit false

namespace Langtag.Props
open Langtag.Spec Langtag.Model Langtag.Proof

/-- C55: the reader (`Spec.Parser.parse`) finds the parts of a text: those it returns are well-formed and give the text back,
and if the text has parts it returns them. -/
theorem C55_parse (w : Text) (p : Parts) : Parser.parse w = some p ↔ Decomposes w p := parse_iff w p

/-- C55: `NormalLangTag::new` accepts exactly the texts the reader can read. -/
theorem C55_accepts (w : Text) : Accepts NormalLangTag w ↔ (Parser.parse w).isSome := by
  rw [accepts_iff is_NormalLangTag, matches_langtag, Option.isSome_iff_exists]
  exact ⟨fun ⟨p, h⟩ => ⟨p, (parse_iff w p).mpr h⟩, fun ⟨p, h⟩ => ⟨p, (parse_iff w p).mp h⟩⟩

/-- C55: where the accessors return, they return what the reader found; `language()` always does, and so do the others on a tag
that has a private use part and no extension. -/
theorem C55_accessors (t : NormalLangTag) (p : Parts) (h : Parser.parse t.str = some p) :
    t.language = .ok ⟨p.language⟩ ∧
    (∀ s, t.script = .ok s → s = p.script.map Script.mk) ∧
    (∀ r, t.region = .ok r → r = p.region.map Region.mk) ∧
    (∀ v, t.variants = .ok v → v = ⟨joinDash p.variants⟩) ∧
    (∀ e, t.extensions = .ok e → e = ⟨joinDash p.extensions⟩) ∧
    (p.extensions = [] → ∀ x, t.privateUse = .ok x → x = p.privateUse.map PrivateUse.mk) ∧
    (p.extensions = [] → p.privateUse ≠ none → NoPanic t) := by
  have h := (parse_iff _ _).mp h
  have hn := C22_noPanic_partial t p h
  refine ⟨C16_language t p h, ?_, ?_, ?_, ?_, ?_, ?_⟩
  · intro s hs
    rw [(C17_script_partial t p h).1 (hn.2.1.mp ⟨_, hs⟩)] at hs
    exact (Except.ok.inj hs).symm
  · intro s hs
    rw [(C18_region_partial t p h).1 (hn.2.2.1.mp ⟨_, hs⟩)] at hs
    exact (Except.ok.inj hs).symm
  · intro s hs
    rw [(C19_variants_partial t p h).1 (hn.2.2.2.1.mp ⟨_, hs⟩)] at hs
    exact (Except.ok.inj hs).symm
  · intro s hs
    rw [(C20_extensions_partial t p h).1 (hn.2.2.2.2.1.mp ⟨_, hs⟩)] at hs
    exact (Except.ok.inj hs).symm
  · intro he s hs
    rw [(C21_privateUse_partial t p h).1 (hn.2.2.2.2.2.1.mp ⟨_, hs⟩) he] at hs
    exact (Except.ok.inj hs).symm
  · intro he hp
    refine C22_noPanic_of_tail t p h ?_
    cases hx : p.privateUse with
    | none => exact absurd hx hp
    | some x => simp [Parts.afterVariants, hx]

example : Accepts NormalLangTag (ascii "zh-yue-Hant-HK-1abc-abcde-a-bbb-cc-b-dd-x-y-zzz") :=
  (C55_accepts _).mpr (by decide +kernel)
example : ¬ Accepts NormalLangTag (ascii "en-a-b") := fun h => absurd ((C55_accepts _).mp h) (by decide +kernel)
example : (NormalLangTag.mk (ascii "en-x-foo-b")).language = .ok ⟨ascii "en"⟩ :=
  (C55_accessors ⟨ascii "en-x-foo-b"⟩ { language := ascii "en", privateUse := some (ascii "x-foo-b") } (by decide +kernel)).1

end Langtag.Props
