import Verif.Source.RunConst
import Verif.Source.Errors
import Verif.Props.SourceKinds
import Verif.Props.SourceValid
import Verif.Props.Client

/-!
# The public constants, and the rest of printing, of the text of the crate

C12: `GRANDFATHERED`, src/grandfathered.rs:55-60.  C27, C69, C70: `Variants::EMPTY`, `Extensions::EMPTY`, src/normal/variant.rs:67, src/normal/extension.rs:212.
-/

set_option autoImplicit false

namespace Langtag.Props
open Langtag.Model hiding Singleton
open Langtag.Source Langtag.Spec Langtag.Proof

/-- C69: the three public constants of the crate. -/
theorem C69_constants (max : Nat) :
    runConst max ["GRANDFATHERED"] = returns (.array (GRANDFATHERED.map variantVal)) ∧
    runConst max ["Variants", "EMPTY"] = returns (tag "Variants" []) ∧
    runConst max ["Extensions", "EMPTY"] = returns (tag "Extensions" []) :=
  ⟨runConst_eq (by kernel_rfl) GRANDFATHERED_const, runConst_eq (by kernel_rfl) Variants.empty_const,
   runConst_eq (by kernel_rfl) Extensions.empty_const⟩

/-- C69: and there are no others. -/
theorem C69_constants_table (max : Nat) (P : Program) (h : readCrate max = some P) :
    ∀ c ∈ P.consts, c.1.head? = some "grammar" ∨ (c.1, c.2.1) ∈ [([], "GRANDFATHERED"), (["Variants"], "EMPTY"), (["Extensions"], "EMPTY")] := by
  rw [readCrate_eq] at h
  cases h
  show ∀ c ∈ (crate 0).consts, _
  decide +kernel

/-- C12: the public list `GRANDFATHERED` of the text of the crate holds each of the 26 values once, and so each value that parsing any text can give. -/
theorem C12_source_list (max : Nat) : ∃ vs, runConst max ["GRANDFATHERED"] = returns (.array vs) ∧ vs.length = 26 ∧ vs.Nodup ∧
    (∀ v, v ∈ vs ↔ ∃ g, v = variantVal g) ∧
    (∀ v, v ∈ vs ↔ ∃ s, run max ["GrandfatheredLangTag"] "new" [.str s] = returns (.ok v)) := by
  have hm : ∀ v, v ∈ GRANDFATHERED.map variantVal ↔ ∃ g, v = variantVal g := fun v =>
    ⟨fun h => let ⟨g, _, e⟩ := List.mem_map.mp h; ⟨g, e.symm⟩, fun ⟨g, e⟩ => e ▸ List.mem_map.mpr ⟨g, C12_list.1 g, rfl⟩⟩
  refine ⟨_, (C69_constants max).1, rfl, ?_, hm, fun v => (hm v).trans ?_⟩
  · exact List.pairwise_map.mpr (C12_list.2.1.imp fun h e => h (variantVal_inj e))
  · exact ⟨fun ⟨g, e⟩ => ⟨ascii (registered g), run_grandfathered_new.mpr ⟨g, e, CaseEq.refl _⟩⟩,
      fun ⟨_, h⟩ => let ⟨g, e, _⟩ := run_grandfathered_new.mp h; ⟨g, e⟩⟩

-- `GRANDFATHERED` holds what `GrandfatheredLangTag::new("I-KLINGON")` gives
example : ∃ vs, runConst 100 ["GRANDFATHERED"] = returns (.array vs) ∧ variantVal .IKlingon ∈ vs :=
  let ⟨vs, h, _, _, hm, _⟩ := C12_source_list 100
  ⟨vs, h, (hm _).mpr ⟨_, rfl⟩⟩

/-- C27: `Variants::EMPTY` and `Extensions::EMPTY` are the values that the constructors make of the empty text; nothing is to be got from their iterators. -/
theorem C27_source_constants (max : Nat) (h : 1 ≤ max) :
    (∃ v, runConst max ["Variants", "EMPTY"] = returns v ∧ run max ["Variants"] "new" [.str []] = returns (.ok v) ∧
      ∃ it, run max ["Variants"] "iter" [v] = returns it ∧ RunEnumeratesBothEnds max "VariantsIter" it "Variant" []) ∧
    (∃ v, runConst max ["Extensions", "EMPTY"] = returns v ∧ run max ["Extensions"] "new" [.str []] = returns (.ok v) ∧
      RunIterates max "Extensions" "iter" [v] "ExtensionsIter" "Extension" []) := by
  obtain ⟨_, k1, k2⟩ := C69_constants max
  have m1 : Grammar.variants.Matches [] := (accepts_iff is_Variants _).mp (accepts_of_isOk (by decide +kernel))
  have m2 : Grammar.extensions.Matches [] := (accepts_iff is_Extensions _).mp (accepts_of_isOk (by decide +kernel))
  exact ⟨⟨_, k1, (C06_source.2 max [] h).1 m1, (C28_source max [] h m1).1⟩, ⟨_, k2, (C07_source.2.2 max [] h).1 m2, C29_source max [] (by simp) h⟩⟩

-- so three calls of `next_back` and `next` of `Variants::EMPTY.iter()` give `None`
example : ∃ v it, runConst 100 ["Variants", "EMPTY"] = returns v ∧ run 100 ["Variants"] "iter" [v] = returns it ∧
    runCalls 100 "VariantsIter" ["next_back", "next", "next_back"] it = some [.none, .none, .none] :=
  let ⟨⟨v, h1, _, it, h2, h3⟩, _⟩ := C27_source_constants 100 (by decide)
  ⟨v, it, h1, h2, h3 [.back, .front, .back]⟩

/-! ## C66 -/

/-- C66: what `format!` with any fill, alignment and width makes of a grandfathered tag, trimmed of the fill character if it is not one of those of
the tags, reads back as the same tag, by the text of the crate. -/
theorem C66_source_trim (max : Nat) (g : GrandfatheredLangTag) (f : Formatter) (hp : f.precision = none)
    (hf : ¬ Grammar.alphanum.Matches (encodeChar f.fill)) (hd : f.fill ≠ '-') :
    ∃ text, run max ["GrandfatheredLangTag"] "fmt" [variantVal g, .formatter f []] = some (.returns (.ok (.tuple [])) [.formatter f text]) ∧
      run max ["GrandfatheredLangTag"] "new" [.str (utf8 (trimMatches f.fill text))] = returns (.ok (variantVal g)) := by
  refine ⟨_, (C69_grandfathered max g [] f []).2.2.2.2.2, run_grandfathered_new.mpr ⟨g, rfl, ?_⟩⟩
  exact (C12_new_ok _ g).mp ((C66_width g f hp).2 ⟨hf, hd⟩)

-- `{:*^12}`
example : ∃ text, run 100 ["GrandfatheredLangTag"] "fmt" [variantVal .IHak, .formatter ⟨'*', some .Center, some 12, none⟩ []] =
      some (.returns (.ok (.tuple [])) [.formatter ⟨'*', some .Center, some 12, none⟩ text]) ∧
    run 100 ["GrandfatheredLangTag"] "new" [.str (utf8 (trimMatches '*' text))] = returns (.ok (variantVal .IHak)) := by
  refine C66_source_trim 100 .IHak ⟨'*', some .Center, some 12, none⟩ rfl (fun h => ?_) (by decide)
  obtain ⟨b, h1, h2⟩ := (isClass_alphanum _).mp h
  rw [show encodeChar '*' = [42] from by decide +kernel] at h1
  obtain rfl := (List.cons.inj h1).1
  revert h2
  rw [← isAsciiAlphanumeric_iff]
  decide

/-- C66: `{:?}` of a kind is the name of its variant in the text of the crate. -/
theorem C66_source_kind (max : Nat) : ∀ x ∈ ["Normal", "PrivateUse", "Grandfathered"],
    runDerivedDebug max "Kind" (.ctor ["Kind"] x []) = some x.toList := by
  intro x hx
  simp only [List.mem_cons, List.not_mem_nil, or_false] at hx
  have h := fun k => (C69_derived max).1 k k .default
  rcases hx with rfl | rfl | rfl
  · exact (h .Normal).2.2.2.2.trans (by decide +kernel)
  · exact (h .PrivateUse).2.2.2.2.trans (by decide +kernel)
  · exact (h .Grandfathered).2.2.2.2.trans (by decide +kernel)

/-- C66: whatever text, byte or character is rejected, and whatever the options of the formatter, the error is printed as the same fixed message, by the
text of the crate: nothing of what was rejected is in it. -/
theorem C66_source_errors (max : Nat) (f : Formatter) (s : Text) (hs : IsUtf8 s) (b : UInt8) (c : Char) :
    (∀ e, run max ["GrandfatheredLangTag"] "try_from" [.bytes s] = returns (.err e) →
      runErrorDisplay max "InvalidGrandfatheredTag" e f = some "invalid grandfathered tag".toList) ∧
    ∀ call ∈ [("new", Val.u8 b), ("try_from", .u8 b), ("try_from", .char c), ("from_string", .str s), ("from_str", .str s)], ∀ e,
      run max ["Singleton"] call.1 [call.2] = returns (.err e) → runErrorDisplay max "InvalidSingleton" e f = some "invalid extension identifier".toList := by
  have m1 : ∀ x vs, runErrorDisplay max "InvalidGrandfatheredTag" (.ctor ["InvalidGrandfatheredTag"] x vs) f = some "invalid grandfathered tag".toList :=
    fun x vs => (runErrorDisplay_of message_InvalidGrandfatheredTag (declaration_InvalidGrandfatheredTag max) (by decide) (by decide) x vs f).trans
      (by decide +kernel)
  have m2 : ∀ x vs, runErrorDisplay max "InvalidSingleton" (.ctor ["InvalidSingleton"] x vs) f = some "invalid extension identifier".toList :=
    fun x vs => (runErrorDisplay_of message_InvalidSingleton (declaration_InvalidSingleton max) (by decide) (by decide) x vs f).trans
      (by decide +kernel)
  have ne : ∀ {v e : Val} {r : Option Outcome}, r = returns (.ok v) → r = returns (.err e) → False := fun h h' => ok_ne_err (h.symm.trans h')
  have inj : ∀ {v e : Val} {r : Option Outcome}, r = returns (.err v) → r = returns (.err e) → v = e := fun h h' => by
    simpa [Val.err] using h.symm.trans h'
  obtain ⟨k1, k2, k3, k4⟩ := C32_source max b c s hs
  refine ⟨fun e he => ?_, fun call hc e he => ?_⟩
  · by_cases hg : ∃ g, CaseEq s (ascii (registered g))
    · obtain ⟨g, hg⟩ := hg
      exact (ne ((C12_source_tryFrom max s g).1 hg) he).elim
    · rw [← inj ((C12_source_tryFrom max s .IHak).2 fun g h => hg ⟨g, h⟩) he]
      exact m1 _ _
  · have u8 : ∀ fn ∈ ["new", "try_from"], run max ["Singleton"] fn [.u8 b] = returns (.err e) →
        runErrorDisplay max "InvalidSingleton" e f = some "invalid extension identifier".toList := fun fn hf he => by
      by_cases hm : Grammar.singleton.Matches [b]
      · exact (ne ((k1 fn hf).1 hm) he).elim
      · rw [← inj ((k1 fn hf).2 hm) he]
        exact m2 _ _
    have str : ∀ fn ∈ ["from_string", "from_str"], run max ["Singleton"] fn [.str s] = returns (.err e) →
        runErrorDisplay max "InvalidSingleton" e f = some "invalid extension identifier".toList := fun fn hf he => by
      by_cases hm : Grammar.singleton.Matches s
      · obtain ⟨b', rfl⟩ : ∃ b', s = [b'] := let ⟨b', h, _⟩ := (isClass_singleton _).mp hm; ⟨b', h⟩
        exact (ne ((k4 fn hf).1 b' rfl hm) he).elim
      · rw [← inj ((k4 fn hf).2 hm) he]
        exact m2 _ _
    simp only [List.mem_cons, List.not_mem_nil, or_false] at hc
    rcases hc with rfl | rfl | rfl | rfl | rfl
    · exact u8 _ (by simp) he
    · exact u8 _ (by simp) he
    · by_cases hm : Grammar.singleton.Matches (encodeChar c)
      · obtain ⟨b', hb, _⟩ := (isClass_singleton _).mp hm
        exact (ne (k2 b' hb (hb ▸ hm)) he).elim
      · rw [← inj (k3 hm) he]
        exact m2 _ _
    · exact str _ (by simp) he
    · exact str _ (by simp) he

-- `Singleton::new(b'x')`, printed with a width
example : ∃ e, run 100 ["Singleton"] "new" [.u8 120] = returns (.err e) ∧
    runErrorDisplay 100 "InvalidSingleton" e ⟨'*', none, some 40, none⟩ = some "invalid extension identifier".toList := by
  have h : ¬ Grammar.singleton.Matches [120] := fun hm => by
    obtain ⟨_, h, _⟩ := (C32_u8 120).1 hm
    rw [show Model.Singleton.new 120 = .error 120 from by decide +kernel] at h
    cases h
  have k := ((C32_source 100 120 ' ' [] (Client.isUtf8_of_ascii fun _ h => absurd h (by simp))).1 "new" (by simp)).2 h
  exact ⟨_, k, (C66_source_errors 100 _ [] (Client.isUtf8_of_ascii fun _ h => absurd h (by simp)) 120 ' ').2 ("new", .u8 120) (by simp) _ k⟩

end Langtag.Props
