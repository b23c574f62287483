import Verif.Model.LangTag
import Verif.Model.Compare
import Verif.Proof.CaseParts
import Verif.Proof.Accept
import Verif.Proof.Compare
import Verif.Proof.Utils
import Verif.Proof.Classify

/-! # The functions of the model on texts in lower case -/

set_option autoImplicit false

namespace Langtag.Lower
open Langtag.Model hiding Singleton
open Langtag.Spec
open Langtag.Proof

theorem bytes (P : UInt8 → Prop) [DecidablePred P] (h : ∀ n : Fin 256, P (UInt8.ofNat n.1)) (b : UInt8) : P b := by
  have := h ⟨b.toNat, b.toNat_lt⟩
  simpa using this

theorem lower_dash (b : UInt8) : lower b = 45 ↔ b = 45 := bytes (fun b => lower b = 45 ↔ b = 45) (by decide +kernel) b

theorem lower_boundary (b : UInt8) : (lower b < 0x80 || 0xC0 ≤ lower b) = (b < 0x80 || 0xC0 ≤ b) :=
  bytes (fun b => (decide (lower b < 0x80) || decide (0xC0 ≤ lower b)) = (decide (b < 0x80) || decide (0xC0 ≤ b))) (by decide +kernel) b

theorem length_lowerText (s : Text) : (lowerText s).length = s.length := List.length_map ..

theorem getElem?_lowerText (s : Text) (i : Nat) : (lowerText s)[i]? = s[i]?.map lower := List.getElem?_map ..

/-- The value of a computation, changed. -/
def mapR {α β : Type} (f : α → β) : Rust α → Rust β
  | .ok a => .ok (f a)
  | .error p => .error p

theorem mapR_ok {α β : Type} (f : α → β) (a : α) : mapR f (.ok a) = .ok (f a) := rfl
theorem mapR_pure {α β : Type} (f : α → β) (a : α) : mapR f (pure a) = .ok (f a) := rfl
theorem mapR_error {α β : Type} (f : α → β) (p : Panic) : mapR f (.error p : Rust α) = .error p := rfl
theorem mapR_id {α : Type} {f : α → α} (h : ∀ a, f a = a) (x : Rust α) : mapR f x = x := by cases x <;> simp [mapR, h]

theorem mapR_bind {α β γ : Type} (f : β → γ) (x : Rust α) (k : α → Rust β) : mapR f (x >>= k) = x >>= fun a => mapR f (k a) := by
  cases x <;> rfl

theorem bind_mapR {α β γ : Type} (f : α → β) (x : Rust α) (k : β → Rust γ) : mapR f x >>= k = x >>= fun a => k (f a) := by
  cases x <;> rfl

theorem bind_congr {α β : Type} (x : Rust α) {k k' : α → Rust β} (h : ∀ a, k a = k' a) : (x >>= k) = (x >>= k') := by
  cases x with
  | ok a => exact h a
  | error p => rfl

theorem index_lower (s : Text) (i : Nat) : index (lowerText s) i = mapR lower (index s i) := by
  unfold index
  rw [getElem?_lowerText]
  cases s[i]? <;> rfl

theorem isCharBoundary_lower (s : Text) (i : Nat) : isCharBoundary (lowerText s) i = isCharBoundary s i := by
  unfold isCharBoundary
  rw [getElem?_lowerText, length_lowerText]
  cases s[i]? with
  | none => rfl
  | some b => simp only [Option.map_some]; rw [lower_boundary]

theorem sliceRange_lower (s : Text) (a b : Nat) : sliceRange (lowerText s) a b = mapR lowerText (sliceRange s a b) := by
  unfold sliceRange
  rw [length_lowerText, isCharBoundary_lower, isCharBoundary_lower]
  split
  · simp [mapR, lowerText, List.map_drop, List.map_take]
  · rfl

theorem sliceFrom_lower (s : Text) (a : Nat) : sliceFrom (lowerText s) a = mapR lowerText (sliceFrom s a) := by
  unfold sliceFrom
  rw [length_lowerText]
  exact sliceRange_lower ..

theorem findListEndLoop_lower (s : Text) {f g : Nat → Str → Rust Bool} (h : ∀ i u, f i (lowerText u) = g i u) (offset i end_ : Nat) :
    findListEndLoop (lowerText s) f offset i end_ = findListEndLoop s g offset i end_ := by
  induction hn : s.length - i using Nat.strongRecOn generalizing offset i end_ with
  | ind n ih =>
    subst hn
    rw [findListEndLoop, findListEndLoop.eq_def s, length_lowerText]
    split
    · rename_i hi
      rw [index_lower, bind_mapR]
      refine bind_congr _ fun b => ?_
      simp only [lower_dash]
      rw [ih (s.length - (i + 1)) (by omega) offset (i + 1) end_ rfl, ih (s.length - (i + 1)) (by omega) (i + 1) (i + 1) i rfl]
      split
      · rw [sliceRange_lower, bind_mapR]
        refine bind_congr _ fun u => ?_
        rw [h]
      · rfl
    · rw [sliceFrom_lower, bind_mapR]
      refine bind_congr _ fun u => ?_
      rw [h]

theorem findListEnd_lower (s : Text) {f g : Nat → Str → Rust Bool} (h : ∀ i u, f i (lowerText u) = g i u) (offset : Nat) :
    findListEnd (lowerText s) offset f = findListEnd s offset g := findListEndLoop_lower s h ..

theorem findSegmentEnd_lower (s : Text) (i : Nat) : findSegmentEnd (lowerText s) i = findSegmentEnd s i := by
  unfold findSegmentEnd
  induction hn : s.length - i using Nat.strongRecOn generalizing i with
  | ind n ih =>
    subst hn
    rw [findSegmentEndLoop, findSegmentEndLoop.eq_def s, length_lowerText]
    split
    · rename_i hi
      rw [index_lower, bind_mapR]
      refine bind_congr _ fun b => ?_
      simp only [lower_dash]
      rw [ih (s.length - (i + 1)) (by omega) (i + 1) rfl]
    · rfl

theorem findSegmentStart_lower (s : Text) (i : Nat) : findSegmentStart (lowerText s) i = findSegmentStart s i := by
  have loop : ∀ i, findSegmentStartLoop (lowerText s) i = findSegmentStartLoop s i := by
    intro i
    induction i with
    | zero =>
      rw [findSegmentStartLoop, findSegmentStartLoop, index_lower, bind_mapR]
      exact bind_congr _ fun b => by simp only [lower_dash]
    | succ i ih =>
      rw [findSegmentStartLoop, findSegmentStartLoop, index_lower, bind_mapR]
      exact bind_congr _ fun b => by simp only [lower_dash, ih]
  unfold findSegmentStart
  rw [loop]

theorem splitOnceDash_lower (s : Text) :
    splitOnceDash (lowerText s) = (splitOnceDash s).map fun (u, v) => (lowerText u, lowerText v) := by
  induction s with
  | nil => rfl
  | cons b s ih =>
    show splitOnceDash (lower b :: lowerText s) = _
    rw [splitOnceDash, splitOnceDash, ih]
    by_cases h : b = 45
    · rw [if_pos ((lower_dash b).mpr h), if_pos h]; rfl
    · rw [if_neg fun e => h ((lower_dash b).mp e), if_neg h]
      cases splitOnceDash s <;> rfl

/-! ## Values of the model in lower case -/

/-- A value with its letters in lower case. -/
class Low (α : Type) where
  low : α → α
export Low (low)

instance : Low Bool := ⟨id⟩
instance : Low Ordering := ⟨id⟩
instance : Low Kind := ⟨id⟩
instance : Low GrandfatheredLangTag := ⟨id⟩
instance : Low UInt8 := ⟨lower⟩
instance : Low Model.Singleton := ⟨fun g => ⟨lower g.byte⟩⟩
instance : Low Str := ⟨lowerText⟩
instance {α : Type} [Low α] : Low (Option α) := ⟨Option.map low⟩
instance {ε α : Type} [Low ε] [Low α] : Low (Except ε α) := ⟨fun
  | .ok a => .ok (low a)
  | .error e => .error (low e)⟩
instance {α β : Type} [Low α] [Low β] : Low (α × β) := ⟨fun (a, b) => (low a, low b)⟩

instance : Low LangTag := ⟨fun t => ⟨lowerText t.str⟩⟩
instance : Low NormalLangTag := ⟨fun t => ⟨lowerText t.str⟩⟩
instance : Low Language := ⟨fun t => ⟨lowerText t.str⟩⟩
instance : Low PrimaryLanguage := ⟨fun t => ⟨lowerText t.str⟩⟩
instance : Low LanguageExtension := ⟨fun t => ⟨lowerText t.str⟩⟩
instance : Low ExtendedLangTag := ⟨fun t => ⟨lowerText t.str⟩⟩
instance : Low Script := ⟨fun t => ⟨lowerText t.str⟩⟩
instance : Low Region := ⟨fun t => ⟨lowerText t.str⟩⟩
instance : Low Variant := ⟨fun t => ⟨lowerText t.str⟩⟩
instance : Low Variants := ⟨fun t => ⟨lowerText t.str⟩⟩
instance : Low Extension := ⟨fun t => ⟨lowerText t.str⟩⟩
instance : Low Extensions := ⟨fun t => ⟨lowerText t.str⟩⟩
instance : Low ExtensionSubtag := ⟨fun t => ⟨lowerText t.str⟩⟩
instance : Low PrivateUse := ⟨fun t => ⟨lowerText t.str⟩⟩
instance : Low PrivateUseSubtag := ⟨fun t => ⟨lowerText t.str⟩⟩
instance : Low TypedLangTag := ⟨fun
  | .Normal t => .Normal (low t)
  | .PrivateUse t => .PrivateUse (low t : PrivateUse)
  | .Grandfathered g => .Grandfathered g⟩

instance : Low VariantsIter := ⟨fun it => ⟨lowerText it.data, it.offset, it.end_⟩⟩
instance : Low ExtensionIter := ⟨fun it => ⟨lowerText it.data, it.offset⟩⟩
instance : Low ExtensionsIter := ⟨fun it => ⟨lowerText it.data, it.offset⟩⟩
instance : Low PrivateUseIter := ⟨fun it => ⟨lowerText it.data, it.offset⟩⟩
instance : Low LanguageExtensionIter := ⟨fun it => ⟨lowerText it.data, it.offset⟩⟩

/-! ## Constructors -/

theorem isOk_lower {T : Type} [StrNewtype T] {a : Abnf} (h : ∀ s, StrNewtype.isOk T s = true ↔ a.Matches s) (ha : (Re.ofAbnf a).okRe = true)
    (s : Text) : StrNewtype.isOk T (lowerText s) = StrNewtype.isOk T s := by
  rw [Bool.eq_iff_iff, h, h]
  exact matches_caseEq ha (lowerText_lowerText s)

theorem isOk_LangTag_lower (s : Text) : StrNewtype.isOk LangTag (lowerText s) = StrNewtype.isOk LangTag s :=
  isOk_lower isOk_LangTag (by decide +kernel) s
theorem isOk_NormalLangTag_lower (s : Text) : StrNewtype.isOk NormalLangTag (lowerText s) = StrNewtype.isOk NormalLangTag s :=
  isOk_lower isOk_NormalLangTag (by decide +kernel) s
theorem isOk_Language_lower (s : Text) : StrNewtype.isOk Language (lowerText s) = StrNewtype.isOk Language s :=
  isOk_lower isOk_Language (by decide +kernel) s
theorem isOk_PrimaryLanguage_lower (s : Text) : StrNewtype.isOk PrimaryLanguage (lowerText s) = StrNewtype.isOk PrimaryLanguage s :=
  isOk_lower isOk_PrimaryLanguage (by decide +kernel) s
theorem isOk_LanguageExtension_lower (s : Text) : StrNewtype.isOk LanguageExtension (lowerText s) = StrNewtype.isOk LanguageExtension s :=
  isOk_lower isOk_LanguageExtension (by decide +kernel) s
theorem isOk_ExtendedLangTag_lower (s : Text) : StrNewtype.isOk ExtendedLangTag (lowerText s) = StrNewtype.isOk ExtendedLangTag s :=
  isOk_lower isOk_ExtendedLangTag (by decide +kernel) s
theorem isOk_Script_lower (s : Text) : StrNewtype.isOk Script (lowerText s) = StrNewtype.isOk Script s :=
  isOk_lower isOk_Script (by decide +kernel) s
theorem isOk_Region_lower (s : Text) : StrNewtype.isOk Region (lowerText s) = StrNewtype.isOk Region s :=
  isOk_lower isOk_Region (by decide +kernel) s
theorem isOk_Variant_lower (s : Text) : StrNewtype.isOk Variant (lowerText s) = StrNewtype.isOk Variant s :=
  isOk_lower isOk_Variant (by decide +kernel) s
theorem isOk_Variants_lower (s : Text) : StrNewtype.isOk Variants (lowerText s) = StrNewtype.isOk Variants s :=
  isOk_lower isOk_Variants (by decide +kernel) s
theorem isOk_Extension_lower (s : Text) : StrNewtype.isOk Extension (lowerText s) = StrNewtype.isOk Extension s :=
  isOk_lower isOk_Extension (by decide +kernel) s
theorem isOk_Extensions_lower (s : Text) : StrNewtype.isOk Extensions (lowerText s) = StrNewtype.isOk Extensions s :=
  isOk_lower isOk_Extensions (by decide +kernel) s
theorem isOk_ExtensionSubtag_lower (s : Text) : StrNewtype.isOk ExtensionSubtag (lowerText s) = StrNewtype.isOk ExtensionSubtag s :=
  isOk_lower isOk_ExtensionSubtag (by decide +kernel) s
theorem isOk_PrivateUse_lower (s : Text) : StrNewtype.isOk PrivateUse (lowerText s) = StrNewtype.isOk PrivateUse s :=
  isOk_lower isOk_PrivateUse (by decide +kernel) s
theorem isOk_PrivateUseSubtag_lower (s : Text) : StrNewtype.isOk PrivateUseSubtag (lowerText s) = StrNewtype.isOk PrivateUseSubtag s :=
  isOk_lower isOk_PrivateUseSubtag (by decide +kernel) s
/-- A constructor. -/
theorem new_lower {T : Type} [StrNewtype T] [Low T] (h : ∀ s, StrNewtype.isOk T (lowerText s) = StrNewtype.isOk T s)
    (hl : ∀ s, low (StrNewtype.newUnchecked (T := T) s) = StrNewtype.newUnchecked (lowerText s)) (s : Text) :
    StrNewtype.new T (lowerText s) = low (StrNewtype.new T s) := by
  cases hs : StrNewtype.isOk T s with
  | true => rw [new_eq_of_isOk hs, new_eq_of_isOk ((h s).trans hs), ← hl]; rfl
  | false => rw [new_eq_of_not_isOk hs, new_eq_of_not_isOk ((h s).trans hs)]; rfl

theorem grandfathered_lower (s : Text) : GrandfatheredLangTag.new (lowerText s) = mapR low (GrandfatheredLangTag.new s) := by
  by_cases hg : ∃ g : GrandfatheredLangTag, CaseEq g.asBytes s
  · obtain ⟨g, hg⟩ := hg
    rw [grandfathered_new_ok hg, grandfathered_new_ok (hg.trans (caseEq_lowerText s))]
    rfl
  · rw [grandfathered_new_error fun g h => hg ⟨g, h⟩,
      grandfathered_new_error fun g h => hg ⟨g, h.trans (caseEq_lowerText s).symm⟩]
    rfl

theorem tryFrom_lower (s : Text) : GrandfatheredLangTag.tryFrom (lowerText s) = mapR low (GrandfatheredLangTag.tryFrom s) := by
  unfold GrandfatheredLangTag.tryFrom
  have h : (fun g : GrandfatheredLangTag => decide (CaseEq g.asBytes (lowerText s))) = fun g => decide (CaseEq g.asBytes s) := by
    funext g
    rw [decide_eq_decide]
    exact ⟨fun h => h.trans (caseEq_lowerText s).symm, fun h => h.trans (caseEq_lowerText s)⟩
  rw [tryFromLoop_eq, tryFromLoop_eq, h]
  cases GRANDFATHERED.find? fun g => decide (CaseEq g.asBytes s) <;> rfl

/-! ## `NormalLangTag` -/

section
variable (t : NormalLangTag)

theorem languageEnd_lower : (low t).languageEnd = t.languageEnd :=
  findListEnd_lower _ (fun i u => by rw [isOk_ExtendedLangTag_lower]) _

theorem language_lower : (low t).language = mapR low t.language := by
  unfold NormalLangTag.language
  rw [languageEnd_lower, mapR_bind]
  refine bind_congr _ fun e => ?_
  show (sliceRange (lowerText t.str) 0 e >>= _) = _
  rw [sliceRange_lower, bind_mapR, mapR_bind]
  rfl

theorem scriptRange_lower : (low t).scriptRange = t.scriptRange := by
  unfold NormalLangTag.scriptRange
  rw [languageEnd_lower]
  refine bind_congr _ fun e => ?_
  rw [show (low t).str = lowerText t.str from rfl]
  dsimp only
  rw [findListEnd_lower t.str (fun i u => by rw [isOk_Script_lower])]

theorem script_lower : (low t).script = mapR low t.script := by
  unfold NormalLangTag.script
  rw [scriptRange_lower, mapR_bind]
  refine bind_congr _ fun r => ?_
  rcases r with _ | ⟨a, b⟩
  · rfl
  · show (sliceRange (lowerText t.str) a b >>= _) = mapR low (sliceRange t.str a b >>= _)
    rw [sliceRange_lower, bind_mapR, mapR_bind]
    rfl

theorem regionRange_lower : (low t).regionRange = t.regionRange := by
  unfold NormalLangTag.regionRange
  rw [scriptRange_lower]
  refine bind_congr _ fun r => ?_
  rw [show (low t).str = lowerText t.str from rfl]
  dsimp only
  rw [findListEnd_lower t.str (fun i u => by rw [isOk_Region_lower])]

theorem region_lower : (low t).region = mapR low t.region := by
  unfold NormalLangTag.region
  rw [regionRange_lower, mapR_bind]
  refine bind_congr _ fun r => ?_
  rcases r with _ | ⟨a, b⟩
  · rfl
  · show (sliceRange (lowerText t.str) a b >>= _) = mapR low (sliceRange t.str a b >>= _)
    rw [sliceRange_lower, bind_mapR, mapR_bind]
    rfl

theorem variantsRange_lower : (low t).variantsRange = t.variantsRange := by
  unfold NormalLangTag.variantsRange
  rw [regionRange_lower]
  refine bind_congr _ fun r => ?_
  rw [show (low t).str = lowerText t.str from rfl]
  dsimp only
  rw [findListEnd_lower t.str (fun i u => by rw [isOk_Variant_lower])]

theorem variants_lower : (low t).variants = mapR low t.variants := by
  unfold NormalLangTag.variants
  rw [variantsRange_lower, mapR_bind]
  refine bind_congr _ fun ⟨a, b⟩ => ?_
  show (sliceRange (lowerText t.str) a b >>= _) = mapR low (sliceRange t.str a b >>= _)
  rw [sliceRange_lower, bind_mapR, mapR_bind]
  rfl

theorem fromString_lower (s : Text) : Singleton.fromString (lowerText s) = mapR low (Singleton.fromString s) := by
  rcases s with _ | ⟨b, _ | ⟨c, s⟩⟩
  · rfl
  · exact bytes (fun b => Singleton.fromString [lower b] = mapR low (Singleton.fromString [b])) (by decide +kernel) b
  · unfold Singleton.fromString
    rw [length_lowerText, if_neg (by simp), if_neg (by simp)]
    rfl

theorem fromStr_lower (s : Text) : Singleton.fromStr (lowerText s) = mapR low (Singleton.fromStr s) := by
  unfold Singleton.fromStr
  rw [fromString_lower, bind_mapR, mapR_bind]
  refine bind_congr _ fun r => ?_
  cases r <;> rfl

theorem fromStringIsOk_lower (s : Text) : Singleton.fromStringIsOk (lowerText s) = Singleton.fromStringIsOk s := by
  unfold Singleton.fromStringIsOk
  rw [fromString_lower, bind_mapR]
  refine bind_congr _ fun r => ?_
  cases r <;> rfl

theorem extensionsRange_lower : (low t).extensionsRange = t.extensionsRange := by
  unfold NormalLangTag.extensionsRange
  rw [variantsRange_lower]
  refine bind_congr _ fun r => ?_
  rw [show (low t).str = lowerText t.str from rfl]
  dsimp only
  rw [findListEnd_lower t.str (fun i u => by rw [isOk_ExtensionSubtag_lower, fromStringIsOk_lower])]

theorem extensions_lower : (low t).extensions = mapR low t.extensions := by
  unfold NormalLangTag.extensions
  rw [extensionsRange_lower, mapR_bind]
  refine bind_congr _ fun ⟨a, b⟩ => ?_
  show (sliceRange (lowerText t.str) a b >>= _) = mapR low (sliceRange t.str a b >>= _)
  rw [sliceRange_lower, bind_mapR, mapR_bind]
  rfl

theorem privateUse_lower : (low t).privateUse = mapR low t.privateUse := by
  unfold NormalLangTag.privateUse NormalLangTag.privateUseOffset
  rw [variantsRange_lower, show (low t).str = lowerText t.str from rfl, length_lowerText, mapR_bind]
  refine (bind_congr _ fun o => ?_)
  cases o with
  | none => rfl
  | some i =>
    show (sliceFrom (lowerText t.str) i >>= _) = mapR low (sliceFrom t.str i >>= _)
    rw [sliceFrom_lower, bind_mapR, mapR_bind]
    rfl

theorem privateUseSubtags_lower : (low t).privateUseSubtags = mapR low t.privateUseSubtags := by
  unfold NormalLangTag.privateUseSubtags
  rw [privateUse_lower, bind_mapR, mapR_bind]
  refine bind_congr _ fun o => ?_
  cases o <;> rfl

end

/-! ## `LangTag`, `TypedLangTag` -/

theorem new_normal_lower (s : Text) : StrNewtype.new NormalLangTag (lowerText s) = low (StrNewtype.new NormalLangTag s) :=
  new_lower isOk_NormalLangTag_lower (fun _ => rfl) s

theorem new_privateUse_lower (s : Text) : StrNewtype.new PrivateUse (lowerText s) = low (StrNewtype.new PrivateUse s) :=
  new_lower isOk_PrivateUse_lower (fun _ => rfl) s

theorem grandfathered_language_lower (g : GrandfatheredLangTag) : low g.language = g.language := by cases g <;> decide

section
variable (t : LangTag)

theorem langTag_str : (low t).str = lowerText t.str := rfl

theorem langTag_language_lower : (low t).language = mapR low t.language := by
  unfold LangTag.language
  rw [langTag_str, new_normal_lower]
  cases StrNewtype.new NormalLangTag t.str with
  | ok n =>
    show ((low n).language >>= _) = mapR low (n.language >>= _)
    rw [language_lower, bind_mapR, mapR_bind]
    rfl
  | error e =>
    show (GrandfatheredLangTag.new (lowerText t.str) >>= _) = mapR low (GrandfatheredLangTag.new t.str >>= _)
    rw [grandfathered_lower, bind_mapR, mapR_bind]
    refine bind_congr _ fun r => ?_
    cases r with
    | ok g => exact (congrArg Except.ok (grandfathered_language_lower g)).symm
    | error e => rfl

theorem asNormal_lower : (low t).asNormal = low t.asNormal := by
  unfold LangTag.asNormal
  rw [langTag_str, new_normal_lower]
  cases StrNewtype.new NormalLangTag t.str <;> rfl

theorem asPrivateUse_lower : (low t).asPrivateUse = (low (t.asPrivateUse : Option PrivateUse)) := by
  unfold LangTag.asPrivateUse
  rw [langTag_str, new_privateUse_lower]
  cases StrNewtype.new PrivateUse t.str <;> rfl

theorem asGrandfathered_lower : (low t).asGrandfathered = mapR low t.asGrandfathered := by
  unfold LangTag.asGrandfathered
  rw [langTag_str, grandfathered_lower, bind_mapR, mapR_bind]
  refine bind_congr _ fun r => ?_
  cases r <;> rfl

theorem langTag_script_lower : (low t).script = mapR low t.script := by
  unfold LangTag.script
  rw [asNormal_lower]
  cases t.asNormal with
  | none => rfl
  | some n => exact script_lower n

theorem langTag_region_lower : (low t).region = mapR low t.region := by
  unfold LangTag.region
  rw [asNormal_lower]
  cases t.asNormal with
  | none => rfl
  | some n => exact region_lower n

theorem langTag_variants_lower : (low t).variants = mapR low t.variants := by
  unfold LangTag.variants
  rw [asNormal_lower]
  cases t.asNormal with
  | none => rfl
  | some n => exact variants_lower n

theorem langTag_extensions_lower : (low t).extensions = mapR low t.extensions := by
  unfold LangTag.extensions
  rw [asNormal_lower]
  cases t.asNormal with
  | none => rfl
  | some n => exact extensions_lower n

theorem langTag_privateUse_lower : (low t).privateUse = mapR low t.privateUse := by
  unfold LangTag.privateUse
  rw [asNormal_lower]
  cases t.asNormal with
  | none => rfl
  | some n => exact privateUse_lower n

theorem langTag_privateUseSubtags_lower : (low t).privateUseSubtags = mapR low t.privateUseSubtags := by
  unfold LangTag.privateUseSubtags
  rw [langTag_privateUse_lower, bind_mapR, mapR_bind]
  refine bind_congr _ fun o => ?_
  cases o <;> rfl

theorem isNormal_lower : (low t).isNormal = t.isNormal := by
  unfold LangTag.isNormal
  rw [asNormal_lower]
  cases t.asNormal <;> rfl

theorem isPrivateUse_lower : (low t).isPrivateUse = t.isPrivateUse := by
  unfold LangTag.isPrivateUse
  rw [asPrivateUse_lower]
  cases t.asPrivateUse <;> rfl

theorem isGrandfathered_lower : (low t).isGrandfathered = mapR low t.isGrandfathered := by
  unfold LangTag.isGrandfathered
  rw [asGrandfathered_lower, bind_mapR, mapR_bind]
  refine bind_congr _ fun o => ?_
  cases o <;> rfl

theorem asTyped_lower : (low t).asTyped = mapR low t.asTyped := by
  unfold LangTag.asTyped
  rw [langTag_str, new_normal_lower, new_privateUse_lower]
  cases StrNewtype.new NormalLangTag t.str with
  | ok n => rfl
  | error e =>
    cases StrNewtype.new PrivateUse t.str with
    | ok n => rfl
    | error e =>
      show (GrandfatheredLangTag.new (lowerText t.str) >>= _) = mapR low (GrandfatheredLangTag.new t.str >>= _)
      rw [grandfathered_lower, bind_mapR, mapR_bind]
      refine bind_congr _ fun r => ?_
      cases r <;> rfl

theorem typed_kind_lower (t : TypedLangTag) : (low t).kind = t.kind := by rcases t with t | t | t <;> rfl

theorem kind_lower : (low t).kind = mapR low t.kind := by
  unfold LangTag.kind
  rw [asTyped_lower, bind_mapR, mapR_bind]
  exact bind_congr _ fun o => by rw [typed_kind_lower]; rfl

theorem langtag!_lower (s : Text) : LangTag.langtag! (lowerText s) = mapR low (LangTag.langtag! s) := by
  unfold LangTag.langtag!
  rw [new_lower isOk_LangTag_lower (fun _ => rfl) s]
  cases StrNewtype.new LangTag s <;> rfl

end

theorem typed_language_lower (t : TypedLangTag) : (low t).language = mapR low t.language := by
  rcases t with t | t | g
  · show ((low t).language >>= _) = mapR low (t.language >>= _)
    rw [language_lower, bind_mapR, mapR_bind]
    rfl
  · rfl
  · exact (congrArg Except.ok (grandfathered_language_lower g)).symm

/-! ## The parts of tags -/

section
variable (s : Text)

theorem primary_lower : Language.primary ⟨lowerText s⟩ = low (Language.primary ⟨s⟩) := by
  unfold Language.primary
  rw [splitOnceDash_lower]
  cases splitOnceDash s <;> rfl

theorem extension_lower : Language.extension ⟨lowerText s⟩ = low (Language.extension ⟨s⟩) := by
  unfold Language.extension
  rw [splitOnceDash_lower]
  cases splitOnceDash s <;> rfl

theorem extensionSubtags_lower : Language.extensionSubtags ⟨lowerText s⟩ = low (Language.extensionSubtags ⟨s⟩) := by
  unfold Language.extensionSubtags
  rw [extension_lower]
  cases Language.extension ⟨s⟩ <;> rfl

theorem variantsNext_lower (it : VariantsIter) : (low it).next = mapR low it.next := by
  unfold VariantsIter.next
  show (if it.offset < it.end_ then _ else _) = _
  split
  · show (findSegmentEnd (lowerText it.data) it.offset >>= _) = _
    rw [findSegmentEnd_lower, mapR_bind]
    refine bind_congr _ fun e => ?_
    show (sliceRange (lowerText it.data) it.offset e >>= _) = _
    rw [sliceRange_lower, bind_mapR, mapR_bind]
    rfl
  · rfl

theorem variantsNextBack_lower (it : VariantsIter) : (low it).nextBack = mapR low it.nextBack := by
  unfold VariantsIter.nextBack
  show (if it.end_ > it.offset then _ else _) = _
  split
  · show (findSegmentStart (lowerText it.data) it.end_ >>= _) = _
    rw [findSegmentStart_lower, mapR_bind]
    refine bind_congr _ fun e => ?_
    show (sliceRange (lowerText it.data) e it.end_ >>= _) = _
    rw [sliceRange_lower, bind_mapR, mapR_bind]
    rfl
  · rfl

theorem extensionNext_lower (it : ExtensionIter) : (low it).next = mapR low it.next := by
  unfold ExtensionIter.next
  show (if it.offset < (lowerText it.data).length then _ else _) = _
  rw [length_lowerText]
  split
  · show (findSegmentEnd (lowerText it.data) it.offset >>= _) = _
    rw [findSegmentEnd_lower, mapR_bind]
    refine bind_congr _ fun e => ?_
    show (sliceRange (lowerText it.data) it.offset e >>= _) = _
    rw [sliceRange_lower, bind_mapR, mapR_bind]
    rfl
  · rfl

theorem privateUseNext_lower (it : PrivateUseIter) : (low it).next = mapR low it.next := by
  unfold PrivateUseIter.next
  show (if it.offset < (lowerText it.data).length then _ else _) = _
  rw [length_lowerText]
  split
  · show (findSegmentEnd (lowerText it.data) it.offset >>= _) = _
    rw [findSegmentEnd_lower, mapR_bind]
    refine bind_congr _ fun e => ?_
    show (sliceRange (lowerText it.data) it.offset e >>= _) = _
    rw [sliceRange_lower, bind_mapR, mapR_bind]
    rfl
  · rfl

theorem languageExtensionNext_lower (it : LanguageExtensionIter) : (low it).next = mapR low it.next := by
  unfold LanguageExtensionIter.next
  show (if it.offset < (lowerText it.data).length then _ else _) = _
  rw [length_lowerText]
  split
  · show (findSegmentEnd (lowerText it.data) it.offset >>= _) = _
    rw [findSegmentEnd_lower, mapR_bind]
    refine bind_congr _ fun e => ?_
    show (sliceRange (lowerText it.data) it.offset e >>= _) = _
    rw [sliceRange_lower, bind_mapR, mapR_bind]
    rfl
  · rfl

theorem extensionsNext_lower (it : ExtensionsIter) : (low it).next = mapR low it.next := by
  unfold ExtensionsIter.next
  show (if it.offset < (lowerText it.data).length then _ else _) = _
  rw [length_lowerText]
  split
  · show (findListEnd (lowerText it.data) (it.offset + 2) _ >>= _) = _
    rw [findListEnd_lower it.data (fun i u => by rw [isOk_ExtensionSubtag_lower]), mapR_bind]
    refine bind_congr _ fun e => ?_
    show (sliceRange (lowerText it.data) it.offset e >>= _) = _
    rw [sliceRange_lower, bind_mapR, mapR_bind]
    rfl
  · rfl

theorem first_lower : Variants.first ⟨lowerText s⟩ = mapR low (Variants.first ⟨s⟩) := by
  unfold Variants.first
  have h : Variants.iter ⟨lowerText s⟩ = low (Variants.iter ⟨s⟩) := by
    show VariantsIter.mk .. = VariantsIter.mk ..
    rw [length_lowerText]
    rfl
  rw [h, variantsNext_lower, bind_mapR, mapR_bind]
  rfl

theorem last_lower : Variants.last ⟨lowerText s⟩ = mapR low (Variants.last ⟨s⟩) := by
  unfold Variants.last
  have h : Variants.iter ⟨lowerText s⟩ = low (Variants.iter ⟨s⟩) := by
    show VariantsIter.mk .. = VariantsIter.mk ..
    rw [length_lowerText]
    rfl
  rw [h, variantsNextBack_lower, bind_mapR, mapR_bind]
  rfl

theorem singleton_lower : Extension.singleton ⟨lowerText s⟩ = mapR low (Extension.singleton ⟨s⟩) := by
  unfold Extension.singleton
  rw [index_lower, bind_mapR, mapR_bind]
  rfl

end

theorem singleton_new_lower (b : UInt8) : Singleton.new (lower b) = low (Singleton.new b) :=
  bytes (fun b => Singleton.new (lower b) = low (Singleton.new b)) (by decide +kernel) b

/-! ## Comparison -/

section
variable {T : Type} [StrNewtype T] [Compare T] [LawfulCompare T]

theorem eq_lower {a b a' b' : T} (ha : StrNewtype.str a' = lowerText (StrNewtype.str a)) (hb : StrNewtype.str b' = lowerText (StrNewtype.str b)) :
    Compare.eq a' b' = Compare.eq a b := by
  rw [LawfulCompare.eq, LawfulCompare.eq, caseInsensitiveEq_eq, caseInsensitiveEq_eq, ha, hb]
  congr 1
  rw [decide_eq_decide]
  simp only [CaseEq, lowerText_lowerText]

theorem cmp_lower {a b a' b' : T} (ha : StrNewtype.str a' = lowerText (StrNewtype.str a)) (hb : StrNewtype.str b' = lowerText (StrNewtype.str b)) :
    Compare.cmp a' b' = Compare.cmp a b := by
  simp only [LawfulCompare.cmp, caseInsensitiveCmp_eq, ha, hb, lowerText_lowerText]

theorem partialCmp_lower {a b a' b' : T} (ha : StrNewtype.str a' = lowerText (StrNewtype.str a)) (hb : StrNewtype.str b' = lowerText (StrNewtype.str b)) :
    Compare.partialCmp a' b' = Compare.partialCmp a b := by
  rw [LawfulCompare.partialCmp, LawfulCompare.partialCmp, cmp_lower ha hb]

theorem hash_lower (H : Hasher) {a a' : T} (ha : StrNewtype.str a' = lowerText (StrNewtype.str a)) (st : H.State) :
    Compare.hash H a' st = Compare.hash H a st := by
  simp only [LawfulCompare.hash, hash_eq, ha, lowerText_lowerText]

end

end Langtag.Lower
