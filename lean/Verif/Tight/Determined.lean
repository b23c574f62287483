import Verif.Props.Compose
import Verif.Props.Validity
import Verif.Props.Kinds
import Verif.Props.Iterators
import Verif.Props.Acceptance
import Verif.Props.Order
import Verif.Props.Equal
import Verif.Props.Total

/-!
# The properties leave no choice

For each function of the API: a statement about an arbitrary function in its place, that the code satisfies by the theorems of
`Verif/Props`, and that only one function satisfies on values made by the constructors.  So a program that returns anything else for any
such value, or panics where the code does not, does not have the property.  No claim of the manifest rests on this module: it is about the
strength of the statements.
-/

set_option autoImplicit false

namespace Langtag.Tight
open Langtag.Spec Langtag.Model Langtag.Proof Langtag.Props

/-- `P` holds of `f`, and any other function `P` holds of is equal to `f` wherever `D` holds. -/
def Pins {α β : Type} (D : α → Prop) (f : α → β) (P : (α → β) → Prop) : Prop :=
  P f ∧ ∀ g, P g → ∀ x, D x → g x = f x

theorem Pins.of {α β : Type} {D : α → Prop} {f : α → β} {P : (α → β) → Prop} (hf : P f)
    (h : ∀ g g' : α → β, P g → P g' → ∀ x, D x → g x = g' x) : Pins D f P := ⟨hf, fun g hg x hx => h g f hg hf x hx⟩

/-! ## Constructors: C01–C07 -/

/-- What C01–C07 say of a constructor. -/
def NewIs (T : Type) [StrNewtype T] (g : Abnf) (new : Text → Except Text T) : Prop := ∀ s : Text,
  (g.Matches s → ∃ t, new s = .ok t ∧ StrNewtype.str t = s) ∧ (¬ g.Matches s → new s = .error s)

theorem pins_new {T : Type} [StrNewtype T] {g : Abnf} (h : ConstructorIs T g)
    (hinj : ∀ a b : T, StrNewtype.str a = StrNewtype.str b → a = b) :
    Pins (fun _ => True) (StrNewtype.new T) (NewIs T g) := by
  refine .of h fun f f' hf hf' s _ => ?_
  by_cases hm : g.Matches s
  · obtain ⟨t, h1, h2⟩ := (hf s).1 hm
    obtain ⟨t', h1', h2'⟩ := (hf' s).1 hm
    rw [h1, h1', hinj t t' (h2.trans h2'.symm)]
  · rw [(hf s).2 hm, (hf' s).2 hm]

theorem new_LangTag : Pins (fun _ => True) (StrNewtype.new LangTag) (NewIs LangTag Grammar.languageTag) :=
  pins_new C01_langTag fun | ⟨_⟩, ⟨_⟩, rfl => rfl
theorem new_NormalLangTag : Pins (fun _ => True) (StrNewtype.new NormalLangTag) (NewIs NormalLangTag Grammar.langtag) :=
  pins_new C02_normalLangTag fun | ⟨_⟩, ⟨_⟩, rfl => rfl
theorem new_PrivateUse : Pins (fun _ => True) (StrNewtype.new PrivateUse) (NewIs PrivateUse Grammar.privateuse) :=
  pins_new C03_privateUse fun | ⟨_⟩, ⟨_⟩, rfl => rfl
theorem new_PrivateUseSubtag : Pins (fun _ => True) (StrNewtype.new PrivateUseSubtag) (NewIs PrivateUseSubtag Grammar.privateuseSubtag) :=
  pins_new C03_privateUseSubtag fun | ⟨_⟩, ⟨_⟩, rfl => rfl
theorem new_Language : Pins (fun _ => True) (StrNewtype.new Language) (NewIs Language Grammar.language) :=
  pins_new C04_language fun | ⟨_⟩, ⟨_⟩, rfl => rfl
theorem new_PrimaryLanguage : Pins (fun _ => True) (StrNewtype.new PrimaryLanguage) (NewIs PrimaryLanguage Grammar.primary) :=
  pins_new C04_primaryLanguage fun | ⟨_⟩, ⟨_⟩, rfl => rfl
theorem new_LanguageExtension : Pins (fun _ => True) (StrNewtype.new LanguageExtension) (NewIs LanguageExtension Grammar.extlang) :=
  pins_new C04_languageExtension fun | ⟨_⟩, ⟨_⟩, rfl => rfl
theorem new_ExtendedLangTag : Pins (fun _ => True) (StrNewtype.new ExtendedLangTag) (NewIs ExtendedLangTag Grammar.extlangTag) :=
  pins_new C04_extendedLangTag fun | ⟨_⟩, ⟨_⟩, rfl => rfl
theorem new_Script : Pins (fun _ => True) (StrNewtype.new Script) (NewIs Script Grammar.script) :=
  pins_new C05_script fun | ⟨_⟩, ⟨_⟩, rfl => rfl
theorem new_Region : Pins (fun _ => True) (StrNewtype.new Region) (NewIs Region Grammar.region) :=
  pins_new C05_region fun | ⟨_⟩, ⟨_⟩, rfl => rfl
theorem new_Variant : Pins (fun _ => True) (StrNewtype.new Variant) (NewIs Variant Grammar.variant) :=
  pins_new C06_variant fun | ⟨_⟩, ⟨_⟩, rfl => rfl
theorem new_Variants : Pins (fun _ => True) (StrNewtype.new Variants) (NewIs Variants Grammar.variants) :=
  pins_new C06_variants fun | ⟨_⟩, ⟨_⟩, rfl => rfl
theorem new_Extension : Pins (fun _ => True) (StrNewtype.new Extension) (NewIs Extension Grammar.extension) :=
  pins_new C07_extension fun | ⟨_⟩, ⟨_⟩, rfl => rfl
theorem new_ExtensionSubtag : Pins (fun _ => True) (StrNewtype.new ExtensionSubtag) (NewIs ExtensionSubtag Grammar.extensionSubtag) :=
  pins_new C07_extensionSubtag fun | ⟨_⟩, ⟨_⟩, rfl => rfl
theorem new_Extensions : Pins (fun _ => True) (StrNewtype.new Extensions) (NewIs Extensions Grammar.extensions) :=
  pins_new C07_extensions fun | ⟨_⟩, ⟨_⟩, rfl => rfl

/-! ## Accessors of a normal tag: C16–C21 -/

/-- A statement that gives the result for each decomposition. -/
theorem pins_parts {β : Type} {f : NormalLangTag → β} {P : (NormalLangTag → β) → Prop} (hf : P f)
    (h : ∀ g g' : NormalLangTag → β, P g → P g' → ∀ t p, Decomposes t.str p → g t = g' t) : Pins Constructed f P := by
  refine .of hf fun g g' hg hg' t ht => ?_
  obtain ⟨p, hp⟩ := (normal_has_parts t).mp ht
  exact h g g' hg hg' t p hp

theorem language : Pins Constructed NormalLangTag.language fun f => ∀ (t : NormalLangTag) (p : Parts), Decomposes t.str p →
    f t = .ok ⟨p.language⟩ :=
  pins_parts C16_language fun g g' hg hg' t p hp => by rw [hg t p hp, hg' t p hp]

theorem script : Pins Constructed NormalLangTag.script fun f => ∀ (t : NormalLangTag) (p : Parts), Decomposes t.str p →
    (p.afterLanguage ≠ [] → f t = .ok (p.script.map Script.mk)) ∧ (p.afterLanguage = [] → f t = .error .slice) := by
  refine pins_parts C17_script_partial fun g g' hg hg' t p hp => ?_
  by_cases h : p.afterLanguage = []
  · rw [(hg t p hp).2 h, (hg' t p hp).2 h]
  · rw [(hg t p hp).1 h, (hg' t p hp).1 h]

theorem region : Pins Constructed NormalLangTag.region fun f => ∀ (t : NormalLangTag) (p : Parts), Decomposes t.str p →
    (p.afterScript ≠ [] → f t = .ok (p.region.map Region.mk)) ∧ (p.afterScript = [] → f t = .error .slice) := by
  refine pins_parts C18_region_partial fun g g' hg hg' t p hp => ?_
  by_cases h : p.afterScript = []
  · rw [(hg t p hp).2 h, (hg' t p hp).2 h]
  · rw [(hg t p hp).1 h, (hg' t p hp).1 h]

theorem variants : Pins Constructed NormalLangTag.variants fun f => ∀ (t : NormalLangTag) (p : Parts), Decomposes t.str p →
    (p.afterRegion ≠ [] → f t = .ok ⟨joinDash p.variants⟩) ∧ (p.afterRegion = [] → f t = .error .slice) := by
  refine pins_parts C19_variants_partial fun g g' hg hg' t p hp => ?_
  by_cases h : p.afterRegion = []
  · rw [(hg t p hp).2 h, (hg' t p hp).2 h]
  · rw [(hg t p hp).1 h, (hg' t p hp).1 h]

theorem extensions : Pins Constructed NormalLangTag.extensions fun f => ∀ (t : NormalLangTag) (p : Parts), Decomposes t.str p →
    (p.afterVariants ≠ [] → f t = .ok ⟨joinDash p.extensions⟩) ∧ (p.afterVariants = [] → f t = .error .slice) := by
  refine pins_parts C20_extensions_partial fun g g' hg hg' t p hp => ?_
  by_cases h : p.afterVariants = []
  · rw [(hg t p hp).2 h, (hg' t p hp).2 h]
  · rw [(hg t p hp).1 h, (hg' t p hp).1 h]

theorem privateUse : Pins Constructed NormalLangTag.privateUse fun f => ∀ (t : NormalLangTag) (p : Parts), Decomposes t.str p →
    (p.afterRegion ≠ [] → p.extensions = [] → f t = .ok (p.privateUse.map PrivateUse.mk)) ∧
    (p.extensions ≠ [] → f t = .ok (some ⟨joinDash (p.extensions ++ p.privateUse.toList)⟩)) ∧
    (p.afterRegion = [] → f t = .error .slice) := by
  refine pins_parts C21_privateUse_partial fun g g' hg hg' t p hp => ?_
  obtain ⟨a, b, c⟩ := hg t p hp
  obtain ⟨a', b', c'⟩ := hg' t p hp
  by_cases h : p.afterRegion = []
  · rw [c h, c' h]
  · by_cases he : p.extensions = []
    · rw [a h he, a' h he]
    · rw [b he, b' he]

/-! ## Language: C25 -/

theorem primary : Pins (fun _ => True) Language.primary fun f => ∀ (l : Language) (u : Text) (us : List Text),
    subtags l.str = u :: us → (f l).str = u := by
  refine .of (fun l u us h => (C25_split l u us h).1) fun g g' hg hg' l _ => ?_
  cases h : subtags l.str with
  | nil => exact absurd h (subtags_ne_nil _)
  | cons u us =>
    have := (hg l u us h).trans (hg' l u us h).symm
    cases hx : g l; cases hy : g' l
    rw [hx, hy] at this
    exact congrArg _ this

theorem extension : Pins (fun _ => True) Language.extension fun f => ∀ (l : Language) (u : Text) (us : List Text),
    subtags l.str = u :: us → (f l).map (·.str) = if us = [] then none else some (joinDash us) := by
  refine .of (fun l u us h => (C25_split l u us h).2) fun g g' hg hg' l _ => ?_
  cases h : subtags l.str with
  | nil => exact absurd h (subtags_ne_nil _)
  | cons u us =>
    have := (hg l u us h).trans (hg' l u us h).symm
    match g l, g' l, this with
    | none, none, _ => rfl
    | some ⟨_⟩, some ⟨_⟩, h => exact congrArg (fun x => some (LanguageExtension.mk x)) (Option.some.inj h)

/-! ## Iterators: C25, C27–C29.  What is observed is the list of results of `n` calls, or of a history of calls. -/

/-- The results of `n` calls on each value are the items in order, then `None`. -/
def GivesItems {α β : Type} (D : α → Prop) (items : α → List β) (f : α → Nat → Rust (List (Option β))) : Prop :=
  ∀ x, D x → ∀ n, f x n = .ok ((List.range n).map fun k => (items x)[k]?)

theorem pins_items {α β : Type} {f : α → Nat → Rust (List (Option β))} {D : α → Prop} {items : α → List β} (h : GivesItems D items f) :
    Pins D f (GivesItems D items) :=
  .of h fun _ _ hg hg' x hx => funext fun n => (hg x hx n).trans (hg' x hx n).symm

theorem extensionSubtags : Pins Constructed (fun (x : Language) n => collect LanguageExtensionIter.next n x.extensionSubtags)
    (GivesItems Constructed fun x => (subtags x.str).tail.map ExtendedLangTag.mk) := pins_items C25_extensionSubtags
theorem iter_PrivateUse : Pins Constructed (fun (x : PrivateUse) n => collect PrivateUseIter.next n x.iter)
    (GivesItems Constructed fun x => (subtags x.str).tail.map PrivateUseSubtag.mk) := pins_items C27_privateUse
theorem iter_Extension : Pins Constructed (fun (x : Extension) n => collect ExtensionIter.next n x.iter)
    (GivesItems Constructed fun x => (subtags x.str).tail.map ExtensionSubtag.mk) := pins_items C27_extension
theorem iter_LanguageExtension : Pins Constructed (fun (x : LanguageExtension) n => collect LanguageExtensionIter.next n x.iter)
    (GivesItems Constructed fun x => (subtags x.str).map ExtendedLangTag.mk) := pins_items C27_languageExtension

theorem iter_Variants : Pins Constructed (fun (v : Variants) history => collectSides VariantsIter.next VariantsIter.nextBack history v.iter)
    fun f => ∀ v, Constructed v → ∀ history, f v history = .ok (takeSides history ((listItems v.str).map Variant.mk)) :=
  .of C28_iter fun _ _ hg hg' v hv => funext fun s => (hg v hv s).trans (hg' v hv s).symm

theorem iter_Extensions : Pins Constructed (fun (x : Extensions) n => collect ExtensionsIter.next n x.iter)
    fun f => ∀ x es, IsListOf x es → ∀ n, f x n = .ok ((List.range n).map fun k => (es.map Extension.mk)[k]?) := by
  refine .of C29_iter fun g g' hg hg' x hx => funext fun n => ?_
  obtain ⟨es, he⟩ := C29_exists x hx
  exact (hg x es he n).trans (hg' x es he n).symm

theorem first : Pins Constructed Variants.first fun f => ∀ v, Constructed v → f v = .ok ((listItems v.str).head?.map Variant.mk) :=
  .of (fun v h => (C28_first_last v h).1) fun _ _ hg hg' v hv => (hg v hv).trans (hg' v hv).symm

theorem last : Pins Constructed Variants.last fun f => ∀ v, Constructed v → f v = .ok ((listItems v.str).getLast?.map Variant.mk) :=
  .of (fun v h => (C28_first_last v h).2) fun _ _ hg hg' v hv => (hg v hv).trans (hg' v hv).symm

/-! ## Extensions: C30, C33 -/

theorem get : Pins Constructed Extensions.get fun f => ∀ (x : Extensions) (es : List Text), IsListOf x es → ∀ g : Singleton,
    f x g = .ok ((es.map Extension.mk).find? fun e => decide (e.singleton = .ok g)) := by
  refine .of C30_get fun f f' hf hf' x hx => funext fun g => ?_
  obtain ⟨es, he⟩ := C29_exists x hx
  exact (hf x es he g).trans (hf' x es he g).symm

theorem singleton : Pins Constructed Extension.singleton fun f => ∀ x : Extension, Constructed x →
    ∃ g, f x = .ok g ∧ x.str.head? = some g.unwrap ∧ Singleton.new g.unwrap = .ok g := by
  refine .of C33_singleton fun f f' hf hf' x hx => ?_
  obtain ⟨⟨g⟩, h1, h2, _⟩ := hf x hx
  obtain ⟨⟨g'⟩, h1', h2', _⟩ := hf' x hx
  rw [h1, h1']
  rw [h2] at h2'
  exact congrArg (fun b => Except.ok (Model.Singleton.mk b)) (Option.some.inj h2')

/-! ## Comparisons: C34–C37 -/

theorem eq : ForEachType fun T => Pins (fun _ => True) (fun x : T × T => Compare.eq x.1 x.2) fun f => ∀ x : T × T,
    (f x = .ok true ↔ CaseEq (StrNewtype.str x.1) (StrNewtype.str x.2)) ∧
    (f x = .ok false ↔ ¬ CaseEq (StrNewtype.str x.1) (StrNewtype.str x.2)) := by
  refine forEachType_of fun _ => .of (fun x => ⟨eq_true_iff x.1 x.2, eq_false_iff x.1 x.2⟩) fun g g' hg hg' x _ => ?_
  by_cases h : CaseEq (StrNewtype.str x.1) (StrNewtype.str x.2)
  · rw [(hg x).1.mpr h, (hg' x).1.mpr h]
  · rw [(hg x).2.mpr h, (hg' x).2.mpr h]

theorem cmp : ForEachType fun T => Pins (fun _ => True) (fun x : T × T => Compare.cmp x.1 x.2) fun f => ∀ x : T × T,
    (f x = .ok .lt ↔ Precedes (lowerText (StrNewtype.str x.1)) (lowerText (StrNewtype.str x.2))) ∧
    (f x = .ok .gt ↔ Precedes (lowerText (StrNewtype.str x.2)) (lowerText (StrNewtype.str x.1))) ∧
    (f x = .ok .eq ↔ lowerText (StrNewtype.str x.1) = lowerText (StrNewtype.str x.2)) := by
  refine forEachType_of fun _ => .of (fun x => ?_) fun g g' hg hg' x _ => ?_
  · rw [cmp_eq_cmpText]
    simp only [Except.ok.injEq]
    exact ⟨cmpText_lt_iff _ _, cmpText_gt_iff _ _, cmpText_eq_iff _ _⟩
  · obtain ⟨a, b, c⟩ := hg x
    obtain ⟨a', b', c'⟩ := hg' x
    cases h : cmpText (lowerText (StrNewtype.str x.1)) (lowerText (StrNewtype.str x.2)) with
    | lt => rw [a.mpr ((cmpText_lt_iff _ _).mp h), a'.mpr ((cmpText_lt_iff _ _).mp h)]
    | eq => rw [c.mpr ((cmpText_eq_iff _ _).mp h), c'.mpr ((cmpText_eq_iff _ _).mp h)]
    | gt => rw [b.mpr ((cmpText_gt_iff _ _).mp h), b'.mpr ((cmpText_gt_iff _ _).mp h)]

theorem hash : ForEachType fun T => ∀ H : Hasher, Pins (fun _ => True) (fun x : T × H.State => Compare.hash H x.1 x.2) fun f =>
    ∀ x : T × H.State, f x = .ok ((lowerText (StrNewtype.str x.1)).foldl H.writeU8 x.2) :=
  forEachType_of fun _ => fun H => .of (fun x => hash_eq_foldl H x.1 x.2) fun _ _ hg hg' x _ => (hg x).trans (hg' x).symm

/-! ## Grandfathered tags: C12 -/

theorem asStr : Pins (fun _ => True) GrandfatheredLangTag.asStr fun f => ∀ g, f g = ascii (registered g) :=
  .of (fun g => (C12_texts g).1) fun _ _ h h' g _ => (h g).trans (h' g).symm

theorem new_Grandfathered : Pins (fun _ => True) GrandfatheredLangTag.new fun f => ∀ s : Text,
    (∀ g, f s = .ok (.ok g) ↔ CaseEq s (ascii (registered g))) ∧
    ((∀ g, ¬ CaseEq s (ascii (registered g))) → f s = .ok (.error s)) := by
  refine .of (fun s => ⟨C12_new_ok s, C12_new_error s⟩) fun f f' h h' s _ => ?_
  by_cases hg : ∃ g, CaseEq s (ascii (registered g))
  · obtain ⟨g, hg⟩ := hg
    rw [((h s).1 g).mpr hg, ((h' s).1 g).mpr hg]
  · have hg : ∀ g, ¬ CaseEq s (ascii (registered g)) := fun g h => hg ⟨g, h⟩
    rw [(h s).2 hg, (h' s).2 hg]

/-! ## Kinds and predicates: C10, C11, C14 -/

theorem kind_cases (t : LangTag) (h : Constructed t) :
    Accepts NormalLangTag t.str ∨ Accepts PrivateUse t.str ∨
      (¬ Accepts NormalLangTag t.str ∧ ∃ g, GrandfatheredLangTag.new t.str = .ok (.ok g)) := by
  rcases languageTag_cases (languageTag_of_constructed h) with h | h | ⟨g, hg, h⟩
  · exact Or.inl ((accepts_iff is_NormalLangTag _).mpr h)
  · exact Or.inr (Or.inl ((accepts_iff is_PrivateUse _).mpr h))
  · by_cases hn : Accepts NormalLangTag t.str
    · exact Or.inl hn
    · exact Or.inr (Or.inr ⟨hn, g, C12_inverse g _ (CaseEq.symm h)⟩)

theorem kind : Pins Constructed LangTag.kind fun f => ∀ t : LangTag, Constructed t →
    (f t = .ok .Normal ↔ Accepts NormalLangTag t.str) ∧ (f t = .ok .PrivateUse ↔ Accepts PrivateUse t.str) ∧
    (f t = .ok .Grandfathered ↔ ¬ Accepts NormalLangTag t.str ∧ ∃ g, GrandfatheredLangTag.new t.str = .ok (.ok g)) := by
  refine .of (fun t ht => ?_) fun f f' hf hf' t ht => ?_
  · obtain ⟨h1, h2, h3⟩ := C11_kind t ht
    obtain ⟨a1, _, a2, _, a3, _⟩ := C14_answers t
    refine ⟨h1.trans a1, h2.trans a2, h3.trans ?_⟩
    rw [a3, ← a1, Bool.not_eq_true]
    exact And.comm
  · obtain ⟨a, b, c⟩ := hf t ht
    obtain ⟨a', b', c'⟩ := hf' t ht
    rcases kind_cases t ht with h | h | h
    · rw [a.mpr h, a'.mpr h]
    · rw [b.mpr h, b'.mpr h]
    · rw [c.mpr h, c'.mpr h]

theorem isNormal : Pins (fun _ => True) LangTag.isNormal fun f => ∀ t : LangTag, f t = true ↔ Accepts NormalLangTag t.str :=
  .of (fun t => (C14_answers t).1) fun _ _ h h' t _ => Bool.eq_iff_iff.mpr ((h t).trans (h' t).symm)

theorem isPrivateUse : Pins (fun _ => True) LangTag.isPrivateUse fun f => ∀ t : LangTag, f t = true ↔ Accepts PrivateUse t.str :=
  .of (fun t => (C14_answers t).2.2.1) fun _ _ h h' t _ => Bool.eq_iff_iff.mpr ((h t).trans (h' t).symm)

theorem option_ext {α : Type} {o o' : Option α} (h : ∀ x, o = some x ↔ o' = some x) : o = o' := Option.ext h

theorem asNormal : Pins (fun _ => True) LangTag.asNormal fun f => ∀ (t : LangTag) (n : NormalLangTag),
    f t = some n ↔ StrNewtype.new NormalLangTag t.str = .ok n :=
  .of (fun t => (C14_answers t).2.1) fun _ _ h h' t _ => option_ext fun n => (h t n).trans (h' t n).symm

theorem asPrivateUse : Pins (fun _ => True) LangTag.asPrivateUse fun f => ∀ (t : LangTag) (n : PrivateUseLangTag),
    f t = some n ↔ StrNewtype.new PrivateUse t.str = .ok n :=
  .of (fun t => (C14_answers t).2.2.2.1) fun _ _ h h' t _ => option_ext fun n => (h t n).trans (h' t n).symm

theorem isGrandfathered : Pins Constructed LangTag.isGrandfathered fun f => ∀ t : LangTag, Constructed t → Returns (f t) ∧
    (f t = .ok true ↔ ∃ g, GrandfatheredLangTag.new t.str = .ok (.ok g)) := by
  refine .of (fun t h => ⟨(C56_langTag t h).2.2.1, (C14_answers t).2.2.2.2.1⟩) fun f f' h h' t ht => ?_
  obtain ⟨⟨x, hx⟩, h1⟩ := h t ht
  obtain ⟨⟨y, hy⟩, h2⟩ := h' t ht
  have h3 := h1.trans h2.symm
  rw [hx, hy] at h3 ⊢
  cases x <;> cases y <;> simp_all

theorem asGrandfathered : Pins Constructed LangTag.asGrandfathered fun f => ∀ t : LangTag, Constructed t → Returns (f t) ∧
    ∀ g, f t = .ok (some g) ↔ GrandfatheredLangTag.new t.str = .ok (.ok g) := by
  refine .of (fun t h => ⟨(C56_langTag t h).2.2.2.1, (C14_answers t).2.2.2.2.2⟩) fun f f' h h' t ht => ?_
  obtain ⟨⟨x, hx⟩, h1⟩ := h t ht
  obtain ⟨⟨y, hy⟩, h2⟩ := h' t ht
  have h3 := fun g => (h1 g).trans (h2 g).symm
  rw [hx, hy] at h3 ⊢
  exact congrArg Except.ok (option_ext fun g => by simpa using h3 g)

/-- `as_typed()`: the view of the kind C11 gives, holding the tag. -/
theorem asTyped : Pins Constructed LangTag.asTyped fun f => ∀ t : LangTag, Constructed t →
    ∃ ty, f t = .ok ty ∧ t.kind = .ok ty.kind ∧ Holds ty t.str := by
  refine .of C10_asTyped fun f f' h h' t ht => ?_
  obtain ⟨ty, h1, h2, h3⟩ := h t ht
  obtain ⟨ty', h1', h2', h3'⟩ := h' t ht
  rw [h1, h1']
  have hk := Except.ok.inj (h2.symm.trans h2')
  match ty, ty', hk, h3, h3' with
  | .Normal ⟨n⟩, .Normal ⟨n'⟩, _, h, h' => exact congrArg (fun x => Except.ok (TypedLangTag.Normal ⟨x⟩)) (h.1.trans h'.1.symm)
  | .PrivateUse ⟨n⟩, .PrivateUse ⟨n'⟩, _, h, h' =>
    exact congrArg (fun x => Except.ok (TypedLangTag.PrivateUse ⟨x⟩)) (h.1.trans h'.1.symm)
  | .Grandfathered g, .Grandfathered g', _, h, h' =>
    have := (C53_grandfathered g g').mpr (CaseEq.trans h (CaseEq.symm h'))
    rw [C53_orders.1.1] at this
    rw [this]

/-! ## Accessors of any tag: C15, C16, C40 -/

theorem langTag_language : Pins Constructed LangTag.language fun f => ∀ t : LangTag, Constructed t →
    ∃ r, f t = .ok r ∧ (r.isSome = true ↔ Accepts NormalLangTag t.str) ∧ ∀ p, Decomposes t.str p → r = some ⟨p.language⟩ := by
  refine .of (fun t h => ?_) fun f f' h h' t ht => ?_
  · obtain ⟨_, r, _, h1, _, h2, h3⟩ := C15_language t h
    exact ⟨r, h1, h2, h3⟩
  · obtain ⟨r, h1, h2, h3⟩ := h t ht
    obtain ⟨r', h1', h2', h3'⟩ := h' t ht
    rw [h1, h1']
    by_cases hn : Accepts NormalLangTag t.str
    · obtain ⟨p, hp⟩ := (normal_has_parts ⟨t.str⟩).mp (constructed_normal ((accepts_iff is_NormalLangTag _).mp hn))
      rw [h3 p hp, h3' p hp]
    · have e1 : r = none := by
        cases r with
        | none => rfl
        | some _ => exact absurd (h2.mp rfl) hn
      have e2 : r' = none := by
        cases r' with
        | none => rfl
        | some _ => exact absurd (h2'.mp rfl) hn
      rw [e1, e2]

/-- A statement that gives what `n` returns when the tag is normal and `none` otherwise. -/
theorem pins_delegate {β : Type} {f : LangTag → β} {n : NormalLangTag → β} {none : β}
    (h : ∀ t : LangTag, (Accepts NormalLangTag t.str → f t = n ⟨t.str⟩) ∧ (¬ Accepts NormalLangTag t.str → f t = none)) :
    Pins (fun _ => True) f fun f => ∀ t : LangTag,
      (Accepts NormalLangTag t.str → f t = n ⟨t.str⟩) ∧ (¬ Accepts NormalLangTag t.str → f t = none) := by
  refine .of h fun f f' h h' t _ => ?_
  by_cases hn : Accepts NormalLangTag t.str
  · rw [(h t).1 hn, (h' t).1 hn]
  · rw [(h t).2 hn, (h' t).2 hn]

theorem langTag_script : Pins (fun _ => True) LangTag.script fun f => ∀ t : LangTag,
    (Accepts NormalLangTag t.str → f t = NormalLangTag.script ⟨t.str⟩) ∧ (¬ Accepts NormalLangTag t.str → f t = .ok none) :=
  pins_delegate fun t => ⟨fun h => (C16_langTag t h).2.1, fun h => (C40_noComponents t h).1⟩

theorem langTag_region : Pins (fun _ => True) LangTag.region fun f => ∀ t : LangTag,
    (Accepts NormalLangTag t.str → f t = NormalLangTag.region ⟨t.str⟩) ∧ (¬ Accepts NormalLangTag t.str → f t = .ok none) :=
  pins_delegate fun t => ⟨fun h => (C16_langTag t h).2.2.1, fun h => (C40_noComponents t h).2.1⟩

theorem langTag_variants : Pins (fun _ => True) LangTag.variants fun f => ∀ t : LangTag,
    (Accepts NormalLangTag t.str → f t = NormalLangTag.variants ⟨t.str⟩) ∧ (¬ Accepts NormalLangTag t.str → f t = .ok ⟨[]⟩) :=
  pins_delegate fun t => ⟨fun h => (C16_langTag t h).2.2.2.1, fun h => (C40_noComponents t h).2.2.1⟩

theorem langTag_extensions : Pins (fun _ => True) LangTag.extensions fun f => ∀ t : LangTag,
    (Accepts NormalLangTag t.str → f t = NormalLangTag.extensions ⟨t.str⟩) ∧ (¬ Accepts NormalLangTag t.str → f t = .ok ⟨[]⟩) :=
  pins_delegate fun t => ⟨fun h => (C16_langTag t h).2.2.2.2.1, fun h => (C40_noComponents t h).2.2.2.1⟩

theorem langTag_privateUse : Pins (fun _ => True) LangTag.privateUse fun f => ∀ t : LangTag,
    (Accepts NormalLangTag t.str → f t = NormalLangTag.privateUse ⟨t.str⟩) ∧ (¬ Accepts NormalLangTag t.str → f t = .ok none) :=
  pins_delegate fun t => ⟨fun h => (C16_langTag t h).2.2.2.2.2.1, fun h => (C40_noComponents t h).2.2.2.2.1⟩

/-- `language()` of a grandfathered tag, C13 -/
theorem grandfathered_language : Pins (fun _ => True) GrandfatheredLangTag.language fun f => ∀ g : GrandfatheredLangTag,
    (Grammar.regular.Matches g.asStr → ∃ l, f g = some l ∧ (subtags g.asStr).head? = some l.str) ∧
    (Grammar.irregular.Matches g.asStr → f g = none) := by
  refine .of (fun g => ⟨fun h => ?_, (C13_language g).2⟩) fun f f' h h' g _ => ?_
  · obtain ⟨l, h1, h2, _⟩ := (C13_language g).1 h
    exact ⟨l, h1, h2⟩
  · have hg : Grammar.irregular.Matches g.asStr ∨ Grammar.regular.Matches g.asStr := by
      rw [matches_irregular, matches_regular]
      cases hl : g.language with
      | none => exact Or.inl ⟨g, hl, rfl⟩
      | some l => exact Or.inr ⟨g, by simp [hl], rfl⟩
    rcases hg with hg | hg
    · rw [(h g).2 hg, (h' g).2 hg]
    · obtain ⟨⟨l⟩, h1, h2⟩ := (h g).1 hg
      obtain ⟨⟨l'⟩, h1', h2'⟩ := (h' g).1 hg
      rw [h1, h1']
      rw [h2] at h2'
      exact congrArg (fun x => some (Language.mk x)) (Option.some.inj h2')

/-! ## Singletons: C32 -/

theorem singleton_new : Pins (fun _ => True) Singleton.new fun f => ∀ b : UInt8,
    (Grammar.singleton.Matches [b] → ∃ g, f b = .ok g ∧ g.unwrap = b) ∧ (¬ Grammar.singleton.Matches [b] → f b = .error b) := by
  refine .of (fun b => ⟨fun h => ?_, fun h => ((C32_u8 b).2 h).1⟩) fun f f' hf hf' b _ => ?_
  · obtain ⟨g, h1, _, h3⟩ := (C32_u8 b).1 h
    exact ⟨g, h1, h3⟩
  · by_cases h : Grammar.singleton.Matches [b]
    · obtain ⟨⟨g⟩, h1, h2⟩ := (hf b).1 h
      obtain ⟨⟨g'⟩, h1', h2'⟩ := (hf' b).1 h
      rw [h1, h1']
      exact congrArg (fun b => Except.ok (Model.Singleton.mk b)) ((show g = b from h2).trans (show g' = b from h2').symm)
    · rw [(hf b).2 h, (hf' b).2 h]

end Langtag.Tight
