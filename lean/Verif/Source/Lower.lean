import Verif.Spec.Program
import Verif.Source.ClientParts
import Verif.Proof.Lower

/-! # The public functions on arguments in lower case -/

set_option autoImplicit false

namespace Langtag.Lower
open Langtag.Model hiding Singleton
open Langtag.Source Langtag.Spec Langtag.Props Langtag.Client
open Langtag.Proof hiding run

variable {max : Nat}

/-! ## Values in lower case -/

theorem lower_lower (b : UInt8) : lower (lower b) = lower b := bytes (fun b => lower (lower b) = lower b) (by decide +kernel) b

theorem lowerChar_lowerChar (c : Char) : lowerChar (lowerChar c) = lowerChar c := by
  unfold lowerChar
  by_cases h : 65 ≤ c.toNat ∧ c.toNat ≤ 90
  · rw [if_pos h]
    have key : ∀ n : Fin 26, (Char.ofNat (n.1 + 97)).toNat = n.1 + 97 := by decide +kernel
    have := key ⟨c.toNat - 65, by omega⟩
    simp only at this
    rw [show c.toNat - 65 + 97 = c.toNat + 32 by omega] at this
    rw [this, if_neg (by omega)]
  · rw [if_neg h, if_neg h]

mutual
theorem lowerVal_lowerVal : ∀ v : Val, lowerVal (lowerVal v) = lowerVal v
  | .u8 b => by simp only [lowerVal, lower_lower]
  | .char c => by simp only [lowerVal, lowerChar_lowerChar]
  | .str s => by simp only [lowerVal, lowerText_lowerText]
  | .bytes s => by simp only [lowerVal, lowerText_lowerText]
  | .tuple vs => by simp only [lowerVal, lowerVals_lowerVals vs]
  | .ctor T x vs => by simp only [lowerVal, lowerVals_lowerVals vs]
  | .struct T fs => by simp only [lowerVal, lowerFields_lowerFields fs]
  | .formatter f out => by simp only [lowerVal, List.map_map]; congr 1; simp [lowerChar_lowerChar]
  | .bool _ | .u32 _ | .usize _ | .range .. | .rangeFrom _ | .rangeTo _ | .array _ | .closure .. | .fn .. | .chars _ | .hasher _ => by simp only [lowerVal]
theorem lowerVals_lowerVals : ∀ vs : List Val, lowerVals (lowerVals vs) = lowerVals vs
  | [] => rfl
  | v :: vs => by simp only [lowerVals, lowerVal_lowerVal v, lowerVals_lowerVals vs]
theorem lowerFields_lowerFields : ∀ fs : List (String × Val), lowerFields (lowerFields fs) = lowerFields fs
  | [] => rfl
  | (x, v) :: fs => by simp only [lowerFields, lowerVal_lowerVal v, lowerFields_lowerFields fs]
end

theorem lowerVals_eq_map (vs : List Val) : lowerVals vs = vs.map lowerVal := by
  induction vs with
  | nil => rfl
  | cons v vs ih => rw [lowerVals, ih]; rfl

/-- The value of the program that stands for a value of the model in lower case. -/
class LowRep (α : Type) [Rep α] [Low α] : Prop where
  val_low : ∀ a : α, val (low a) = lowerVal (val a)
export LowRep (val_low)

instance : LowRep Bool := ⟨fun _ => rfl⟩
instance : LowRep UInt8 := ⟨fun _ => rfl⟩
instance : LowRep Str := ⟨fun _ => rfl⟩
instance : LowRep Ordering := ⟨fun o => by cases o <;> rfl⟩
instance : LowRep Kind := ⟨fun k => by cases k <;> rfl⟩
instance : LowRep GrandfatheredLangTag := ⟨fun _ => rfl⟩
instance : LowRep Model.Singleton := ⟨fun _ => rfl⟩
instance : LowRep LangTag := ⟨fun _ => rfl⟩
instance : LowRep NormalLangTag := ⟨fun _ => rfl⟩
instance : LowRep Language := ⟨fun _ => rfl⟩
instance : LowRep PrimaryLanguage := ⟨fun _ => rfl⟩
instance : LowRep LanguageExtension := ⟨fun _ => rfl⟩
instance : LowRep ExtendedLangTag := ⟨fun _ => rfl⟩
instance : LowRep Script := ⟨fun _ => rfl⟩
instance : LowRep Region := ⟨fun _ => rfl⟩
instance : LowRep Variant := ⟨fun _ => rfl⟩
instance : LowRep Variants := ⟨fun _ => rfl⟩
instance : LowRep Extension := ⟨fun _ => rfl⟩
instance : LowRep Extensions := ⟨fun _ => rfl⟩
instance : LowRep ExtensionSubtag := ⟨fun _ => rfl⟩
instance : LowRep PrivateUse := ⟨fun _ => rfl⟩
instance : LowRep PrivateUseSubtag := ⟨fun _ => rfl⟩
instance : LowRep VariantsIter := ⟨fun _ => rfl⟩
instance : LowRep ExtensionIter := ⟨fun _ => rfl⟩
instance : LowRep ExtensionsIter := ⟨fun _ => rfl⟩
instance : LowRep PrivateUseIter := ⟨fun _ => rfl⟩
instance : LowRep LanguageExtensionIter := ⟨fun _ => rfl⟩
instance : LowRep TypedLangTag := ⟨fun t => by rcases t with t | t | t <;> rfl⟩
instance {α : Type} [Rep α] [Low α] [LowRep α] : LowRep (Option α) := ⟨fun o => by
  cases o with
  | none => rfl
  | some a => show Val.ctor _ _ [val (low a)] = Val.ctor _ _ [lowerVal (val a)]; rw [val_low]⟩
instance {ε α : Type} [Rep ε] [Low ε] [LowRep ε] [Rep α] [Low α] [LowRep α] : LowRep (Except ε α) := ⟨fun r => by
  cases r with
  | ok a => show Val.ctor _ _ [val (low a)] = Val.ctor _ _ [lowerVal (val a)]; rw [val_low]
  | error a => show Val.ctor _ _ [val (low a)] = Val.ctor _ _ [lowerVal (val a)]; rw [val_low]⟩

theorem lowerVal_low {α : Type} [Rep α] [Low α] [LowRep α] (a : α) : lowerVal (val (low a)) = lowerVal (val a) := by
  rw [val_low, lowerVal_lowerVal]

/-! ## Calls -/

/-- The call, and the same call in lower case, end alike up to letter case. -/
def Agrees (max : Nat) (F : PubFn) (args : List Val) : Prop :=
  (run max F.owner F.name (args.map lowerVal)).map lowerOutcome = (run max F.owner F.name args).map lowerOutcome

theorem agrees {F : PubFn} {args args' : List Val} {o o' : Option Outcome} (ha : args.map lowerVal = args')
    (h : run max F.owner F.name args = o) (h' : run max F.owner F.name args' = o') (he : o'.map lowerOutcome = o.map lowerOutcome) :
    Agrees max F args := by
  rw [Agrees, ha, h, h']; exact he

theorem gives_low {α : Type} [Rep α] [Low α] [LowRep α] {r r' : Rust α} (h : r' = mapR low r) :
    (gives r').map lowerOutcome = (gives r).map lowerOutcome := by
  subst h
  cases r with
  | ok a => exact congrArg (fun v => some (Outcome.returns v [])) (lowerVal_low a)
  | error p => rfl

theorem gives_low_ok {α : Type} [Rep α] [Low α] [LowRep α] {a a' : α} (h : a' = low a) :
    (gives (.ok a')).map lowerOutcome = (gives (.ok a)).map lowerOutcome := gives_low (congrArg Except.ok h)

theorem givesNext_low {α β : Type} [Rep α] [Low α] [LowRep α] [Rep β] [Low β] [LowRep β] {r r' : Rust (Option α × β)} (h : r' = mapR low r) :
    (givesNext r').map lowerOutcome = (givesNext r).map lowerOutcome := by
  subst h
  cases r with
  | ok a =>
    obtain ⟨x, it⟩ := a
    show some (Outcome.returns (lowerVal (val (low x))) [lowerVal (val (low it))]) = some (Outcome.returns (lowerVal (val x)) [lowerVal (val it)])
    rw [lowerVal_low, lowerVal_low]
  | error p => rfl

theorem givesBy_low {α : Type} {k : α → Val} {r r' : Rust α} {l : α → α} (hk : ∀ a, lowerVal (k (l a)) = lowerVal (k a)) (h : r' = mapR l r) :
    (givesBy k r').map lowerOutcome = (givesBy k r).map lowerOutcome := by
  subst h
  cases r with
  | ok a => exact congrArg (fun v => some (Outcome.returns v [])) (hk a)
  | error p => rfl

/-! ## The functions of every string type -/

theorem type_agrees {n : String} {M : Type} [StrNewtype M] [Compare M] [LawfulCompare M] [Rep M] [Low M] [LowRep M] (src : IsSource n M)
    (hl : ∀ a : M, StrNewtype.str (low a) = lowerText (StrNewtype.str a))
    (hnew : ∀ s, StrNewtype.new M (lowerText s) = low (StrNewtype.new M s)) (hn : n ∈ stringTypes) {F : PubFn}
    (hF : F ∈ [⟨[n], "new", [.str]⟩, ⟨[n], "eq", [.of n, .of n]⟩, ⟨[n], "cmp", [.of n, .of n]⟩, ⟨[n], "partial_cmp", [.of n, .of n]⟩,
      ⟨[n], "hash", [.of n, .hasher]⟩])
    {args : List Val} (hf : FitAll F.params args) (ha : ∀ a ∈ args, Sound max a) : Agrees max F args := by
  have one : ∀ v, Sound max v → (Param.of n).Fits v → ∃ a : M, v = val a ∧ (StrNewtype.str a).length + 1 ≤ max := by
    intro v hv hf
    obtain ⟨s, rfl, _, hs⟩ := sound_text hn hv hf
    obtain ⟨a, rfl⟩ := src.ofText s
    exact ⟨a, (src.val_eq a).symm, hs⟩
  have len : ∀ a : M, (StrNewtype.str a).length + 1 ≤ max → (StrNewtype.str (low a)).length + 1 ≤ max := by
    intro a h; rw [hl, length_lowerText]; exact h
  simp only [List.mem_cons, List.not_mem_nil, or_false] at hF
  rcases hF with rfl | rfl | rfl | rfl | rfl <;>
    rcases args with _ | ⟨v, _ | ⟨w, _ | ⟨u, vs⟩⟩⟩ <;> simp only [FitAll, and_true, and_false] at hf <;>
    simp only [List.mem_cons, List.not_mem_nil, or_false, forall_eq_or_imp, forall_eq] at ha
  · obtain ⟨s, rfl⟩ := hf
    obtain ⟨_, hs⟩ := sound_str ha
    exact agrees rfl (src.new max s hs) (src.new max (lowerText s) (by rw [length_lowerText]; exact hs)) (gives_low_ok (hnew s))
  · obtain ⟨a, rfl, hs⟩ := one v ha.1 hf.1
    obtain ⟨b, rfl, _⟩ := one w ha.2 hf.2
    exact agrees (by rw [List.map_cons, List.map_cons, ← val_low, ← val_low]; rfl) (src.eq max a b) (src.eq max (low a) (low b))
      (by rw [eq_lower (hl a) (hl b)])
  · obtain ⟨a, rfl, hs⟩ := one v ha.1 hf.1
    obtain ⟨b, rfl, _⟩ := one w ha.2 hf.2
    exact agrees (by rw [List.map_cons, List.map_cons, ← val_low, ← val_low]; rfl) (src.cmp max a b hs) (src.cmp max (low a) (low b) (len a hs))
      (by rw [cmp_lower (hl a) (hl b)])
  · obtain ⟨a, rfl, hs⟩ := one v ha.1 hf.1
    obtain ⟨b, rfl, _⟩ := one w ha.2 hf.2
    exact agrees (by rw [List.map_cons, List.map_cons, ← val_low, ← val_low]; rfl) (src.partialCmp max a b hs)
      (src.partialCmp max (low a) (low b) (len a hs)) (by rw [partialCmp_lower (hl a) (hl b)])
  · obtain ⟨a, rfl, hs⟩ := one v ha.1 hf.1
    obtain ⟨w, rfl⟩ := hf.2
    have h := src.hash max (low a) w
    rw [show Compare.hash logHasher (low a) w = Compare.hash logHasher a w from hash_lower logHasher (hl a) w] at h
    exact agrees (by rw [List.map_cons, List.map_cons, ← val_low]; rfl) (src.hash max a w) h rfl

theorem stringTypes_agrees {T : String} (hT : T ∈ stringTypes) {F : PubFn}
    (hF : F ∈ [⟨[T], "new", [.str]⟩, ⟨[T], "eq", [.of T, .of T]⟩, ⟨[T], "cmp", [.of T, .of T]⟩, ⟨[T], "partial_cmp", [.of T, .of T]⟩,
      ⟨[T], "hash", [.of T, .hasher]⟩])
    {args : List Val} (hf : FitAll F.params args) (ha : ∀ a ∈ args, Sound max a) : Agrees max F args := by
  have hT' := hT
  simp only [stringTypes, List.mem_cons, List.not_mem_nil, or_false] at hT
  rcases hT with rfl | rfl | rfl | rfl | rfl | rfl | rfl | rfl | rfl | rfl | rfl | rfl | rfl | rfl | rfl
  · exact type_agrees LangTag.source (fun _ => rfl) (new_lower isOk_LangTag_lower fun _ => rfl) hT' hF hf ha
  · exact type_agrees NormalLangTag.source (fun _ => rfl) (new_lower isOk_NormalLangTag_lower fun _ => rfl) hT' hF hf ha
  · exact type_agrees Language.source (fun _ => rfl) (new_lower isOk_Language_lower fun _ => rfl) hT' hF hf ha
  · exact type_agrees PrimaryLanguage.source (fun _ => rfl) (new_lower isOk_PrimaryLanguage_lower fun _ => rfl) hT' hF hf ha
  · exact type_agrees LanguageExtension.source (fun _ => rfl) (new_lower isOk_LanguageExtension_lower fun _ => rfl) hT' hF hf ha
  · exact type_agrees ExtendedLangTag.source (fun _ => rfl) (new_lower isOk_ExtendedLangTag_lower fun _ => rfl) hT' hF hf ha
  · exact type_agrees Script.source (fun _ => rfl) (new_lower isOk_Script_lower fun _ => rfl) hT' hF hf ha
  · exact type_agrees Region.source (fun _ => rfl) (new_lower isOk_Region_lower fun _ => rfl) hT' hF hf ha
  · exact type_agrees Variant.source (fun _ => rfl) (new_lower isOk_Variant_lower fun _ => rfl) hT' hF hf ha
  · exact type_agrees Variants.source (fun _ => rfl) (new_lower isOk_Variants_lower fun _ => rfl) hT' hF hf ha
  · exact type_agrees Extension.source (fun _ => rfl) (new_lower isOk_Extension_lower fun _ => rfl) hT' hF hf ha
  · exact type_agrees Extensions.source (fun _ => rfl) (new_lower isOk_Extensions_lower fun _ => rfl) hT' hF hf ha
  · exact type_agrees ExtensionSubtag.source (fun _ => rfl) (new_lower isOk_ExtensionSubtag_lower fun _ => rfl) hT' hF hf ha
  · exact type_agrees PrivateUse.source (fun _ => rfl) (new_lower isOk_PrivateUse_lower fun _ => rfl) hT' hF hf ha
  · exact type_agrees PrivateUseSubtag.source (fun _ => rfl) (new_lower isOk_PrivateUseSubtag_lower fun _ => rfl) hT' hF hf ha

theorem methods_agree {T : String} {fs : List String}
    (h : ∀ v, Sound max v → typeName v = some T → ∀ f ∈ fs, Agrees max ⟨[T], f, [.of T]⟩ [v]) {F : PubFn} (hF : F ∈ methods T fs)
    {args : List Val} (hf : FitAll F.params args) (ha : ∀ a ∈ args, Sound max a) : Agrees max F args := by
  obtain ⟨f, hf', rfl⟩ := List.mem_map.mp hF
  rcases args with _ | ⟨v, _ | ⟨w, vs⟩⟩ <;> simp only [FitAll, and_true, and_false] at hf
  exact h v (ha v (by simp)) hf f hf'

theorem length_lower {s : Text} (h : s.length + 1 ≤ max) : (lowerText s).length + 1 ≤ max := by rw [length_lowerText]; exact h

/-! ## Tags -/

theorem normal_agrees {F : PubFn}
    (hF : F ∈ methods "NormalLangTag" ["language", "script", "region", "variants", "extensions", "private_use", "private_use_subtags"])
    {args : List Val} (hf : FitAll F.params args) (ha : ∀ a ∈ args, Sound max a) : Agrees max F args := by
  refine methods_agree (fun v hv hn f hf => ?_) hF hf ha
  obtain ⟨s, rfl, ht, hs⟩ := sound_text (by decide) hv hn
  obtain ⟨r1, r2, r3, r4, r5, r6, r7⟩ := C69_normalLangTag max ⟨s⟩ hs
  obtain ⟨q1, q2, q3, q4, q5, q6, q7⟩ := C69_normalLangTag max ⟨lowerText s⟩ (length_lower hs)
  simp only [List.mem_cons, List.not_mem_nil, or_false] at hf
  rcases hf with rfl | rfl | rfl | rfl | rfl | rfl | rfl
  · exact agrees rfl r1 q1 (gives_low (language_lower ⟨s⟩))
  · exact agrees rfl r2 q2 (gives_low (script_lower ⟨s⟩))
  · exact agrees rfl r3 q3 (gives_low (region_lower ⟨s⟩))
  · exact agrees rfl r4 q4 (gives_low (variants_lower ⟨s⟩))
  · exact agrees rfl r5 q5 (gives_low (extensions_lower ⟨s⟩))
  · exact agrees rfl r6 q6 (gives_low (privateUse_lower ⟨s⟩))
  · exact agrees rfl r7 q7 (gives_low (privateUseSubtags_lower ⟨s⟩))

theorem langTag_agrees {F : PubFn}
    (hF : F ∈ methods "LangTag" ["language", "script", "region", "variants", "extensions", "private_use", "private_use_subtags", "is_normal",
      "is_private_use", "is_grandfathered", "as_normal", "as_private_use", "as_grandfathered", "kind", "as_typed"])
    {args : List Val} (hf : FitAll F.params args) (ha : ∀ a ∈ args, Sound max a) : Agrees max F args := by
  refine methods_agree (fun v hv hn f hf => ?_) hF hf ha
  obtain ⟨s, rfl, ht, hs⟩ := sound_text (by decide) hv hn
  obtain ⟨r1, r2, r3, r4, r5, r6, r7, r8, r9, r10, r11, r12, r13, r14, r15⟩ := C69_langTag max ⟨s⟩ hs
  obtain ⟨q1, q2, q3, q4, q5, q6, q7, q8, q9, q10, q11, q12, q13, q14, q15⟩ := C69_langTag max ⟨lowerText s⟩ (length_lower hs)
  simp only [List.mem_cons, List.not_mem_nil, or_false] at hf
  rcases hf with rfl | rfl | rfl | rfl | rfl | rfl | rfl | rfl | rfl | rfl | rfl | rfl | rfl | rfl | rfl
  · exact agrees rfl r1 q1 (gives_low (langTag_language_lower ⟨s⟩))
  · exact agrees rfl r2 q2 (gives_low (langTag_script_lower ⟨s⟩))
  · exact agrees rfl r3 q3 (gives_low (langTag_region_lower ⟨s⟩))
  · exact agrees rfl r4 q4 (gives_low (langTag_variants_lower ⟨s⟩))
  · exact agrees rfl r5 q5 (gives_low (langTag_extensions_lower ⟨s⟩))
  · exact agrees rfl r6 q6 (gives_low (langTag_privateUse_lower ⟨s⟩))
  · exact agrees rfl r7 q7 (gives_low (langTag_privateUseSubtags_lower ⟨s⟩))
  · exact agrees rfl r8 q8 (gives_low_ok (isNormal_lower ⟨s⟩))
  · exact agrees rfl r9 q9 (gives_low_ok (isPrivateUse_lower ⟨s⟩))
  · exact agrees rfl r10 q10 (gives_low (isGrandfathered_lower ⟨s⟩))
  · exact agrees rfl r11 q11 (gives_low_ok (asNormal_lower ⟨s⟩))
  · exact agrees rfl r12 q12 (gives_low_ok (asPrivateUse_lower ⟨s⟩))
  · exact agrees rfl r13 q13 (gives_low (asGrandfathered_lower ⟨s⟩))
  · exact agrees rfl r14 q14 (gives_low (kind_lower ⟨s⟩))
  · exact agrees rfl r15 q15 (gives_low (asTyped_lower ⟨s⟩))

theorem macro_agrees {F : PubFn} (hF : F ∈ [(⟨[], "langtag", [.str]⟩ : PubFn)])
    {args : List Val} (hf : FitAll F.params args) (ha : ∀ a ∈ args, Sound max a) : Agrees max F args := by
  rw [List.mem_singleton] at hF
  subst hF
  rcases args with _ | ⟨v, _ | ⟨w, vs⟩⟩ <;> simp only [FitAll, and_true, and_false] at hf
  obtain ⟨s, rfl⟩ := hf
  obtain ⟨h, hs⟩ := sound_str (ha (.str s) (by simp))
  exact agrees rfl (C69_macro max s hs) (C69_macro max _ (length_lower hs)) (gives_low (langtag!_lower s))

theorem typed_agrees (hmax : 12 ≤ max) {F : PubFn}
    (hF : F ∈ methods "TypedLangTag" ["language", "kind", "is_normal", "is_private_use", "is_grandfathered", "as_normal", "as_private_use",
      "as_grandfathered"])
    {args : List Val} (hf : FitAll F.params args) (ha : ∀ a ∈ args, Sound max a) : Agrees max F args := by
  refine methods_agree (fun v hv hn f hf => ?_) hF hf ha
  obtain ⟨t, rfl, ht⟩ := sound_typed hv hn
  have hl : typedLength t + 1 ≤ max := by
    rcases t with t | t | t
    · exact ht.2
    · exact ht.2
    · show 0 + 1 ≤ max
      omega
  have hl' : typedLength (low t) + 1 ≤ max := by
    rcases t with t | t | t
    · exact length_lower hl
    · exact length_lower hl
    · exact hl
  have he : [val t].map lowerVal = [val (low t)] := by rw [val_low]; rfl
  obtain ⟨r1, r2, r3, r4, r5, r6, r7, r8⟩ := C69_typedLangTag max t hl
  obtain ⟨q1, q2, q3, q4, q5, q6, q7, q8⟩ := C69_typedLangTag max (low t) hl'
  simp only [List.mem_cons, List.not_mem_nil, or_false] at hf
  rcases hf with rfl | rfl | rfl | rfl | rfl | rfl | rfl | rfl
  · exact agrees he r1 q1 (gives_low (typed_language_lower t))
  · exact agrees he r2 q2 (gives_low_ok (by rcases t with t | t | t <;> rfl))
  · exact agrees he r3 q3 (gives_low_ok (by rcases t with t | t | t <;> rfl))
  · exact agrees he r4 q4 (gives_low_ok (by rcases t with t | t | t <;> rfl))
  · exact agrees he r5 q5 (gives_low_ok (by rcases t with t | t | t <;> rfl))
  · exact agrees he r6 q6 (gives_low_ok (by rcases t with t | t | t <;> rfl))
  · exact agrees he r7 q7 (gives_low_ok (by rcases t with t | t | t <;> rfl))
  · exact agrees he r8 q8 (gives_low_ok (by rcases t with t | t | t <;> rfl))

/-- Nothing changes in lower case. -/
theorem agrees_self {F : PubFn} {args : List Val} (h : args.map lowerVal = args) : Agrees max F args := by rw [Agrees, h]

theorem kind_agrees {F : PubFn} (hF : F ∈ methods "Kind" ["is_normal", "is_private_use", "is_grandfathered"])
    {args : List Val} (hf : FitAll F.params args) (ha : ∀ a ∈ args, Sound max a) : Agrees max F args := by
  refine methods_agree (fun v hv hn f hf => ?_) hF hf ha
  obtain ⟨k, rfl⟩ := sound_kind hv hn
  exact agrees_self (by cases k <;> rfl)

theorem grandfathered_methods_agree {F : PubFn} (hF : F ∈ methods "GrandfatheredLangTag" ["language", "as_bytes", "as_str"])
    {args : List Val} (hf : FitAll F.params args) (ha : ∀ a ∈ args, Sound max a) : Agrees max F args := by
  refine methods_agree (fun v hv hn f hf => ?_) hF hf ha
  obtain ⟨g, rfl⟩ := sound_grandfathered hv hn
  exact agrees_self rfl

theorem map_pad (f : Formatter) (s t : List Char) (h : s.map lowerChar = t.map lowerChar) : (f.pad s).map lowerChar = (f.pad t).map lowerChar := by
  have hl : s.length = t.length := by simpa using congrArg List.length h
  unfold Formatter.pad
  rcases f with ⟨fill, al, w, p⟩
  have h' : ∀ s t : List Char, s.map lowerChar = t.map lowerChar → s.length = t.length →
      List.map lowerChar (match w with
        | none => s
        | some w => if s.length < w then
            List.replicate (Formatter.padding ⟨fill, al, some w, p⟩ (w - s.length)).1 fill ++ s ++ List.replicate (Formatter.padding ⟨fill, al, some w, p⟩ (w - s.length)).2 fill
          else s) =
      List.map lowerChar (match w with
        | none => t
        | some w => if t.length < w then
            List.replicate (Formatter.padding ⟨fill, al, some w, p⟩ (w - t.length)).1 fill ++ t ++ List.replicate (Formatter.padding ⟨fill, al, some w, p⟩ (w - t.length)).2 fill
          else t) := by
    intro s t h hl
    cases w with
    | none => exact h
    | some w =>
      simp only [hl]
      split
      · simp only [List.map_append, h]
      · exact h
  cases p with
  | none => cases w <;> exact h' s t h hl
  | some p =>
    have := h' (s.take p) (t.take p) (by simp only [List.map_take, h]) (by simp [hl])
    cases w <;> exact this

theorem fmt_outcome (f : Formatter) (out out' s t : List Char) (ho : out'.map lowerChar = out.map lowerChar) (h : s.map lowerChar = t.map lowerChar) :
    (some (Outcome.returns (.ok (.tuple [])) [.formatter f (out' ++ f.pad s)])).map lowerOutcome =
    (some (Outcome.returns (.ok (.tuple [])) [.formatter f (out ++ f.pad t)])).map lowerOutcome := by
  simp only [Option.map_some, lowerOutcome, List.map_cons, lowerVal, List.map_append, map_pad f s t h, ho]

theorem map_lowerChar_twice (out : List Char) : (out.map lowerChar).map lowerChar = out.map lowerChar := by
  simp [lowerChar_lowerChar]

theorem grandfathered_agrees {F : PubFn}
    (hF : F ∈ [⟨["GrandfatheredLangTag"], "new", [.str]⟩, ⟨["GrandfatheredLangTag"], "try_from", [.bytes]⟩,
      ⟨["GrandfatheredLangTag"], "fmt", [.of "GrandfatheredLangTag", .formatter]⟩])
    {args : List Val} (hf : FitAll F.params args) (ha : ∀ a ∈ args, Sound max a) : Agrees max F args := by
  simp only [List.mem_cons, List.not_mem_nil, or_false] at hF
  rcases hF with rfl | rfl | rfl <;>
    rcases args with _ | ⟨v, _ | ⟨w, _ | ⟨u, vs⟩⟩⟩ <;> simp only [FitAll, and_true, and_false] at hf <;>
    simp only [List.mem_cons, List.not_mem_nil, or_false, forall_eq_or_imp, forall_eq] at ha
  · obtain ⟨s, rfl⟩ := hf
    exact agrees rfl (C69_grandfathered max .IAmi s .default []).1 (C69_grandfathered max .IAmi _ .default []).1
      (givesBy_low (fun r => by cases r <;> simp only [low, newResult, lowerVal, lowerVals, lowerText_lowerText, id]) (grandfathered_lower s))
  · obtain ⟨s, rfl⟩ := hf
    exact agrees rfl (C69_grandfathered max .IAmi s .default []).2.1 (C69_grandfathered max .IAmi _ .default []).2.1
      (givesBy_low (fun r => by cases r <;> simp only [low, tryFromResult, lowerVal, lowerVals, lowerText_lowerText, id]) (tryFrom_lower s))
  · obtain ⟨g, rfl⟩ := sound_grandfathered ha.1 hf.1
    obtain ⟨f, out, rfl⟩ := hf.2
    exact agrees rfl (C69_grandfathered max g [] f out).2.2.2.2.2 (C69_grandfathered max g [] f _).2.2.2.2.2
      (fmt_outcome f _ _ _ _ (map_lowerChar_twice out) rfl)

/-! ## The parts of tags -/

theorem empty_agrees {F : PubFn}
    (hF : F ∈ [(⟨["LanguageExtensionIter"], "empty", []⟩ : PubFn), ⟨["VariantsIter"], "empty", []⟩, ⟨["ExtensionIter"], "empty", []⟩,
      ⟨["PrivateUseIter"], "empty", []⟩])
    {args : List Val} (hf : FitAll F.params args) : Agrees max F args := by
  simp only [List.mem_cons, List.not_mem_nil, or_false] at hF
  rcases hF with rfl | rfl | rfl | rfl <;> rcases args with _ | ⟨v, vs⟩ <;> simp only [FitAll] at hf <;> exact agrees_self rfl

theorem language_agrees {F : PubFn} (hF : F ∈ methods "Language" ["primary", "extension", "extension_subtags"])
    {args : List Val} (hf : FitAll F.params args) (ha : ∀ a ∈ args, Sound max a) : Agrees max F args := by
  refine methods_agree (fun v hv hn f hf => ?_) hF hf ha
  obtain ⟨s, rfl, ht, hs⟩ := sound_text (by decide) hv hn
  obtain ⟨r1, r2, r3, _⟩ := C69_parts max s ⟨0⟩ hs
  obtain ⟨q1, q2, q3, _⟩ := C69_parts max (lowerText s) ⟨0⟩ (length_lower hs)
  simp only [List.mem_cons, List.not_mem_nil, or_false] at hf
  rcases hf with rfl | rfl | rfl
  · exact agrees rfl r1 q1 (gives_low_ok (primary_lower s))
  · exact agrees rfl r2 q2 (gives_low_ok (extension_lower s))
  · exact agrees rfl r3 q3 (gives_low_ok (extensionSubtags_lower s))

theorem languageExtension_agrees {F : PubFn} (hF : F ∈ methods "LanguageExtension" ["iter"])
    {args : List Val} (hf : FitAll F.params args) (ha : ∀ a ∈ args, Sound max a) : Agrees max F args := by
  refine methods_agree (fun v hv hn f hf => ?_) hF hf ha
  obtain ⟨s, rfl, ht, hs⟩ := sound_text (by decide) hv hn
  rw [List.mem_singleton] at hf
  subst hf
  exact agrees rfl (C69_parts max s ⟨0⟩ hs).2.2.2.1 (C69_parts max (lowerText s) ⟨0⟩ (length_lower hs)).2.2.2.1 (gives_low_ok rfl)

theorem variants_agrees {F : PubFn} (hF : F ∈ methods "Variants" ["iter", "first", "last"])
    {args : List Val} (hf : FitAll F.params args) (ha : ∀ a ∈ args, Sound max a) : Agrees max F args := by
  refine methods_agree (fun v hv hn f hf => ?_) hF hf ha
  obtain ⟨s, rfl, ht, hs⟩ := sound_text (by decide) hv hn
  obtain ⟨_, _, _, _, r1, r2, r3, _⟩ := C69_parts max s ⟨0⟩ hs
  obtain ⟨_, _, _, _, q1, q2, q3, _⟩ := C69_parts max (lowerText s) ⟨0⟩ (length_lower hs)
  simp only [List.mem_cons, List.not_mem_nil, or_false] at hf
  rcases hf with rfl | rfl | rfl
  · exact agrees rfl r1 q1 (gives_low_ok (by show VariantsIter.mk .. = VariantsIter.mk ..; rw [length_lowerText]; rfl))
  · exact agrees rfl r2 q2 (gives_low (first_lower s))
  · exact agrees rfl r3 q3 (gives_low (last_lower s))

theorem extension_agrees {F : PubFn} (hF : F ∈ methods "Extension" ["singleton", "iter"])
    {args : List Val} (hf : FitAll F.params args) (ha : ∀ a ∈ args, Sound max a) : Agrees max F args := by
  refine methods_agree (fun v hv hn f hf => ?_) hF hf ha
  obtain ⟨s, rfl, ht, hs⟩ := sound_text (by decide) hv hn
  obtain ⟨_, _, _, _, _, _, _, r1, r2, _⟩ := C69_parts max s ⟨0⟩ hs
  obtain ⟨_, _, _, _, _, _, _, q1, q2, _⟩ := C69_parts max (lowerText s) ⟨0⟩ (length_lower hs)
  simp only [List.mem_cons, List.not_mem_nil, or_false] at hf
  rcases hf with rfl | rfl
  · exact agrees rfl r1 q1 (gives_low (singleton_lower s))
  · exact agrees rfl r2 q2 (gives_low_ok rfl)

theorem extensions_agrees {F : PubFn} (hF : F ∈ methods "Extensions" ["iter"])
    {args : List Val} (hf : FitAll F.params args) (ha : ∀ a ∈ args, Sound max a) : Agrees max F args := by
  refine methods_agree (fun v hv hn f hf => ?_) hF hf ha
  obtain ⟨s, rfl, ht, hs⟩ := sound_text (by decide) hv hn
  rw [List.mem_singleton] at hf
  subst hf
  exact agrees rfl (C69_parts max s ⟨0⟩ hs).2.2.2.2.2.2.2.2.2.2.1 (C69_parts max (lowerText s) ⟨0⟩ (length_lower hs)).2.2.2.2.2.2.2.2.2.2.1
    (gives_low_ok rfl)

theorem privateUse_agrees {F : PubFn} (hF : F ∈ methods "PrivateUse" ["iter"])
    {args : List Val} (hf : FitAll F.params args) (ha : ∀ a ∈ args, Sound max a) : Agrees max F args := by
  refine methods_agree (fun v hv hn f hf => ?_) hF hf ha
  obtain ⟨s, rfl, ht, hs⟩ := sound_text (by decide) hv hn
  rw [List.mem_singleton] at hf
  subst hf
  exact agrees rfl (C69_parts max s ⟨0⟩ hs).2.2.2.2.2.2.2.2.2.2.2.2 (C69_parts max (lowerText s) ⟨0⟩ (length_lower hs)).2.2.2.2.2.2.2.2.2.2.2.2
    (gives_low_ok rfl)

theorem privateUseIter_agrees {F : PubFn} (hF : F ∈ methods "PrivateUseIter" ["next"]) {args : List Val} (hf : FitAll F.params args)
    (ha : ∀ a ∈ args, Sound max a) : Agrees max F args := by
  refine methods_agree (fun v hv hn f hf => ?_) hF hf ha
  obtain ⟨it, rfl, hi⟩ := sound_privateUseIter hv hn
  rw [List.mem_singleton] at hf
  subst hf
  exact agrees rfl (C69_iterators max it.data it.offset 0 hi.1).2.2.2.2.2.2.2.2.2.2.2.2.2.1
    (C69_iterators max (lowerText it.data) it.offset 0 (length_lower hi.1)).2.2.2.2.2.2.2.2.2.2.2.2.2.1 (givesNext_low (privateUseNext_lower it))

theorem extensionIter_agrees {F : PubFn} (hF : F ∈ methods "ExtensionIter" ["next"]) {args : List Val} (hf : FitAll F.params args)
    (ha : ∀ a ∈ args, Sound max a) : Agrees max F args := by
  refine methods_agree (fun v hv hn f hf => ?_) hF hf ha
  obtain ⟨it, rfl, hi⟩ := sound_extensionIter hv hn
  rw [List.mem_singleton] at hf
  subst hf
  exact agrees rfl (C69_iterators max it.data it.offset 0 hi.1).2.2.2.2.2.2.2.2.2.2.2.1
    (C69_iterators max (lowerText it.data) it.offset 0 (length_lower hi.1)).2.2.2.2.2.2.2.2.2.2.2.1 (givesNext_low (extensionNext_lower it))

theorem languageExtensionIter_agrees {F : PubFn} (hF : F ∈ methods "LanguageExtensionIter" ["next"]) {args : List Val} (hf : FitAll F.params args)
    (ha : ∀ a ∈ args, Sound max a) : Agrees max F args := by
  refine methods_agree (fun v hv hn f hf => ?_) hF hf ha
  obtain ⟨it, rfl, hi⟩ := sound_languageExtensionIter hv hn
  rw [List.mem_singleton] at hf
  subst hf
  exact agrees rfl (C69_iterators max it.data it.offset 0 hi.1).2.2.2.2.2.2.2.2.2.2.2.2.2.2
    (C69_iterators max (lowerText it.data) it.offset 0 (length_lower hi.1)).2.2.2.2.2.2.2.2.2.2.2.2.2.2
    (givesNext_low (languageExtensionNext_lower it))

theorem extensionsIter_agrees {F : PubFn} (hF : F ∈ methods "ExtensionsIter" ["next"]) {args : List Val} (hf : FitAll F.params args)
    (ha : ∀ a ∈ args, Sound max a) : Agrees max F args := by
  refine methods_agree (fun v hv hn f hf => ?_) hF hf ha
  obtain ⟨it, rfl, hi⟩ := sound_extensionsIter hv hn
  rw [List.mem_singleton] at hf
  subst hf
  exact agrees rfl (C69_iterators max it.data it.offset 0 hi.1).2.2.2.2.2.2.2.2.2.2.2.2.1
    (C69_iterators max (lowerText it.data) it.offset 0 (length_lower hi.1)).2.2.2.2.2.2.2.2.2.2.2.2.1 (givesNext_low (extensionsNext_lower it))

theorem variantsIter_agrees {F : PubFn} (hF : F ∈ methods "VariantsIter" ["next", "next_back"]) {args : List Val} (hf : FitAll F.params args)
    (ha : ∀ a ∈ args, Sound max a) : Agrees max F args := by
  refine methods_agree (fun v hv hn f hf => ?_) hF hf ha
  obtain ⟨it, rfl, hl, he, items, hen, hall⟩ := sound_variantsIter hv hn
  simp only [List.mem_cons, List.not_mem_nil, or_false] at hf
  rcases hf with rfl | rfl
  · exact agrees rfl ((C69_iterators max it.data it.offset it.end_ hl).2.2.2.2.2.2.2.2.2.1 he)
      ((C69_iterators max (lowerText it.data) it.offset it.end_ (length_lower hl)).2.2.2.2.2.2.2.2.2.1 (by rw [length_lowerText]; exact he))
      (givesNext_low (variantsNext_lower it))
  · exact agrees rfl (C69_iterators max it.data it.offset it.end_ hl).2.2.2.2.2.2.2.2.2.2.1
      (C69_iterators max (lowerText it.data) it.offset it.end_ (length_lower hl)).2.2.2.2.2.2.2.2.2.2.1
      (givesNext_low (variantsNextBack_lower it))

/-! ## `Singleton` -/

theorem lowerChar_toNat (c : Char) : (lowerChar c).toNat = if 65 ≤ c.toNat ∧ c.toNat ≤ 90 then c.toNat + 32 else c.toNat := by
  unfold lowerChar
  by_cases h : 65 ≤ c.toNat ∧ c.toNat ≤ 90
  · rw [if_pos h, if_pos h]
    have key : ∀ n : Fin 26, (Char.ofNat (n.1 + 97)).toNat = n.1 + 97 := by decide +kernel
    have := key ⟨c.toNat - 65, by omega⟩
    simp only at this
    rw [show c.toNat - 65 + 97 = c.toNat + 32 by omega] at this
    exact this
  · rw [if_neg h, if_neg h]

theorem tryFromChar_lower (c : Char) : (Singleton.tryFromChar (lowerChar c)) =
    match Singleton.tryFromChar c with
    | .ok g => .ok (low g)
    | .error c => .error (lowerChar c) := by
  by_cases hc : c.toNat < 255
  · have h' : (lowerChar c).toNat < 255 := by rw [lowerChar_toNat]; split <;> omega
    have hb : UInt8.ofNat (lowerChar c).toNat = lower (UInt8.ofNat c.toNat) := by
      have key : ∀ n : Fin 256, UInt8.ofNat (if 65 ≤ n.1 ∧ n.1 ≤ 90 then n.1 + 32 else n.1) = lower (UInt8.ofNat n.1) := by decide +kernel
      rw [lowerChar_toNat]
      exact key ⟨c.toNat, by omega⟩
    unfold Singleton.tryFromChar
    simp only [hc, h', if_true, hb, singleton_new_lower]
    cases Singleton.new (UInt8.ofNat c.toNat) <;> rfl
  · have h' : ¬ (lowerChar c).toNat < 255 := by rw [lowerChar_toNat]; split <;> omega
    unfold Singleton.tryFromChar
    simp only [hc, h', if_false]

theorem displayChar_lower (b : UInt8) : lowerChar (Char.ofNat (lower b).toNat) = lowerChar (Char.ofNat b.toNat) :=
  bytes (fun b => lowerChar (Char.ofNat (lower b).toNat) = lowerChar (Char.ofNat b.toNat)) (by decide +kernel) b

theorem singleton_agrees {F : PubFn}
    (hF : F ∈ [(⟨["Singleton"], "new", [.u8]⟩ : PubFn), ⟨["Singleton"], "from_string", [.str]⟩, ⟨["Singleton"], "from_str", [.str]⟩,
      ⟨["Singleton"], "try_from", [.u8]⟩, ⟨["Singleton"], "try_from", [.char]⟩, ⟨["Singleton"], "eq", [.of "Singleton", .u8]⟩,
      ⟨["Singleton"], "eq", [.of "Singleton", .char]⟩, ⟨["Singleton"], "fmt", [.of "Singleton", .formatter]⟩])
    (hc : F ∉ caseSensitive) {args : List Val} (hf : FitAll F.params args) (ha : ∀ a ∈ args, Sound max a) : Agrees max F args := by
  simp only [List.mem_cons, List.not_mem_nil, or_false] at hF
  rcases hF with rfl | rfl | rfl | rfl | rfl | rfl | rfl | rfl <;>
    rcases args with _ | ⟨v, _ | ⟨w, _ | ⟨u, vs⟩⟩⟩ <;> simp only [FitAll, and_true, and_false] at hf <;>
    simp only [List.mem_cons, List.not_mem_nil, or_false, forall_eq_or_imp, forall_eq] at ha
  · obtain ⟨b, rfl⟩ := hf
    refine agrees rfl (C69_singleton max ⟨0⟩ [] b 'a' .default []).1 (C69_singleton max ⟨0⟩ [] (lower b) 'a' .default []).1
      (givesBy_low (l := low) (fun r => ?_) (congrArg Except.ok (singleton_new_lower b)))
    cases r <;> simp only [low, singletonResult, invalidSingleton, val, lowerVal, lowerVals, lower_lower]
  · obtain ⟨s, rfl⟩ := hf
    refine agrees rfl (C69_singleton max ⟨0⟩ s 0 'a' .default []).2.2.2.1 (C69_singleton max ⟨0⟩ _ 0 'a' .default []).2.2.2.1
      (givesBy_low (fun r => ?_) (fromString_lower s))
    cases r <;> simp only [low, singletonResult, invalidSingleton, val, lowerVal, lowerVals, lower_lower, lowerText_lowerText]
  · obtain ⟨s, rfl⟩ := hf
    refine agrees rfl (C69_singleton max ⟨0⟩ s 0 'a' .default []).2.2.2.2.1 (C69_singleton max ⟨0⟩ _ 0 'a' .default []).2.2.2.2.1
      (givesBy_low (fun r => ?_) (fromStr_lower s))
    cases r <;> simp only [low, singletonResult, invalidSingleton, val, lowerVal, lowerVals, lower_lower, lowerText_lowerText]
  · obtain ⟨b, rfl⟩ := hf
    refine agrees rfl (C69_singleton max ⟨0⟩ [] b 'a' .default []).2.1 (C69_singleton max ⟨0⟩ [] (lower b) 'a' .default []).2.1
      (givesBy_low (l := low) (fun r => ?_) (congrArg Except.ok (singleton_new_lower b)))
    cases r <;> simp only [low, singletonResult, invalidSingleton, val, lowerVal, lowerVals, lower_lower]
  · obtain ⟨c, rfl⟩ := hf
    refine agrees rfl (C69_singleton max ⟨0⟩ [] 0 c .default []).2.2.1 (C69_singleton max ⟨0⟩ [] 0 (lowerChar c) .default []).2.2.1 ?_
    rw [tryFromChar_lower]
    cases Singleton.tryFromChar c <;>
      simp only [low, givesBy, singletonResult, invalidSingleton, val, lowerVal, lowerVals, lower_lower, lowerChar_lowerChar, Option.map_some, lowerOutcome]
  · exact absurd (by decide) hc
  · exact absurd (by decide) hc
  · obtain ⟨g, rfl, _⟩ := sound_singleton ha.1 hf.1
    obtain ⟨f, out, rfl⟩ := hf.2
    exact agrees rfl (C69_singleton max g [] 0 'a' f out).2.2.2.2.2.2.2.2.1 (C69_singleton max (low g) [] 0 'a' f _).2.2.2.2.2.2.2.2.1
      (fmt_outcome f _ _ _ _ (map_lowerChar_twice out) (congrArg (fun c => [c]) (displayChar_lower g.byte)))

theorem singleton_methods_agree {F : PubFn} (hF : F ∈ methods "Singleton" ["unwrap"])
    {args : List Val} (hf : FitAll F.params args) (ha : ∀ a ∈ args, Sound max a) : Agrees max F args := by
  refine methods_agree (fun v hv hn f hf => ?_) hF hf ha
  obtain ⟨g, rfl, _⟩ := sound_singleton hv hn
  rw [List.mem_singleton] at hf
  subst hf
  exact agrees rfl (C69_singleton max g [] 0 'a' .default []).2.2.2.2.2.1 (C69_singleton max (low g) [] 0 'a' .default []).2.2.2.2.2.1 (gives_low_ok rfl)

/-! ## Every function -/

/-- A call of a function other than the four exceptions ends alike, up to letter case, on the arguments in lower case. -/
theorem api_agrees (hmax : 12 ≤ max) :
    ∀ F ∈ api, ∀ args, F ∉ caseSensitive → FitAll F.params args → (∀ a ∈ args, Sound max a) → Agrees max F args := by
  refine forall_mem_append (forall_mem_append (forall_mem_append (forall_mem_append (forall_mem_append (forall_mem_append (forall_mem_append (forall_mem_append (forall_mem_append (forall_mem_append (forall_mem_append (forall_mem_append (forall_mem_append (forall_mem_append (forall_mem_append (forall_mem_append (forall_mem_append (forall_mem_append (forall_mem_append (forall_mem_append (forall_mem_append (forall_mem_append (forall_mem_append (forall_mem_append (forall_mem_append ?_ ?_) ?_) ?_) ?_) ?_) ?_) ?_) ?_) ?_) ?_) ?_) ?_) ?_) ?_) ?_) ?_) ?_) ?_) ?_) ?_) ?_) ?_) ?_) ?_) ?_
  · intro F h args _ hf ha
    obtain ⟨T, hT, h⟩ := List.mem_flatMap.mp h
    exact stringTypes_agrees hT h hf ha
  · exact fun F h args _ hf ha => langTag_agrees h hf ha
  · exact fun F h args _ hf ha => macro_agrees h hf ha
  · exact fun F h args _ hf ha => typed_agrees hmax h hf ha
  · exact fun F h args _ hf ha => kind_agrees h hf ha
  · exact fun F h args _ hf ha => normal_agrees h hf ha
  · exact fun F h args _ hf ha => grandfathered_methods_agree h hf ha
  · exact fun F h args _ hf ha => grandfathered_agrees h hf ha
  · exact fun F h args _ hf ha => language_agrees h hf ha
  · exact fun F h args _ hf ha => languageExtension_agrees h hf ha
  · exact fun F h args _ hf ha => empty_agrees (by rw [List.mem_singleton] at h; subst h; decide) hf
  · exact fun F h args _ hf ha => languageExtensionIter_agrees h hf ha
  · exact fun F h args _ hf ha => variants_agrees h hf ha
  · exact fun F h args _ hf ha => empty_agrees (by rw [List.mem_singleton] at h; subst h; decide) hf
  · exact fun F h args _ hf ha => variantsIter_agrees h hf ha
  · exact fun F h args hc hf ha => singleton_agrees h hc hf ha
  · exact fun F h args _ hf ha => singleton_methods_agree h hf ha
  · exact fun F h args _ hf ha => extension_agrees h hf ha
  · exact fun F h args _ hf ha => empty_agrees (by rw [List.mem_singleton] at h; subst h; decide) hf
  · exact fun F h args _ hf ha => extensionIter_agrees h hf ha
  · exact fun F h args _ hf ha => extensions_agrees h hf ha
  · intro F h args hc
    simp only [List.mem_cons, List.not_mem_nil, or_false] at h
    rcases h with rfl | rfl <;> exact absurd (by decide) hc
  · exact fun F h args _ hf ha => extensionsIter_agrees h hf ha
  · exact fun F h args _ hf ha => privateUse_agrees h hf ha
  · exact fun F h args _ hf ha => empty_agrees (by rw [List.mem_singleton] at h; subst h; decide) hf
  · exact fun F h args _ hf ha => privateUseIter_agrees h hf ha

/-! ## Programs -/

theorem fits_iff (p : Param) (v : Val) : p.fits v = true ↔ p.Fits v := by
  cases p <;> cases v <;> simp [Param.fits, Param.Fits]

theorem fitAll_iff : ∀ (ps : List Param) (vs : List Val), fitAll ps vs = true ↔ FitAll ps vs
  | [], [] => by simp [fitAll, FitAll]
  | [], _ :: _ => by simp [fitAll, FitAll]
  | _ :: _, [] => by simp [fitAll, FitAll]
  | p :: ps, v :: vs => by simp [fitAll, FitAll, fits_iff, fitAll_iff ps vs]

theorem typeName_lower (v : Val) : typeName (lowerVal v) = typeName v := by
  cases v with
  | ctor T x vs => rcases T with _ | ⟨T, _ | ⟨U, Ts⟩⟩ <;> rfl
  | struct T fs => rcases T with _ | ⟨T, _ | ⟨U, Ts⟩⟩ <;> rfl
  | _ => rfl

theorem fits_lower (p : Param) (v : Val) : p.fits (lowerVal v) = p.fits v := by
  cases p with
  | of T => show decide _ = decide _; rw [typeName_lower]
  | _ => cases v <;> rfl

theorem fitAll_lower : ∀ (ps : List Param) (vs : List Val), fitAll ps (vs.map lowerVal) = fitAll ps vs
  | [], [] => rfl
  | [], _ :: _ => rfl
  | _ :: _, [] => rfl
  | p :: ps, v :: vs => by rw [List.map_cons, fitAll, fitAll, fits_lower, fitAll_lower ps vs]

theorem textOf?_lower (v : Val) : textOf? (lowerVal v) = (textOf? v).map lowerVal := by
  unfold textOf?
  split
  · rename_i T x s h
    cases v with
    | ctor T' x' vs =>
      simp only [lowerVal, Val.ctor.injEq] at h
      obtain ⟨rfl, rfl, h⟩ := h
      rcases vs with _ | ⟨w, _ | ⟨u, vs⟩⟩ <;> simp only [lowerVals, List.cons.injEq, reduceCtorEq, and_false, and_true] at h
      cases w <;> simp only [lowerVal, reduceCtorEq, Val.str.injEq] at h
      subst h
      simp only
      split <;> rfl
    | _ => simp only [lowerVal, reduceCtorEq] at h
  · rename_i h
    split
    · rename_i T x s
      exact absurd rfl (h T x (lowerText s))
    · rfl

theorem fieldOf?_lower (j : Nat) (v : Val) : fieldOf? j (lowerVal v) = (fieldOf? j v).map lowerVal := by
  cases v with
  | ctor T x vs =>
    rcases T with _ | ⟨T, _ | ⟨U, Ts⟩⟩
    · rfl
    · simp only [lowerVal, fieldOf?, lowerVals_eq_map]
      split
      · rw [List.getElem?_map]
      · rfl
    · rfl
  | _ => rfl

theorem typed?_lower (x : String) (v : Val) : typed? x (lowerVal v) = (typed? x v).map lowerVal := by
  unfold typed?
  rw [typeName_lower]
  split
  · rfl
  · rfl

theorem mapM_lower (held : List Val) : ∀ is : List Nat,
    is.mapM ((held.map lowerVal)[·]?) = (is.mapM (held[·]?)).map (List.map lowerVal)
  | [] => rfl
  | i :: is => by
    rw [List.mapM_cons, List.mapM_cons, mapM_lower held is, List.getElem?_map]
    cases held[i]? with
    | none => rfl
    | some v => cases List.mapM (held[·]?) is <;> rfl

theorem after_lower (held : List Val) (o : Option Outcome) :
    (after held o).map (List.map lowerVal) = after (held.map lowerVal) (o.map lowerOutcome) := by
  rcases o with _ | o
  · rfl
  · cases o <;> simp [after, lowerOutcome]

theorem mem_of_mapM {held : List Val} : ∀ {is : List Nat} {args : List Val}, is.mapM (held[·]?) = some args → ∀ a ∈ args, a ∈ held
  | [], args, h => by
    have : args = [] := by simpa using h.symm
    subst this; simp
  | i :: is, args, h => by
    rw [List.mapM_cons] at h
    cases hi : held[i]? with
    | none => rw [hi] at h; cases h
    | some v =>
      rw [hi] at h
      cases hm : List.mapM (held[·]?) is with
      | none => rw [hm] at h; cases h
      | some vs =>
        rw [hm] at h
        injection h with h
        subst h
        intro a ha
        rcases List.mem_cons.mp ha with rfl | ha
        · exact List.mem_of_getElem? hi
        · exact mem_of_mapM hm a ha

/-- Two calls whose arguments differ in letter case only. -/
theorem calls_agree (hmax : 12 ≤ max) {F : PubFn} (hF : F ∈ api) (hc : F ∉ caseSensitive) {args args' : List Val} (hf : FitAll F.params args)
    (ha : ∀ a ∈ args, Sound max a) (ha' : ∀ a ∈ args', Sound max a) (h : args.map lowerVal = args'.map lowerVal) :
    (run max F.owner F.name args).map lowerOutcome = (run max F.owner F.name args').map lowerOutcome := by
  have hf' : FitAll F.params args' := by
    rw [← fitAll_iff, ← fitAll_lower, ← h, fitAll_lower, fitAll_iff]; exact hf
  have h1 := api_agrees hmax F hF args hc hf ha
  have h2 := api_agrees hmax F hF args' hc hf' ha'
  rw [Agrees, h] at h1
  rw [Agrees] at h2
  rw [← h1, h2]

/-- One step of two programs that hold the same values up to letter case. -/
theorem take_lower (hmax : 12 ≤ max) (step : Step) (hs : ∀ F is, step = .call F is → F ∉ caseSensitive) {held held' : List Val} (h : held.map lowerVal = held'.map lowerVal)
    (ha : ∀ a ∈ held, Sound max a) (ha' : ∀ a ∈ held', Sound max a) :
    (step.take max held).map (List.map lowerVal) = (step.take max held').map (List.map lowerVal) := by
  have get : ∀ i : Nat, (held[i]?).map lowerVal = (held'[i]?).map lowerVal := fun i => by rw [← List.getElem?_map, h, List.getElem?_map]
  have part : ∀ (f : Val → Option Val) (hf : ∀ v, f (lowerVal v) = (f v).map lowerVal) (i : Nat),
      (some (held ++ ((held[i]?).bind f).toList)).map (List.map lowerVal) = (some (held' ++ ((held'[i]?).bind f).toList)).map (List.map lowerVal) := by
    intro f hf i
    have e : ((held[i]?).bind f).map lowerVal = ((held'[i]?).bind f).map lowerVal := by
      have e' : ∀ o : Option Val, (o.bind f).map lowerVal = (o.map lowerVal).bind f := by
        intro o
        cases o with
        | none => rfl
        | some v => exact (hf v).symm
      rw [e', e', get]
    have e2 : ∀ o : Option Val, o.toList.map lowerVal = (o.map lowerVal).toList := fun o => by cases o <;> rfl
    simp only [Option.map_some, List.map_append, h, e2, e]
  cases step with
  | call F is =>
    have hm : (is.mapM (held[·]?)).map (List.map lowerVal) = (is.mapM (held'[·]?)).map (List.map lowerVal) := by
      rw [← mapM_lower, ← mapM_lower, h]
    simp only [Step.take, Step.takeWith]
    cases e : is.mapM (held[·]?) with
    | none =>
      cases e' : is.mapM (held'[·]?) with
      | none => simp only [Option.map_some, h]
      | some args' => rw [e, e'] at hm; cases hm
    | some args =>
      cases e' : is.mapM (held'[·]?) with
      | none => rw [e, e'] at hm; cases hm
      | some args' =>
        rw [e, e'] at hm
        have hm : args.map lowerVal = args'.map lowerVal := by injection hm
        have hfit : fitAll F.params args = fitAll F.params args' := by rw [← fitAll_lower, hm, fitAll_lower]
        simp only [hfit]
        split
        · rename_i hF
          obtain ⟨hF, hf⟩ := hF
          rw [after_lower, after_lower, h]
          rw [calls_agree hmax hF (hs F is rfl) ((fitAll_iff _ _).mp (hfit.trans hf)) (fun a h => ha a (mem_of_mapM e a h)) (fun a h => ha' a (mem_of_mapM e' a h)) hm]
        · simp only [Option.map_some, h]
  | text i => exact part _ textOf?_lower i
  | field i j => exact part _ (fieldOf?_lower j) i
  | typed x i => exact part _ (typed?_lower x) i

/-- What a program holds after a step is what it can get hold of. -/
theorem obtainable_take {step : Step} {held held' : List Val} (ha : ∀ a ∈ held, Obtainable max a) (h : step.take max held = some held') :
    ∀ a ∈ held', Obtainable max a := by
  have part : ∀ (f : Val → Option Val), (∀ v w, Obtainable max v → f v = some w → Obtainable max w) → ∀ i : Nat,
      some (held ++ ((held[i]?).bind f).toList) = some held' → ∀ a ∈ held', Obtainable max a := by
    intro f hf i h
    injection h with h
    subst h
    intro a h
    rcases List.mem_append.mp h with h | h
    · exact ha a h
    · rw [Option.mem_toList] at h
      obtain ⟨v, hv, hw⟩ := Option.bind_eq_some_iff.mp h
      exact hf v a (ha v (List.mem_of_getElem? hv)) hw
  cases step with
  | call F is =>
    simp only [Step.take, Step.takeWith] at h
    split at h
    · rename_i args e
      split at h
      · rename_i hF
        generalize hr : run max F.owner F.name args = o at h
        rcases o with _ | o
        · cases h
        · cases o with
          | returns v ws =>
            injection h with h
            subst h
            intro a h
            rcases List.mem_append.mp h with h | h
            · exact ha a h
            · exact .call F hF.1 args ((fitAll_iff _ _).mp hF.2) (fun a h => ha a (mem_of_mapM e a h)) v ws hr a h
          | _ => cases h
      · injection h with h
        subst h; exact ha
    · injection h with h
      subst h; exact ha
  | text i =>
    refine part _ (fun v w hv h => ?_) i h
    unfold textOf? at h
    split at h
    · rename_i T x s
      split at h
      · rename_i hT
        obtain ⟨hT, rfl⟩ := hT
        injection h with h
        subst h
        exact .text x s hT hv
      · cases h
    · cases h
  | field i j =>
    refine part _ (fun v w hv h => ?_) i h
    unfold fieldOf? at h
    split at h
    · rename_i T x vs
      split at h
      · rename_i hT
        exact .field T x vs w hT (List.mem_of_getElem? h) hv
      · cases h
    · cases h
  | typed x i =>
    refine part _ (fun v w hv h => ?_) i h
    unfold typed? at h
    split at h
    · rename_i hx
      injection h with h
      subst h
      obtain ⟨⟨y, T⟩, hy, hx⟩ := List.any_eq_true.mp hx
      simp only [decide_eq_true_eq] at hx
      obtain ⟨rfl, hT⟩ := hx
      exact .typed y T v hy hT hv
    · cases h

theorem exec_lower (hmax : 12 ≤ max) {P : UserProgram} (hP : CaseBlind P) : ∀ (n : Nat) (held held' : List Val), held.map lowerVal = held'.map lowerVal →
    (∀ a ∈ held, Obtainable max a) → (∀ a ∈ held', Obtainable max a) →
    (P.exec max n held).map (List.map lowerVal) = (P.exec max n held').map (List.map lowerVal)
  | 0, held, held', h, _, _ => by simp only [UserProgram.exec_zero, Option.map_some, h]
  | n + 1, held, held', h, ha, ha' => by
    simp only [UserProgram.exec_succ, hP.1 held held' h]
    cases hp : P held' with
    | none => simp only [Option.map_some, h]
    | some step =>
      simp only
      have ht := take_lower hmax step (fun F is e => hP.2 held' F is (hp.trans (congrArg some e))) h (fun a h => sound_of_obtainable hmax (ha a h)) (fun a h => sound_of_obtainable hmax (ha' a h))
      cases e : step.take max held with
      | none =>
        cases e' : step.take max held' with
        | none => rfl
        | some w' => rw [e, e'] at ht; cases ht
      | some w =>
        cases e' : step.take max held' with
        | none => rw [e, e'] at ht; cases ht
        | some w' =>
          rw [e, e'] at ht
          exact exec_lower hmax hP n w w' (by injection ht) (obtainable_take ha e) (obtainable_take ha' e')

end Langtag.Lower
