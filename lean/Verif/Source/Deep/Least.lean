import Verif.Source.Deep.Run
import Verif.Proof.Segments

/-! # How deep calls are nested at least

With one call less than `Normal.lean` and `Lib.lean` allow, the accessors have no result on an ASCII text with a `-`. -/

set_option autoImplicit false

namespace Langtag.Source.Deep

open Langtag.Model (Panic Rust Dfa StrNewtype)

open Langtag.Model Langtag.Proof Langtag.Spec

open Automata

variable {δ : Nat} {C : Ctx} {σ : Env} {max : Nat}

theorem callFn_zero (F : Fn) (vs : List Val) (P : Program) (σ : Env) : callFn 0 P F vs σ = none := by rw [callFn]; rfl

/-- `validate_str` calls `validate_bytes`, which calls `new`: two calls are not enough. -/
theorem validateStr_none {name : String} {d : Dfa} (H : IsAutomaton max name d) (s : List UInt8) :
    callPath 2 (crate max) C ["grammar", name] "validate_str" [.str s] σ = none := by
  rw [callPath_fn (H.validateStr _), callFn_apply]
  simp only [validateStrAst]
  simp only [dep, src, ctorOf_self H, memberOf_self H]
  deep
  rw [callPath_fn (H.validateBytes _), callFn_apply]
  simp only [validateBytesAst, validateBody, validateArm]
  simp only [dep, src, ctorOf_self H, memberOf_self H]
  rw [callPath_fn H.new, callFn_zero]
  rfl

/-- The same of `T::new`, which calls `validate_str`. -/
theorem newtype_none {ty : List String} {s : List UInt8} {f : String} {name : String} {d : Dfa}
    (h1 : (crate max).lookup ty f [.str s] = none)
    (h2 : newOf (crate max) ty f [.str s] = some (["grammar", name], s)) (H : IsAutomaton max name d) :
    callPath 2 (crate max) C ty f [.str s] σ = none := by
  rw [callPath, h1]
  simp only [h2, bind_apply]
  rw [validateStr_none H]
  rfl

theorem LangTag.new_none (s : List UInt8) : callPath 2 (crate max) C ["LangTag"] "new" [.str s] σ = none :=
  newtype_none (by kernel_rfl) (by kernel_rfl) (languageTag_automaton max)

theorem NormalLangTag.new_none (s : List UInt8) : callPath 2 (crate max) C ["NormalLangTag"] "new" [.str s] σ = none :=
  newtype_none (by kernel_rfl) (by kernel_rfl) (langtag_automaton max)

theorem Language.new_none (s : List UInt8) : callPath 2 (crate max) C ["Language"] "new" [.str s] σ = none :=
  newtype_none (by kernel_rfl) (by kernel_rfl) (language_automaton max)

theorem PrimaryLanguage.new_none (s : List UInt8) : callPath 2 (crate max) C ["PrimaryLanguage"] "new" [.str s] σ = none :=
  newtype_none (by kernel_rfl) (by kernel_rfl) (primary_automaton max)

theorem LanguageExtension.new_none (s : List UInt8) : callPath 2 (crate max) C ["LanguageExtension"] "new" [.str s] σ = none :=
  newtype_none (by kernel_rfl) (by kernel_rfl) (extlang_automaton max)

theorem ExtendedLangTag.new_none (s : List UInt8) : callPath 2 (crate max) C ["ExtendedLangTag"] "new" [.str s] σ = none :=
  newtype_none (by kernel_rfl) (by kernel_rfl) (extlangTag_automaton max)

theorem Script.new_none (s : List UInt8) : callPath 2 (crate max) C ["Script"] "new" [.str s] σ = none :=
  newtype_none (by kernel_rfl) (by kernel_rfl) (script_automaton max)

theorem Region.new_none (s : List UInt8) : callPath 2 (crate max) C ["Region"] "new" [.str s] σ = none :=
  newtype_none (by kernel_rfl) (by kernel_rfl) (region_automaton max)

theorem Variant.new_none (s : List UInt8) : callPath 2 (crate max) C ["Variant"] "new" [.str s] σ = none :=
  newtype_none (by kernel_rfl) (by kernel_rfl) (variant_automaton max)

theorem Variants.new_none (s : List UInt8) : callPath 2 (crate max) C ["Variants"] "new" [.str s] σ = none :=
  newtype_none (by kernel_rfl) (by kernel_rfl) (variants_automaton max)

theorem Extension.new_none (s : List UInt8) : callPath 2 (crate max) C ["Extension"] "new" [.str s] σ = none :=
  newtype_none (by kernel_rfl) (by kernel_rfl) (extension_automaton max)

theorem Extensions.new_none (s : List UInt8) : callPath 2 (crate max) C ["Extensions"] "new" [.str s] σ = none :=
  newtype_none (by kernel_rfl) (by kernel_rfl) (extensions_automaton max)

theorem ExtensionSubtag.new_none (s : List UInt8) : callPath 2 (crate max) C ["ExtensionSubtag"] "new" [.str s] σ = none :=
  newtype_none (by kernel_rfl) (by kernel_rfl) (extensionSubtag_automaton max)

theorem PrivateUse.new_none (s : List UInt8) : callPath 2 (crate max) C ["PrivateUse"] "new" [.str s] σ = none :=
  newtype_none (by kernel_rfl) (by kernel_rfl) (privateuse_automaton max)

theorem PrivateUseSubtag.new_none (s : List UInt8) : callPath 2 (crate max) C ["PrivateUseSubtag"] "new" [.str s] σ = none :=
  newtype_none (by kernel_rfl) (by kernel_rfl) (privateuseSubtag_automaton max)

/-- `find_list_end` from the start of a text with a `-`, for a closure that accepts the first subtag and nests too deep on any other. -/
theorem find_list_end_none (s : List UInt8) (g : Val) (ha : Ascii s) (hd : 45 ∈ s) (hs : s.length + 1 ≤ max)
    (h0 : ∀ C t σ, applyVal δ (crate max) C g [.usize 0, .str t] σ = some (.ok (.bool true) σ))
    (h1 : ∀ C o t σ, 0 < o → applyVal δ (crate max) C g [.usize o, .str t] σ = none) :
    callFn (δ + 1) (crate max) ⟨[], "", Ast.find_list_end⟩ [.str s, .usize 0, g] σ = none := by
  rw [callFn_apply]
  simp only [Ast.find_list_end]
  deep
  refine while_rule (ι := Nat × Nat × Nat) (fun r => callR _ σ (closeR _ (bindR r _)))
    (fun (o, i, e) => [("end", Val.usize e), ("i", Val.usize i), ("bytes", Val.bytes s), ("string", Val.str s), ("offset", Val.usize o), ("f", g)])
    (fun (o, i, _) => o ≤ i ∧ i ≤ s.length ∧ (o = 0 ∧ 45 ∈ s.drop i ∨ 0 < o)) (fun (_, i, _) => s.length - i) (fun _ => none) (0, 0, 0)
    ⟨Nat.le_refl _, Nat.zero_le _, .inl ⟨rfl, by simpa using hd⟩⟩ ?_
  rintro ⟨o, i, e⟩ ⟨hoi, hi, ho⟩ ih
  simp only at ih ⊢
  deep
  split
  · rename_i hlt
    have hix : Langtag.Model.index s i = .ok s[i] := by simp [Langtag.Model.index, List.getElem?_eq_getElem hlt]
    have hdrop : s.drop i = s[i] :: s.drop (i + 1) := List.drop_eq_getElem_cons hlt
    rw [hix]
    deep
    split
    · rw [sliceRange_ok ha hoi hi]
      deep
      rcases ho with ⟨rfl, _⟩ | ho
      · rw [h0]
        deep
        rw [if_pos (by omega), if_pos (by omega)]
        exact ih (i + 1, i + 1, i) ⟨Nat.le_refl _, Nat.succ_le_of_lt hlt, .inr (Nat.succ_pos _)⟩ (by simp only; omega)
      · rw [h1 _ _ _ _ ho]
        rfl
    · rename_i hne
      rw [if_pos (by omega)]
      refine ih (_, _, _) ⟨by simp only; omega, by simp only; omega, ?_⟩ (by simp only; omega)
      rcases ho with ⟨h, hm⟩ | ho
      · refine .inl ⟨h, ?_⟩
        rw [hdrop, List.mem_cons] at hm
        exact hm.resolve_left fun h => hne (by simpa using h.symm)
      · exact .inr ho
  · have : i = s.length := by omega
    subst this
    rcases ho with ⟨_, hm⟩ | ho
    · simp at hm
    · rw [show Langtag.Model.sliceFrom s o = .ok _ from sliceRange_ok ha hoi (Nat.le_refl _)]
      deep
      rw [h1 _ _ _ _ ho]
      rfl

section

variable (x : String) (s : List UInt8) (hs : s.length + 1 ≤ max) (ha : Ascii s) (hd : 45 ∈ s)

include hs ha hd

theorem NormalLangTag.language_end_none :
    callFn 5 (crate max) ⟨["NormalLangTag"], "", Ast.NormalLangTag_language_end⟩ [.ctor ["NormalLangTag"] x [.str s]] σ = none := by
  rw [callFn_apply]
  simp only [Ast.NormalLangTag_language_end]
  deep
  rw [find_list_end_none s _ ha hd hs]
  · rfl
  · intro C t τ
    deep
  · intro C o t τ ho
    deep [ExtendedLangTag.new_none]
    rw [if_neg (by omega)]
    rfl

theorem NormalLangTag.language_none :
    callFn 6 (crate max) ⟨["NormalLangTag"], "", Ast.NormalLangTag_language⟩ [.ctor ["NormalLangTag"] x [.str s]] σ = none := by
  rw [callFn_apply]
  simp only [Ast.NormalLangTag_language]
  deep [NormalLangTag.language_end_none x s hs ha hd]
  rfl

theorem NormalLangTag.script_range_none :
    callFn 6 (crate max) ⟨["NormalLangTag"], "", Ast.NormalLangTag_script_range⟩ [.ctor ["NormalLangTag"] x [.str s]] σ = none := by
  rw [callFn_apply]
  simp only [Ast.NormalLangTag_script_range]
  deep [NormalLangTag.language_end_none x s hs ha hd]
  rfl

theorem NormalLangTag.script_none :
    callFn 7 (crate max) ⟨["NormalLangTag"], "", Ast.NormalLangTag_script⟩ [.ctor ["NormalLangTag"] x [.str s]] σ = none := by
  rw [callFn_apply]
  simp only [Ast.NormalLangTag_script]
  deep [NormalLangTag.script_range_none x s hs ha hd]
  rfl

theorem NormalLangTag.region_range_none :
    callFn 7 (crate max) ⟨["NormalLangTag"], "", Ast.NormalLangTag_region_range⟩ [.ctor ["NormalLangTag"] x [.str s]] σ = none := by
  rw [callFn_apply]
  simp only [Ast.NormalLangTag_region_range]
  deep [NormalLangTag.script_range_none x s hs ha hd]
  rfl

theorem NormalLangTag.region_none :
    callFn 8 (crate max) ⟨["NormalLangTag"], "", Ast.NormalLangTag_region⟩ [.ctor ["NormalLangTag"] x [.str s]] σ = none := by
  rw [callFn_apply]
  simp only [Ast.NormalLangTag_region]
  deep [NormalLangTag.region_range_none x s hs ha hd]
  rfl

theorem NormalLangTag.variants_range_none :
    callFn 8 (crate max) ⟨["NormalLangTag"], "", Ast.NormalLangTag_variants_range⟩ [.ctor ["NormalLangTag"] x [.str s]] σ = none := by
  rw [callFn_apply]
  simp only [Ast.NormalLangTag_variants_range]
  deep [NormalLangTag.region_range_none x s hs ha hd]
  rfl

theorem NormalLangTag.variants_none :
    callFn 9 (crate max) ⟨["NormalLangTag"], "", Ast.NormalLangTag_variants⟩ [.ctor ["NormalLangTag"] x [.str s]] σ = none := by
  rw [callFn_apply]
  simp only [Ast.NormalLangTag_variants]
  deep [NormalLangTag.variants_range_none x s hs ha hd]
  rfl

theorem NormalLangTag.extensions_range_none :
    callFn 9 (crate max) ⟨["NormalLangTag"], "", Ast.NormalLangTag_extensions_range⟩ [.ctor ["NormalLangTag"] x [.str s]] σ = none := by
  rw [callFn_apply]
  simp only [Ast.NormalLangTag_extensions_range]
  deep [NormalLangTag.variants_range_none x s hs ha hd]
  rfl

theorem NormalLangTag.extensions_none :
    callFn 10 (crate max) ⟨["NormalLangTag"], "", Ast.NormalLangTag_extensions⟩ [.ctor ["NormalLangTag"] x [.str s]] σ = none := by
  rw [callFn_apply]
  simp only [Ast.NormalLangTag_extensions]
  deep [NormalLangTag.extensions_range_none x s hs ha hd]
  rfl

theorem NormalLangTag.private_use_offset_none :
    callFn 9 (crate max) ⟨["NormalLangTag"], "", Ast.NormalLangTag_private_use_offset⟩ [.ctor ["NormalLangTag"] x [.str s]] σ = none := by
  rw [callFn_apply]
  simp only [Ast.NormalLangTag_private_use_offset]
  deep [NormalLangTag.variants_range_none x s hs ha hd]
  rfl

theorem NormalLangTag.private_use_none :
    callFn 10 (crate max) ⟨["NormalLangTag"], "", Ast.NormalLangTag_private_use⟩ [.ctor ["NormalLangTag"] x [.str s]] σ = none := by
  rw [callFn_apply]
  simp only [Ast.NormalLangTag_private_use]
  deep [NormalLangTag.private_use_offset_none x s hs ha hd]
  rfl

theorem NormalLangTag.private_use_subtags_none :
    callFn 11 (crate max) ⟨["NormalLangTag"], "", Ast.NormalLangTag_private_use_subtags⟩ [.ctor ["NormalLangTag"] x [.str s]] σ = none := by
  rw [callFn_apply]
  simp only [Ast.NormalLangTag_private_use_subtags]
  deep [NormalLangTag.private_use_none x s hs ha hd]
  rfl

variable (hn : LangTag.asNormal ⟨s⟩ = some ⟨s⟩)

include hn

theorem LangTag.language_none :
    callFn 7 (crate max) ⟨["LangTag"], "", Ast.LangTag_language⟩ [.ctor ["LangTag"] x [.str s]] σ = none := by
  have hok : StrNewtype.isOk NormalLangTag s = true := by
    simp only [LangTag.asNormal, new_isOk] at hn
    split at hn
    · assumption
    · cases hn
  rw [callFn_apply]
  simp only [Ast.LangTag_language]
  deep [hs, hok]
  deep [NormalLangTag.language_none _ s hs ha hd]
  rfl

theorem LangTag.region_none :
    callFn 9 (crate max) ⟨["LangTag"], "", Ast.LangTag_region⟩ [.ctor ["LangTag"] x [.str s]] σ = none := by
  rw [callFn_apply]
  simp only [Ast.LangTag_region]
  deep [hs]
  rw [hn]
  deep [NormalLangTag.region_none _ s hs ha hd]
  rfl

theorem LangTag.variants_none :
    callFn 10 (crate max) ⟨["LangTag"], "", Ast.LangTag_variants⟩ [.ctor ["LangTag"] x [.str s]] σ = none := by
  rw [callFn_apply]
  simp only [Ast.LangTag_variants]
  deep [hs]
  rw [hn]
  deep [NormalLangTag.variants_none _ s hs ha hd]
  rfl

theorem LangTag.extensions_none :
    callFn 11 (crate max) ⟨["LangTag"], "", Ast.LangTag_extensions⟩ [.ctor ["LangTag"] x [.str s]] σ = none := by
  rw [callFn_apply]
  simp only [Ast.LangTag_extensions]
  deep [hs]
  rw [hn]
  deep [NormalLangTag.extensions_none _ s hs ha hd]
  rfl

theorem LangTag.script_none :
    callFn 8 (crate max) ⟨["LangTag"], "", Ast.LangTag_script⟩ [.ctor ["LangTag"] x [.str s]] σ = none := by
  rw [callFn_apply]
  simp only [Ast.LangTag_script]
  deep [hs]
  rw [hn]
  deep [NormalLangTag.script_none _ s hs ha hd]
  rfl

theorem LangTag.private_use_none :
    callFn 11 (crate max) ⟨["LangTag"], "", Ast.LangTag_private_use⟩ [.ctor ["LangTag"] x [.str s]] σ = none := by
  rw [callFn_apply]
  simp only [Ast.LangTag_private_use]
  deep [hs]
  rw [hn]
  deep [NormalLangTag.private_use_none _ s hs ha hd]
  rfl

theorem LangTag.private_use_subtags_none :
    callFn 12 (crate max) ⟨["LangTag"], "", Ast.LangTag_private_use_subtags⟩ [.ctor ["LangTag"] x [.str s]] σ = none := by
  rw [callFn_apply]
  simp only [Ast.LangTag_private_use_subtags]
  deep [LangTag.private_use_none x s hs ha hd hn]
  rfl

end

end Langtag.Source.Deep
