import Verif.Source.Deep.Grandfathered
import Verif.Source.Refine.Lib

/-! # `/repo/src/lib.rs`, with bounded nesting -/

set_option autoImplicit false

namespace Langtag.Source.Deep

open Langtag.Model (Panic Rust StrNewtype)

open Langtag.Model

variable {δ : Nat} {C : Ctx} {σ : Env} {max : Nat}

/-! ## `Kind` -/

theorem Kind.is_normal_eq (k : Kind) :
    callFn (δ + 1) (crate max) ⟨["Kind"], "", Ast.Kind_is_normal⟩ [val k] σ = some (.ok (val k.isNormal, [none]) σ) := by
  cases k <;> deep <;> rw [callFn_apply] <;> simp only [Ast.Kind_is_normal, Kind.isNormal] <;> deep

theorem Kind.is_private_use_eq (k : Kind) :
    callFn (δ + 1) (crate max) ⟨["Kind"], "", Ast.Kind_is_private_use⟩ [val k] σ = some (.ok (val k.isPrivateUse, [none]) σ) := by
  cases k <;> deep <;> rw [callFn_apply] <;> simp only [Ast.Kind_is_private_use, Kind.isPrivateUse] <;> deep

theorem Kind.is_grandfathered_eq (k : Kind) :
    callFn (δ + 1) (crate max) ⟨["Kind"], "", Ast.Kind_is_grandfathered⟩ [val k] σ = some (.ok (val k.isGrandfathered, [none]) σ) := by
  cases k <;> deep <;> rw [callFn_apply] <;> simp only [Ast.Kind_is_grandfathered, Kind.isGrandfathered] <;> deep

/-! ## `TypedLangTag` -/

theorem TypedLangTag.language_eq (t : TypedLangTag) (hs : typedLength t + 1 ≤ max) :
    callFn (δ + 8) (crate max) ⟨["TypedLangTag"], "", Ast.TypedLangTag_language⟩ [val t] σ =
    lift (fun r => (val r, [none])) t.language σ := by
  rcases t with ⟨⟨s⟩⟩ | ⟨⟨s⟩⟩ | g <;> deep <;> rw [callFn_apply] <;> simp only [Ast.TypedLangTag_language, TypedLangTag.language]
  · simp only [typedLength] at hs
    deep [hs]
    cases NormalLangTag.language ⟨s⟩ <;> deep
  · deep
  · deep

@[dep] theorem TypedLangTag.kind_eq (t : TypedLangTag) :
    callFn (δ + 1) (crate max) ⟨["TypedLangTag"], "", Ast.TypedLangTag_kind⟩ [val t] σ = some (.ok (val t.kind, [none]) σ) := by
  rcases t with ⟨⟨s⟩⟩ | ⟨⟨s⟩⟩ | g <;> deep <;> rw [callFn_apply] <;> simp only [Ast.TypedLangTag_kind, TypedLangTag.kind] <;> deep

theorem TypedLangTag.is_normal_eq (t : TypedLangTag) :
    callFn (δ + 2) (crate max) ⟨["TypedLangTag"], "", Ast.TypedLangTag_is_normal⟩ [val t] σ = some (.ok (val t.isNormal, [none]) σ) := by
  rcases t with ⟨⟨s⟩⟩ | ⟨⟨s⟩⟩ | g <;> deep <;> rw [callFn_apply] <;> simp only [Ast.TypedLangTag_is_normal, TypedLangTag.isNormal] <;> deep

theorem TypedLangTag.is_private_use_eq (t : TypedLangTag) :
    callFn (δ + 2) (crate max) ⟨["TypedLangTag"], "", Ast.TypedLangTag_is_private_use⟩ [val t] σ = some (.ok (val t.isPrivateUse, [none]) σ) := by
  rcases t with ⟨⟨s⟩⟩ | ⟨⟨s⟩⟩ | g <;> deep <;> rw [callFn_apply] <;> simp only [Ast.TypedLangTag_is_private_use, TypedLangTag.isPrivateUse] <;> deep

theorem TypedLangTag.is_grandfathered_eq (t : TypedLangTag) :
    callFn (δ + 2) (crate max) ⟨["TypedLangTag"], "", Ast.TypedLangTag_is_grandfathered⟩ [val t] σ = some (.ok (val t.isGrandfathered, [none]) σ) := by
  rcases t with ⟨⟨s⟩⟩ | ⟨⟨s⟩⟩ | g <;> deep <;> rw [callFn_apply] <;> simp only [Ast.TypedLangTag_is_grandfathered, TypedLangTag.isGrandfathered] <;> deep

theorem TypedLangTag.as_normal_eq (t : TypedLangTag) :
    callFn (δ + 1) (crate max) ⟨["TypedLangTag"], "", Ast.TypedLangTag_as_normal⟩ [val t] σ = some (.ok (val t.asNormal, [none]) σ) := by
  rcases t with ⟨⟨s⟩⟩ | ⟨⟨s⟩⟩ | g <;> deep <;> rw [callFn_apply] <;> simp only [Ast.TypedLangTag_as_normal, TypedLangTag.asNormal] <;> deep

theorem TypedLangTag.as_private_use_eq (t : TypedLangTag) :
    callFn (δ + 1) (crate max) ⟨["TypedLangTag"], "", Ast.TypedLangTag_as_private_use⟩ [val t] σ = some (.ok (val (t.asPrivateUse : Option PrivateUse), [none]) σ) := by
  rcases t with ⟨⟨s⟩⟩ | ⟨⟨s⟩⟩ | g <;> deep <;> rw [callFn_apply] <;> simp only [Ast.TypedLangTag_as_private_use, TypedLangTag.asPrivateUse] <;> deep

theorem TypedLangTag.as_grandfathered_eq (t : TypedLangTag) :
    callFn (δ + 1) (crate max) ⟨["TypedLangTag"], "", Ast.TypedLangTag_as_grandfathered⟩ [val t] σ = some (.ok (val t.asGrandfathered, [none]) σ) := by
  rcases t with ⟨⟨s⟩⟩ | ⟨⟨s⟩⟩ | g <;> deep <;> rw [callFn_apply] <;> simp only [Ast.TypedLangTag_as_grandfathered, TypedLangTag.asGrandfathered] <;> deep

/-! ## `LangTag` -/

section

variable (x : String) (s : List UInt8) (hs : s.length + 1 ≤ max)

include hs

@[dep] theorem LangTag.as_normal_eq :
    callFn (δ + 4) (crate max) ⟨["LangTag"], "", Ast.LangTag_as_normal⟩ [.ctor ["LangTag"] x [.str s]] σ =
    some (.ok (val (LangTag.asNormal ⟨s⟩), [none]) σ) := by
  rw [callFn_apply]
  simp only [Ast.LangTag_as_normal, LangTag.asNormal, new_isOk]
  deep [hs]
  split <;> deep [okOf] <;> rfl

@[dep] theorem LangTag.as_private_use_eq :
    callFn (δ + 4) (crate max) ⟨["LangTag"], "", Ast.LangTag_as_private_use⟩ [.ctor ["LangTag"] x [.str s]] σ =
    some (.ok (val (LangTag.asPrivateUse ⟨s⟩ : Option PrivateUse), [none]) σ) := by
  rw [callFn_apply]
  simp only [Ast.LangTag_as_private_use, LangTag.asPrivateUse, new_isOk]
  deep [hs]
  split <;> deep [okOf] <;> rfl

omit hs in
@[dep] theorem LangTag.as_grandfathered_eq :
    callFn (δ + 5) (crate max) ⟨["LangTag"], "", Ast.LangTag_as_grandfathered⟩ [.ctor ["LangTag"] x [.str s]] σ =
    lift (fun r => (val r, [none])) (LangTag.asGrandfathered ⟨s⟩) σ := by
  rw [callFn_apply]
  simp only [Ast.LangTag_as_grandfathered, LangTag.asGrandfathered]
  deep
  rcases GrandfatheredLangTag.new s with _ | ⟨_ | _⟩ <;> deep [okOf]

@[dep] theorem LangTag.script_eq :
    callFn (δ + 9) (crate max) ⟨["LangTag"], "", Ast.LangTag_script⟩ [.ctor ["LangTag"] x [.str s]] σ =
    lift (fun r => (val r, [none])) (LangTag.script ⟨s⟩) σ := by
  rw [callFn_apply]
  simp only [Ast.LangTag_script, LangTag.script]
  deep [hs]
  rcases h : LangTag.asNormal ⟨s⟩ with _ | ⟨⟨n⟩⟩
  · deep
  · cases asNormal_str h
    deep [hs]
    cases NormalLangTag.script ⟨s⟩ <;> deep

@[dep] theorem LangTag.region_eq :
    callFn (δ + 10) (crate max) ⟨["LangTag"], "", Ast.LangTag_region⟩ [.ctor ["LangTag"] x [.str s]] σ =
    lift (fun r => (val r, [none])) (LangTag.region ⟨s⟩) σ := by
  rw [callFn_apply]
  simp only [Ast.LangTag_region, LangTag.region]
  deep [hs]
  rcases h : LangTag.asNormal ⟨s⟩ with _ | ⟨⟨n⟩⟩
  · deep
  · cases asNormal_str h
    deep [hs]
    cases NormalLangTag.region ⟨s⟩ <;> deep

@[dep] theorem LangTag.private_use_eq :
    callFn (δ + 12) (crate max) ⟨["LangTag"], "", Ast.LangTag_private_use⟩ [.ctor ["LangTag"] x [.str s]] σ =
    lift (fun r => (val r, [none])) (LangTag.privateUse ⟨s⟩) σ := by
  rw [callFn_apply]
  simp only [Ast.LangTag_private_use, LangTag.privateUse]
  deep [hs]
  rcases h : LangTag.asNormal ⟨s⟩ with _ | ⟨⟨n⟩⟩
  · deep
  · cases asNormal_str h
    deep [hs]
    cases NormalLangTag.privateUse ⟨s⟩ <;> deep

@[dep] theorem LangTag.variants_eq :
    callFn (δ + 11) (crate max) ⟨["LangTag"], "", Ast.LangTag_variants⟩ [.ctor ["LangTag"] x [.str s]] σ =
    lift (fun r => (val r, [none])) (LangTag.variants ⟨s⟩) σ := by
  rw [callFn_apply]
  simp only [Ast.LangTag_variants, LangTag.variants]
  deep [hs]
  rcases h : LangTag.asNormal ⟨s⟩ with _ | ⟨⟨n⟩⟩
  · deep
    rfl
  · cases asNormal_str h
    deep [hs]
    cases NormalLangTag.variants ⟨s⟩ <;> deep

@[dep] theorem LangTag.extensions_eq :
    callFn (δ + 12) (crate max) ⟨["LangTag"], "", Ast.LangTag_extensions⟩ [.ctor ["LangTag"] x [.str s]] σ =
    lift (fun r => (val r, [none])) (LangTag.extensions ⟨s⟩) σ := by
  rw [callFn_apply]
  simp only [Ast.LangTag_extensions, LangTag.extensions]
  deep [hs]
  rcases h : LangTag.asNormal ⟨s⟩ with _ | ⟨⟨n⟩⟩
  · deep
    rfl
  · cases asNormal_str h
    deep [hs]
    cases NormalLangTag.extensions ⟨s⟩ <;> deep

@[dep] theorem LangTag.private_use_subtags_eq :
    callFn (δ + 13) (crate max) ⟨["LangTag"], "", Ast.LangTag_private_use_subtags⟩ [.ctor ["LangTag"] x [.str s]] σ =
    lift (fun r => (val r, [none])) (LangTag.privateUseSubtags ⟨s⟩) σ := by
  rw [callFn_apply]
  simp only [Ast.LangTag_private_use_subtags, LangTag.privateUseSubtags]
  deep [hs]
  rcases LangTag.privateUse ⟨s⟩ with _ | _ | ⟨⟨p⟩⟩ <;> deep

@[dep] theorem LangTag.is_normal_eq :
    callFn (δ + 5) (crate max) ⟨["LangTag"], "", Ast.LangTag_is_normal⟩ [.ctor ["LangTag"] x [.str s]] σ =
    some (.ok (val (LangTag.isNormal ⟨s⟩), [none]) σ) := by
  rw [callFn_apply]
  simp only [Ast.LangTag_is_normal, LangTag.isNormal]
  deep [hs]
  cases LangTag.asNormal ⟨s⟩ <;> deep

@[dep] theorem LangTag.is_private_use_eq :
    callFn (δ + 5) (crate max) ⟨["LangTag"], "", Ast.LangTag_is_private_use⟩ [.ctor ["LangTag"] x [.str s]] σ =
    some (.ok (val (LangTag.isPrivateUse ⟨s⟩), [none]) σ) := by
  rw [callFn_apply]
  simp only [Ast.LangTag_is_private_use, LangTag.isPrivateUse]
  deep [hs]
  cases (LangTag.asPrivateUse ⟨s⟩ : Option PrivateUse) <;> deep

omit hs in
@[dep] theorem LangTag.is_grandfathered_eq :
    callFn (δ + 6) (crate max) ⟨["LangTag"], "", Ast.LangTag_is_grandfathered⟩ [.ctor ["LangTag"] x [.str s]] σ =
    lift (fun r => (val r, [none])) (LangTag.isGrandfathered ⟨s⟩) σ := by
  rw [callFn_apply]
  simp only [Ast.LangTag_is_grandfathered, LangTag.isGrandfathered]
  deep 
  rcases LangTag.asGrandfathered ⟨s⟩ with _ | _ | _ <;> deep

@[dep] theorem LangTag.language_eq :
    callFn (δ + 8) (crate max) ⟨["LangTag"], "", Ast.LangTag_language⟩ [.ctor ["LangTag"] x [.str s]] σ =
    lift (fun r => (val r, [none])) (LangTag.language ⟨s⟩) σ := by
  rw [callFn_apply]
  simp only [Ast.LangTag_language, LangTag.language]
  deep [hs]
  simp only [new_isOk]
  split
  · deep [hs]
    cases NormalLangTag.language ⟨s⟩ <;> deep
  · deep
    rcases GrandfatheredLangTag.new s with _ | ⟨_ | _⟩ <;> deep

@[dep] theorem LangTag.as_typed_eq :
    callFn (δ + 5) (crate max) ⟨["LangTag"], "", Ast.LangTag_as_typed⟩ [.ctor ["LangTag"] x [.str s]] σ =
    lift (fun r => (val r, [none])) (LangTag.asTyped ⟨s⟩) σ := by
  rw [callFn_apply]
  simp only [Ast.LangTag_as_typed, LangTag.asTyped]
  deep [hs]
  simp only [new_isOk]
  split
  · deep
    rfl
  · split
    · deep
      rfl
    · deep
      rcases GrandfatheredLangTag.new s with _ | ⟨_ | _⟩ <;> deep

@[dep] theorem LangTag.kind_eq :
    callFn (δ + 6) (crate max) ⟨["LangTag"], "", Ast.LangTag_kind⟩ [.ctor ["LangTag"] x [.str s]] σ =
    lift (fun r => (val r, [none])) (LangTag.kind ⟨s⟩) σ := by
  rw [callFn_apply]
  simp only [Ast.LangTag_kind, LangTag.kind]
  deep [hs]
  rcases LangTag.asTyped ⟨s⟩ with _ | t
  · deep
  · deep
    have hm : callMethod (δ + 5) (crate max) ⟨["LangTag"], "", .path ["Kind"] []⟩ (val t) "kind" [] [("self", .ctor ["LangTag"] x [.str s])] =
        callFn (δ + 5) (crate max) ⟨["TypedLangTag"], "", Ast.TypedLangTag_kind⟩ [val t] [("self", .ctor ["LangTag"] x [.str s])] := by
      cases t <;> deep
    rw [hm]
    deep

end

end Langtag.Source.Deep
