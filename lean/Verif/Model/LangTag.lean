import Verif.Model.Normal
import Verif.Model.Grandfathered

/-! # `/repo/src/lib.rs`: `LangTag`, `TypedLangTag`, `Kind` -/

set_option autoImplicit false

namespace Langtag.Model

/-- `Kind`, src/lib.rs:286-292. -/
inductive Kind
  | Normal | PrivateUse | Grandfathered
  deriving DecidableEq, Repr

namespace Kind
/-- src/lib.rs:296-298 -/
def isNormal (k : Kind) : Bool := match k with | .Normal => true | _ => false
/-- src/lib.rs:301-303 -/
def isPrivateUse (k : Kind) : Bool := match k with | .PrivateUse => true | _ => false
/-- src/lib.rs:306-308 -/
def isGrandfathered (k : Kind) : Bool := match k with | .Grandfathered => true | _ => false

/-- The discriminant: the position in the declaration, src/lib.rs:288-292. -/
def discriminant : Kind → Nat
  | .Normal => 0 | .PrivateUse => 1 | .Grandfathered => 2

/-- `#[derive(PartialEq)]`, src/lib.rs:287: same variant. -/
def eq (a b : Kind) : Bool := a.discriminant == b.discriminant
/-- `#[derive(Ord)]`, src/lib.rs:287: the order of the declaration. -/
def cmp (a b : Kind) : Ordering := compare a.discriminant b.discriminant
end Kind

/-- `TypedLangTag`, src/lib.rs:217-222. -/
inductive TypedLangTag
  | Normal (t : NormalLangTag)
  | PrivateUse (t : PrivateUseLangTag)
  | Grandfathered (t : GrandfatheredLangTag)
  deriving DecidableEq

namespace TypedLangTag

/-- src/lib.rs:229-235 -/
def language : TypedLangTag → Rust (Option Language)
  | Normal n => do return some (← n.language)
  | PrivateUse _ => return none
  | Grandfathered g => return g.language

/-- src/lib.rs:238-244 -/
def kind : TypedLangTag → Kind
  | Normal _ => .Normal
  | PrivateUse _ => .PrivateUse
  | Grandfathered _ => .Grandfathered

/-- src/lib.rs:247-249 -/
def isNormal (t : TypedLangTag) : Bool := match t with | Normal _ => true | _ => false
/-- src/lib.rs:252-254 -/
def isPrivateUse (t : TypedLangTag) : Bool := match t with | PrivateUse _ => true | _ => false
/-- src/lib.rs:257-259 -/
def isGrandfathered (t : TypedLangTag) : Bool := match t with | Grandfathered _ => true | _ => false
/-- src/lib.rs:262-267 -/
def asNormal (t : TypedLangTag) : Option NormalLangTag := match t with | Normal n => some n | _ => none
/-- src/lib.rs:270-275 -/
def asPrivateUse (t : TypedLangTag) : Option PrivateUseLangTag :=
  match t with | PrivateUse p => some p | _ => none
/-- src/lib.rs:278-283 -/
def asGrandfathered (t : TypedLangTag) : Option GrandfatheredLangTag :=
  match t with | Grandfathered g => some g | _ => none

end TypedLangTag

/-- `Result::ok` (core), e.g. src/lib.rs:150. -/
def okOf {ε α : Type} : Except ε α → Option α
  | .ok a => some a
  | .error _ => none

namespace LangTag

/-- src/lib.rs:87-95 -/
def language (t : LangTag) : Rust (Option Language) :=
  match StrNewtype.new NormalLangTag t.str with
  | .ok n => do return some (← n.language)
  | .error _ => do
    match ← GrandfatheredLangTag.new t.str with
    | .ok g => return g.language
    | .error _ => return none

/-- src/lib.rs:149-151 -/
def asNormal (t : LangTag) : Option NormalLangTag := okOf (StrNewtype.new NormalLangTag t.str)

/-- src/lib.rs:154-156 -/
def asPrivateUse (t : LangTag) : Option PrivateUseLangTag := okOf (StrNewtype.new PrivateUse t.str)

/-- src/lib.rs:159-161 -/
def asGrandfathered (t : LangTag) : Rust (Option GrandfatheredLangTag) := do
  return okOf (← GrandfatheredLangTag.new t.str)

/-- src/lib.rs:98-100 -/
def script (t : LangTag) : Rust (Option Script) :=
  match t.asNormal with
  | some n => n.script
  | none => return none

/-- src/lib.rs:103-105 -/
def region (t : LangTag) : Rust (Option Region) :=
  match t.asNormal with
  | some n => n.region
  | none => return none

/-- src/lib.rs:108-112 -/
def variants (t : LangTag) : Rust Variants :=
  match t.asNormal with
  | some n => n.variants
  | none => return Variants.EMPTY

/-- src/lib.rs:115-119 -/
def extensions (t : LangTag) : Rust Extensions :=
  match t.asNormal with
  | some n => n.extensions
  | none => return Extensions.EMPTY

/-- src/lib.rs:122-124 -/
def privateUse (t : LangTag) : Rust (Option PrivateUse) :=
  match t.asNormal with
  | some n => n.privateUse
  | none => return none

/-- src/lib.rs:127-131 -/
def privateUseSubtags (t : LangTag) : Rust PrivateUseIter := do
  return ((← t.privateUse).map PrivateUse.iter).getD .empty

/-- src/lib.rs:134-136 -/
def isNormal (t : LangTag) : Bool := t.asNormal.isSome

/-- src/lib.rs:139-141 -/
def isPrivateUse (t : LangTag) : Bool := t.asPrivateUse.isSome

/-- src/lib.rs:144-146 -/
def isGrandfathered (t : LangTag) : Rust Bool := do return (← t.asGrandfathered).isSome

/-- src/lib.rs:169-177 -/
def asTyped (t : LangTag) : Rust TypedLangTag :=
  match StrNewtype.new NormalLangTag t.str with
  | .ok n => return .Normal n
  | .error _ =>
    match StrNewtype.new PrivateUse t.str with
    | .ok p => return .PrivateUse p
    | .error _ => do
      match ← GrandfatheredLangTag.new t.str with
      | .ok g => return .Grandfathered g
      | .error _ => .error .unwrap

/-- src/lib.rs:164-166 -/
def kind (t : LangTag) : Rust Kind := do return (← t.asTyped).kind

/-- `langtag!`, src/lib.rs:206-215.  `LangTag::from_str` is derived; it is modelled as `LangTag::new`. -/
def langtag! (value : Str) : Rust LangTag :=
  match StrNewtype.new LangTag value with
  | .ok value => .ok value
  | .error _ => .error .explicit

end LangTag

end Langtag.Model
