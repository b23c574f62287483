import Verif.Source.RunTypes

/-!
# What `#[derive(…)]` of `core` generates

The meaning of `#[derive(PartialEq, PartialOrd, Ord, Hash, Debug)]` as a function of the declaration the attribute is on, for declarations whose
fields are `u8`.  (The derived `Default` is in `Verif/Source/Semantics.lean`.)  `runDerived…` reads the declaration from the text of the crate.
-/

set_option autoImplicit false

namespace Langtag.Source
open Langtag.Model

/-- What a derived `hash` does to the hasher. -/
inductive HashWrite
  /-- `write_isize`, of a discriminant -/
  | isize (n : Nat)
  | u8 (b : UInt8)
  deriving DecidableEq

/-- The traits that are derived for a type. -/
def TypeDef.derives : TypeDef → List String
  | .struct ds _ _ => ds
  | .enum ds _ => ds

/-- The position of the variant in the declaration; a struct has one variant. -/
def TypeDef.position : TypeDef → String → Option Nat
  | .struct .., _ => some 0
  | .enum _ vs, x => vs.findIdx? fun v => v.1 = x

/-- `u8`s, all of them. -/
def u8s : List Val → Option (List UInt8)
  | [] => some []
  | .u8 b :: vs => (u8s vs).map (b :: ·)
  | _ :: _ => none

/-- The position of the variant of a value of this type, and its fields. -/
def parts (T : String) (d : TypeDef) : Val → Option (Nat × List UInt8)
  | .ctor [T'] x vs =>
    if T' = T then
      match d.position x, u8s vs with
      | some n, some bs => some (n, bs)
      | _, _ => none
    else none
  | _ => none

/-- `a == b`: the same variant, and equal fields. -/
def derivedEq (a b : Nat × List UInt8) : Bool := a.1 == b.1 && a.2 == b.2

/-- Lists of fields, the first first. -/
def compareFields : List UInt8 → List UInt8 → Ordering
  | x :: xs, y :: ys => (compare x y).then (compareFields xs ys)
  | _, _ => .eq

/-- `a.cmp(&b)`: by the position of the variant in the declaration, then by the fields, from left to right. -/
def derivedCmp (a b : Nat × List UInt8) : Ordering := (compare a.1 b.1).then (compareFields a.2 b.2)

/-- `a.hash(state)`: the discriminant, if it is an enum, and then the fields. -/
def derivedHash (d : TypeDef) (a : Nat × List UInt8) : List HashWrite :=
  match d with
  | .struct .. => a.2.map .u8
  | .enum .. => .isize a.1 :: a.2.map .u8

/-- The declaration of a type in a program. -/
def declarationIn (T : String) : Option Program → Option TypeDef
  | some P => P.types.lookup [T]
  | none => none

/-- The declaration of a type in the text of the crate. -/
def declaration (max : Nat) (T : String) : Option TypeDef := declarationIn T (readCrate max)

/-- A function of two values of the type `T`, if the trait is derived in its declaration. -/
def derived2 {α : Type} (trait T : String) (f : Nat × List UInt8 → Nat × List UInt8 → α) (a b : Val) : Option TypeDef → Option α
  | some d =>
    if d.derives.contains trait then
      match parts T d a, parts T d b with
      | some a, some b => some (f a b)
      | _, _ => none
    else none
  | none => none

/-- What `a.hash(state)` writes, if it is derived in the declaration. -/
def derived1 (T : String) (a : Val) : Option TypeDef → Option (List HashWrite)
  | some d => if d.derives.contains "Hash" then (parts T d a).map (derivedHash d) else none
  | none => none

/-- What `{:?}` writes for a value without fields, if it is derived in the declaration: the name of the variant, whatever the options. -/
def derivedDebug (T : String) : Val → Option TypeDef → Option (List Char)
  | .ctor [T'] x [], some d => if T' = T ∧ d.derives.contains "Debug" ∧ (d.position x).isSome then some x.toList else none
  | _, _ => none

/-- The call `a == b`, if it is derived. -/
def runDerivedEq (max : Nat) (T : String) (a b : Val) : Option Bool := derived2 "PartialEq" T derivedEq a b (declaration max T)

/-- The call `a.cmp(&b)`, if it is derived. -/
def runDerivedCmp (max : Nat) (T : String) (a b : Val) : Option Ordering := derived2 "Ord" T derivedCmp a b (declaration max T)

/-- The call `a.partial_cmp(&b)`, if it is derived. -/
def runDerivedPartialCmp (max : Nat) (T : String) (a b : Val) : Option (Option Ordering) :=
  derived2 "PartialOrd" T (fun a b => some (derivedCmp a b)) a b (declaration max T)

/-- What the call `a.hash(state)` writes, if it is derived. -/
def runDerivedHash (max : Nat) (T : String) (a : Val) : Option (List HashWrite) := derived1 T a (declaration max T)

/-- What `{:?}` writes for a value without fields, if it is derived. -/
def runDerivedDebug (max : Nat) (T : String) (a : Val) : Option (List Char) := derivedDebug T a (declaration max T)

/-! ## The types of the crate -/

/-- The declaration of `Kind`, src/lib.rs:287-292. -/
def kindDecl : TypeDef :=
  .enum ["Debug", "Clone", "Copy", "PartialEq", "Eq", "PartialOrd", "Ord", "Hash"]
    [("Normal", .tuple []), ("PrivateUse", .tuple []), ("Grandfathered", .tuple [])]

/-- The declaration of `GrandfatheredLangTag`, src/grandfathered.rs:21-51. -/
def grandfatheredDecl : TypeDef :=
  .enum ["Clone", "Copy", "PartialEq", "Eq", "PartialOrd", "Ord", "Hash"]
    ([GrandfatheredLangTag.EnGbOed, .IAmi, .IBnn, .IDefault, .IEnochian, .IHak, .IKlingon, .ILux, .IMingo, .INavajo, .IPwn, .ITao, .ITay, .ITsu,
      .SgnBeFr, .SgnBeNl, .SgnChDe, .ArtLojban, .CelGaulish, .NoBok, .NoNyn, .ZhGuoyu, .ZhHakka, .ZhMin, .ZhMinNan, .ZhXiang].map
      fun g => (variantName g, .tuple []))

/-- The declaration of `Singleton`, src/normal/extension.rs:10-11. -/
def singletonDecl : TypeDef :=
  .struct ["Copy", "Clone", "PartialEq", "Eq", "Hash", "PartialOrd", "Ord"] [] (.tuple [.path ["u8"] []])

theorem declaration_eq {max : Nat} {T : String} {d : Option TypeDef} (h : (crate max).types.lookup [T] = d) : declaration max T = d := by
  have e : declarationIn T (readCrate max) = declarationIn T (some (crate max)) := congrArg (declarationIn T) (readCrate_eq max)
  exact e.trans h

theorem declaration_Kind (max : Nat) : declaration max "Kind" = some kindDecl := declaration_eq (by kernel_rfl)
theorem declaration_Singleton (max : Nat) : declaration max "Singleton" = some singletonDecl := declaration_eq (by kernel_rfl)
theorem declaration_GrandfatheredLangTag (max : Nat) : declaration max "GrandfatheredLangTag" = some grandfatheredDecl :=
  declaration_eq (by kernel_rfl)

attribute [irreducible] declaration

theorem parts_Kind (k : Kind) : parts "Kind" kindDecl (val k) = some (k.discriminant, []) := by cases k <;> rfl
theorem parts_Singleton (g : Model.Singleton) : parts "Singleton" singletonDecl (val g) = some (0, [g.byte]) := rfl
theorem parts_GrandfatheredLangTag (g : GrandfatheredLangTag) :
    parts "GrandfatheredLangTag" grandfatheredDecl (val g) = some (g.discriminant, []) := by cases g <;> decide +kernel

/-- The derived functions of a type, computed on the positions and fields of its values. -/
structure IsDerived (max : Nat) (T : String) {α : Type} [Rep α] (d : TypeDef) (k : α → Nat × List UInt8) : Prop where
  eq : ∀ a b : α, runDerivedEq max T (val a) (val b) = some (derivedEq (k a) (k b))
  cmp : ∀ a b : α, runDerivedCmp max T (val a) (val b) = some (derivedCmp (k a) (k b))
  partialCmp : ∀ a b : α, runDerivedPartialCmp max T (val a) (val b) = some (some (derivedCmp (k a) (k b)))
  hash : ∀ a : α, runDerivedHash max T (val a) = some (derivedHash d (k a))

theorem isDerived_of {max : Nat} {T : String} {α : Type} [Rep α] {d : TypeDef} {k : α → Nat × List UInt8} (hd : declaration max T = some d)
    (hk : ∀ a : α, parts T d (val a) = some (k a))
    (hs : (["PartialEq", "Ord", "PartialOrd", "Hash"].all d.derives.contains) = true) : IsDerived max T d k := by
  simp only [List.all_cons, List.all_nil, Bool.and_true, Bool.and_eq_true] at hs
  obtain ⟨h1, h2, h3, h4⟩ := hs
  constructor
  · intro a b; exact (congrArg (derived2 "PartialEq" T derivedEq (val a) (val b)) hd).trans (by simp only [derived2, h1, hk, if_true])
  · intro a b; exact (congrArg (derived2 "Ord" T derivedCmp (val a) (val b)) hd).trans (by simp only [derived2, h2, hk, if_true])
  · intro a b
    exact (congrArg (derived2 "PartialOrd" T (fun a b => some (derivedCmp a b)) (val a) (val b)) hd).trans (by simp only [derived2, h3, hk, if_true])
  · intro a; exact (congrArg (derived1 T (val a)) hd).trans (by simp only [derived1, h4, hk, if_true, Option.map_some])

theorem Kind.debug (max : Nat) (k : Kind) : runDerivedDebug max "Kind" (val k) = some (k.fmtDebug Formatter.default) :=
  (congrArg (derivedDebug "Kind" (val k)) (declaration_Kind max)).trans (by cases k <;> decide +kernel)

theorem Kind.derived (max : Nat) : IsDerived max "Kind" kindDecl fun k : Kind => (k.discriminant, []) :=
  isDerived_of (declaration_Kind max) parts_Kind (by decide +kernel)
theorem Singleton.derived (max : Nat) : IsDerived max "Singleton" singletonDecl fun g : Model.Singleton => (0, [g.byte]) :=
  isDerived_of (declaration_Singleton max) parts_Singleton (by decide +kernel)
theorem GrandfatheredLangTag.derived (max : Nat) :
    IsDerived max "GrandfatheredLangTag" grandfatheredDecl fun g : GrandfatheredLangTag => (g.discriminant, []) :=
  isDerived_of (declaration_GrandfatheredLangTag max) parts_GrandfatheredLangTag (by decide +kernel)

theorem derivedEq_enum (m n : Nat) : derivedEq (m, []) (n, []) = (m == n) := by simp [derivedEq]
theorem derivedCmp_enum (m n : Nat) : derivedCmp (m, []) (n, []) = compare m n := by simp [derivedCmp, compareFields]
theorem derivedEq_u8 (a b : UInt8) : derivedEq (0, [a]) (0, [b]) = (a == b) := by simp [derivedEq]
theorem derivedCmp_u8 (a b : UInt8) : derivedCmp (0, [a]) (0, [b]) = compare a b := by simp [derivedCmp, compareFields]

end Langtag.Source
