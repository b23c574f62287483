import Verif.Spec.Run
import Verif.Spec.Tag
import Verif.Spec.Utf8

/-!
# What a program that uses the crate can do

A table of the public functions of the crate (`api`), and the values a program can get hold of by calling them in whatever order, on
whatever values it has got before (`Obtainable`).

Not here: `unsafe` functions, and the functions that the `str_newtype` derive generates besides `new` and the text of a value.
-/

set_option autoImplicit false

namespace Langtag.Spec
open Langtag.Source

/-- What a parameter accepts. -/
inductive Param
  /-- a value of a type of the crate, or a reference to one -/
  | of (T : String)
  /-- `&str` -/
  | str
  /-- `&[u8]` -/
  | bytes
  /-- `u8` -/
  | u8
  /-- `char` -/
  | char
  /-- `&mut H` where `H: Hasher` -/
  | hasher
  /-- `&mut fmt::Formatter` -/
  | formatter
  deriving DecidableEq

/-- The name of the type of a value of the crate. -/
def typeName : Val → Option String
  | .ctor [T] _ _ => some T
  | .struct [T] _ => some T
  | _ => none

/-- The value can be passed for the parameter. -/
def Param.Fits : Param → Val → Prop
  | .of T, v => typeName v = some T
  | .str, v => ∃ s, v = .str s
  | .bytes, v => ∃ s, v = .bytes s
  | .u8, v => ∃ b, v = .u8 b
  | .char, v => ∃ c, v = .char c
  | .hasher, v => ∃ w, v = .hasher w
  | .formatter, v => ∃ f out, v = .formatter f out

/-- The values can be passed for the parameters. -/
def FitAll : List Param → List Val → Prop
  | [], [] => True
  | p :: ps, v :: vs => p.Fits v ∧ FitAll ps vs
  | _, _ => False

/-- A public function: the type it belongs to, its name, its parameters. -/
structure PubFn where
  owner : List String
  name : String
  params : List Param
  deriving DecidableEq

/-- `T::f(&self)` -/
def methods (T : String) (fs : List String) : List PubFn := fs.map fun f => ⟨[T], f, [.of T]⟩

/-- The safe public functions of the crate.  `utils` and `grammar` are private modules (src/lib.rs:39, 66). -/
def api : List PubFn :=
  -- the fifteen string types: `new`, and the comparisons and hash written out for each
  stringTypes.flatMap (fun T =>
    [⟨[T], "new", [.str]⟩, ⟨[T], "eq", [.of T, .of T]⟩, ⟨[T], "cmp", [.of T, .of T]⟩, ⟨[T], "partial_cmp", [.of T, .of T]⟩,
     ⟨[T], "hash", [.of T, .hasher]⟩]) ++
  -- src/lib.rs:82-178
  methods "LangTag" ["language", "script", "region", "variants", "extensions", "private_use", "private_use_subtags", "is_normal",
    "is_private_use", "is_grandfathered", "as_normal", "as_private_use", "as_grandfathered", "kind", "as_typed"] ++
  -- src/lib.rs:206-215, the macro
  [⟨[], "langtag", [.str]⟩] ++
  -- src/lib.rs:224-284
  methods "TypedLangTag" ["language", "kind", "is_normal", "is_private_use", "is_grandfathered", "as_normal", "as_private_use",
    "as_grandfathered"] ++
  -- src/lib.rs:294-309
  methods "Kind" ["is_normal", "is_private_use", "is_grandfathered"] ++
  -- src/normal/mod.rs:33-151
  methods "NormalLangTag" ["language", "script", "region", "variants", "extensions", "private_use", "private_use_subtags"] ++
  -- src/grandfathered.rs:62-152
  methods "GrandfatheredLangTag" ["language", "as_bytes", "as_str"] ++
  [⟨["GrandfatheredLangTag"], "new", [.str]⟩, ⟨["GrandfatheredLangTag"], "try_from", [.bytes]⟩,
   ⟨["GrandfatheredLangTag"], "fmt", [.of "GrandfatheredLangTag", .formatter]⟩] ++
  -- src/normal/language/mod.rs:28-65, src/normal/language/extlang.rs:29-33, 67-90
  methods "Language" ["primary", "extension", "extension_subtags"] ++
  methods "LanguageExtension" ["iter"] ++
  [⟨["LanguageExtensionIter"], "empty", []⟩] ++ methods "LanguageExtensionIter" ["next"] ++
  -- src/normal/variant.rs:66-80, 115-160
  methods "Variants" ["iter", "first", "last"] ++
  [⟨["VariantsIter"], "empty", []⟩] ++ methods "VariantsIter" ["next", "next_back"] ++
  -- src/normal/extension.rs:13-97
  [⟨["Singleton"], "new", [.u8]⟩, ⟨["Singleton"], "from_string", [.str]⟩, ⟨["Singleton"], "from_str", [.str]⟩,
   ⟨["Singleton"], "try_from", [.u8]⟩, ⟨["Singleton"], "try_from", [.char]⟩, ⟨["Singleton"], "eq", [.of "Singleton", .u8]⟩,
   ⟨["Singleton"], "eq", [.of "Singleton", .char]⟩, ⟨["Singleton"], "fmt", [.of "Singleton", .formatter]⟩] ++
  methods "Singleton" ["unwrap"] ++
  -- src/normal/extension.rs:122-130, 164-190, 211-244, 283-301
  methods "Extension" ["singleton", "iter"] ++
  [⟨["ExtensionIter"], "empty", []⟩] ++ methods "ExtensionIter" ["next"] ++
  methods "Extensions" ["iter"] ++
  [⟨["Extensions"], "get", [.of "Extensions", .of "Singleton"]⟩, ⟨["Extensions"], "iter_extension", [.of "Extensions", .of "Singleton"]⟩] ++
  methods "ExtensionsIter" ["next"] ++
  -- src/normal/private_use.rs:19-23, 57-83
  methods "PrivateUse" ["iter"] ++
  [⟨["PrivateUseIter"], "empty", []⟩] ++ methods "PrivateUseIter" ["next"]

/-- The types whose fields are public: `Option` and `Result` of the core library, the enum `TypedLangTag` (src/lib.rs:217-222) and the two
error types (src/grandfathered.rs:7, src/normal/extension.rs:7). -/
def openTypes : List String := ["Option", "Result", "TypedLangTag", "InvalidSingleton", "InvalidGrandfatheredTag"]

/-- The names of the variants of `GrandfatheredLangTag`, src/grandfathered.rs:9-60. -/
def grandfatheredVariants : List String :=
  ["EnGbOed", "IAmi", "IBnn", "IDefault", "IEnochian", "IHak", "IKlingon", "ILux", "IMingo", "INavajo", "IPwn", "ITao", "ITay", "ITsu",
   "SgnBeFr", "SgnBeNl", "SgnChDe", "ArtLojban", "CelGaulish", "NoBok", "NoNyn", "ZhGuoyu", "ZhHakka", "ZhMin", "ZhMinNan", "ZhXiang"]

/-- The values a program can get hold of.  `max` is the largest `usize`; no text is longer than the address space lets it be. -/
inductive Obtainable (max : Nat) : Val → Prop
  | bool (b : Bool) : Obtainable max (.bool b)
  | u8 (b : UInt8) : Obtainable max (.u8 b)
  | char (c : Char) : Obtainable max (.char c)
  /-- a `&str` of any content -/
  | str (s : Text) (h : IsUtf8 s) (hs : s.length + 1 ≤ max) : Obtainable max (.str s)
  /-- a `&[u8]` of any content -/
  | bytes (s : Text) (hs : s.length + 1 ≤ max) : Obtainable max (.bytes s)
  | hasher (w : List UInt8) : Obtainable max (.hasher w)
  | formatter (f : Langtag.Model.Formatter) (out : List Char) : Obtainable max (.formatter f out)
  /-- the variants of `Kind` and `GrandfatheredLangTag` -/
  | kind (x : String) (h : x ∈ ["Normal", "PrivateUse", "Grandfathered"]) : Obtainable max (.ctor ["Kind"] x [])
  | grandfathered (x : String) (h : x ∈ grandfatheredVariants) : Obtainable max (.ctor ["GrandfatheredLangTag"] x [])
  /-- the variants of `TypedLangTag`, of values it has got -/
  | typed (x T : String) (v : Val) (hx : (x, T) ∈ [("Normal", "NormalLangTag"), ("PrivateUse", "PrivateUse"), ("Grandfathered", "GrandfatheredLangTag")])
      (hT : typeName v = some T) (h : Obtainable max v) : Obtainable max (.ctor ["TypedLangTag"] x [v])
  /-- `Variants::EMPTY` and `Extensions::EMPTY`, src/normal/variant.rs:67, src/normal/extension.rs:212 -/
  | empty (T : String) (h : T ∈ ["Variants", "Extensions"]) : Obtainable max (tag T [])
  /-- the text of a value of a string type (`as_str`) -/
  | text (T : String) (s : Text) (h : T ∈ stringTypes) (hv : Obtainable max (tag T s)) : Obtainable max (.str s)
  /-- a field of a value whose fields are public -/
  | field (T : String) (x : String) (vs : List Val) (v : Val) (h : T ∈ openTypes) (hv : v ∈ vs) (ho : Obtainable max (.ctor [T] x vs)) :
      Obtainable max v
  /-- what a public function returns, or leaves in its `&mut` parameters, when called on values it has got -/
  | call (F : PubFn) (hF : F ∈ api) (args : List Val) (hf : FitAll F.params args) (ha : ∀ a ∈ args, Obtainable max a) (v : Val) (after : List Val)
      (hr : run max F.owner F.name args = some (.returns v after)) (w : Val) (hw : w ∈ v :: after) : Obtainable max w

/-- The production of a string type. -/
def production : String → Option Abnf
  | "LangTag" => some Grammar.languageTag
  | "NormalLangTag" => some Grammar.langtag
  | "Language" => some Grammar.language
  | "PrimaryLanguage" => some Grammar.primary
  | "LanguageExtension" => some Grammar.extlang
  | "ExtendedLangTag" => some Grammar.extlangTag
  | "Script" => some Grammar.script
  | "Region" => some Grammar.region
  | "Variant" => some Grammar.variant
  | "Variants" => some Grammar.variants
  | "Extension" => some Grammar.extension
  | "Extensions" => some Grammar.extensions
  | "ExtensionSubtag" => some Grammar.extensionSubtag
  | "PrivateUse" => some Grammar.privateuse
  | "PrivateUseSubtag" => some Grammar.privateuseSubtag
  | _ => none

/-- The text is one of the production of the type. -/
def InProduction (T : String) (s : Text) : Prop := ∃ g, production T = some g ∧ g.Matches s

/-- The two exceptions (C24): a `PrimaryLanguage` of four to eight letters, and a `PrivateUse` that begins with extensions. -/
def Exceptional (T : String) (s : Text) : Prop :=
  (T = "PrimaryLanguage" ∧ 4 ≤ s.length ∧ s.length ≤ 8 ∧ ∀ b ∈ s, IsAlpha b) ∨
  (T = "PrivateUse" ∧ ∃ (es : List Text) (x : Option Text), es ≠ [] ∧ (∀ e ∈ es, Grammar.extension.Matches e) ∧
    (∀ w, x = some w → Grammar.privateuse.Matches w) ∧ s = joinDash (es ++ x.toList))

/-- Which component an accessor of a tag looks for after: the parts of the tag from there on. -/
def searched (p : Parts) : List (String × List Text) :=
  [("script", p.afterLanguage), ("region", p.afterScript), ("variants", p.afterRegion), ("extensions", p.afterVariants),
   ("private_use", p.afterRegion), ("private_use_subtags", p.afterRegion)]

/-- The calls that panic: an accessor of a normal tag that ends where the accessor begins to search (C22), and `langtag!` of a text that is
not a language tag. -/
def Panics (F : PubFn) (args : List Val) : Prop :=
  (∃ T ∈ ["LangTag", "NormalLangTag"], F.owner = [T] ∧ ∃ s p, args = [tag T s] ∧ Decomposes s p ∧ (F.name, []) ∈ searched p) ∨
  (F.owner = [] ∧ F.name = "langtag" ∧ ∃ s, args = [.str s] ∧ ¬ Grammar.languageTag.Matches s)

/-- What they panic with: the accessors slice a text out of its range, `langtag!` calls `panic!`. -/
def panicOf (F : PubFn) : Model.Panic := if F.owner = [] then .explicit else .slice

end Langtag.Spec
