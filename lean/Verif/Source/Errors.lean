import Verif.Source.Derive

/-!
# What `#[derive(thiserror::Error)]` generates for a message without arguments

`#[error("…")]` before a struct: its `Display` writes the message, whatever the options of the formatter (`f.write_str("…")`).  `thiserror` is not in
`/repo`; this is its documented behaviour for a message without braces.  The attribute is read from the text of the crate.
-/

set_option autoImplicit false

namespace Langtag.Source
open Langtag.Model

/-- The message of `#[error("…")]` right before `pub struct T`. -/
def errorMessage (T : String) : List Tok → Option (List Nat)
  | [] => none
  | .punct .hash :: ts =>
    match ts with
    | .punct .lbrack :: .ident "error" :: .punct .lparen :: .str m :: .punct .rparen :: .punct .rbrack :: .kw .«pub» :: .kw .«struct» :: .ident x :: _ =>
      if x = T then some m else errorMessage T ts
    | _ => errorMessage T ts
  | _ :: ts => errorMessage T ts

/-- The message of an error type in a file. -/
def errorMessageIn (T : String) (lines : List (List Nat)) : Option (List Nat) :=
  match lex lines with
  | some ts => errorMessage T ts
  | none => none

/-- What `{}` writes for a value of a type, given its message and declaration. -/
def errorDisplayIn (T : String) (v : Val) : Option (List Nat) → Option TypeDef → Option (List Char)
  | some m, some d =>
    match v with
    | .ctor [T'] _ _ => if T' = T ∧ d.derives.contains "Error" ∧ 123 ∉ m ∧ 125 ∉ m then some (m.map Char.ofNat) else none
    | _ => none
  | _, _ => none

/-- What `format!("{…}", v)` writes for a value of an error type, with these options: none of them matters. -/
def runErrorDisplay (max : Nat) (T : String) (v : Val) (_ : Formatter) : Option (List Char) :=
  errorDisplayIn T v (texts.findSome? (errorMessageIn T)) (declaration max T)

theorem message_InvalidGrandfatheredTag : texts.findSome? (errorMessageIn "InvalidGrandfatheredTag") =
    some [105, 110, 118, 97, 108, 105, 100, 32, 103, 114, 97, 110, 100, 102, 97, 116, 104, 101, 114, 101, 100, 32, 116, 97, 103] := by kernel_rfl

theorem message_InvalidSingleton : texts.findSome? (errorMessageIn "InvalidSingleton") =
    some [105, 110, 118, 97, 108, 105, 100, 32, 101, 120, 116, 101, 110, 115, 105, 111, 110, 32, 105, 100, 101, 110, 116, 105, 102, 105, 101, 114] := by
  kernel_rfl

/-- The declaration of `InvalidGrandfatheredTag`, src/grandfathered.rs:5-7, and of `InvalidSingleton`, src/normal/extension.rs:5-7. -/
def errorDecl : TypeDef := .struct ["Debug", "Error"] [] (.tuple [.path ["T"] []])

theorem declaration_InvalidGrandfatheredTag (max : Nat) : declaration max "InvalidGrandfatheredTag" = some errorDecl :=
  declaration_eq (by kernel_rfl)
theorem declaration_InvalidSingleton (max : Nat) : declaration max "InvalidSingleton" = some errorDecl := declaration_eq (by kernel_rfl)

theorem runErrorDisplay_of {max : Nat} {T : String} {m : List Nat} (hm : texts.findSome? (errorMessageIn T) = some m)
    (hd : declaration max T = some errorDecl) (h1 : 123 ∉ m) (h2 : 125 ∉ m) (x : String) (vs : List Val) (f : Formatter) :
    runErrorDisplay max T (.ctor [T] x vs) f = some (m.map Char.ofNat) := by
  unfold runErrorDisplay
  rw [hm, hd]
  simp only [errorDisplayIn]
  simp only [h1, h2, errorDecl, TypeDef.derives, List.contains_cons, not_false_eq_true, and_true, true_and]
  rfl

attribute [irreducible] runErrorDisplay

end Langtag.Source
