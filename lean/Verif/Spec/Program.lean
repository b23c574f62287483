import Verif.Spec.Client

/-!
# Programs that use the crate

A program holds a list of values, which begins with its inputs.  Each of its steps calls a public function on some of them, or takes one
of them apart, and adds what it gets.  Which step it takes next depends on the values it holds (`UserProgram`).
-/

set_option autoImplicit false

namespace Langtag.Spec
open Langtag.Source

/-- A step of a program.  A value is named by its position among those the program holds. -/
inductive Step
  /-- call the function on these values -/
  | call (F : PubFn) (args : List Nat)
  /-- take the text of a value of a string type -/
  | text (i : Nat)
  /-- take a field of a value whose fields are public -/
  | field (i j : Nat)
  /-- make a `TypedLangTag` of this variant -/
  | typed (x : String) (i : Nat)

/-- Which step to take, as a function of the values held; `none` to stop. -/
abbrev UserProgram := List Val → Option Step

/-- The variants of `TypedLangTag` (src/lib.rs:217-222) and the types of their fields. -/
def typedVariants : List (String × String) :=
  [("Normal", "NormalLangTag"), ("PrivateUse", "PrivateUse"), ("Grandfathered", "GrandfatheredLangTag")]

/-- The values held after a call; `none` if it did not return. -/
def after (held : List Val) : Option Outcome → Option (List Val)
  | some (.returns v ws) => some (held ++ v :: ws)
  | _ => none

/-- The text of a value of a string type. -/
def textOf? : Val → Option Val
  | .ctor [T] x [.str s] => if T ∈ stringTypes ∧ x = T then some (.str s) else none
  | _ => none

/-- A field of a value whose fields are public. -/
def fieldOf? (j : Nat) : Val → Option Val
  | .ctor [T] _ vs => if T ∈ openTypes then vs[j]? else none
  | _ => none

/-- The value can be passed for the parameter. -/
def Param.fits : Param → Val → Bool
  | .of T, v => typeName v = some T
  | .str, .str _ => true
  | .bytes, .bytes _ => true
  | .u8, .u8 _ => true
  | .char, .char _ => true
  | .hasher, .hasher _ => true
  | .formatter, .formatter .. => true
  | _, _ => false

/-- The values can be passed for the parameters. -/
def fitAll : List Param → List Val → Bool
  | [], [] => true
  | p :: ps, v :: vs => p.fits v && fitAll ps vs
  | _, _ => false

/-- The variant of `TypedLangTag` with this field. -/
def typed? (x : String) (v : Val) : Option Val :=
  if typedVariants.any fun y => y.1 = x ∧ typeName v = some y.2 then some (.ctor ["TypedLangTag"] x [v]) else none

/-- How the call of each function on each list of arguments ends. -/
abbrev Calls := List String → String → List Val → Option Outcome

/-- One step, on the values held: the values held after it, or `none` if the program has panicked.  A step that is not possible does nothing. -/
def Step.takeWith (call : Calls) (held : List Val) : Step → Option (List Val)
  | .call F is =>
    match is.mapM (held[·]?) with
    | some args => if F ∈ api ∧ fitAll F.params args then after held (call F.owner F.name args) else some held
    | none => some held
  | .text i => some (held ++ ((held[i]?).bind textOf?).toList)
  | .field i j => some (held ++ ((held[i]?).bind (fieldOf? j)).toList)
  | .typed x i => some (held ++ ((held[i]?).bind (typed? x)).toList)

/-- At most `n` steps of the program: the values held then, or `none` if it has panicked. -/
def UserProgram.execWith (call : Calls) (P : UserProgram) : Nat → List Val → Option (List Val)
  | 0, held => some held
  | n + 1, held =>
    match P held with
    | none => some held
    | some step => (step.takeWith call held).bind (UserProgram.execWith call P n)

/-- One step, the calls ending as the text of the crate says. -/
def Step.take (max : Nat) : List Val → Step → Option (List Val) := Step.takeWith (run max)

/-- At most `n` steps of the program, the calls ending as the text of the crate says. -/
def UserProgram.exec (max : Nat) : UserProgram → Nat → List Val → Option (List Val) := UserProgram.execWith (run max)

theorem UserProgram.exec_zero (max : Nat) (P : UserProgram) (held : List Val) : P.exec max 0 held = some held := rfl
theorem UserProgram.exec_succ (max : Nat) (P : UserProgram) (n : Nat) (held : List Val) :
    P.exec max (n + 1) held =
      match P held with
      | none => some held
      | some step => (step.take max held).bind (P.exec max n) := rfl

/-! ## Letter case -/

/-- A character in lower case: only the letters `A`–`Z` change. -/
def lowerChar (c : Char) : Char := if 65 ≤ c.toNat ∧ c.toNat ≤ 90 then Char.ofNat (c.toNat + 32) else c

mutual
/-- A value with all its letters in lower case: those of texts, of bytes and characters, and of what has been written to a formatter. -/
def lowerVal : Val → Val
  | .u8 b => .u8 (lower b)
  | .char c => .char (lowerChar c)
  | .str s => .str (lowerText s)
  | .bytes s => .bytes (lowerText s)
  | .tuple vs => .tuple (lowerVals vs)
  | .ctor T x vs => .ctor T x (lowerVals vs)
  | .struct T fs => .struct T (lowerFields fs)
  | .formatter f out => .formatter f (out.map lowerChar)
  | v => v
/-- The same for a list of values. -/
def lowerVals : List Val → List Val
  | [] => []
  | v :: vs => lowerVal v :: lowerVals vs
/-- The same for the fields of a struct. -/
def lowerFields : List (String × Val) → List (String × Val)
  | [] => []
  | (x, v) :: fs => (x, lowerVal v) :: lowerFields fs
end

/-- How a call ends, with all letters in lower case. -/
def lowerOutcome : Outcome → Outcome
  | .returns v after => .returns (lowerVal v) (after.map lowerVal)
  | o => o

/-- The functions to which the case of a letter matters: they compare a singleton with a byte or a character. -/
def caseSensitive : List PubFn :=
  [⟨["Singleton"], "eq", [.of "Singleton", .u8]⟩, ⟨["Singleton"], "eq", [.of "Singleton", .char]⟩,
   ⟨["Extensions"], "get", [.of "Extensions", .of "Singleton"]⟩, ⟨["Extensions"], "iter_extension", [.of "Extensions", .of "Singleton"]⟩]

/-- The program does not look at letter case: values that differ in it only lead to the same step, and it does not call those functions. -/
def CaseBlind (P : UserProgram) : Prop :=
  (∀ held held', held.map lowerVal = held'.map lowerVal → P held = P held') ∧ ∀ held F is, P held = some (.call F is) → F ∉ caseSensitive

end Langtag.Spec
