import Verif.Source.Syntax
import Verif.Model.Print

/-!
# The subset of Rust the crate is written in: meaning

An evaluator for the syntax of `Verif/Source/Syntax.lean`.  Nothing here is about `/repo` in particular, except that only what the
crate uses is covered: anything else is `stuck`.

* References are not distinguished from what they refer to.  A parameter of type `&mut T` is copied in and copied out: when the call
  returns, its value is written back to the place that was passed.  (Rust has no aliasing of `&mut`.)
* A closure keeps a copy of the variables it sees.  (No closure of the crate assigns to a captured variable.)  `Verif/Spec/Store.lean` gives the
  meaning without these two shortcuts; `C69_memory` proves that for the crate it is the same.
* Unsuffixed integer literals are `usize`, and take the type of the other operand of an operator.
* Additions and subtractions that overflow panic, as in a debug build, or wrap around, as in a release build (`Program.wraps`).
* The evaluator is defined as a least fixed point: `none` stands for a computation that does not end.
* Functions of `core` have the meaning given by `Verif/Model/Rust.lean`, `Verif/Model/Print.lean` and, for UTF-8, `Verif/Model/Dfa.lean`.
  `T::new`, `T::new_unchecked`, `T::from_str`, `as_bytes` and `as_str` of a type with an `#[automaton(A)]` attribute are those of the derive
  macros (see DESIGN.md): `T::new` runs `A::validate_str`.
-/

set_option autoImplicit false

namespace Langtag.Source
open Langtag.Model (Panic Rust)

/-- Where an expression is: the type of the `impl` (`Self`), the trait it implements, the return type of the function. -/
structure Ctx where
  owner : List String
  trait : String
  ret : Ty

/-- Values. -/
inductive Val
  | bool (b : Bool)
  | u8 (n : UInt8)
  | u32 (n : Nat)
  | usize (n : Nat)
  | char (c : Char)
  | str (s : List UInt8)
  /-- `[u8]` -/
  | bytes (s : List UInt8)
  /-- `(v, w)`; `()` is the unit value -/
  | tuple (vs : List Val)
  /-- a variant of an enum, or a tuple struct -/
  | ctor (ty : List String) (variant : String) (vs : List Val)
  | struct (ty : List String) (fields : List (String × Val))
  /-- `lo..hi` -/
  | range (lo hi : Nat)
  /-- `lo..` -/
  | rangeFrom (lo : Nat)
  /-- `..hi` -/
  | rangeTo (hi : Nat)
  | array (vs : List Val)
  | closure (params : List Pat) (body : Expr) (env : List (String × Val)) (ctx : Ctx)
  /-- a function, not called -/
  | fn (owner : List String) (name : String)
  /-- `str::chars()` -/
  | chars (s : List UInt8)
  /-- a `Hasher`: the bytes written to it with `write_u8` -/
  | hasher (written : List UInt8)
  /-- a `Formatter`: its options and its output -/
  | formatter (options : Langtag.Model.Formatter) (out : List Char)

/-- The unit value. -/
def Val.unit : Val := .tuple []

/-- The variables in scope, innermost first. -/
abbrev Env := List (String × Val)

/-- How the evaluation of an expression ends, if not with a value. -/
inductive Ctl
  | ret (v : Val)
  | brk (v : Val)
  | panic (p : Panic)
  /-- not covered by this semantics -/
  | stuck

/-- How the evaluation of an expression ends, and the variables after it. -/
inductive Res (α : Type)
  | ok (a : α) (σ : Env)
  | ctl (c : Ctl) (σ : Env)

/-- A computation that reads and writes variables and may not end. -/
abbrev M (α : Type) := Env → Option (Res α)

namespace M

def pure {α : Type} (a : α) : M α := fun σ => some (.ok a σ)

def bind {α β : Type} (x : M α) (f : α → M β) : M β := fun σ =>
  (x σ).bind fun
    | .ok a σ => f a σ
    | .ctl c σ => some (.ctl c σ)

instance : Monad M where
  pure := M.pure
  bind := M.bind

open Lean.Order in
instance (α : Type) : PartialOrder (M α) := inferInstanceAs (PartialOrder (Env → Option (Res α)))

open Lean.Order in
instance (α : Type) : CCPO (M α) := inferInstanceAs (CCPO (Env → Option (Res α)))

open Lean.Order in
instance : MonoBind M where
  bind_mono_left h σ := MonoBind.bind_mono_left (m := Option) (h σ)
  bind_mono_right h σ := MonoBind.bind_mono_right (m := Option) fun r => by
    cases r with
    | ok a σ => exact h a σ
    | ctl c σ => exact PartialOrder.rel_refl

/-- Not covered. -/
def stuck {α : Type} : M α := fun σ => some (.ctl .stuck σ)

/-- `return`, `break`, a panic. -/
def throw {α : Type} (c : Ctl) : M α := fun σ => some (.ctl c σ)

/-- A function of `core` that returns or panics. -/
def ofRust {α : Type} (r : Rust α) : M α := fun σ =>
  match r with
  | .ok a => some (.ok a σ)
  | .error p => some (.ctl (.panic p) σ)

/-- The variables. -/
def env : M Env := fun σ => some (.ok σ σ)

/-- Replaces the variables. -/
def setEnv (σ : Env) : M Unit := fun _ => some (.ok () σ)

end M

/-! ## Programs -/

/-- A function and the `impl` it is in. -/
structure Fn where
  owner : List String
  trait : String
  fn : FnDef

/-- A type. -/
inductive TypeDef
  | struct (derives : List String) (automaton : List String) (shape : Shape)
  | enum (derives : List String) (variants : List (String × Shape))

/-- A program, the largest `usize` of the machine it runs on, and whether it was built without overflow checks.  A type is identified by its
name; the types of `grammar.rs` by `["grammar", name]`. -/
structure Program where
  usizeMax : Nat
  wraps : Bool
  fns : List Fn
  consts : List (List String × String × Expr)
  types : List (List String × TypeDef)
  aliases : List (String × List String)
  /-- the enums whose variants are in scope by their names -/
  globs : List String

/-- The type a path names. -/
def typePath (P : Program) (C : Ctx) (segs : List String) : List String :=
  match segs.getLast? with
  | none => []
  | some x =>
    if x = "Self" then C.owner
    else match P.aliases.lookup x with
    | some t => t
    | none => if segs.contains "grammar" then ["grammar", x] else [x]

/-- Does a path name a type? -/
def isType (P : Program) (C : Ctx) (segs : List String) : Bool :=
  (P.types.lookup (typePath P C segs)).isSome

/-- The constructors of `core`, and the enums they belong to. -/
def coreCtors : List (String × List String) :=
  [("Some", ["Option"]), ("None", ["Option"]), ("Ok", ["Result"]), ("Err", ["Result"])]

/-- Is it an enum with this variant? -/
def hasVariant (P : Program) (ty : List String) (v : String) : Bool :=
  match P.types.lookup ty with
  | some (.enum _ vs) => (vs.lookup v).isSome
  | _ => false

/-- Is it a tuple struct? -/
def isTupleStruct (P : Program) (ty : List String) : Bool :=
  match P.types.lookup ty with
  | some (.struct _ _ (.tuple _)) => true
  | _ => false

/-- The constructor a path names, if it names one. -/
def ctorOf (P : Program) (C : Ctx) (segs : List String) : Option (List String × String) :=
  match segs with
  | [] => none
  | [x] =>
    match coreCtors.lookup x with
    | some t => some (t, x)
    | none =>
      if isTupleStruct P (typePath P C [x]) then some (typePath P C [x], (typePath P C [x]).getLast?.getD "")
      else (P.globs.find? fun e => hasVariant P [e] x).map fun e => ([e], x)
  | segs =>
    let x := segs.getLast?.getD ""
    let ty := typePath P C segs.dropLast
    if ty = ["Ordering"] then some (ty, x)
    else if hasVariant P ty x then some (ty, x)
    else none

/-- The function or constant a path names: the type it belongs to, `[]` for none, and its name. -/
def memberOf (P : Program) (C : Ctx) (segs : List String) : List String × String :=
  (if isType P C segs.dropLast then typePath P C segs.dropLast else [], segs.getLast?.getD "")

/-- Is the value not ruled out by the type? -/
def admits (owner : List String) (v : Val) : Ty → Bool
  | .ref _ t => admits owner v t
  | .path ["u8"] [] => match v with | .u8 _ => true | _ => false
  | .path ["char"] [] => match v with | .char _ => true | _ => false
  | .path ["Self"] [] => match v with | .ctor ty _ _ => ty = owner | .struct ty _ => ty = owner | _ => false
  | _ => true

/-- Are the values not ruled out by the types of the parameters? -/
def admitsAll (owner : List String) : List Val → List (String × Ty) → Bool
  | [], [] => true
  | v :: vs, (_, t) :: ps => admits owner v t && admitsAll owner vs ps
  | _, _ => false

/-- The function of this name of this type for these arguments. -/
def Program.lookup (P : Program) (owner : List String) (name : String) (vs : List Val) : Option Fn :=
  P.fns.find? fun f => f.owner = owner && f.fn.name = name && admitsAll owner vs f.fn.params

/-- The automaton in the `#[automaton(…)]` attribute of the type. -/
def automatonOf (P : Program) (ty : List String) : Option (List String) :=
  match P.types.lookup ty with
  | some (.struct _ (a :: as) _) => some (typePath P ⟨[], "", .tuple []⟩ (a :: as))
  | _ => none

/-- The value of a type that is a tuple struct around a `str`. -/
def newtype (ty : List String) (s : List UInt8) : Val := .ctor ty (ty.getLast?.getD "") [.str s]

/-- `Some(v)` -/
def Val.some (v : Val) : Val := .ctor ["Option"] "Some" [v]
/-- `None` -/
def Val.none : Val := .ctor ["Option"] "None" []
/-- `Ok(v)` -/
def Val.ok (v : Val) : Val := .ctor ["Result"] "Ok" [v]
/-- `Err(v)` -/
def Val.err (v : Val) : Val := .ctor ["Result"] "Err" [v]

/-- A `core::cmp::Ordering`. -/
def Val.ordering : Ordering → Val
  | .lt => .ctor ["Ordering"] "Less" []
  | .eq => .ctor ["Ordering"] "Equal" []
  | .gt => .ctor ["Ordering"] "Greater" []

/-! ## Literals, patterns, operators -/

/-- The bytes of a string given by code points below 128. -/
def litBytes (s : List Nat) : List UInt8 := s.map UInt8.ofNat

/-- The value of a literal. -/
def litVal : Lit → Option Val
  | .int n "" => some (.usize n)
  | .int n "u32" => some (.u32 n)
  | .int _ _ => none
  | .char c => some (.char (Char.ofNat c))
  | .byte c => some (.u8 (UInt8.ofNat c))
  | .str s => if s.all (· < 128) then some (.str (litBytes s)) else none
  | .bstr s => if s.all (· < 128) then some (.bytes (litBytes s)) else none
  | .bool b => some (.bool b)

/-- The number an integer stands for. -/
def natOf : Val → Option Nat
  | .u8 n => some n.toNat
  | .u32 n => some n
  | .usize n => some n
  | _ => none

/-- Does a value match a literal pattern? -/
def litMatches (l : Lit) (v : Val) : Bool :=
  match l, v with
  | .int n "u32", .u32 m => n == m
  | .char c, .char d => c == d.toNat
  | _, _ => false

/-- Does a value match a range of literals? -/
def rangeMatches (lo hi : Lit) (v : Val) : Bool :=
  match lo, hi, v with
  | .char a, .char b, .char c => a ≤ c.toNat && c.toNat ≤ b
  | _, _, _ => false

mutual
/-- The variables a pattern binds, `none` if the value does not match. -/
def matchPat (P : Program) (C : Ctx) : Pat → Val → Option Env
  | .wild, _ => some []
  | .lit l, v => if litMatches l v then some [] else none
  | .range lo hi, v => if rangeMatches lo hi v then some [] else none
  | .path segs, v =>
    match ctorOf P C segs with
    | some (ty, x) =>
      match v with
      | .ctor ty' x' [] => if ty = ty' ∧ x = x' then some [] else none
      | _ => none
    | none =>
      match segs with
      | [x] => some [(x, v)]
      | _ => none
  | .ctor segs ps, v =>
    match ctorOf P C segs, v with
    | some (ty, x), .ctor ty' x' vs => if ty = ty' ∧ x = x' then matchPats P C ps vs else none
    | _, _ => none
  | .tuple ps, v =>
    match v with
    | .tuple vs => matchPats P C ps vs
    | _ => none
  | .or ps, v => matchAny P C ps v
/-- The variables a list of patterns binds. -/
def matchPats (P : Program) (C : Ctx) : List Pat → List Val → Option Env
  | [], [] => some []
  | p :: ps, v :: vs =>
    match matchPat P C p v, matchPats P C ps vs with
    | some a, some b => some (b ++ a)
    | _, _ => none
  | _, _ => none
/-- The variables the first of the alternatives that matches binds. -/
def matchAny (P : Program) (C : Ctx) : List Pat → Val → Option Env
  | [], _ => none
  | p :: ps, v =>
    match matchPat P C p v with
    | some a => some a
    | none => matchAny P C ps v
end

/-- A result that does not fit its type: a panic, or the result modulo the number of values of the type. -/
def overflow (P : Program) (wrapped : Val) : M Val := if P.wraps then pure wrapped else M.throw (.panic .overflow)

/-- Addition and subtraction. -/
def arith (P : Program) (op : BinOp) (a b : Val) : M Val :=
  match op, a, natOf b with
  | .add, .usize m, some n => if m + n ≤ P.usizeMax then pure (.usize (m + n)) else overflow P (.usize ((m + n) % (P.usizeMax + 1)))
  | .sub, .usize m, some n => if n ≤ m then pure (.usize (m - n)) else overflow P (.usize ((m + (P.usizeMax + 1) - n) % (P.usizeMax + 1)))
  | .add, .u8 m, some n => if m.toNat + n < 256 then pure (.u8 (UInt8.ofNat (m.toNat + n))) else overflow P (.u8 (UInt8.ofNat (m.toNat + n)))
  | _, _, _ => M.stuck

/-- Operators other than `&&` and `||`. -/
def binVal (P : Program) (op : BinOp) (a b : Val) : M Val :=
  match op with
  | .add | .sub => arith P op a b
  | _ =>
    match natOf a, natOf b with
    | some m, some n =>
      match op with
      | .eq => pure (.bool (m == n))
      | .ne => pure (.bool (m != n))
      | .lt => pure (.bool (decide (m < n)))
      | .le => pure (.bool (decide (m ≤ n)))
      | .gt => pure (.bool (decide (m > n)))
      | .ge => pure (.bool (decide (m ≥ n)))
      | _ => M.stuck
    | _, _ => M.stuck

/-- `v as T` -/
def castVal (v : Val) (t : Ty) : M Val :=
  match t, v with
  | .path ["u32"] [], .char c => pure (.u32 c.toNat)
  | .path ["u32"] [], .u8 n => pure (.u32 n.toNat)
  | .path ["u8"] [], .u32 n => pure (.u8 (UInt8.ofNat n))
  | .path ["char"] [], .u8 n => pure (.char (Char.ofNat n.toNat))
  | _, _ => M.stuck

/-- `v[i]` -/
def indexVal (v i : Val) : M Val :=
  match v, i with
  | .bytes s, .usize n => do return .u8 (← M.ofRust (Langtag.Model.index s n))
  | .str s, .range a b => do return .str (← M.ofRust (Langtag.Model.sliceRange s a b))
  | .str s, .rangeFrom a => do return .str (← M.ofRust (Langtag.Model.sliceFrom s a))
  | .str s, .rangeTo b => do return .str (← M.ofRust (Langtag.Model.sliceRange s 0 b))
  | _, _ => M.stuck

/-- `v.f` -/
def fieldVal (v : Val) (f : String) : M Val :=
  match v with
  | .struct _ fs =>
    match fs.lookup f with
    | some w => pure w
    | none => M.stuck
  | .ctor _ _ [w] => if f = "0" then pure w else M.stuck
  | .range _ b => if f = "end" then pure (.usize b) else M.stuck
  | _ => M.stuck

/-- The fields with one of them replaced. -/
def setField (f : String) (w : Val) : List (String × Val) → List (String × Val)
  | [] => []
  | (g, v) :: fs => if g = f then (g, w) :: fs else (g, v) :: setField f w fs

/-! ## Variables and places -/

/-- The value of a variable. -/
def varVal (x : String) : M Val := do
  match (← M.env).lookup x with
  | some v => pure v
  | none => M.stuck

/-- The variables with the innermost one of this name replaced. -/
def setVar (x : String) (v : Val) : M Unit := do
  M.setEnv (setField x v (← M.env))

/-- What is at a place: a variable, or a field of a place. -/
def readPlace : Expr → M Val
  | .path [x] => varVal x
  | .field e f => do fieldVal (← readPlace e) f
  | _ => M.stuck

/-- Puts a value at a place. -/
def assignPlace : Expr → Val → M Unit
  | .path [x], v => setVar x v
  | .field e f, v => do
    match ← readPlace e with
    | .struct ty fs => assignPlace e (.struct ty (setField f v fs))
    | _ => M.stuck
  | _, _ => M.stuck

/-- Puts what a call wrote through `&mut` back to the places that were passed.  A value that is not at a place is temporary. -/
def writeBack : List Expr → List (Option Val) → M Unit
  | e :: es, w :: ws => do
    match w, e with
    | some v, .path [x] => setVar x v
    | some v, .field e f => assignPlace (.field e f) v
    | _, _ => pure ()
    writeBack es ws
  | _, _ => pure ()

/-- Evaluation in a new scope, the variables of which are forgotten. -/
def closeScope {α : Type} (n : Nat) : Res α → Res α
  | .ok a σ => .ok a (σ.drop (σ.length - n))
  | .ctl c σ => .ctl c (σ.drop (σ.length - n))

/-- Evaluation in a new scope with some variables. -/
def inScope {α : Type} (new : Env) (x : M α) : M α := fun σ =>
  (x (new ++ σ)).bind fun r => some (closeScope σ.length r)

open Lean.Order in
@[partial_fixpoint_monotone]
theorem monotone_scoped {γ : Sort _} [PartialOrder γ] {α : Type} (new : Env) (f : γ → M α) (h : monotone f) :
    monotone fun x => inScope new (f x) := by
  intro x y hxy σ
  exact MonoBind.bind_mono_left (m := Option) (h x y hxy (new ++ σ))

/-- What the function wrote to its `&mut` parameters. -/
def finals (params : List (String × Ty)) (σ : Env) : List (Option Val) :=
  params.map fun (x, t) =>
    match t with
    | .ref true _ => (σ.drop (σ.length - params.length)).lookup x
    | _ => none

/-- The end of a call, in the variables of the caller. -/
def closeCall (params : List (String × Ty)) (σ : Env) : Res Val → Res (Val × List (Option Val))
  | .ok v σ' => .ok (v, finals params σ') σ
  | .ctl (.ret v) σ' => .ok (v, finals params σ') σ
  | .ctl (.panic p) _ => .ctl (.panic p) σ
  | .ctl _ _ => .ctl .stuck σ

/-- A call: the body in the variables of the parameters. -/
def called (params : List (String × Ty)) (vs : List Val) (x : M Val) : M (Val × List (Option Val)) := fun σ =>
  (x ((params.map (·.1)).zip vs)).bind fun r => some (closeCall params σ r)

open Lean.Order in
@[partial_fixpoint_monotone]
theorem monotone_called {γ : Sort _} [PartialOrder γ] (params : List (String × Ty)) (vs : List Val) (f : γ → M Val) (h : monotone f) :
    monotone fun x => called params vs (f x) := by
  intro x y hxy σ
  exact MonoBind.bind_mono_left (m := Option) (h x y hxy _)

/-- A call of a closure: the body in the variables it saw. -/
def calledIn (new : Env) (x : M Val) : M Val := fun σ =>
  (x new).bind fun r => some <|
    match r with
    | .ok v _ => .ok v σ
    | .ctl (.ret v) _ => .ok v σ
    | .ctl (.panic p) _ => .ctl (.panic p) σ
    | .ctl _ _ => .ctl .stuck σ

open Lean.Order in
@[partial_fixpoint_monotone]
theorem monotone_calledIn {γ : Sort _} [PartialOrder γ] (new : Env) (f : γ → M Val) (h : monotone f) :
    monotone fun x => calledIn new (f x) := by
  intro x y hxy σ
  exact MonoBind.bind_mono_left (m := Option) (h x y hxy _)

/-- What a loop does after its body: `again` at the end of the body. -/
def afterBody (again : M Val) (body : M Val) : M Val := fun σ =>
  (body σ).bind fun
    | .ok _ σ => again σ
    | .ctl (.brk v) σ => some (.ok v σ)
    | .ctl c σ => some (.ctl c σ)

open Lean.Order in
@[partial_fixpoint_monotone]
theorem monotone_afterBody {γ : Sort _} [PartialOrder γ] (f g : γ → M Val) (hf : monotone f) (hg : monotone g) :
    monotone fun x => afterBody (f x) (g x) := by
  intro x y hxy σ
  apply PartialOrder.rel_trans
  · exact MonoBind.bind_mono_left (m := Option) (hg x y hxy σ)
  · apply MonoBind.bind_mono_right (m := Option)
    intro r
    cases r with
    | ok a σ => exact hf x y hxy σ
    | ctl c σ => cases c <;> exact PartialOrder.rel_refl

/-! ## `core` -/

/-- The values a `for` loop goes through. -/
def iterate : Val → Option (List Val)
  | .range a b => some ((List.range' a (b - a)).map .usize)
  | .bytes s => some (s.map .u8)
  | .array vs => some vs
  | _ => none

/-- `#[derive(Default)]` of a field. -/
def defaultOf : Ty → Option Val
  | .ref _ (.path ["str"] []) => some (.str [])
  | .path ["usize"] [] => some (.usize 0)
  | _ => none

/-- `#[derive(Default)]` of the fields of a struct. -/
def defaultFields : List (String × Ty) → Option (List (String × Val))
  | [] => some []
  | (f, t) :: fs =>
    match defaultOf t, defaultFields fs with
    | some v, some vs => some ((f, v) :: vs)
    | _, _ => none

/-- `T::default()` of a struct with `#[derive(Default)]`. -/
def derivedDefault (P : Program) (ty : List String) : M Val :=
  match P.types.lookup ty with
  | some (.struct ds _ (.named fs)) =>
    if ds.contains "Default" then
      match defaultFields fs with
      | some vs => pure (.struct ty vs)
      | none => M.stuck
    else M.stuck
  | _ => M.stuck

/-- Associated functions of the derive macros, other than `new`, and functions of other crates. -/
def corePath (P : Program) (owner : List String) (name : String) (vs : List Val) : M Val :=
  match owner, name, vs with
  | [], "decode_utf8_char", [.bytes s, .usize i] =>
    match Langtag.Model.decodeUtf8Char s i with
    | some (c, n) => pure (.ok (.tuple [.char c, .usize n]))
    | none => pure (.err .unit)
  | [], "from_utf8_unchecked", [.bytes s] => pure (.str s)
  | owner, "new_unchecked", [.str s] =>
    if (automatonOf P owner).isSome then pure (newtype owner s) else M.stuck
  | owner, "default", [] => derivedDefault P owner
  | _, _, _ => M.stuck

/-- Is the function the `new` or `from_str` of a type with an automaton, called on a text? -/
def newOf (P : Program) (owner : List String) (name : String) (vs : List Val) : Option (List String × List UInt8) :=
  match vs with
  | [.str s] => if name = "new" ∨ name = "from_str" then (automatonOf P owner).map (·, s) else none
  | _ => none

/-- The type a function returns, if it is `Result<T, _>`. -/
def okType (P : Program) (C : Ctx) : List String :=
  match C.ret with
  | .path ["Result"] (.path segs _ :: _) => typePath P C segs
  | _ => []

/-- Methods of `core` that call no function, and their `&mut` arguments afterwards. -/
def coreMethod (P : Program) (C : Ctx) (v : Val) (m : String) (vs : List Val) : M (Val × List (Option Val)) :=
  match v, m, vs with
  | .str s, "len", [] => pure (.usize s.length, [])
  | .bytes s, "len", [] => pure (.usize s.length, [])
  | .str s, "as_bytes", [] => pure (.bytes s, [])
  | .str s, "as_ref", [] => pure (.bytes s, [])
  | .bytes s, "as_ref", [] => pure (.bytes s, [])
  | .str s, "to_owned", [] => pure (.str s, [])
  | .str s, "chars", [] => pure (.chars s, [])
  | .chars s, "next", [] =>
    -- the iterator is not used again
    match Langtag.Model.Singleton.charsNext s with
    | some c => pure (.some (.char c), [])
    | none => pure (.none, [])
  | .str s, "split_once", [.char '-'] =>
    match Langtag.Model.splitOnceDash s with
    | some (a, b) => pure (.some (.tuple [.str a, .str b]), [])
    | none => pure (.none, [])
  | .str s, "fmt", [.formatter f out] =>
    if C.trait = "Display" then pure (.ok .unit, [none, some (.formatter f (out ++ f.pad (Langtag.Model.asciiChars s)))]) else M.stuck
  | .char c, "fmt", [.formatter f out] =>
    if C.trait = "Display" then pure (.ok .unit, [none, some (.formatter f (out ++ f.pad [c]))])
    else if C.trait = "Debug" ∧ c.isAlphanum then pure (.ok .unit, [none, some (.formatter f (out ++ ['\'', c, '\'']))])
    else M.stuck
  | .u8 n, "is_ascii_uppercase", [] => pure (.bool (Langtag.Model.isAsciiUppercase n), [])
  | .u8 n, "is_ascii_alphanumeric", [] => pure (.bool (Langtag.Model.isAsciiAlphanumeric n), [])
  | .u8 a, "cmp", [.u8 b] => pure (.ordering (compare a b), [])
  | .u8 n, "hash", [.hasher w] => pure (.unit, [none, some (.hasher (w ++ [n]))])
  | .ctor ["Option"] "Some" [w], "unwrap", [] => pure (w, [])
  | .ctor ["Option"] "None" [], "unwrap", [] => M.throw (.panic .unwrap)
  | .ctor ["Option"] "Some" [w], "unwrap_or", [_] => pure (w, [])
  | .ctor ["Option"] "None" [], "unwrap_or", [w] => pure (w, [])
  | .ctor ["Option"] "Some" [w], "unwrap_or_default", [] => pure (w, [])
  | .ctor ["Option"] "None" [], "unwrap_or_default", [] =>
    -- the result is the result of the function it is in
    match C.ret with
    | .path segs _ => do return (← derivedDefault P (typePath P C segs), [])
    | _ => M.stuck
  | .ctor ["Option"] "Some" [_], "is_some", [] => pure (.bool true, [])
  | .ctor ["Option"] "None" [], "is_some", [] => pure (.bool false, [])
  | .ctor ["Result"] "Ok" [w], "ok", [] => pure (.some w, [])
  | .ctor ["Result"] "Err" [_], "ok", [] => pure (.none, [])
  | .ctor ["Result"] "Ok" [_], "is_ok", [] => pure (.bool true, [])
  | .ctor ["Result"] "Err" [_], "is_ok", [] => pure (.bool false, [])
  | .ctor ["Result"] "Ok" [w], "unwrap", [] => pure (w, [])
  | .ctor ["Result"] "Err" [_], "unwrap", [] => M.throw (.panic .unwrap)
  | .ctor ty _ [.str s], "as_bytes", [] => if (automatonOf P ty).isSome then pure (.bytes s, []) else M.stuck
  | .ctor ty _ [.str s], "as_str", [] => if (automatonOf P ty).isSome then pure (.str s, []) else M.stuck
  | _, _, _ => M.stuck

/-- Methods of `Option` and `Result` that call their argument: what it is called with and what becomes of its result, or the result if
it is not called. -/
def higherOrder (v : Val) (m : String) : Option (Val ⊕ (Val × (Val → Val))) :=
  match v, m with
  | .ctor ["Option"] "Some" [w], "map" => some (.inr (w, .some))
  | .ctor ["Option"] "None" [], "map" => some (.inl .none)
  | .ctor ["Option"] "Some" [w], "and_then" => some (.inr (w, id))
  | .ctor ["Option"] "None" [], "and_then" => some (.inl .none)
  | .ctor ["Result"] "Ok" [w], "map_err" => some (.inl (.ok w))
  | .ctor ["Result"] "Err" [w], "map_err" => some (.inr (w, .err))
  | _, _ => none

/-- The function of this name of the type of the value. -/
def methodOf (P : Program) (v : Val) (m : String) (vs : List Val) : Option Fn :=
  match v with
  | .ctor ty _ _ => P.lookup ty m (v :: vs)
  | .struct ty _ => P.lookup ty m (v :: vs)
  | _ => none

/-! ## Expressions -/

mutual

/-- The value of an expression. -/
def eval (P : Program) (C : Ctx) (e : Expr) : M Val :=
  match e with
  | .lit l =>
    match litVal l with
    | some v => pure v
    | none => M.stuck
  | .path segs => evalPath P C segs
  | .call f args =>
    match f with
    | .path segs => do
      let vs ← evalList P C args
      let σ ← M.env
      match segs, σ.lookup (segs.getLast?.getD "") with
      | [_], some g => applyVal P C g vs
      | _, _ =>
        match ctorOf P C segs with
        | some (ty, x) => pure (.ctor ty x vs)
        | none => do
          let (v, ws) ← callPath P C (memberOf P C segs).1 (memberOf P C segs).2 vs
          writeBack args ws
          pure v
    | _ => M.stuck
  | .method recv m args => do
    let v ← eval P C recv
    let vs ← evalList P C args
    let (r, ws) ← callMethod P C v m vs
    writeBack (recv :: args) ws
    pure r
  | .field e f => do fieldVal (← eval P C e) f
  | .index e i => do
    let v ← eval P C e
    let n ← eval P C i
    indexVal v n
  | .range lo hi => do
    let a ← eval P C lo
    let b ← eval P C hi
    match a, b with
    | .usize a, .usize b => pure (.range a b)
    | _, _ => M.stuck
  | .rangeFrom lo => do
    match ← eval P C lo with
    | .usize a => pure (.rangeFrom a)
    | _ => M.stuck
  | .rangeTo hi => do
    match ← eval P C hi with
    | .usize b => pure (.rangeTo b)
    | _ => M.stuck
  | .ref _ e => eval P C e
  | .deref e => eval P C e
  | .not e => do
    match ← eval P C e with
    | .bool b => pure (.bool (!b))
    | _ => M.stuck
  | .bin op a b =>
    match op with
    | .and => do
      match ← eval P C a with
      | .bool true => eval P C b
      | .bool false => pure (.bool false)
      | _ => M.stuck
    | .or => do
      match ← eval P C a with
      | .bool true => pure (.bool true)
      | .bool false => eval P C b
      | _ => M.stuck
    | op => do
      let x ← eval P C a
      let y ← eval P C b
      binVal P op x y
  | .cast e t => do castVal (← eval P C e) t
  | .ite c t e => do
    match ← eval P C c with
    | .bool true => eval P C t
    | .bool false => eval P C e
    | _ => M.stuck
  | .match e arms => do
    let v ← eval P C e
    evalArms P C v arms
  | .loop body => evalLoop P C body
  | .while c body => evalWhile P C c body
  | .for x e body => do
    match iterate (← eval P C e) with
    | some vs => evalFor P C x vs body
    | none => M.stuck
  | .break e => do M.throw (.brk (← eval P C e))
  | .return e => do M.throw (.ret (← eval P C e))
  | .block stmts last => inScope [] (evalBlock P C stmts last)
  | .closure params body => do
    let σ ← M.env
    pure (.closure params body σ C)
  | .struct segs fields => do
    let fs ← evalFields P C fields
    pure (.struct (typePath P C segs) fs)
  | .assign p e => do
    let v ← eval P C e
    assignPlace p v
    pure .unit
  | .opAssign op p e => do
    let v ← eval P C e
    let w ← readPlace p
    let r ← binVal P op w v
    assignPlace p r
    pure .unit
  | .tuple es => do return .tuple (← evalList P C es)
  | .array es => do return .array (← evalList P C es)
  | .matches e p => do return .bool (matchPat P C p (← eval P C e)).isSome
  | .panic => M.throw (.panic .explicit)
partial_fixpoint

/-- The value of a path: a variable, a constructor without arguments, a constant, or a function. -/
def evalPath (P : Program) (C : Ctx) (segs : List String) : M Val := do
  let σ ← M.env
  match segs, σ.lookup (segs.getLast?.getD "") with
  | [_], some v => pure v
  | _, _ =>
    match ctorOf P C segs with
    | some (ty, x) => pure (.ctor ty x [])
    | none =>
      if segs = ["u8", "MAX"] then pure (.u8 255)
      else
        match P.consts.find? fun (o, x, _) => o = (memberOf P C segs).1 && x = (memberOf P C segs).2 with
        | some (o, _, e) => calledIn [] (eval P ⟨o, "", .tuple []⟩ e)
        | none => pure (.fn (memberOf P C segs).1 (memberOf P C segs).2)
partial_fixpoint

/-- The values of expressions, from left to right. -/
def evalList (P : Program) (C : Ctx) (es : List Expr) : M (List Val) :=
  match es with
  | [] => pure []
  | e :: es => do
    let v ← eval P C e
    let vs ← evalList P C es
    pure (v :: vs)
partial_fixpoint

/-- The values of fields, in the order they are written. -/
def evalFields (P : Program) (C : Ctx) (fs : List Field) : M (List (String × Val)) :=
  match fs with
  | [] => pure []
  | .mk f e :: fs => do
    let v ← eval P C e
    let vs ← evalFields P C fs
    pure ((f, v) :: vs)
partial_fixpoint

/-- The first arm that matches. -/
def evalArms (P : Program) (C : Ctx) (v : Val) (arms : List Arm) : M Val :=
  match arms with
  | [] => M.stuck
  | .mk p e :: arms =>
    match matchPat P C p v with
    | some new => inScope new (eval P C e)
    | none => evalArms P C v arms
partial_fixpoint

/-- Statements and the last expression of a block. -/
def evalBlock (P : Program) (C : Ctx) (stmts : List Stmt) (last : Expr) : M Val :=
  match stmts with
  | [] => eval P C last
  | .expr e :: stmts => do
    let _ ← eval P C e
    evalBlock P C stmts last
  | .let p e :: stmts => do
    let v ← eval P C e
    match matchPat P C p v with
    | some new =>
      let σ ← M.env
      M.setEnv (new ++ σ)
      evalBlock P C stmts last
    | none => M.stuck
partial_fixpoint

/-- `loop` -/
def evalLoop (P : Program) (C : Ctx) (body : Expr) : M Val :=
  afterBody (evalLoop P C body) (eval P C body)
partial_fixpoint

/-- `while` -/
def evalWhile (P : Program) (C : Ctx) (c body : Expr) : M Val := do
  match ← eval P C c with
  | .bool true => afterBody (evalWhile P C c body) (eval P C body)
  | .bool false => pure .unit
  | _ => M.stuck
partial_fixpoint

/-- `for` -/
def evalFor (P : Program) (C : Ctx) (x : String) (vs : List Val) (body : Expr) : M Val :=
  match vs with
  | [] => pure .unit
  | v :: vs => afterBody (evalFor P C x vs body) (inScope [(x, v)] (eval P C body))
partial_fixpoint

/-- A call of a function of the program. -/
def callFn (P : Program) (f : Fn) (vs : List Val) : M (Val × List (Option Val)) :=
  called f.fn.params vs (eval P ⟨f.owner, f.trait, f.fn.ret⟩ f.fn.body)
partial_fixpoint

/-- A call of a function by its name. -/
def callPath (P : Program) (C : Ctx) (owner : List String) (name : String) (vs : List Val) : M (Val × List (Option Val)) :=
  match P.lookup owner name vs with
  | some f => callFn P f vs
  | none =>
    match newOf P owner name vs with
    | some (a, s) => do
      let (r, _) ← callPath P C a "validate_str" [.str s]
      match r with
      | .bool true => pure (.ok (newtype owner s), [])
      | .bool false => pure (.err (.str s), [])
      | _ => M.stuck
    | none => do return (← corePath P owner name vs, [])
partial_fixpoint

/-- A call of a value. -/
def applyVal (P : Program) (C : Ctx) (f : Val) (vs : List Val) : M Val :=
  match f with
  | .closure params body env ctx =>
    match matchPats P ctx params vs with
    | some new => calledIn (new ++ env) (eval P ctx body)
    | none => M.stuck
  | .fn owner name => do
    let (r, _) ← callPath P C owner name vs
    pure r
  | _ => M.stuck
partial_fixpoint

/-- A call of a method: the result and the values of the `&mut` arguments afterwards, the receiver first. -/
def callMethod (P : Program) (C : Ctx) (v : Val) (m : String) (vs : List Val) : M (Val × List (Option Val)) :=
  match methodOf P v m vs with
  | some f => callFn P f (v :: vs)
  | none =>
    match higherOrder v m, vs with
    | some (.inl r), [_] => pure (r, [])
    | some (.inr (w, k)), [f] => do
      let r ← applyVal P C f [w]
      pure (k r, [])
    | _, _ =>
      match v, m, vs with
      | .char c, "try_into", [] => callPath P C (okType P C) "try_from" [.char c]
      | v, m, vs => coreMethod P C v m vs
partial_fixpoint

end

end Langtag.Source
