import Verif.Source.Core
import Verif.Source.Deep.Names.Newtypes0
import Verif.Source.Deep.Names.Newtypes1
import Verif.Source.Deep.Names.Fns0
import Verif.Source.Deep.Names.Fns1

/-!
# Executing programs by rewriting, with bounded nesting: paths, `core`, loops
-/

set_option autoImplicit false

namespace Langtag.Source.Deep

open Langtag.Model (Panic Rust)

variable {δ : Nat} {P : Program} {C : Ctx} {σ : Env} {max : Nat}

/-! ## Paths that are not variables -/

/-- A call of a constructor or of a function. -/
def callR' (δ : Nat) (P : Program) (C : Ctx) (args : List Expr) (vs : List Val) (c : Option (List String × String)) (m : List String × String) : M Val :=
  match c with
  | some (ty, x) => pure (.ctor ty x vs)
  | none => do
    let (v, ws) ← callPath δ P C m.1 m.2 vs
    writeBack args ws
    pure v

@[dep] theorem callGlobal_apply (segs : List String) (args : List Expr) (vs : List Val) :
    callGlobal δ P C segs args vs σ = callR' δ P C args vs (ctorOf P C segs) (memberOf P C segs) σ := by
  unfold callGlobal callR'
  rfl

@[dep] theorem callR'_ctor (args : List Expr) (vs : List Val) (ty : List String) (x : String) (m : List String × String) :
    callR' δ P C args vs (some (ty, x)) m σ = some (.ok (.ctor ty x vs) σ) := rfl

@[dep] theorem callR'_fn (args : List Expr) (vs : List Val) (o : List String) (x : String) :
    callR' δ P C args vs none (o, x) σ = bindR (callPath δ P C o x vs σ) fun r => writeBack args r.2 >>= fun _ => pure r.1 := rfl

@[congr] theorem callR'_congr {args : List Expr} {vs : List Val} {c c' : Option (List String × String)} {m m' : List String × String}
    (h : c = c') (h' : m = m') : callR' δ P C args vs c m σ = callR' δ P C args vs c' m' σ := by rw [h, h']

/-- The value of a path that is not a variable. -/
def globalR (δ : Nat) (P : Program) (C : Ctx) (segs : List String) (c : Option (List String × String)) : M Val :=
  match c with
  | some (ty, x) => pure (.ctor ty x [])
  | none =>
    if segs = ["u8", "MAX"] then pure (.u8 255)
    else
      match P.consts.find? fun (o, x, _) => o = (memberOf P C segs).1 && x = (memberOf P C segs).2 with
      | some (o, _, e) => calledIn [] (eval δ P ⟨o, "", .tuple []⟩ e)
      | none => pure (.fn (memberOf P C segs).1 (memberOf P C segs).2)

@[dep] theorem evalGlobal_apply (segs : List String) : evalGlobal δ P C segs σ = globalR δ P C segs (ctorOf P C segs) σ := rfl

@[dep] theorem globalR_ctor (segs : List String) (ty : List String) (x : String) :
    globalR δ P C segs (some (ty, x)) σ = some (.ok (.ctor ty x []) σ) := rfl

@[dep] theorem globalR_max : globalR δ P C ["u8", "MAX"] none σ = some (.ok (.u8 255) σ) := rfl

theorem globalR_const {segs : List String} (h' : segs ≠ ["u8", "MAX"]) {m : List String × String}
    (hm : memberOf P C segs = m) {o : List String} {x : String} {e : Expr}
    (hc : (P.consts.find? fun (o, x, _) => o = m.1 && x = m.2) = some (o, x, e)) :
    globalR δ P C segs none σ = closureR σ (eval δ P ⟨o, "", .tuple []⟩ e []) := by
  unfold globalR
  rw [hm]
  simp only [if_neg h', hc, calledIn_apply]

theorem globalR_fn {segs : List String} (h' : segs ≠ ["u8", "MAX"]) {m : List String × String}
    (hm : memberOf P C segs = m) (hc : (P.consts.find? fun (o, x, _) => o = m.1 && x = m.2) = none) :
    globalR δ P C segs none σ = some (.ok (.fn m.1 m.2) σ) := by
  unfold globalR
  rw [hm]
  simp only [if_neg h', hc]
  rfl

/-! ## Methods of `core` -/

section

variable (max)

@[dep] theorem str_len (s : List UInt8) : callMethod δ P C (.str s) "len" [] σ = some (.ok (.usize s.length, []) σ) := core_eq rfl rfl (by decide)

@[dep] theorem bytes_len (s : List UInt8) : callMethod δ P C (.bytes s) "len" [] σ = some (.ok (.usize s.length, []) σ) := core_eq rfl rfl (by decide)

@[dep] theorem str_as_bytes (s : List UInt8) : callMethod δ P C (.str s) "as_bytes" [] σ = some (.ok (.bytes s, []) σ) := core_eq rfl rfl (by decide)

@[dep] theorem str_as_ref (s : List UInt8) : callMethod δ P C (.str s) "as_ref" [] σ = some (.ok (.bytes s, []) σ) := core_eq rfl rfl (by decide)

@[dep] theorem bytes_as_ref (s : List UInt8) : callMethod δ P C (.bytes s) "as_ref" [] σ = some (.ok (.bytes s, []) σ) := core_eq rfl rfl (by decide)

@[dep] theorem str_to_owned (s : List UInt8) : callMethod δ P C (.str s) "to_owned" [] σ = some (.ok (.str s, []) σ) := core_eq rfl rfl (by decide)

@[dep] theorem str_chars (s : List UInt8) : callMethod δ P C (.str s) "chars" [] σ = some (.ok (.chars s, []) σ) := core_eq rfl rfl (by decide)

@[dep] theorem chars_next (s : List UInt8) : callMethod δ P C (.chars s) "next" [] σ =
    match Langtag.Model.Singleton.charsNext s with
    | some c => some (.ok (.some (.char c), []) σ)
    | none => some (.ok (.none, []) σ) := by
  rw [core_eq rfl rfl (by decide)]
  simp only [coreMethod]
  cases Langtag.Model.Singleton.charsNext s <;> rfl

@[dep] theorem str_split_once (s : List UInt8) : callMethod δ P C (.str s) "split_once" [.char (Char.ofNat 45)] σ =
    match Langtag.Model.splitOnceDash s with
    | some (a, b) => some (.ok (.some (.tuple [.str a, .str b]), []) σ)
    | none => some (.ok (.none, []) σ) := by
  rw [core_eq rfl rfl (by decide)]
  show coreMethod P C (.str s) "split_once" [.char '-'] σ = _
  simp only [coreMethod]
  cases Langtag.Model.splitOnceDash s <;> rfl

@[dep] theorem u8_is_ascii_uppercase (n : UInt8) : callMethod δ P C (.u8 n) "is_ascii_uppercase" [] σ =
    some (.ok (.bool (Langtag.Model.isAsciiUppercase n), []) σ) := core_eq rfl rfl (by decide)

@[dep] theorem u8_is_ascii_alphanumeric (n : UInt8) : callMethod δ P C (.u8 n) "is_ascii_alphanumeric" [] σ =
    some (.ok (.bool (Langtag.Model.isAsciiAlphanumeric n), []) σ) := core_eq rfl rfl (by decide)

@[dep] theorem u8_cmp (a b : UInt8) : callMethod δ P C (.u8 a) "cmp" [.u8 b] σ = some (.ok (.ordering (compare a b), []) σ) := core_eq rfl rfl (by decide)

@[dep] theorem u8_hash (n : UInt8) (w : List UInt8) : callMethod δ P C (.u8 n) "hash" [.hasher w] σ =
    some (.ok (.unit, [none, some (.hasher (w ++ [n]))]) σ) := core_eq rfl rfl (by decide)

@[dep] theorem some_unwrap (w : Val) : callMethod δ (crate max) C (.ctor ["Option"] "Some" [w]) "unwrap" [] σ = some (.ok (w, []) σ) :=
  core_eq (methodOf_option ..) rfl (by decide)

@[dep] theorem none_unwrap : callMethod δ (crate max) C (.ctor ["Option"] "None" []) "unwrap" [] σ = some (.ctl (.panic .unwrap) σ) :=
  core_eq (methodOf_option ..) rfl (by decide)

@[dep] theorem some_unwrap_or (w v : Val) : callMethod δ (crate max) C (.ctor ["Option"] "Some" [w]) "unwrap_or" [v] σ = some (.ok (w, []) σ) :=
  core_eq (methodOf_option ..) rfl (by decide)

@[dep] theorem none_unwrap_or (v : Val) : callMethod δ (crate max) C (.ctor ["Option"] "None" []) "unwrap_or" [v] σ = some (.ok (v, []) σ) :=
  core_eq (methodOf_option ..) rfl (by decide)

@[dep] theorem some_unwrap_or_default (w : Val) : callMethod δ (crate max) C (.ctor ["Option"] "Some" [w]) "unwrap_or_default" [] σ = some (.ok (w, []) σ) :=
  core_eq (methodOf_option ..) rfl (by decide)

@[dep] theorem some_is_some (w : Val) : callMethod δ (crate max) C (.ctor ["Option"] "Some" [w]) "is_some" [] σ = some (.ok (.bool true, []) σ) :=
  core_eq (methodOf_option ..) rfl (by decide)

@[dep] theorem none_is_some : callMethod δ (crate max) C (.ctor ["Option"] "None" []) "is_some" [] σ = some (.ok (.bool false, []) σ) :=
  core_eq (methodOf_option ..) rfl (by decide)

@[dep] theorem ok_ok (w : Val) : callMethod δ (crate max) C (.ctor ["Result"] "Ok" [w]) "ok" [] σ = some (.ok (.some w, []) σ) :=
  core_eq (methodOf_result ..) rfl (by decide)

@[dep] theorem err_ok (w : Val) : callMethod δ (crate max) C (.ctor ["Result"] "Err" [w]) "ok" [] σ = some (.ok (.none, []) σ) :=
  core_eq (methodOf_result ..) rfl (by decide)

@[dep] theorem ok_is_ok (w : Val) : callMethod δ (crate max) C (.ctor ["Result"] "Ok" [w]) "is_ok" [] σ = some (.ok (.bool true, []) σ) :=
  core_eq (methodOf_result ..) rfl (by decide)

@[dep] theorem err_is_ok (w : Val) : callMethod δ (crate max) C (.ctor ["Result"] "Err" [w]) "is_ok" [] σ = some (.ok (.bool false, []) σ) :=
  core_eq (methodOf_result ..) rfl (by decide)

@[dep] theorem ok_unwrap (w : Val) : callMethod δ (crate max) C (.ctor ["Result"] "Ok" [w]) "unwrap" [] σ = some (.ok (w, []) σ) :=
  core_eq (methodOf_result ..) rfl (by decide)

@[dep] theorem err_unwrap (w : Val) : callMethod δ (crate max) C (.ctor ["Result"] "Err" [w]) "unwrap" [] σ = some (.ctl (.panic .unwrap) σ) :=
  core_eq (methodOf_result ..) rfl (by decide)

theorem higher_inl {v : Val} {m : String} {r f : Val} (h1 : methodOf P v m [f] = none) (h2 : higherOrder v m = some (.inl r)) :
    callMethod δ P C v m [f] σ = some (.ok (r, []) σ) := by
  rw [callMethod.eq_def, h1]
  simp only [h2]
  rfl

theorem higher_inr {v : Val} {m : String} {w f : Val} {k : Val → Val} (h1 : methodOf P v m [f] = none) (h2 : higherOrder v m = some (.inr (w, k))) :
    callMethod δ P C v m [f] σ = bindR (applyVal δ P C f [w] σ) fun r => pure (k r, []) := by
  rw [callMethod.eq_def, h1]
  simp only [h2]
  rfl

@[dep] theorem some_map (w f : Val) : callMethod δ (crate max) C (.ctor ["Option"] "Some" [w]) "map" [f] σ =
    bindR (applyVal δ (crate max) C f [w] σ) fun r => pure (.some r, []) := higher_inr (methodOf_option ..) rfl

@[dep] theorem none_map (f : Val) : callMethod δ (crate max) C (.ctor ["Option"] "None" []) "map" [f] σ = some (.ok (.none, []) σ) :=
  higher_inl (methodOf_option ..) rfl

@[dep] theorem some_and_then (w f : Val) : callMethod δ (crate max) C (.ctor ["Option"] "Some" [w]) "and_then" [f] σ =
    bindR (applyVal δ (crate max) C f [w] σ) fun r => pure (r, []) := higher_inr (methodOf_option ..) rfl

@[dep] theorem none_and_then (f : Val) : callMethod δ (crate max) C (.ctor ["Option"] "None" []) "and_then" [f] σ = some (.ok (.none, []) σ) :=
  higher_inl (methodOf_option ..) rfl

@[dep] theorem ok_map_err (w f : Val) : callMethod δ (crate max) C (.ctor ["Result"] "Ok" [w]) "map_err" [f] σ = some (.ok (.ok w, []) σ) :=
  higher_inl (methodOf_result ..) rfl

@[dep] theorem err_map_err (w f : Val) : callMethod δ (crate max) C (.ctor ["Result"] "Err" [w]) "map_err" [f] σ =
    bindR (applyVal δ (crate max) C f [w] σ) fun r => pure (.err r, []) := higher_inr (methodOf_result ..) rfl

end

/-! ## Loops -/

/-- A `while` loop and what is around it: what it does in each of the states it can be in, if the measure of the state decreases. -/
theorem while_rule {ι X : Type} (Φ : Option (Res Val) → X) (env : ι → Env) (Inv : ι → Prop) (μ : ι → Nat) (R : ι → X) {c body : Expr} (i : ι)
    (hi : Inv i)
    (h : ∀ i, Inv i → (∀ j, Inv j → μ j < μ i → Φ (evalWhile δ P C c body (env j)) = R j) →
      Φ (bindR (eval δ P C c (env i)) (whileK δ P C c body)) = R i) :
    Φ (evalWhile δ P C c body (env i)) = R i := by
  have : ∀ n i, μ i = n → Inv i → Φ (evalWhile δ P C c body (env i)) = R i := by
    intro n
    induction n using Nat.strongRecOn with
    | _ n ih =>
      intro i hn hi
      rw [evalWhile_apply]
      exact h i hi fun j hj hlt => ih (μ j) (hn ▸ hlt) j rfl hj
  exact this _ i rfl hi

/-- A `loop` loop and what is around it. -/
theorem loop_rule {ι X : Type} (Φ : Option (Res Val) → X) (env : ι → Env) (Inv : ι → Prop) (μ : ι → Nat) (R : ι → X) {body : Expr} (i : ι)
    (hi : Inv i)
    (h : ∀ i, Inv i → (∀ j, Inv j → μ j < μ i → Φ (evalLoop δ P C body (env j)) = R j) →
      Φ (loopR (evalLoop δ P C body) (eval δ P C body (env i))) = R i) :
    Φ (evalLoop δ P C body (env i)) = R i := by
  have : ∀ n i, μ i = n → Inv i → Φ (evalLoop δ P C body (env i)) = R i := by
    intro n
    induction n using Nat.strongRecOn with
    | _ n ih =>
      intro i hn hi
      rw [evalLoop_apply]
      exact h i hi fun j hj hlt => ih (μ j) (hn ▸ hlt) j rfl hj
  exact this _ i rfl hi

/-- A `for` loop over a range and what is around it. -/
theorem for_rule {X : Type} (Φ : Option (Res Val) → X) (env : Nat → Env) (R : Nat → X) {x : String} {body : Expr} {a b : Nat} (hi : a ≤ b)
    (hend : Φ (some (.ok (.tuple []) (env b))) = R b)
    (h : ∀ i, i < b → Φ (evalFor δ P C x ((List.range' (i + 1) (b - (i + 1))).map .usize) body (env (i + 1))) = R (i + 1) →
      Φ (loopR (evalFor δ P C x ((List.range' (i + 1) (b - (i + 1))).map .usize) body)
        (closeR (env i).length (eval δ P C body ((x, .usize i) :: env i)))) = R i) :
    Φ (evalFor δ P C x ((List.range' a (b - a)).map .usize) body (env a)) = R a := by
  have : ∀ n i, b - i = n → i ≤ b → Φ (evalFor δ P C x ((List.range' i (b - i)).map .usize) body (env i)) = R i := by
    intro n
    induction n with
    | zero =>
      intro i hn hi
      have : i = b := by omega
      subst this
      rw [Nat.sub_self, List.range'_zero, List.map_nil, evalFor_nil, ← hend]
      rfl
    | succ n ih =>
      intro i hn hi
      have e : b - i = (b - (i + 1)) + 1 := by omega
      rw [e, List.range'_succ, List.map_cons, evalFor_cons]
      exact h i (by omega) (ih (i + 1) (by omega) (by omega))
  exact this _ a rfl hi

/-- A `for` loop over a list and what is around it. -/
theorem for_list_rule {α ι X : Type} (Φ : Option (Res Val) → X) (f : α → Val) (env : ι → Env) (R : List α → ι → X) {x : String} {body : Expr}
    (as : List α) (i : ι) (hend : ∀ i, Φ (some (.ok (.tuple []) (env i))) = R [] i)
    (h : ∀ a as i, (∀ j, Φ (evalFor δ P C x (as.map f) body (env j)) = R as j) →
      Φ (loopR (evalFor δ P C x (as.map f) body) (closeR (env i).length (eval δ P C body ((x, f a) :: env i)))) = R (a :: as) i) :
    Φ (evalFor δ P C x (as.map f) body (env i)) = R as i := by
  induction as generalizing i with
  | nil => rw [List.map_nil, evalFor_nil, ← hend]; rfl
  | cons a as ih => rw [List.map_cons, evalFor_cons]; exact h a as i ih

/-- Symbolic execution, by the rules and some hypotheses. -/
syntax "deep" (" [" Lean.Parser.Tactic.simpLemma,* "]")? : tactic
macro_rules
  | `(tactic| deep) => `(tactic| deep [])
  | `(tactic| deep [$ls,*]) => `(tactic| exec [dep, $ls,*])

end Langtag.Source.Deep
