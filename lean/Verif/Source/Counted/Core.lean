import Verif.Source.Counted.Names.Newtypes0
import Verif.Source.Counted.Names.Newtypes1
import Verif.Source.Counted.Names.Fns0
import Verif.Source.Counted.Names.Fns1

/-!
# Executing programs by rewriting, counting: paths, `core`, loops
-/

set_option autoImplicit false

namespace Langtag.Source.Counted
open Langtag.Model (Panic Rust Timed)

variable {P : Program} {C : Ctx} {σ : Env} {max : Nat}

/-! ## Paths that are not variables -/

/-- A call of a constructor or of a function. -/
def callR' (P : Program) (C : Ctx) (args : List Expr) (vs : List Val) (c : Option (List String × String)) (m : List String × String) : M Val :=
  match c with
  | some (ty, x) => pure (.ctor ty x vs)
  | none => do
    let (v, ws) ← callPath P C m.1 m.2 vs
    free (writeBack args ws)
    pure v
@[cnt] theorem callGlobal_apply (segs : List String) (args : List Expr) (vs : List Val) :
    callGlobal P C segs args vs σ = callR' P C args vs (ctorOf P C segs) (memberOf P C segs) σ := by
  unfold callGlobal callR'
  rfl
@[cnt] theorem callR'_ctor (args : List Expr) (vs : List Val) (ty : List String) (x : String) (m : List String × String) :
    callR' P C args vs (some (ty, x)) m σ = fin (.ok (.ctor ty x vs) σ) := rfl
@[cnt] theorem callR'_fn (args : List Expr) (vs : List Val) (o : List String) (x : String) :
    callR' P C args vs none (o, x) σ = bindR (callPath P C o x vs σ) fun r => free (writeBack args r.2) >>= fun _ => pure r.1 := rfl
@[congr] theorem callR'_congr {args : List Expr} {vs : List Val} {c c' : Option (List String × String)} {m m' : List String × String}
    (h : c = c') (h' : m = m') : callR' P C args vs c m σ = callR' P C args vs c' m' σ := by rw [h, h']

/-- The value of a path that is not a variable. -/
def globalR (P : Program) (C : Ctx) (segs : List String) (c : Option (List String × String)) : M Val :=
  match c with
  | some (ty, x) => pure (.ctor ty x [])
  | none =>
    if segs = ["u8", "MAX"] then pure (.u8 255)
    else
      match P.consts.find? fun (o, x, _) => o = (memberOf P C segs).1 && x = (memberOf P C segs).2 with
      | some (o, _, e) => calledIn [] (eval P ⟨o, "", .tuple []⟩ e)
      | none => pure (.fn (memberOf P C segs).1 (memberOf P C segs).2)
@[cnt] theorem evalGlobal_apply (segs : List String) : evalGlobal P C segs σ = globalR P C segs (ctorOf P C segs) σ := rfl
@[cnt] theorem globalR_ctor (segs : List String) (ty : List String) (x : String) :
    globalR P C segs (some (ty, x)) σ = fin (.ok (.ctor ty x []) σ) := rfl
@[cnt] theorem globalR_max : globalR P C ["u8", "MAX"] none σ = fin (.ok (.u8 255) σ) := rfl
theorem globalR_const {segs : List String} (h' : segs ≠ ["u8", "MAX"]) {m : List String × String}
    (hm : memberOf P C segs = m) {o : List String} {x : String} {e : Expr}
    (hc : (P.consts.find? fun (o, x, _) => o = m.1 && x = m.2) = some (o, x, e)) :
    globalR P C segs none σ = closureR σ (eval P ⟨o, "", .tuple []⟩ e []) := by
  unfold globalR
  rw [hm]
  simp only [if_neg h', hc, calledIn_apply]
theorem globalR_fn {segs : List String} (h' : segs ≠ ["u8", "MAX"]) {m : List String × String}
    (hm : memberOf P C segs = m) (hc : (P.consts.find? fun (o, x, _) => o = m.1 && x = m.2) = none) :
    globalR P C segs none σ = fin (.ok (.fn m.1 m.2) σ) := by
  unfold globalR
  rw [hm]
  simp only [if_neg h', hc]
  rfl

/-! ## Methods of `core` -/

section
variable (max)

@[cnt] theorem str_len (s : List UInt8) : callMethod P C (.str s) "len" [] σ = fin (.ok (.usize s.length, []) σ) := core_eq rfl rfl (by decide)
@[cnt] theorem bytes_len (s : List UInt8) : callMethod P C (.bytes s) "len" [] σ = fin (.ok (.usize s.length, []) σ) := core_eq rfl rfl (by decide)
@[cnt] theorem str_as_bytes (s : List UInt8) : callMethod P C (.str s) "as_bytes" [] σ = fin (.ok (.bytes s, []) σ) := core_eq rfl rfl (by decide)
@[cnt] theorem str_as_ref (s : List UInt8) : callMethod P C (.str s) "as_ref" [] σ = fin (.ok (.bytes s, []) σ) := core_eq rfl rfl (by decide)
@[cnt] theorem bytes_as_ref (s : List UInt8) : callMethod P C (.bytes s) "as_ref" [] σ = fin (.ok (.bytes s, []) σ) := core_eq rfl rfl (by decide)
@[cnt] theorem str_to_owned (s : List UInt8) : callMethod P C (.str s) "to_owned" [] σ = fin (.ok (.str s, []) σ) := core_eq rfl rfl (by decide)
@[cnt] theorem str_chars (s : List UInt8) : callMethod P C (.str s) "chars" [] σ = fin (.ok (.chars s, []) σ) := core_eq rfl rfl (by decide)
@[cnt] theorem chars_next (s : List UInt8) : callMethod P C (.chars s) "next" [] σ =
    match Langtag.Model.Singleton.charsNext s with
    | some c => fin (.ok (.some (.char c), []) σ)
    | none => fin (.ok (.none, []) σ) := by
  rw [core_eq rfl rfl (by decide)]
  simp only [coreMethod]
  cases Langtag.Model.Singleton.charsNext s <;> rfl
@[cnt] theorem str_split_once (s : List UInt8) : callMethod P C (.str s) "split_once" [.char (Char.ofNat 45)] σ =
    addTicks (lookedAt s) (match Langtag.Model.splitOnceDash s with
    | some (a, b) => fin (.ok (.some (.tuple [.str a, .str b]), []) σ)
    | none => fin (.ok (.none, []) σ)) := by
  rw [core_eq rfl rfl (by decide)]
  show addTicks (lookedAt s) (freeR (coreMethod P C (.str s) "split_once" [.char '-'] σ)) = _
  simp only [coreMethod]
  cases Langtag.Model.splitOnceDash s <;> rfl
@[cnt] theorem u8_is_ascii_uppercase (n : UInt8) : callMethod P C (.u8 n) "is_ascii_uppercase" [] σ =
    fin (.ok (.bool (Langtag.Model.isAsciiUppercase n), []) σ) := core_eq rfl rfl (by decide)
@[cnt] theorem u8_is_ascii_alphanumeric (n : UInt8) : callMethod P C (.u8 n) "is_ascii_alphanumeric" [] σ =
    fin (.ok (.bool (Langtag.Model.isAsciiAlphanumeric n), []) σ) := core_eq rfl rfl (by decide)
@[cnt] theorem u8_cmp (a b : UInt8) : callMethod P C (.u8 a) "cmp" [.u8 b] σ = fin (.ok (.ordering (compare a b), []) σ) := core_eq rfl rfl (by decide)
@[cnt] theorem u8_hash (n : UInt8) (w : List UInt8) : callMethod P C (.u8 n) "hash" [.hasher w] σ =
    fin (.ok (.unit, [none, some (.hasher (w ++ [n]))]) σ) := core_eq rfl rfl (by decide)

@[cnt] theorem some_unwrap (w : Val) : callMethod (crate max) C (.ctor ["Option"] "Some" [w]) "unwrap" [] σ = fin (.ok (w, []) σ) :=
  core_eq (methodOf_option ..) rfl (by decide)
@[cnt] theorem none_unwrap : callMethod (crate max) C (.ctor ["Option"] "None" []) "unwrap" [] σ = fin (.ctl (.panic .unwrap) σ) :=
  core_eq (methodOf_option ..) rfl (by decide)
@[cnt] theorem some_unwrap_or (w v : Val) : callMethod (crate max) C (.ctor ["Option"] "Some" [w]) "unwrap_or" [v] σ = fin (.ok (w, []) σ) :=
  core_eq (methodOf_option ..) rfl (by decide)
@[cnt] theorem none_unwrap_or (v : Val) : callMethod (crate max) C (.ctor ["Option"] "None" []) "unwrap_or" [v] σ = fin (.ok (v, []) σ) :=
  core_eq (methodOf_option ..) rfl (by decide)
@[cnt] theorem some_unwrap_or_default (w : Val) : callMethod (crate max) C (.ctor ["Option"] "Some" [w]) "unwrap_or_default" [] σ = fin (.ok (w, []) σ) :=
  core_eq (methodOf_option ..) rfl (by decide)
@[cnt] theorem some_is_some (w : Val) : callMethod (crate max) C (.ctor ["Option"] "Some" [w]) "is_some" [] σ = fin (.ok (.bool true, []) σ) :=
  core_eq (methodOf_option ..) rfl (by decide)
@[cnt] theorem none_is_some : callMethod (crate max) C (.ctor ["Option"] "None" []) "is_some" [] σ = fin (.ok (.bool false, []) σ) :=
  core_eq (methodOf_option ..) rfl (by decide)
@[cnt] theorem ok_ok (w : Val) : callMethod (crate max) C (.ctor ["Result"] "Ok" [w]) "ok" [] σ = fin (.ok (.some w, []) σ) :=
  core_eq (methodOf_result ..) rfl (by decide)
@[cnt] theorem err_ok (w : Val) : callMethod (crate max) C (.ctor ["Result"] "Err" [w]) "ok" [] σ = fin (.ok (.none, []) σ) :=
  core_eq (methodOf_result ..) rfl (by decide)
@[cnt] theorem ok_is_ok (w : Val) : callMethod (crate max) C (.ctor ["Result"] "Ok" [w]) "is_ok" [] σ = fin (.ok (.bool true, []) σ) :=
  core_eq (methodOf_result ..) rfl (by decide)
@[cnt] theorem err_is_ok (w : Val) : callMethod (crate max) C (.ctor ["Result"] "Err" [w]) "is_ok" [] σ = fin (.ok (.bool false, []) σ) :=
  core_eq (methodOf_result ..) rfl (by decide)
@[cnt] theorem ok_unwrap (w : Val) : callMethod (crate max) C (.ctor ["Result"] "Ok" [w]) "unwrap" [] σ = fin (.ok (w, []) σ) :=
  core_eq (methodOf_result ..) rfl (by decide)
@[cnt] theorem err_unwrap (w : Val) : callMethod (crate max) C (.ctor ["Result"] "Err" [w]) "unwrap" [] σ = fin (.ctl (.panic .unwrap) σ) :=
  core_eq (methodOf_result ..) rfl (by decide)

theorem higher_inl {v : Val} {m : String} {r f : Val} (h1 : methodOf P v m [f] = none) (h2 : higherOrder v m = some (.inl r)) :
    callMethod P C v m [f] σ = fin (.ok (r, []) σ) := by
  rw [callMethod.eq_def, h1]
  simp only [h2]
  rfl
theorem higher_inr {v : Val} {m : String} {w f : Val} {k : Val → Val} (h1 : methodOf P v m [f] = none) (h2 : higherOrder v m = some (.inr (w, k))) :
    callMethod P C v m [f] σ = bindR (applyVal P C f [w] σ) fun r => pure (k r, []) := by
  rw [callMethod.eq_def, h1]
  simp only [h2]
  rfl
@[cnt] theorem some_map (w f : Val) : callMethod (crate max) C (.ctor ["Option"] "Some" [w]) "map" [f] σ =
    bindR (applyVal (crate max) C f [w] σ) fun r => pure (.some r, []) := higher_inr (methodOf_option ..) rfl
@[cnt] theorem none_map (f : Val) : callMethod (crate max) C (.ctor ["Option"] "None" []) "map" [f] σ = fin (.ok (.none, []) σ) :=
  higher_inl (methodOf_option ..) rfl
@[cnt] theorem some_and_then (w f : Val) : callMethod (crate max) C (.ctor ["Option"] "Some" [w]) "and_then" [f] σ =
    bindR (applyVal (crate max) C f [w] σ) fun r => pure (r, []) := higher_inr (methodOf_option ..) rfl
@[cnt] theorem none_and_then (f : Val) : callMethod (crate max) C (.ctor ["Option"] "None" []) "and_then" [f] σ = fin (.ok (.none, []) σ) :=
  higher_inl (methodOf_option ..) rfl
@[cnt] theorem ok_map_err (w f : Val) : callMethod (crate max) C (.ctor ["Result"] "Ok" [w]) "map_err" [f] σ = fin (.ok (.ok w, []) σ) :=
  higher_inl (methodOf_result ..) rfl
@[cnt] theorem err_map_err (w f : Val) : callMethod (crate max) C (.ctor ["Result"] "Err" [w]) "map_err" [f] σ =
    bindR (applyVal (crate max) C f [w] σ) fun r => pure (.err r, []) := higher_inr (methodOf_result ..) rfl
end

/-! ## Loops -/

/-- A `while` loop and what is around it: what it does in each of the states it can be in, if the measure of the state decreases. -/
theorem while_rule {ι X : Type} (Φ : Out Val → X) (env : ι → Env) (Inv : ι → Prop) (μ : ι → Nat) (R : ι → X) {c body : Expr} (i : ι)
    (hi : Inv i)
    (h : ∀ i, Inv i → (∀ j, Inv j → μ j < μ i → Φ (evalWhile P C c body (env j)) = R j) →
      Φ (bindR (eval P C c (env i)) (whileK P C c body)) = R i) :
    Φ (evalWhile P C c body (env i)) = R i := by
  have : ∀ n i, μ i = n → Inv i → Φ (evalWhile P C c body (env i)) = R i := by
    intro n
    induction n using Nat.strongRecOn with
    | _ n ih =>
      intro i hn hi
      rw [evalWhile_apply]
      exact h i hi fun j hj hlt => ih (μ j) (hn ▸ hlt) j rfl hj
  exact this _ i rfl hi

/-- A `loop` loop and what is around it. -/
theorem loop_rule {ι X : Type} (Φ : Out Val → X) (env : ι → Env) (Inv : ι → Prop) (μ : ι → Nat) (R : ι → X) {body : Expr} (i : ι)
    (hi : Inv i)
    (h : ∀ i, Inv i → (∀ j, Inv j → μ j < μ i → Φ (evalLoop P C body (env j)) = R j) →
      Φ (loopR (evalLoop P C body) (eval P C body (env i))) = R i) :
    Φ (evalLoop P C body (env i)) = R i := by
  have : ∀ n i, μ i = n → Inv i → Φ (evalLoop P C body (env i)) = R i := by
    intro n
    induction n using Nat.strongRecOn with
    | _ n ih =>
      intro i hn hi
      rw [evalLoop_apply]
      exact h i hi fun j hj hlt => ih (μ j) (hn ▸ hlt) j rfl hj
  exact this _ i rfl hi

/-- A `for` loop over a range and what is around it. -/
theorem for_rule {X : Type} (Φ : Out Val → X) (env : Nat → Env) (R : Nat → X) {x : String} {body : Expr} {a b : Nat} (hi : a ≤ b)
    (hend : Φ (fin (.ok (.tuple []) (env b))) = R b)
    (h : ∀ i, i < b → Φ (evalFor P C x ((List.range' (i + 1) (b - (i + 1))).map .usize) body (env (i + 1))) = R (i + 1) →
      Φ (loopR (evalFor P C x ((List.range' (i + 1) (b - (i + 1))).map .usize) body)
        (closeR (env i).length (eval P C body ((x, .usize i) :: env i)))) = R i) :
    Φ (evalFor P C x ((List.range' a (b - a)).map .usize) body (env a)) = R a := by
  have : ∀ n i, b - i = n → i ≤ b → Φ (evalFor P C x ((List.range' i (b - i)).map .usize) body (env i)) = R i := by
    intro n
    induction n with
    | zero =>
      intro i hn hi
      have : i = b := by omega
      subst this
      rw [Nat.sub_self, List.range'_zero, List.map_nil, evalFor_nil, ← hend]
      rfl
    | succ n ih =>
      intro i hn hi
      have e : b - i = (b - (i + 1)) + 1 := by omega
      rw [e, List.range'_succ, List.map_cons, evalFor_cons]
      exact h i (by omega) (ih (i + 1) (by omega) (by omega))
  exact this _ a rfl hi

/-- A `for` loop over a list and what is around it. -/
theorem for_list_rule {α ι X : Type} (Φ : Out Val → X) (f : α → Val) (env : ι → Env) (R : List α → ι → X) {x : String} {body : Expr}
    (as : List α) (i : ι) (hend : ∀ i, Φ (fin (.ok (.tuple []) (env i))) = R [] i)
    (h : ∀ a as i, (∀ j, Φ (evalFor P C x (as.map f) body (env j)) = R as j) →
      Φ (loopR (evalFor P C x (as.map f) body) (closeR (env i).length (eval P C body ((x, f a) :: env i)))) = R (a :: as) i) :
    Φ (evalFor P C x (as.map f) body (env i)) = R as i := by
  induction as generalizing i with
  | nil => rw [List.map_nil, evalFor_nil, ← hend]; rfl
  | cons a as ih => rw [List.map_cons, evalFor_cons]; exact h a as i ih

/-- Symbolic execution, counting, by the rules and some hypotheses. -/
syntax "count" (" [" Lean.Parser.Tactic.simpLemma,* "]")? : tactic
macro_rules
  | `(tactic| count) => `(tactic| count [])
  | `(tactic| count [$ls,*]) => `(tactic| simp only [src, cnt, lookup_cons_ne, setField_cons_ne, String.reduceBEq, String.reduceEq, List.map_cons,
      List.map_nil, List.zip_cons_cons, List.zip_nil_left, List.zip_nil_right, List.length_cons, List.length_nil, Nat.zero_add, Nat.reduceAdd,
      Nat.reduceSub, Nat.sub_self, List.drop_zero, List.drop_succ_cons, List.nil_append, List.cons_append, and_self, true_and, and_true, and_false,
      if_true, if_false, reduceIte, decide_eq_true_eq, Bool.false_eq_true, Option.isSome_some, Option.isSome_none, List.cons.injEq,
      UInt8.reduceOfNat, UInt8.reduceOfNatLT, dite_eq_ite, Bool.not_true, Bool.not_false, $ls,*])

end Langtag.Source.Counted
