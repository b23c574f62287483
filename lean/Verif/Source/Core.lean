import Verif.Source.Names.Newtypes0
import Verif.Source.Names.Newtypes1
import Verif.Source.Names.Fns0
import Verif.Source.Names.Fns1
import Verif.Source.Names.Fns2
import Verif.Source.Names.Fns3
import Verif.Source.Names.Paths0
import Verif.Source.Names.Paths1
import Verif.Source.Names.Paths2
import Verif.Source.Names.Paths3

/-!
# Executing programs by rewriting: patterns, paths, `core`
-/

set_option autoImplicit false

namespace Langtag.Source
open Langtag.Model (Panic Rust)

variable {P : Program} {C : Ctx} {σ : Env} {max : Nat}

@[src] theorem add_usize (m n : Nat) : binVal (crate max) .add (.usize m) (.usize n) σ =
    if m + n ≤ max then some (.ok (.usize (m + n)) σ) else some (.ctl (.panic .overflow) σ) := by
  simp only [binVal, arith, natOf]
  split <;> rename_i h
  · exact (if_pos h).symm
  · exact (if_neg h).symm
@[src] theorem sub_usize (m n : Nat) : binVal (crate max) .sub (.usize m) (.usize n) σ =
    if n ≤ m then some (.ok (.usize (m - n)) σ) else some (.ctl (.panic .overflow) σ) := by
  simp only [binVal, arith, natOf]
  split <;> rfl
@[src] theorem add_u8 (m : UInt8) (n : Nat) : binVal (crate max) .add (.u8 m) (.usize n) σ =
    if m.toNat + n < 256 then some (.ok (.u8 (UInt8.ofNat (m.toNat + n))) σ) else some (.ctl (.panic .overflow) σ) := by
  simp only [binVal, arith, natOf]
  split <;> rfl

/-! ## Patterns -/

@[src] theorem matchPat_wild (v : Val) : matchPat P C .wild v = some [] := by rw [matchPat]
/-- A path as a pattern. -/
def pathPat (segs : List String) (v : Val) (c : Option (List String × String)) : Option Env :=
  match c with
  | some (ty, x) =>
    match v with
    | .ctor ty' x' [] => if ty = ty' ∧ x = x' then some [] else none
    | _ => none
  | none =>
    match segs with
    | [x] => some [(x, v)]
    | _ => none
@[src] theorem matchPat_path (segs : List String) (v : Val) : matchPat P C (.path segs) v = pathPat segs v (ctorOf P C segs) := by
  rw [matchPat.eq_def]
  rfl
@[src] theorem pathPat_none (x : String) (v : Val) : pathPat [x] v none = some [(x, v)] := rfl
@[src] theorem pathPat_ctor (segs : List String) (ty ty' : List String) (x x' : String) :
    pathPat segs (.ctor ty' x' []) (some (ty, x)) = if ty = ty' ∧ x = x' then some [] else none := rfl
@[src] theorem pathPat_ctor_cons (segs : List String) (ty ty' : List String) (x x' : String) (v : Val) (vs : List Val) :
    pathPat segs (.ctor ty' x' (v :: vs)) (some (ty, x)) = none := rfl
/-- A constructor as a pattern. -/
def ctorPat (P : Program) (C : Ctx) (ps : List Pat) (v : Val) (c : Option (List String × String)) : Option Env :=
  match c, v with
  | some (ty, x), .ctor ty' x' vs => if ty = ty' ∧ x = x' then matchPats P C ps vs else none
  | _, _ => none
@[src] theorem matchPat_ctor (segs : List String) (ps : List Pat) (v : Val) :
    matchPat P C (.ctor segs ps) v = ctorPat P C ps v (ctorOf P C segs) := by
  rw [matchPat.eq_def]
  rfl
@[src] theorem ctorPat_ctor (ps : List Pat) (ty ty' : List String) (x x' : String) (vs : List Val) :
    ctorPat P C ps (.ctor ty' x' vs) (some (ty, x)) = if ty = ty' ∧ x = x' then matchPats P C ps vs else none := rfl
@[src] theorem matchPat_tuple (ps : List Pat) (vs : List Val) : matchPat P C (.tuple ps) (.tuple vs) = matchPats P C ps vs := by rw [matchPat]
@[src] theorem matchPat_or (ps : List Pat) (v : Val) : matchPat P C (.or ps) v = matchAny P C ps v := by rw [matchPat]
@[src] theorem matchPats_nil : matchPats P C [] [] = some [] := by rw [matchPats]
/-- The variables of two patterns. -/
def joinPats (a b : Option Env) : Option Env :=
  match a, b with
  | some a, some b => some (b ++ a)
  | _, _ => none
@[src] theorem joinPats_some (a b : Env) : joinPats (some a) (some b) = some (b ++ a) := rfl
@[src] theorem joinPats_none (b : Option Env) : joinPats none b = none := rfl
@[src] theorem joinPats_none' (a : Option Env) : joinPats a none = none := by cases a <;> rfl
@[src] theorem matchPats_cons (p : Pat) (ps : List Pat) (v : Val) (vs : List Val) :
    matchPats P C (p :: ps) (v :: vs) = joinPats (matchPat P C p v) (matchPats P C ps vs) := by
  rw [matchPats]
  rfl

/-! ## Paths that are not variables -/

/-- A call of a constructor or of a function. -/
def callR' (P : Program) (C : Ctx) (args : List Expr) (vs : List Val) (c : Option (List String × String)) (m : List String × String) : M Val :=
  match c with
  | some (ty, x) => pure (.ctor ty x vs)
  | none => do
    let (v, ws) ← callPath P C m.1 m.2 vs
    writeBack args ws
    pure v
@[src] theorem callGlobal_apply (segs : List String) (args : List Expr) (vs : List Val) :
    callGlobal P C segs args vs σ = callR' P C args vs (ctorOf P C segs) (memberOf P C segs) σ := by
  unfold callGlobal callR'
  rfl
@[src] theorem callR'_ctor (args : List Expr) (vs : List Val) (ty : List String) (x : String) (m : List String × String) :
    callR' P C args vs (some (ty, x)) m σ = some (.ok (.ctor ty x vs) σ) := rfl
@[src] theorem callR'_fn (args : List Expr) (vs : List Val) (o : List String) (x : String) :
    callR' P C args vs none (o, x) σ = bindR (callPath P C o x vs σ) fun r => writeBack args r.2 >>= fun _ => pure r.1 := rfl
@[congr] theorem callR'_congr {args : List Expr} {vs : List Val} {c c' : Option (List String × String)} {m m' : List String × String}
    (h : c = c') (h' : m = m') : callR' P C args vs c m σ = callR' P C args vs c' m' σ := by rw [h, h']

/-- The value of a path that is not a variable. -/
def globalR (P : Program) (C : Ctx) (segs : List String) (c : Option (List String × String)) : M Val :=
  match c with
  | some (ty, x) => pure (.ctor ty x [])
  | none =>
    if segs = ["u8", "MAX"] then pure (.u8 255)
    else
      match P.consts.find? fun (o, x, _) => o = (memberOf P C segs).1 && x = (memberOf P C segs).2 with
      | some (o, _, e) => calledIn [] (eval P ⟨o, "", .tuple []⟩ e)
      | none => pure (.fn (memberOf P C segs).1 (memberOf P C segs).2)
@[src] theorem evalGlobal_apply (segs : List String) : evalGlobal P C segs σ = globalR P C segs (ctorOf P C segs) σ := rfl
@[src] theorem globalR_ctor (segs : List String) (ty : List String) (x : String) :
    globalR P C segs (some (ty, x)) σ = some (.ok (.ctor ty x []) σ) := rfl
@[src] theorem globalR_max : globalR P C ["u8", "MAX"] none σ = some (.ok (.u8 255) σ) := rfl
theorem globalR_const {segs : List String} (h' : segs ≠ ["u8", "MAX"]) {m : List String × String}
    (hm : memberOf P C segs = m) {o : List String} {x : String} {e : Expr}
    (hc : (P.consts.find? fun (o, x, _) => o = m.1 && x = m.2) = some (o, x, e)) :
    globalR P C segs none σ = closureR σ (eval P ⟨o, "", .tuple []⟩ e []) := by
  unfold globalR
  rw [hm]
  simp only [if_neg h', hc, calledIn_apply]
theorem globalR_fn {segs : List String} (h' : segs ≠ ["u8", "MAX"]) {m : List String × String}
    (hm : memberOf P C segs = m) (hc : (P.consts.find? fun (o, x, _) => o = m.1 && x = m.2) = none) :
    globalR P C segs none σ = some (.ok (.fn m.1 m.2) σ) := by
  unfold globalR
  rw [hm]
  simp only [if_neg h', hc]
  rfl

/-! ## Methods of `core` -/

section
variable (max)

@[src] theorem str_len (s : List UInt8) : callMethod P C (.str s) "len" [] σ = some (.ok (.usize s.length, []) σ) := core_eq rfl rfl (by decide)
@[src] theorem bytes_len (s : List UInt8) : callMethod P C (.bytes s) "len" [] σ = some (.ok (.usize s.length, []) σ) := core_eq rfl rfl (by decide)
@[src] theorem str_as_bytes (s : List UInt8) : callMethod P C (.str s) "as_bytes" [] σ = some (.ok (.bytes s, []) σ) := core_eq rfl rfl (by decide)
@[src] theorem str_as_ref (s : List UInt8) : callMethod P C (.str s) "as_ref" [] σ = some (.ok (.bytes s, []) σ) := core_eq rfl rfl (by decide)
@[src] theorem bytes_as_ref (s : List UInt8) : callMethod P C (.bytes s) "as_ref" [] σ = some (.ok (.bytes s, []) σ) := core_eq rfl rfl (by decide)
@[src] theorem str_to_owned (s : List UInt8) : callMethod P C (.str s) "to_owned" [] σ = some (.ok (.str s, []) σ) := core_eq rfl rfl (by decide)
@[src] theorem str_chars (s : List UInt8) : callMethod P C (.str s) "chars" [] σ = some (.ok (.chars s, []) σ) := core_eq rfl rfl (by decide)
@[src] theorem chars_next (s : List UInt8) : callMethod P C (.chars s) "next" [] σ =
    match Langtag.Model.Singleton.charsNext s with
    | some c => some (.ok (.some (.char c), []) σ)
    | none => some (.ok (.none, []) σ) := by
  rw [core_eq rfl rfl (by decide)]
  simp only [coreMethod]
  cases Langtag.Model.Singleton.charsNext s <;> rfl
@[src] theorem str_split_once (s : List UInt8) : callMethod P C (.str s) "split_once" [.char (Char.ofNat 45)] σ =
    match Langtag.Model.splitOnceDash s with
    | some (a, b) => some (.ok (.some (.tuple [.str a, .str b]), []) σ)
    | none => some (.ok (.none, []) σ) := by
  rw [core_eq rfl rfl (by decide)]
  show coreMethod P C (.str s) "split_once" [.char '-'] σ = _
  simp only [coreMethod]
  cases Langtag.Model.splitOnceDash s <;> rfl
@[src] theorem u8_is_ascii_uppercase (n : UInt8) : callMethod P C (.u8 n) "is_ascii_uppercase" [] σ =
    some (.ok (.bool (Langtag.Model.isAsciiUppercase n), []) σ) := core_eq rfl rfl (by decide)
@[src] theorem u8_is_ascii_alphanumeric (n : UInt8) : callMethod P C (.u8 n) "is_ascii_alphanumeric" [] σ =
    some (.ok (.bool (Langtag.Model.isAsciiAlphanumeric n), []) σ) := core_eq rfl rfl (by decide)
@[src] theorem u8_cmp (a b : UInt8) : callMethod P C (.u8 a) "cmp" [.u8 b] σ = some (.ok (.ordering (compare a b), []) σ) := core_eq rfl rfl (by decide)
@[src] theorem u8_hash (n : UInt8) (w : List UInt8) : callMethod P C (.u8 n) "hash" [.hasher w] σ =
    some (.ok (.unit, [none, some (.hasher (w ++ [n]))]) σ) := core_eq rfl rfl (by decide)

/-- No type of the crate has this name: `Option`, `Result` and `Ordering` are those of `core`. -/
theorem lookup_foreign (ty : List String) (h : ((crate 0).fns.all fun f => !(f.owner == ty)) = true) (m : String) (vs : List Val) :
    (crate max).lookup ty m vs = none := by
  show (crate 0).fns.find? _ = none
  rw [List.find?_eq_none]
  intro f hf
  have := List.all_eq_true.mp h f hf
  simp only [Bool.not_eq_true', beq_eq_false_iff_ne] at this
  simp [this]
theorem foreign_option : ((crate 0).fns.all fun f => !(f.owner == ["Option"])) = true := by kernel_rfl
theorem foreign_result : ((crate 0).fns.all fun f => !(f.owner == ["Result"])) = true := by kernel_rfl
theorem methodOf_option (x : String) (ws : List Val) (m : String) (vs : List Val) : methodOf (crate max) (.ctor ["Option"] x ws) m vs = none :=
  lookup_foreign max _ foreign_option _ _
theorem methodOf_result (x : String) (ws : List Val) (m : String) (vs : List Val) : methodOf (crate max) (.ctor ["Result"] x ws) m vs = none :=
  lookup_foreign max _ foreign_result _ _

@[src] theorem some_unwrap (w : Val) : callMethod (crate max) C (.ctor ["Option"] "Some" [w]) "unwrap" [] σ = some (.ok (w, []) σ) :=
  core_eq (methodOf_option ..) rfl (by decide)
@[src] theorem none_unwrap : callMethod (crate max) C (.ctor ["Option"] "None" []) "unwrap" [] σ = some (.ctl (.panic .unwrap) σ) :=
  core_eq (methodOf_option ..) rfl (by decide)
@[src] theorem some_unwrap_or (w v : Val) : callMethod (crate max) C (.ctor ["Option"] "Some" [w]) "unwrap_or" [v] σ = some (.ok (w, []) σ) :=
  core_eq (methodOf_option ..) rfl (by decide)
@[src] theorem none_unwrap_or (v : Val) : callMethod (crate max) C (.ctor ["Option"] "None" []) "unwrap_or" [v] σ = some (.ok (v, []) σ) :=
  core_eq (methodOf_option ..) rfl (by decide)
@[src] theorem some_unwrap_or_default (w : Val) : callMethod (crate max) C (.ctor ["Option"] "Some" [w]) "unwrap_or_default" [] σ = some (.ok (w, []) σ) :=
  core_eq (methodOf_option ..) rfl (by decide)
@[src] theorem some_is_some (w : Val) : callMethod (crate max) C (.ctor ["Option"] "Some" [w]) "is_some" [] σ = some (.ok (.bool true, []) σ) :=
  core_eq (methodOf_option ..) rfl (by decide)
@[src] theorem none_is_some : callMethod (crate max) C (.ctor ["Option"] "None" []) "is_some" [] σ = some (.ok (.bool false, []) σ) :=
  core_eq (methodOf_option ..) rfl (by decide)
@[src] theorem ok_ok (w : Val) : callMethod (crate max) C (.ctor ["Result"] "Ok" [w]) "ok" [] σ = some (.ok (.some w, []) σ) :=
  core_eq (methodOf_result ..) rfl (by decide)
@[src] theorem err_ok (w : Val) : callMethod (crate max) C (.ctor ["Result"] "Err" [w]) "ok" [] σ = some (.ok (.none, []) σ) :=
  core_eq (methodOf_result ..) rfl (by decide)
@[src] theorem ok_is_ok (w : Val) : callMethod (crate max) C (.ctor ["Result"] "Ok" [w]) "is_ok" [] σ = some (.ok (.bool true, []) σ) :=
  core_eq (methodOf_result ..) rfl (by decide)
@[src] theorem err_is_ok (w : Val) : callMethod (crate max) C (.ctor ["Result"] "Err" [w]) "is_ok" [] σ = some (.ok (.bool false, []) σ) :=
  core_eq (methodOf_result ..) rfl (by decide)
@[src] theorem ok_unwrap (w : Val) : callMethod (crate max) C (.ctor ["Result"] "Ok" [w]) "unwrap" [] σ = some (.ok (w, []) σ) :=
  core_eq (methodOf_result ..) rfl (by decide)
@[src] theorem err_unwrap (w : Val) : callMethod (crate max) C (.ctor ["Result"] "Err" [w]) "unwrap" [] σ = some (.ctl (.panic .unwrap) σ) :=
  core_eq (methodOf_result ..) rfl (by decide)

theorem higher_inl {v : Val} {m : String} {r f : Val} (h1 : methodOf P v m [f] = none) (h2 : higherOrder v m = some (.inl r)) :
    callMethod P C v m [f] σ = some (.ok (r, []) σ) := by
  rw [callMethod.eq_def, h1]
  simp only [h2]
  rfl
theorem higher_inr {v : Val} {m : String} {w f : Val} {k : Val → Val} (h1 : methodOf P v m [f] = none) (h2 : higherOrder v m = some (.inr (w, k))) :
    callMethod P C v m [f] σ = bindR (applyVal P C f [w] σ) fun r => pure (k r, []) := by
  rw [callMethod.eq_def, h1]
  simp only [h2]
  rfl
@[src] theorem some_map (w f : Val) : callMethod (crate max) C (.ctor ["Option"] "Some" [w]) "map" [f] σ =
    bindR (applyVal (crate max) C f [w] σ) fun r => pure (.some r, []) := higher_inr (methodOf_option ..) rfl
@[src] theorem none_map (f : Val) : callMethod (crate max) C (.ctor ["Option"] "None" []) "map" [f] σ = some (.ok (.none, []) σ) :=
  higher_inl (methodOf_option ..) rfl
@[src] theorem some_and_then (w f : Val) : callMethod (crate max) C (.ctor ["Option"] "Some" [w]) "and_then" [f] σ =
    bindR (applyVal (crate max) C f [w] σ) fun r => pure (r, []) := higher_inr (methodOf_option ..) rfl
@[src] theorem none_and_then (f : Val) : callMethod (crate max) C (.ctor ["Option"] "None" []) "and_then" [f] σ = some (.ok (.none, []) σ) :=
  higher_inl (methodOf_option ..) rfl
@[src] theorem ok_map_err (w f : Val) : callMethod (crate max) C (.ctor ["Result"] "Ok" [w]) "map_err" [f] σ = some (.ok (.ok w, []) σ) :=
  higher_inl (methodOf_result ..) rfl
@[src] theorem err_map_err (w f : Val) : callMethod (crate max) C (.ctor ["Result"] "Err" [w]) "map_err" [f] σ =
    bindR (applyVal (crate max) C f [w] σ) fun r => pure (.err r, []) := higher_inr (methodOf_result ..) rfl
end

attribute [src] Val.some Val.none Val.ok Val.err Val.unit

/-! ## The end of a call -/

/-- What was written through the `&mut` parameters, from the variables of the parameters. -/
def finalsL (τ : Env) (ps : List (String × Ty)) : List (Option Val) := ps.map fun (x, t) =>
  match t with
  | .ref true _ => τ.lookup x
  | _ => none
@[src] theorem finals_eq (ps : List (String × Ty)) : finals ps σ = finalsL (σ.drop (σ.length - ps.length)) ps := rfl
@[src] theorem finalsL_nil (τ : Env) : finalsL τ [] = [] := rfl
@[src] theorem finalsL_mut (τ : Env) (x : String) (t : Ty) (ps : List (String × Ty)) :
    finalsL τ ((x, .ref true t) :: ps) = τ.lookup x :: finalsL τ ps := rfl
@[src] theorem finalsL_ref (τ : Env) (x : String) (t : Ty) (ps : List (String × Ty)) :
    finalsL τ ((x, .ref false t) :: ps) = none :: finalsL τ ps := rfl
@[src] theorem finalsL_path (τ : Env) (x : String) (s : List String) (ts : List Ty) (ps : List (String × Ty)) :
    finalsL τ ((x, .path s ts) :: ps) = none :: finalsL τ ps := rfl
@[src] theorem finalsL_fnMut (τ : Env) (x : String) (ts : List Ty) (t : Ty) (ps : List (String × Ty)) :
    finalsL τ ((x, .fnMut ts t) :: ps) = none :: finalsL τ ps := rfl

/-! ## Loops -/

/-- A `while` loop and what is around it: what it does in each of the states it can be in, if the measure of the state decreases. -/
theorem while_rule {ι X : Type} (Φ : Option (Res Val) → X) (env : ι → Env) (Inv : ι → Prop) (μ : ι → Nat) (R : ι → X) {c body : Expr} (i : ι)
    (hi : Inv i)
    (h : ∀ i, Inv i → (∀ j, Inv j → μ j < μ i → Φ (evalWhile P C c body (env j)) = R j) →
      Φ (bindR (eval P C c (env i)) (whileK P C c body)) = R i) :
    Φ (evalWhile P C c body (env i)) = R i := by
  have : ∀ n i, μ i = n → Inv i → Φ (evalWhile P C c body (env i)) = R i := by
    intro n
    induction n using Nat.strongRecOn with
    | _ n ih =>
      intro i hn hi
      rw [evalWhile_apply]
      exact h i hi fun j hj hlt => ih (μ j) (hn ▸ hlt) j rfl hj
  exact this _ i rfl hi

/-- A `loop` loop and what is around it. -/
theorem loop_rule {ι X : Type} (Φ : Option (Res Val) → X) (env : ι → Env) (Inv : ι → Prop) (μ : ι → Nat) (R : ι → X) {body : Expr} (i : ι)
    (hi : Inv i)
    (h : ∀ i, Inv i → (∀ j, Inv j → μ j < μ i → Φ (evalLoop P C body (env j)) = R j) →
      Φ (loopR (evalLoop P C body) (eval P C body (env i))) = R i) :
    Φ (evalLoop P C body (env i)) = R i := by
  have : ∀ n i, μ i = n → Inv i → Φ (evalLoop P C body (env i)) = R i := by
    intro n
    induction n using Nat.strongRecOn with
    | _ n ih =>
      intro i hn hi
      rw [evalLoop_apply]
      exact h i hi fun j hj hlt => ih (μ j) (hn ▸ hlt) j rfl hj
  exact this _ i rfl hi

/-- A `for` loop over a range and what is around it. -/
theorem for_rule {X : Type} (Φ : Option (Res Val) → X) (env : Nat → Env) (R : Nat → X) {x : String} {body : Expr} {a b : Nat} (hi : a ≤ b)
    (hend : Φ (some (.ok (.tuple []) (env b))) = R b)
    (h : ∀ i, i < b → Φ (evalFor P C x ((List.range' (i + 1) (b - (i + 1))).map .usize) body (env (i + 1))) = R (i + 1) →
      Φ (loopR (evalFor P C x ((List.range' (i + 1) (b - (i + 1))).map .usize) body)
        (closeR (env i).length (eval P C body ((x, .usize i) :: env i)))) = R i) :
    Φ (evalFor P C x ((List.range' a (b - a)).map .usize) body (env a)) = R a := by
  have : ∀ n i, b - i = n → i ≤ b → Φ (evalFor P C x ((List.range' i (b - i)).map .usize) body (env i)) = R i := by
    intro n
    induction n with
    | zero =>
      intro i hn hi
      have : i = b := by omega
      subst this
      rw [Nat.sub_self, List.range'_zero, List.map_nil, evalFor_nil, ← hend]
      rfl
    | succ n ih =>
      intro i hn hi
      have e : b - i = (b - (i + 1)) + 1 := by omega
      rw [e, List.range'_succ, List.map_cons, evalFor_cons]
      exact h i (by omega) (ih (i + 1) (by omega) (by omega))
  exact this _ a rfl hi

/-- A `for` loop over a list and what is around it. -/
theorem for_list_rule {α ι X : Type} (Φ : Option (Res Val) → X) (f : α → Val) (env : ι → Env) (R : List α → ι → X) {x : String} {body : Expr}
    (as : List α) (i : ι) (hend : ∀ i, Φ (some (.ok (.tuple []) (env i))) = R [] i)
    (h : ∀ a as i, (∀ j, Φ (evalFor P C x (as.map f) body (env j)) = R as j) →
      Φ (loopR (evalFor P C x (as.map f) body) (closeR (env i).length (eval P C body ((x, f a) :: env i)))) = R (a :: as) i) :
    Φ (evalFor P C x (as.map f) body (env i)) = R as i := by
  induction as generalizing i with
  | nil => rw [List.map_nil, evalFor_nil, ← hend]; rfl
  | cons a as ih => rw [List.map_cons, evalFor_cons]; exact h a as i ih

/-! ## The model's side -/

@[src] theorem rust_ok_bind {α β : Type} (a : α) (f : α → Rust β) : (Except.ok a >>= f : Rust β) = f a := rfl
@[src] theorem rust_error_bind {α β : Type} (p : Panic) (f : α → Rust β) : (Except.error p >>= f : Rust β) = .error p := rfl
@[src] theorem rust_pure {α : Type} (a : α) : (pure a : Rust α) = .ok a := rfl
@[src] theorem lift_ite {α β : Type} {c : Prop} [Decidable c] (k : α → β) (x y : Rust α) :
    lift k (if c then x else y) σ = if c then lift k x σ else lift k y σ := by split <;> rfl
@[src] theorem rust_ite_bind {α β : Type} {c : Prop} [Decidable c] (x y : Rust α) (f : α → Rust β) :
    ((if c then x else y) >>= f) = if c then x >>= f else y >>= f := by split <;> rfl

/-- Symbolic execution, by the rules and some hypotheses. -/
syntax "exec" (" [" Lean.Parser.Tactic.simpLemma,* "]")? : tactic
macro_rules
  | `(tactic| exec) => `(tactic| exec [])
  | `(tactic| exec [$ls,*]) => `(tactic| simp only [src, lookup_cons_ne, setField_cons_ne, String.reduceBEq, String.reduceEq, List.map_cons,
      List.map_nil, List.zip_cons_cons, List.zip_nil_left, List.zip_nil_right, List.length_cons, List.length_nil, Nat.zero_add, Nat.reduceAdd,
      Nat.reduceSub, Nat.sub_self, List.drop_zero, List.drop_succ_cons, List.nil_append, List.cons_append, and_self, true_and, and_true, and_false,
      if_true, if_false, reduceIte, decide_eq_true_eq, Bool.false_eq_true, Option.isSome_some, Option.isSome_none, List.cons.injEq,
      UInt8.reduceOfNat, UInt8.reduceOfNatLT, dite_eq_ite, Bool.not_true, Bool.not_false, $ls,*])

end Langtag.Source
