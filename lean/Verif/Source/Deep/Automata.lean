import Verif.Source.Deep.Segments
import Verif.Source.Refine.Automata

/-! # `/repo/src/grammar.rs`, with bounded nesting

For every table, the functions of the automaton written from it do what the model says of the table. -/

set_option autoImplicit false

namespace Langtag.Source.Deep

open Langtag.Model (Panic Rust Dfa Row decodeUtf8Char)

open Automata

variable {δ : Nat} {C : Ctx} {σ : Env} {max : Nat}

/-! ## The paths of `grammar.rs` -/

/-! ## `push` and `is_accepting` -/

/-- The inner `match` of `push`. -/
theorem evalArms_arms (arms : List Langtag.Model.Arm) (c : Char) :
    evalArms δ (crate max) C (.char c) (arms.map armAst ++ [reject]) σ =
      match arms.find? (fun a => a.accepts c) with
      | some a => some (.ok (.u32 a.target) σ)
      | none => some (.ctl (.ret (.bool false)) σ) := by
  induction arms with
  | nil =>
    simp only [List.map_nil, List.nil_append, List.find?_nil, reject]
    deep
  | cons a as ih =>
    simp only [List.map_cons, List.cons_append, armAst, evalArms_cons]
    rw [matchPat_orPat rangePat _ _ fun r => matchPat_rangePat r c]
    simp only [armR_ite]
    rw [List.find?_cons]
    simp only [armR_none, ih, state]
    deep
    cases h : a.accepts c <;> simp only [Langtag.Model.Arm.accepts] at h <;> simp only [h] <;> rfl

/-- The outer `match` of `push`. -/
theorem evalArms_rows (rows : List Row) (n : Nat) (c : Char) (h : σ.lookup "token" = some (.char c)) :
    evalArms δ (crate max) C (.u32 n) (rows.map rowAst ++ [reject]) σ =
      match rows.find? (fun r => r.state == n) with
      | some r =>
        match r.arms.find? (fun a => a.accepts c) with
        | some a => some (.ok (.u32 a.target) σ)
        | none => some (.ctl (.ret (.bool false)) σ)
      | none => some (.ctl (.ret (.bool false)) σ) := by
  induction rows with
  | nil =>
    simp only [List.map_nil, List.nil_append, List.find?_nil, reject]
    deep
  | cons r rs ih =>
    simp only [List.map_cons, List.cons_append, rowAst, evalArms_cons]
    rw [List.find?_cons, matchPat]
    simp only [litMatches, state, armR_ite, armR_none, ih]
    cases r.state == n
    · rfl
    · simp only [if_true, armR_some, List.nil_append, eval_match, eval_var, h, orVar_some, bindR_ok, evalArms_arms]
      cases r.arms.find? (fun a => a.accepts c) <;> deep

section

variable {name : String} {d : Dfa}

theorem new_eq : callFn (δ + 1) (crate max) ⟨["grammar", name], "", newAst d⟩ [] σ =
    some (.ok (.struct ["grammar", name] [("state", .u32 d.init)], []) σ) := by
  rw [callFn_apply]
  simp only [newAst, state]
  deep
  rfl

theorem push_eq (n : Nat) (c : Char) :
    callFn (δ + 1) (crate max) ⟨["grammar", name], "", pushAst d⟩ [.struct ["grammar", name] [("state", .u32 n)], .char c] σ =
      match d.push n c with
      | some n' => some (.ok (.bool true, [some (.struct ["grammar", name] [("state", .u32 n')]), none]) σ)
      | none => some (.ok (.bool false, [some (.struct ["grammar", name] [("state", .u32 n)]), none]) σ) := by
  rw [callFn_apply]
  simp only [pushAst, selfState]
  deep
  rw [evalArms_rows _ _ c (by deep)]
  simp only [Dfa.push]
  cases d.rows.find? fun r => r.state == n with
  | none => deep
  | some r =>
    simp only
    cases r.arms.find? fun a => a.accepts c <;> simp only [Option.map_some, Option.map_none] <;> deep

theorem isAccepting_eq (n : Nat) :
    callFn (δ + 1) (crate max) ⟨["grammar", name], "", isAcceptingAst d⟩ [.struct ["grammar", name] [("state", .u32 n)]] σ =
      some (.ok (.bool (d.isAccepting n), [none]) σ) := by
  rw [callFn_apply]
  simp only [isAcceptingAst, selfState]
  deep
  rw [matchPat_orPat (fun n => .lit (state n)) (fun m => m == n) _ (fun a => by rw [matchPat]; rfl)]
  have : d.isAccepting n = d.accepting.any (fun m => m == n) := by
    simp only [Dfa.isAccepting, List.contains_eq_any_beq]
    congr 1
    funext m
    exact Bool.beq_comm
  rw [this]
  cases d.accepting.any (fun m => m == n) <;> rfl

variable (H : IsAutomaton max name d)

include H

theorem callPath_new : callPath (δ + 1) (crate max) C ["grammar", name] "new" [] σ = some (.ok (.struct ["grammar", name] [("state", .u32 d.init)], []) σ) := by
  rw [callPath_fn H.new, new_eq]

theorem callMethod_push (n : Nat) (c : Char) : callMethod (δ + 1) (crate max) C (.struct ["grammar", name] [("state", .u32 n)]) "push" [.char c] σ =
      match d.push n c with
      | some n' => some (.ok (.bool true, [some (.struct ["grammar", name] [("state", .u32 n')]), none]) σ)
      | none => some (.ok (.bool false, [some (.struct ["grammar", name] [("state", .u32 n)]), none]) σ) := by
  have h : methodOf (crate max) (.struct ["grammar", name] [("state", .u32 n)]) "push" [.char c] = some ⟨["grammar", name], "", pushAst d⟩ :=
    H.push _ _
  rw [callMethod_fn h, push_eq]

theorem callMethod_isAccepting (n : Nat) : callMethod (δ + 1) (crate max) C (.struct ["grammar", name] [("state", .u32 n)]) "is_accepting" [] σ =
      some (.ok (.bool (d.isAccepting n), [none]) σ) := by
  have h : methodOf (crate max) (.struct ["grammar", name] [("state", .u32 n)]) "is_accepting" [] = some ⟨["grammar", name], "", isAcceptingAst d⟩ :=
    H.isAccepting _
  rw [callMethod_fn h, isAccepting_eq]

omit H in
theorem decode_eq (s : List UInt8) (i : Nat) : callPath δ (crate max) C [] "decode_utf8_char" [.bytes s, .usize i] σ =
    match decodeUtf8Char s i with
    | some (c, n) => some (.ok (.ok (.tuple [.char c, .usize n]), []) σ)
    | none => some (.ok (.err (.tuple []), []) σ) := by
  rw [callPath, show (crate max).lookup [] "decode_utf8_char" [.bytes s, .usize i] = none by kernel_rfl]
  simp only [newOf, corePath, bind_apply]
  cases decodeUtf8Char s i <;> rfl

theorem validateBytes_eq (s : List UInt8) (hs : s.length ≤ max) :
    callFn (δ + 2) (crate max) ⟨["grammar", name], "", validateBytesAst⟩ [.bytes s] σ = some (.ok (.bool (d.validateBytes s), [none]) σ) := by
  rw [callFn_apply]
  simp only [validateBytesAst, validateBody, validateArm, Dfa.validateBytes, Dfa.validateBytesWith]
  simp only [dep, src, ctorOf_self H, memberOf_self H]
  rw [callPath_new H]
  deep
  refine while_rule (ι := Nat × Nat × Nat) (fun r => callR _ σ (closeR _ (bindR r _)))
    (fun (fuel, i, n) => [("automaton", Val.struct ["grammar", name] [("state", .u32 n)]), ("i", Val.usize i), ("bytes", Val.bytes s)])
    (fun (fuel, i, n) => i ≤ s.length ∧ s.length < fuel + i) (fun (fuel, i, n) => fuel)
    (fun (fuel, i, n) => some (.ok (.bool (Dfa.validateLoop decodeUtf8Char d s fuel i n), [none]) σ)) (s.length + 1, 0, d.init)
    (by simp only; omega) ?_
  rintro ⟨fuel, i, n⟩ ⟨hi, hf⟩ ih
  simp only at ih ⊢
  obtain ⟨fuel, rfl⟩ : ∃ k, fuel = k + 1 := ⟨fuel - 1, by omega⟩
  rw [Dfa.validateLoop]
  deep
  split
  · rw [decode_eq]
    cases hd : decodeUtf8Char s i with
    | none => deep
    | some r =>
      obtain ⟨c, len⟩ := r
      have hp := Langtag.Proof.decodeUtf8Char_pos s i c len hd
      have hl := decodeUtf8Char_le s i c len hd
      deep
      rw [callMethod_push H]
      cases d.push n c with
      | none => deep
      | some n' =>
        deep
        rw [if_pos (by omega)]
        exact ih (_, _, _) (by simp only; omega) (by simp only; omega)
  · rw [callMethod_isAccepting H]
    deep

/-- `validate_str` of an automaton of the crate. -/
theorem validateStr_eq (s : List UInt8) (hs : s.length ≤ max) :
    callPath (δ + 3) (crate max) C ["grammar", name] "validate_str" [.str s] σ = some (.ok (.bool (d.validateStr s), [none]) σ) := by
  rw [callPath_fn (H.validateStr _), callFn_apply]
  simp only [validateStrAst]
  simp only [dep, src, ctorOf_self H, memberOf_self H]
  deep
  rw [callPath_fn (H.validateBytes _), validateBytes_eq H s hs]
  deep
  rfl

end

end Langtag.Source.Deep
