import Verif.Source.Refine.Segments
import Verif.Proof.Timed

/-! # `/repo/src/grammar.rs`: the text and the model

For every table, the functions of the automaton written from it do what the model says of the table. -/

set_option autoImplicit false

namespace Langtag.Source
open Langtag.Model (Panic Rust Dfa Row decodeUtf8Char)
open Automata

variable {C : Ctx} {σ : Env} {max : Nat}

/-! ## The paths of `grammar.rs` -/

@[src] theorem automaton_ctor : ctorOf (crate max) C ["automaton"] = none := by kernel_rfl
@[src] theorem c_ctor : ctorOf (crate max) C ["c"] = none := by kernel_rfl
@[src] theorem len_ctor : ctorOf (crate max) C ["len"] = none := by kernel_rfl
@[src] theorem decode_ctor : ctorOf (crate max) C ["static_automata", "decode_utf8_char"] = none := by kernel_rfl
@[src] theorem decode_member : memberOf (crate max) C ["static_automata", "decode_utf8_char"] = ([], "decode_utf8_char") := by kernel_rfl

/-! ## `push` and `is_accepting` -/

theorem matchPat_rangePat {P : Program} (r : Char × Char) (c : Char) :
    matchPat P C (rangePat r) (.char c) = if (decide (r.1.toNat ≤ c.toNat) && decide (c.toNat ≤ r.2.toNat)) = true then some [] else none := by
  obtain ⟨lo, hi⟩ := r
  simp only [rangePat]
  split
  · rename_i h
    rw [matchPat, show litMatches (.char lo.toNat) (.char c) = (lo.toNat == c.toNat) from rfl]
    simp only [beq_iff_eq] at h
    rw [h]
    by_cases e : hi.toNat = c.toNat
    · simp [e]
    · have : ¬ (hi.toNat ≤ c.toNat ∧ c.toNat ≤ hi.toNat) := by omega
      simp [e, this]
  · rw [matchPat]
    rfl

theorem matchAny_eq {P : Program} {α : Type} (f : α → Pat) (g : α → Bool) (v : Val)
    (h : ∀ a, matchPat P C (f a) v = if g a = true then some [] else none) (as : List α) :
    matchAny P C (as.map f) v = if as.any g = true then some [] else none := by
  induction as with
  | nil => simp [matchAny]
  | cons a as ih =>
    rw [List.map_cons, matchAny, h, ih, List.any_cons]
    cases g a <;> simp

theorem matchPat_orPat {P : Program} {α : Type} (f : α → Pat) (g : α → Bool) (v : Val)
    (h : ∀ a, matchPat P C (f a) v = if g a = true then some [] else none) (as : List α) :
    matchPat P C (orPat (as.map f)) v = if as.any g = true then some [] else none := by
  match as with
  | [] => simp [orPat, matchPat, matchAny]
  | [a] => simp [orPat, h]
  | a :: b :: as =>
    show matchPat P C (.or ((a :: b :: as).map f)) v = _
    rw [matchPat_or, matchAny_eq f g v h]

/-- The inner `match` of `push`. -/
theorem evalArms_arms (arms : List Langtag.Model.Arm) (c : Char) :
    evalArms (crate max) C (.char c) (arms.map armAst ++ [reject]) σ =
      match arms.find? (fun a => a.accepts c) with
      | some a => some (.ok (.u32 a.target) σ)
      | none => some (.ctl (.ret (.bool false)) σ) := by
  induction arms with
  | nil =>
    simp only [List.map_nil, List.nil_append, List.find?_nil, reject]
    exec
  | cons a as ih =>
    simp only [List.map_cons, List.cons_append, armAst, evalArms_cons]
    rw [matchPat_orPat rangePat _ _ fun r => matchPat_rangePat r c]
    simp only [armR_ite]
    rw [List.find?_cons]
    simp only [armR_none, ih, state]
    exec
    cases h : a.accepts c <;> simp only [Langtag.Model.Arm.accepts] at h <;> simp only [h] <;> rfl

/-- The outer `match` of `push`. -/
theorem evalArms_rows (rows : List Row) (n : Nat) (c : Char) (h : σ.lookup "token" = some (.char c)) :
    evalArms (crate max) C (.u32 n) (rows.map rowAst ++ [reject]) σ =
      match rows.find? (fun r => r.state == n) with
      | some r =>
        match r.arms.find? (fun a => a.accepts c) with
        | some a => some (.ok (.u32 a.target) σ)
        | none => some (.ctl (.ret (.bool false)) σ)
      | none => some (.ctl (.ret (.bool false)) σ) := by
  induction rows with
  | nil =>
    simp only [List.map_nil, List.nil_append, List.find?_nil, reject]
    exec
  | cons r rs ih =>
    simp only [List.map_cons, List.cons_append, rowAst, evalArms_cons]
    rw [List.find?_cons, matchPat]
    simp only [litMatches, state, armR_ite, armR_none, ih]
    cases r.state == n
    · rfl
    · simp only [if_true, armR_some, List.nil_append, eval_match, eval_var, h, orVar_some, bindR_ok, evalArms_arms]
      cases r.arms.find? (fun a => a.accepts c) <;> exec

/-- What the functions of an automaton of the crate are called by. -/
structure IsAutomaton (max : Nat) (name : String) (d : Dfa) : Prop where
  new : (crate max).lookup ["grammar", name] "new" [] = some ⟨["grammar", name], "", newAst d⟩
  push (fs : List (String × Val)) (c : Char) : (crate max).lookup ["grammar", name] "push" [.struct ["grammar", name] fs, .char c] =
    some ⟨["grammar", name], "", pushAst d⟩
  isAccepting (fs : List (String × Val)) : (crate max).lookup ["grammar", name] "is_accepting" [.struct ["grammar", name] fs] =
    some ⟨["grammar", name], "", isAcceptingAst d⟩
  validateStr (v : Val) : (crate max).lookup ["grammar", name] "validate_str" [v] = some ⟨["grammar", name], "", validateStrAst⟩
  validateBytes (v : Val) : (crate max).lookup ["grammar", name] "validate_bytes" [v] = some ⟨["grammar", name], "", validateBytesAst⟩
  type (t : String) (r : Ty) : isType (crate max) ⟨["grammar", name], t, r⟩ ["Self"] = true
  notEnum (x : String) : hasVariant (crate max) ["grammar", name] x = false

section
variable {name : String} {d : Dfa}

theorem new_eq : callFn (crate max) ⟨["grammar", name], "", newAst d⟩ [] σ =
    some (.ok (.struct ["grammar", name] [("state", .u32 d.init)], []) σ) := by
  rw [callFn_apply]
  simp only [newAst, state]
  exec
  rfl

theorem push_eq (n : Nat) (c : Char) :
    callFn (crate max) ⟨["grammar", name], "", pushAst d⟩ [.struct ["grammar", name] [("state", .u32 n)], .char c] σ =
      match d.push n c with
      | some n' => some (.ok (.bool true, [some (.struct ["grammar", name] [("state", .u32 n')]), none]) σ)
      | none => some (.ok (.bool false, [some (.struct ["grammar", name] [("state", .u32 n)]), none]) σ) := by
  rw [callFn_apply]
  simp only [pushAst, selfState]
  exec
  rw [evalArms_rows _ _ c (by exec)]
  simp only [Dfa.push]
  cases d.rows.find? fun r => r.state == n with
  | none => exec
  | some r =>
    simp only
    cases r.arms.find? fun a => a.accepts c <;> simp only [Option.map_some, Option.map_none] <;> exec

theorem isAccepting_eq (n : Nat) :
    callFn (crate max) ⟨["grammar", name], "", isAcceptingAst d⟩ [.struct ["grammar", name] [("state", .u32 n)]] σ =
      some (.ok (.bool (d.isAccepting n), [none]) σ) := by
  rw [callFn_apply]
  simp only [isAcceptingAst, selfState]
  exec
  rw [matchPat_orPat (fun n => .lit (state n)) (fun m => m == n) _ (fun a => by rw [matchPat]; rfl)]
  have : d.isAccepting n = d.accepting.any (fun m => m == n) := by
    simp only [Dfa.isAccepting, List.contains_eq_any_beq]
    congr 1
    funext m
    exact Bool.beq_comm
  rw [this]
  cases d.accepting.any (fun m => m == n) <;> rfl

variable (H : IsAutomaton max name d)
include H

theorem ctorOf_self (t : String) (r : Ty) (x : String) : ctorOf (crate max) ⟨["grammar", name], t, r⟩ ["Self", x] = none := by
  show (if ["grammar", name] = ["Ordering"] then some (["grammar", name], x)
    else if hasVariant (crate max) ["grammar", name] x = true then some (["grammar", name], x) else none) = none
  rw [if_neg (by simp), H.notEnum]
  rfl

theorem memberOf_self (t : String) (r : Ty) (x : String) : memberOf (crate max) ⟨["grammar", name], t, r⟩ ["Self", x] = (["grammar", name], x) := by
  show (if isType (crate max) ⟨["grammar", name], t, r⟩ ["Self"] = true then _ else _, _) = _
  rw [H.type]
  rfl

theorem callPath_new : callPath (crate max) C ["grammar", name] "new" [] σ = some (.ok (.struct ["grammar", name] [("state", .u32 d.init)], []) σ) := by
  rw [callPath_fn H.new, new_eq]

theorem callMethod_push (n : Nat) (c : Char) : callMethod (crate max) C (.struct ["grammar", name] [("state", .u32 n)]) "push" [.char c] σ =
      match d.push n c with
      | some n' => some (.ok (.bool true, [some (.struct ["grammar", name] [("state", .u32 n')]), none]) σ)
      | none => some (.ok (.bool false, [some (.struct ["grammar", name] [("state", .u32 n)]), none]) σ) := by
  have h : methodOf (crate max) (.struct ["grammar", name] [("state", .u32 n)]) "push" [.char c] = some ⟨["grammar", name], "", pushAst d⟩ :=
    H.push _ _
  rw [callMethod_fn h, push_eq]

theorem callMethod_isAccepting (n : Nat) : callMethod (crate max) C (.struct ["grammar", name] [("state", .u32 n)]) "is_accepting" [] σ =
      some (.ok (.bool (d.isAccepting n), [none]) σ) := by
  have h : methodOf (crate max) (.struct ["grammar", name] [("state", .u32 n)]) "is_accepting" [] = some ⟨["grammar", name], "", isAcceptingAst d⟩ :=
    H.isAccepting _
  rw [callMethod_fn h, isAccepting_eq]

omit H in
theorem decode_eq (s : List UInt8) (i : Nat) : callPath (crate max) C [] "decode_utf8_char" [.bytes s, .usize i] σ =
    match decodeUtf8Char s i with
    | some (c, n) => some (.ok (.ok (.tuple [.char c, .usize n]), []) σ)
    | none => some (.ok (.err (.tuple []), []) σ) := by
  rw [callPath, show (crate max).lookup [] "decode_utf8_char" [.bytes s, .usize i] = none by kernel_rfl]
  simp only [newOf, corePath, bind_apply]
  cases decodeUtf8Char s i <;> rfl

omit H in
theorem contByte_lt {s : List UInt8} {i n : Nat} (h : Langtag.Model.contByte s[i]? = some n) : i < s.length := by
  by_cases hi : i < s.length
  · exact hi
  · rw [List.getElem?_eq_none (by omega)] at h
    cases h

omit H in
theorem decodeUtf8Char_le (s : List UInt8) (i : Nat) (c : Char) (len : Nat) (h : decodeUtf8Char s i = some (c, len)) : i + len ≤ s.length := by
  have hm : ∀ {o : Option Char} {n : Nat}, i + n ≤ s.length → o.map (·, n) = some (c, len) → i + len ≤ s.length := by
    intro o n hn ho
    obtain ⟨d, _, hd⟩ := Option.map_eq_some_iff.mp ho
    cases hd
    exact hn
  unfold decodeUtf8Char at h
  split at h
  · cases h
  · rename_i hb
    have hi := List.getElem?_eq_some_iff.mp hb |>.1
    split at h
    · exact hm (by omega) h
    · split at h
      · cases h
      · split at h
        · obtain ⟨c1, h1, h⟩ := Option.bind_eq_some_iff.mp h
          have := contByte_lt h1
          exact hm (by omega) h
        · split at h
          · obtain ⟨c1, h1, h⟩ := Option.bind_eq_some_iff.mp h
            obtain ⟨c2, h2, h⟩ := Option.bind_eq_some_iff.mp h
            have := contByte_lt h2
            dsimp only at h
            split at h
            · cases h
            · exact hm (by omega) h
          · split at h
            · obtain ⟨c1, h1, h⟩ := Option.bind_eq_some_iff.mp h
              obtain ⟨c2, h2, h⟩ := Option.bind_eq_some_iff.mp h
              obtain ⟨c3, h3, h⟩ := Option.bind_eq_some_iff.mp h
              have := contByte_lt h3
              dsimp only at h
              split at h
              · cases h
              · exact hm (by omega) h
            · cases h

theorem validateBytes_eq (s : List UInt8) (hs : s.length ≤ max) :
    callFn (crate max) ⟨["grammar", name], "", validateBytesAst⟩ [.bytes s] σ = some (.ok (.bool (d.validateBytes s), [none]) σ) := by
  rw [callFn_apply]
  simp only [validateBytesAst, validateBody, validateArm, Dfa.validateBytes, Dfa.validateBytesWith]
  simp only [src, ctorOf_self H, memberOf_self H]
  rw [callPath_new H]
  exec
  refine while_rule (ι := Nat × Nat × Nat) (fun r => callR _ σ (closeR _ (bindR r _)))
    (fun (fuel, i, n) => [("automaton", Val.struct ["grammar", name] [("state", .u32 n)]), ("i", Val.usize i), ("bytes", Val.bytes s)])
    (fun (fuel, i, n) => i ≤ s.length ∧ s.length < fuel + i) (fun (fuel, i, n) => fuel)
    (fun (fuel, i, n) => some (.ok (.bool (Dfa.validateLoop decodeUtf8Char d s fuel i n), [none]) σ)) (s.length + 1, 0, d.init)
    (by simp only; omega) ?_
  rintro ⟨fuel, i, n⟩ ⟨hi, hf⟩ ih
  simp only at ih ⊢
  obtain ⟨fuel, rfl⟩ : ∃ k, fuel = k + 1 := ⟨fuel - 1, by omega⟩
  rw [Dfa.validateLoop]
  exec
  split
  · rw [decode_eq]
    cases hd : decodeUtf8Char s i with
    | none => exec
    | some r =>
      obtain ⟨c, len⟩ := r
      have hp := Langtag.Proof.decodeUtf8Char_pos s i c len hd
      have hl := decodeUtf8Char_le s i c len hd
      exec
      rw [callMethod_push H]
      cases d.push n c with
      | none => exec
      | some n' =>
        exec
        rw [if_pos (by omega)]
        exact ih (_, _, _) (by simp only; omega) (by simp only; omega)
  · rw [callMethod_isAccepting H]
    exec

/-- `validate_str` of an automaton of the crate. -/
theorem validateStr_eq (s : List UInt8) (hs : s.length ≤ max) :
    callPath (crate max) C ["grammar", name] "validate_str" [.str s] σ = some (.ok (.bool (d.validateStr s), [none]) σ) := by
  rw [callPath_fn (H.validateStr _), callFn_apply]
  simp only [validateStrAst]
  simp only [src, ctorOf_self H, memberOf_self H]
  exec
  rw [callPath_fn (H.validateBytes _), validateBytes_eq H s hs]
  exec
  rfl

end
end Langtag.Source
