import Verif.Spec.Release

/-!
# Builds without overflow checks

A computation that does not overflow is the same in a build without overflow checks.
-/

set_option autoImplicit false

namespace Langtag.Source
open Langtag.Model (Panic Rust)

namespace Release

variable {α β : Type}

/-- The computation ends with an overflow. -/
def Overflows : Res α → Prop
  | .ctl (.panic .overflow) _ => True
  | _ => False

/-- If the first computation ends, and not with an overflow, the second one ends in the same way. -/
def Agrees (x y : M α) : Prop := ∀ σ r, x σ = some r → ¬ Overflows r → y σ = some r

theorem agrees_refl (x : M α) : Agrees x x := fun _ _ h _ => h
theorem agrees_bind {x y : M α} {f g : α → M β} (h : Agrees x y) (h' : ∀ a, Agrees (f a) (g a)) : Agrees (x >>= f) (y >>= g) := by
  intro σ r he hr
  obtain ⟨r', e, e'⟩ := Option.bind_eq_some_iff.mp he
  clear he
  show (y σ).bind _ = _
  rcases r' with a | ⟨c, τ⟩
  · rw [h _ _ e id]
    exact h' _ _ _ e' hr
  · cases e'
    rw [h _ _ e (by cases c <;> first | exact id | (rename_i p; cases p <;> first | exact id | exact hr))]
    rfl
theorem agrees_inScope {x y : M α} (new : Env) (h : Agrees x y) : Agrees (inScope new x) (inScope new y) := by
  intro σ r he hr
  obtain ⟨r', e, e'⟩ := Option.bind_eq_some_iff.mp he
  clear he
  cases e'
  show (y _).bind _ = _
  rw [h _ _ e]
  · rfl
  · rcases r' with a | ⟨c, τ⟩
    · exact id
    · cases c <;> first | exact id | (rename_i p; cases p <;> first | exact id | exact hr)
theorem agrees_called {x y : M Val} (ps : List (String × Ty)) (vs : List Val) (h : Agrees x y) : Agrees (called ps vs x) (called ps vs y) := by
  intro σ r he hr
  obtain ⟨r', e, e'⟩ := Option.bind_eq_some_iff.mp he
  clear he
  cases e'
  show (y _).bind _ = _
  rw [h _ _ e]
  · rfl
  · rcases r' with a | ⟨c, τ⟩
    · exact id
    · cases c <;> first | exact id | (rename_i p; cases p <;> first | exact id | exact hr)
theorem agrees_calledIn {x y : M Val} (new : Env) (h : Agrees x y) : Agrees (calledIn new x) (calledIn new y) := by
  intro σ r he hr
  obtain ⟨r', e, e'⟩ := Option.bind_eq_some_iff.mp he
  clear he
  cases e'
  show (y _).bind _ = _
  rw [h _ _ e]
  · rfl
  · rcases r' with a | ⟨c, τ⟩
    · exact id
    · cases c <;> first | exact id | (rename_i p; cases p <;> first | exact id | exact hr)
theorem agrees_afterBody {x x' y y' : M Val} (h : Agrees x y) (h' : Agrees x' y') : Agrees (afterBody x x') (afterBody y y') := by
  intro σ r he hr
  obtain ⟨r', e, e'⟩ := Option.bind_eq_some_iff.mp he
  clear he
  show (y' _).bind _ = _
  rcases r' with a | ⟨c, τ⟩
  · rw [h' _ _ e id]
    exact h _ _ e' hr
  · cases c with
    | brk v => rw [h' _ _ e id]; exact e'
    | _ =>
      cases e'
      rw [h' _ _ e hr]
      rfl

open Lean.Order in
theorem admissible_agrees (y : M α) : admissible fun x : M α => Agrees x y := by
  refine admissible_pi_apply (fun σ (o : Option (Res α)) => ∀ r, o = some r → ¬ Overflows r → y σ = some r) fun σ => ?_
  refine admissible_pi _ fun r => ?_
  exact Option.admissible_eq_some _ _
open Lean.Order in
theorem admissible1 {ι : Type} (y : ι → M α) : admissible fun x : ι → M α => ∀ i, Agrees (x i) (y i) :=
  admissible_pi_apply (fun i (x : M α) => Agrees x (y i)) fun _ => admissible_agrees _
open Lean.Order in
theorem admissible2 {ι κ : Type} (y : ι → κ → M α) : admissible fun x : ι → κ → M α => ∀ i j, Agrees (x i j) (y i j) :=
  admissible_pi_apply (fun i (x : κ → M α) => ∀ j, Agrees (x j) (y i j)) fun _ => admissible1 _
open Lean.Order in
theorem admissible3 {ι κ τ : Type} (y : ι → κ → τ → M α) :
    admissible fun x : ι → κ → τ → M α => ∀ i j k, Agrees (x i j k) (y i j k) :=
  admissible_pi_apply (fun i (x : κ → τ → M α) => ∀ j k, Agrees (x j k) (y i j k)) fun _ => admissible2 _
open Lean.Order in
theorem admissible4 {ι κ τ υ : Type} (y : ι → κ → τ → υ → M α) :
    admissible fun x : ι → κ → τ → υ → M α => ∀ i j k l, Agrees (x i j k l) (y i j k l) :=
  admissible_pi_apply (fun i (x : κ → τ → υ → M α) => ∀ j k l, Agrees (x j k l) (y i j k l)) fun _ => admissible3 _

attribute [irreducible] Agrees

/-! ## What does not depend on the overflow checks -/

variable (P : Program) (C : Ctx)

theorem typePath_release (segs : List String) : typePath P.release C segs = typePath P C segs := rfl
theorem ctorOf_release (segs : List String) : ctorOf P.release C segs = ctorOf P C segs := rfl
theorem memberOf_release (segs : List String) : memberOf P.release C segs = memberOf P C segs := rfl
theorem lookup_release (o : List String) (f : String) (vs : List Val) : P.release.lookup o f vs = P.lookup o f vs := rfl
theorem consts_release : P.release.consts = P.consts := rfl
theorem newOf_release (o : List String) (f : String) (vs : List Val) : newOf P.release o f vs = newOf P o f vs := rfl
theorem okType_release : okType P.release C = okType P C := rfl
theorem methodOf_release (v : Val) (m : String) (vs : List Val) : methodOf P.release v m vs = methodOf P v m vs := rfl
theorem corePath_release (o : List String) (f : String) (vs : List Val) : corePath P.release o f vs = corePath P o f vs := rfl
theorem coreMethod_release (v : Val) (m : String) (vs : List Val) : coreMethod P.release C v m vs = coreMethod P C v m vs := rfl
mutual
theorem matchPat_release : ∀ (p : Pat) (v : Val), matchPat P.release C p v = matchPat P C p v
  | .wild, _ => by rw [matchPat, matchPat]
  | .lit l, v => by rw [matchPat, matchPat]
  | .range lo hi, v => by rw [matchPat, matchPat]
  | .path segs, v => by rw [matchPat.eq_def, matchPat.eq_def]; rfl
  | .ctor segs ps, v => by
    rw [matchPat.eq_def, matchPat.eq_def]
    dsimp only
    rw [ctorOf_release]
    split
    · rw [matchPats_release ps]
    · rfl
  | .tuple ps, v => by
    rw [matchPat.eq_def, matchPat.eq_def]
    dsimp only
    split
    · rw [matchPats_release ps]
    · rfl
  | .or ps, v => by rw [matchPat, matchPat, matchAny_release ps]
theorem matchPats_release : ∀ (ps : List Pat) (vs : List Val), matchPats P.release C ps vs = matchPats P C ps vs
  | [], vs => by cases vs <;> rw [matchPats.eq_def, matchPats.eq_def]
  | p :: ps, [] => by rw [matchPats.eq_def, matchPats.eq_def]
  | p :: ps, v :: vs => by rw [matchPats, matchPats, matchPat_release p, matchPats_release ps]
theorem matchAny_release : ∀ (ps : List Pat) (v : Val), matchAny P.release C ps v = matchAny P C ps v
  | [], v => by rw [matchAny, matchAny]
  | p :: ps, v => by rw [matchAny, matchAny, matchPat_release p, matchAny_release ps]
end

theorem agrees_overflow (v : Val) : Agrees (overflow P v) (overflow P.release v) := by
  unfold Agrees
  intro σ r h hr
  unfold overflow at h ⊢
  rw [if_pos (show P.release.wraps = true from rfl)]
  split at h
  · exact h
  · cases h
    exact absurd trivial hr

theorem agrees_arith (op : BinOp) (a b : Val) : Agrees (arith P op a b) (arith P.release op a b) := by
  unfold arith
  rw [show P.release.usizeMax = P.usizeMax from rfl]
  split
  · split
    · exact agrees_refl _
    · exact agrees_overflow P _
  · split
    · exact agrees_refl _
    · exact agrees_overflow P _
  · split
    · exact agrees_refl _
    · exact agrees_overflow P _
  · exact agrees_refl _

theorem agrees_binVal (op : BinOp) (a b : Val) : Agrees (binVal P op a b) (binVal P.release op a b) := by
  unfold binVal
  split
  · exact agrees_arith P _ _ _
  · exact agrees_arith P _ _ _
  · exact agrees_refl _

/-- Goes through the two computations side by side. -/
macro "agrees" : tactic => `(tactic| repeat first
  | exact agrees_refl _ | exact agrees_binVal _ _ _ _
  | solve_by_elim only [*] | refine agrees_bind ?_ ?_ | refine agrees_inScope _ ?_ | refine agrees_called _ _ ?_ | refine agrees_calledIn _ ?_
  | refine agrees_afterBody ?_ ?_ | intro _ | dsimp only
  | simp only [typePath_release, ctorOf_release, memberOf_release, lookup_release, consts_release, newOf_release, okType_release, methodOf_release,
      corePath_release, coreMethod_release, matchPat_release, matchPats_release]
  | (split <;> rename_i h <;> simp only [h]) | split)

/-- A path that is not a variable. -/
theorem agrees_item {eval' : Ctx → Expr → M Val} (h : ∀ C e, Agrees (eval' C e) (eval P.release C e)) (segs : List String) :
    Agrees
      (match ctorOf P C segs with
       | some (ty, x) => pure (.ctor ty x [])
       | none =>
         if segs = ["u8", "MAX"] then pure (.u8 255)
         else
           match P.consts.find? fun (o, x, _) => o = (memberOf P C segs).1 && x = (memberOf P C segs).2 with
           | some (o, _, e) => calledIn [] (eval' ⟨o, "", .tuple []⟩ e)
           | none => pure (.fn (memberOf P C segs).1 (memberOf P C segs).2) : M Val)
      (match ctorOf P.release C segs with
       | some (ty, x) => pure (.ctor ty x [])
       | none =>
         if segs = ["u8", "MAX"] then pure (.u8 255)
         else
           match P.release.consts.find? fun (o, x, _) => o = (memberOf P.release C segs).1 && x = (memberOf P.release C segs).2 with
           | some (o, _, e) => calledIn [] (eval P.release ⟨o, "", .tuple []⟩ e)
           | none => pure (.fn (memberOf P.release C segs).1 (memberOf P.release C segs).2) : M Val) := by
  rw [ctorOf_release, memberOf_release, consts_release]
  cases ctorOf P C segs with
  | some c => exact agrees_refl _
  | none =>
    dsimp only
    split
    · exact agrees_refl _
    · generalize P.consts.find? _ = r
      rcases r with _ | ⟨o, x, e⟩
      · exact agrees_refl _
      · exact agrees_calledIn _ (h _ _)

/-- A computation of the program that ends, and not with an overflow, ends in the same way without overflow checks. -/
theorem agrees_all :
    (∀ C e, Agrees (eval P C e) (eval P.release C e)) ∧ (∀ C fs, Agrees (evalFields P C fs) (evalFields P.release C fs)) ∧
    (∀ C ss e, Agrees (evalBlock P C ss e) (evalBlock P.release C ss e)) ∧
    (∀ C x vs e, Agrees (evalFor P C x vs e) (evalFor P.release C x vs e)) ∧
    (∀ C c e, Agrees (evalWhile P C c e) (evalWhile P.release C c e)) ∧ (∀ C e, Agrees (evalLoop P C e) (evalLoop P.release C e)) ∧
    (∀ C v arms, Agrees (evalArms P C v arms) (evalArms P.release C v arms)) ∧
    (∀ C v m vs, Agrees (callMethod P C v m vs) (callMethod P.release C v m vs)) ∧
    (∀ C o f vs, Agrees (callPath P C o f vs) (callPath P.release C o f vs)) ∧ (∀ f vs, Agrees (callFn P f vs) (callFn P.release f vs)) ∧
    (∀ C f vs, Agrees (applyVal P C f vs) (applyVal P.release C f vs)) ∧ (∀ C es, Agrees (evalList P C es) (evalList P.release C es)) ∧
    (∀ C segs, Agrees (evalPath P C segs) (evalPath P.release C segs)) := by
  refine eval.mutual_fixpoint_induct P (fun f => ∀ C e, Agrees (f C e) (eval P.release C e))
    (fun f => ∀ C fs, Agrees (f C fs) (evalFields P.release C fs)) (fun f => ∀ C ss e, Agrees (f C ss e) (evalBlock P.release C ss e))
    (fun f => ∀ C x vs e, Agrees (f C x vs e) (evalFor P.release C x vs e)) (fun f => ∀ C c e, Agrees (f C c e) (evalWhile P.release C c e))
    (fun f => ∀ C e, Agrees (f C e) (evalLoop P.release C e)) (fun f => ∀ C v arms, Agrees (f C v arms) (evalArms P.release C v arms))
    (fun f => ∀ C v m vs, Agrees (f C v m vs) (callMethod P.release C v m vs)) (fun f => ∀ C o x vs, Agrees (f C o x vs) (callPath P.release C o x vs))
    (fun f => ∀ g vs, Agrees (f g vs) (callFn P.release g vs)) (fun f => ∀ C g vs, Agrees (f C g vs) (applyVal P.release C g vs))
    (fun f => ∀ C es, Agrees (f C es) (evalList P.release C es)) (fun f => ∀ C segs, Agrees (f C segs) (evalPath P.release C segs))
    (admissible2 _) (admissible2 _) (admissible3 _) (admissible4 _) (admissible3 _) (admissible2 _)
    (admissible3 _) (admissible4 _) (admissible4 _) (admissible2 _) (admissible3 _) (admissible2 _)
    (admissible2 _) ?_ ?_ ?_ ?_ ?_ ?_ ?_ ?_ ?_ ?_ ?_ ?_ ?_
  · intro eval evalFields evalBlock evalFor evalWhile evalLoop evalArms callMethod callPath applyVal evalList evalPath h1 h2 h3 h4 h5 h6 h7 h8 h9 h11 h12 h13 C e
    cases e with
    | call f args =>
      rw [Source.eval.eq_def]
      cases f with
      | path segs =>
        dsimp only
        refine agrees_bind (h12 _ _) fun vs => agrees_bind (agrees_refl _) fun σ => ?_
        rcases segs with _ | ⟨x, _ | ⟨y, segs⟩⟩
        · agrees
        · cases List.lookup ([x].getLast?.getD "") σ <;> agrees
        · agrees
      | _ => agrees
    | bin op a b => rw [Source.eval.eq_def]; dsimp only; cases op <;> dsimp only <;> agrees
    | _ => rw [Source.eval.eq_def]; dsimp only; agrees
  · intro eval evalFields h1 h2 C fs
    rw [Source.evalFields.eq_def]
    agrees
  · intro eval evalBlock h1 h2 C ss e
    rw [Source.evalBlock.eq_def]
    agrees
  · intro eval evalFor h1 h2 C x vs e
    rw [Source.evalFor.eq_def]
    agrees
  · intro eval evalWhile h1 h2 C c e
    rw [Source.evalWhile.eq_def]
    agrees
  · intro eval evalLoop h1 h2 C e
    rw [Source.evalLoop.eq_def]
    agrees
  · intro eval evalArms h1 h2 C v arms
    rw [Source.evalArms.eq_def]
    agrees
  · intro callPath callFn applyVal h1 h2 h3 C v m vs
    rw [Source.callMethod.eq_def]
    dsimp only
    rw [methodOf_release]
    cases methodOf P v m vs with
    | some f => exact h2 _ _
    | none =>
      dsimp only
      rcases higherOrder v m with _ | _ | ⟨w, k⟩
      · agrees
      · rcases vs with _ | ⟨f, _ | ⟨g, vs⟩⟩ <;> agrees
      · rcases vs with _ | ⟨f, _ | ⟨g, vs⟩⟩ <;> agrees
  · intro callPath callFn h1 h2 C o x vs
    rw [Source.callPath.eq_def]
    agrees
  · intro eval h1 f vs
    rw [Source.callFn.eq_def]
    agrees
  · intro eval callPath h1 h2 C f vs
    rw [Source.applyVal.eq_def]
    agrees
  · intro eval evalList h1 h2 C es
    rw [Source.evalList.eq_def]
    agrees
  · intro eval h1 C segs
    rw [Source.evalPath.eq_def]
    refine agrees_bind (agrees_refl _) fun σ => ?_
    rcases segs with _ | ⟨x, _ | ⟨y, segs⟩⟩
    · exact agrees_item P C h1 []
    · cases List.lookup ([x].getLast?.getD "") σ
      · exact agrees_item P C h1 [x]
      · exact agrees_refl _
    · exact agrees_item P C h1 (x :: y :: segs)

/-- A call that ends, and not with an overflow, ends in the same way in a release build. -/
theorem run_release {max : Nat} {T : List String} {f : String} {args : List Val} {o : Outcome} (h : run max T f args = some o)
    (ho : o ≠ .panics .overflow) : runRelease max T f args = some o := by
  rw [run_eq] at h
  rw [runRelease_eq]
  cases e : callPath (crate max) ⟨[], "", .tuple []⟩ T f args [] with
  | none => rw [e] at h; cases h
  | some r =>
    have k := (agrees_all (crate max)).2.2.2.2.2.2.2.2.1 ⟨[], "", .tuple []⟩ T f args
    unfold Agrees at k
    rw [k [] r e, ← e, h]
    rcases r with a | ⟨c, τ⟩
    · exact id
    · cases c <;> first | exact id | skip
      rename_i p
      cases p <;> first | exact id | skip
      intro _
      rw [e] at h
      exact ho (Option.some.inj h).symm

end Release
end Langtag.Source
