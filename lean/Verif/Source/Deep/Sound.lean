import Verif.Source.Deep.Semantics

/-!
# Bounding the nesting does not change the results

What has a result with calls nested to a depth has the same result without a bound.
-/

set_option autoImplicit false

namespace Langtag.Source.Deep
open Langtag.Model (Panic Rust)

variable {α β : Type}

/-- If the first computation ends, the second one ends in the same way. -/
def Agrees (x y : M α) : Prop := ∀ σ r, x σ = some r → y σ = some r

theorem agrees_refl (x : M α) : Agrees x x := fun _ _ h => h
theorem agrees_tooDeep (x : M α) : Agrees tooDeep x := fun _ _ h => nomatch h
theorem agrees_bind {x y : M α} {f g : α → M β} (h : Agrees x y) (h' : ∀ a, Agrees (f a) (g a)) : Agrees (x >>= f) (y >>= g) := by
  intro σ r he
  obtain ⟨r', e, e'⟩ := Option.bind_eq_some_iff.mp he
  show (y σ).bind _ = _
  rw [h _ _ e]
  rcases r' with a | ⟨c, τ⟩
  · exact h' _ _ _ e'
  · exact e'
theorem agrees_inScope {x y : M α} (new : Env) (h : Agrees x y) : Agrees (inScope new x) (inScope new y) := by
  intro σ r he
  obtain ⟨r', e, e'⟩ := Option.bind_eq_some_iff.mp he
  show (y _).bind _ = _
  rw [h _ _ e]
  exact e'
theorem agrees_called {x y : M Val} (ps : List (String × Ty)) (vs : List Val) (h : Agrees x y) : Agrees (called ps vs x) (called ps vs y) := by
  intro σ r he
  obtain ⟨r', e, e'⟩ := Option.bind_eq_some_iff.mp he
  show (y _).bind _ = _
  rw [h _ _ e]
  exact e'
theorem agrees_calledIn {x y : M Val} (new : Env) (h : Agrees x y) : Agrees (calledIn new x) (calledIn new y) := by
  intro σ r he
  obtain ⟨r', e, e'⟩ := Option.bind_eq_some_iff.mp he
  show (y _).bind _ = _
  rw [h _ _ e]
  exact e'
theorem agrees_afterBody {x x' y y' : M Val} (h : Agrees x y) (h' : Agrees x' y') : Agrees (afterBody x x') (afterBody y y') := by
  intro σ r he
  obtain ⟨r', e, e'⟩ := Option.bind_eq_some_iff.mp he
  show (y' _).bind _ = _
  rw [h' _ _ e]
  rcases r' with a | ⟨c, τ⟩
  · exact h _ _ e'
  · cases c <;> exact e'

open Lean.Order in
theorem admissible_agrees (y : M α) : admissible fun x : M α => Agrees x y := by
  refine admissible_pi_apply (fun σ (o : Option (Res α)) => ∀ r, o = some r → y σ = some r) fun σ => ?_
  refine admissible_pi _ fun r => ?_
  exact Option.admissible_eq_some _ _
open Lean.Order in
theorem admissible1 {ι : Type} (y : ι → M α) : admissible fun x : ι → M α => ∀ i, Agrees (x i) (y i) :=
  admissible_pi_apply (fun i (x : M α) => Agrees x (y i)) fun _ => admissible_agrees _
open Lean.Order in
theorem admissible2 {ι κ : Type} (y : ι → κ → M α) : admissible fun x : ι → κ → M α => ∀ i j, Agrees (x i j) (y i j) :=
  admissible_pi_apply (fun i (x : κ → M α) => ∀ j, Agrees (x j) (y i j)) fun _ => admissible1 _
open Lean.Order in
theorem admissible3 {ι κ τ : Type} (y : ι → κ → τ → M α) :
    admissible fun x : ι → κ → τ → M α => ∀ i j k, Agrees (x i j k) (y i j k) :=
  admissible_pi_apply (fun i (x : κ → τ → M α) => ∀ j k, Agrees (x j k) (y i j k)) fun _ => admissible2 _
open Lean.Order in
theorem admissible4 {ι κ τ υ : Type} (y : ι → κ → τ → υ → M α) :
    admissible fun x : ι → κ → τ → υ → M α => ∀ i j k l, Agrees (x i j k l) (y i j k l) :=
  admissible_pi_apply (fun i (x : κ → τ → υ → M α) => ∀ j k l, Agrees (x j k l) (y i j k l)) fun _ => admissible3 _
open Lean.Order in
theorem admissible5 {ι κ τ υ ν : Type} (y : ι → κ → τ → υ → ν → M α) :
    admissible fun x : ι → κ → τ → υ → ν → M α => ∀ i j k l m, Agrees (x i j k l m) (y i j k l m) :=
  admissible_pi_apply (fun i (x : κ → τ → υ → ν → M α) => ∀ j k l m, Agrees (x j k l m) (y i j k l m)) fun _ => admissible4 _

attribute [irreducible] Agrees

variable (P : Program) (C : Ctx)

/-- Goes through the two computations side by side. -/
macro "agrees_deep" : tactic => `(tactic| repeat first
  | exact agrees_refl _ | exact agrees_tooDeep _
  | solve_by_elim only [*] | refine agrees_bind ?_ ?_ | refine agrees_inScope _ ?_ | refine agrees_called _ _ ?_ | refine agrees_calledIn _ ?_
  | refine agrees_afterBody ?_ ?_ | intro _ | dsimp only
  | (split <;> rename_i h <;> simp only [h]) | split)

/-- A path that is not a variable. -/
theorem agrees_item {eval' eval'' : Ctx → Expr → M Val} (h : ∀ C e, Agrees (eval' C e) (eval'' C e)) (segs : List String) :
    Agrees
      (match ctorOf P C segs with
       | some (ty, x) => pure (.ctor ty x [])
       | none =>
         if segs = ["u8", "MAX"] then pure (.u8 255)
         else
           match P.consts.find? fun (o, x, _) => o = (memberOf P C segs).1 && x = (memberOf P C segs).2 with
           | some (o, _, e) => calledIn [] (eval' ⟨o, "", .tuple []⟩ e)
           | none => pure (.fn (memberOf P C segs).1 (memberOf P C segs).2) : M Val)
      (match ctorOf P C segs with
       | some (ty, x) => pure (.ctor ty x [])
       | none =>
         if segs = ["u8", "MAX"] then pure (.u8 255)
         else
           match P.consts.find? fun (o, x, _) => o = (memberOf P C segs).1 && x = (memberOf P C segs).2 with
           | some (o, _, e) => calledIn [] (eval'' ⟨o, "", .tuple []⟩ e)
           | none => pure (.fn (memberOf P C segs).1 (memberOf P C segs).2) : M Val) := by
  cases ctorOf P C segs with
  | some c => exact agrees_refl _
  | none =>
    dsimp only
    split
    · exact agrees_refl _
    · generalize P.consts.find? _ = r
      rcases r with _ | ⟨o, x, e⟩
      · exact agrees_refl _
      · exact agrees_calledIn _ (h _ _)

/-- What ends with calls nested to a depth ends in the same way without a bound. -/
theorem agrees_all :
    (∀ δ C e, Agrees (eval δ P C e) (Source.eval P C e)) ∧
    (∀ δ C fs, Agrees (evalFields δ P C fs) (Source.evalFields P C fs)) ∧
    (∀ δ C ss e, Agrees (evalBlock δ P C ss e) (Source.evalBlock P C ss e)) ∧
    (∀ δ C x vs e, Agrees (evalFor δ P C x vs e) (Source.evalFor P C x vs e)) ∧
    (∀ δ C c e, Agrees (evalWhile δ P C c e) (Source.evalWhile P C c e)) ∧
    (∀ δ C e, Agrees (evalLoop δ P C e) (Source.evalLoop P C e)) ∧
    (∀ δ C v arms, Agrees (evalArms δ P C v arms) (Source.evalArms P C v arms)) ∧
    (∀ δ C v m vs, Agrees (callMethod δ P C v m vs) (Source.callMethod P C v m vs)) ∧
    (∀ δ C o x vs, Agrees (callPath δ P C o x vs) (Source.callPath P C o x vs)) ∧
    (∀ δ g vs, Agrees (callFn δ P g vs) (Source.callFn P g vs)) ∧
    (∀ δ C g vs, Agrees (applyVal δ P C g vs) (Source.applyVal P C g vs)) ∧
    (∀ δ C es, Agrees (evalList δ P C es) (Source.evalList P C es)) ∧
    (∀ δ C segs, Agrees (evalPath δ P C segs) (Source.evalPath P C segs)) := by
  refine eval.mutual_fixpoint_induct P
    (fun f => ∀ δ C e, Agrees (f δ C e) (Source.eval P C e))
    (fun f => ∀ δ C fs, Agrees (f δ C fs) (Source.evalFields P C fs))
    (fun f => ∀ δ C ss e, Agrees (f δ C ss e) (Source.evalBlock P C ss e))
    (fun f => ∀ δ C x vs e, Agrees (f δ C x vs e) (Source.evalFor P C x vs e))
    (fun f => ∀ δ C c e, Agrees (f δ C c e) (Source.evalWhile P C c e))
    (fun f => ∀ δ C e, Agrees (f δ C e) (Source.evalLoop P C e))
    (fun f => ∀ δ C v arms, Agrees (f δ C v arms) (Source.evalArms P C v arms))
    (fun f => ∀ δ C v m vs, Agrees (f δ C v m vs) (Source.callMethod P C v m vs))
    (fun f => ∀ δ C o x vs, Agrees (f δ C o x vs) (Source.callPath P C o x vs))
    (fun f => ∀ δ g vs, Agrees (f δ g vs) (Source.callFn P g vs))
    (fun f => ∀ δ C g vs, Agrees (f δ C g vs) (Source.applyVal P C g vs))
    (fun f => ∀ δ C es, Agrees (f δ C es) (Source.evalList P C es))
    (fun f => ∀ δ C segs, Agrees (f δ C segs) (Source.evalPath P C segs))
    (admissible3 _) (admissible3 _) (admissible4 _) (admissible5 _) (admissible4 _) (admissible3 _) (admissible4 _) (admissible5 _) (admissible5 _) (admissible3 _) (admissible4 _) (admissible3 _) (admissible3 _)
    ?_ ?_ ?_ ?_ ?_ ?_ ?_ ?_ ?_ ?_ ?_ ?_ ?_
  · intro eval evalFields evalBlock evalFor evalWhile evalLoop evalArms callMethod callPath applyVal evalList evalPath h1 h2 h3 h4 h5 h6 h7 h8 h9 h11 h12 h13 δ C e
    cases e with
    | call f args =>
      rw [Source.eval.eq_def]
      cases f with
      | path segs =>
        dsimp only
        refine agrees_bind (h12 _ _ _) fun vs => agrees_bind (agrees_refl _) fun σ => ?_
        rcases segs with _ | ⟨x, _ | ⟨y, segs⟩⟩
        · agrees_deep
        · cases List.lookup ([x].getLast?.getD "") σ <;> agrees_deep
        · agrees_deep
      | _ => agrees_deep
    | bin op a b => rw [Source.eval.eq_def]; dsimp only; cases op <;> dsimp only <;> agrees_deep
    | _ => rw [Source.eval.eq_def]; dsimp only; agrees_deep
  · intro eval evalFields h1 h2 δ C fs
    rw [Source.evalFields.eq_def]
    agrees_deep
  · intro eval evalBlock h1 h2 δ C ss e
    rw [Source.evalBlock.eq_def]
    agrees_deep
  · intro eval evalFor h1 h2 δ C x vs e
    rw [Source.evalFor.eq_def]
    agrees_deep
  · intro eval evalWhile h1 h2 δ C c e
    rw [Source.evalWhile.eq_def]
    agrees_deep
  · intro eval evalLoop h1 h2 δ C e
    rw [Source.evalLoop.eq_def]
    agrees_deep
  · intro eval evalArms h1 h2 δ C v arms
    rw [Source.evalArms.eq_def]
    agrees_deep
  · intro callPath callFn applyVal h1 h2 h3 δ C v m vs
    rw [Source.callMethod.eq_def]
    dsimp only
    cases methodOf P v m vs with
    | some f => exact h2 _ _ _
    | none =>
      dsimp only
      rcases higherOrder v m with _ | _ | ⟨w, k⟩
      · agrees_deep
      · rcases vs with _ | ⟨f, _ | ⟨g, vs⟩⟩ <;> agrees_deep
      · rcases vs with _ | ⟨f, _ | ⟨g, vs⟩⟩ <;> agrees_deep
  · intro callPath callFn h1 h2 δ C o x vs
    rw [Source.callPath.eq_def]
    agrees_deep
  · intro eval h1 δ f vs
    rw [Source.callFn.eq_def]
    cases δ with
    | zero => exact agrees_tooDeep _
    | succ δ => exact agrees_called _ _ (h1 _ _ _)
  · intro eval callPath h1 h2 δ C f vs
    rw [Source.applyVal.eq_def]
    cases f with
    | closure params body env ctx =>
      dsimp only
      cases matchPats P ctx params vs with
      | none => exact agrees_refl _
      | some new =>
        cases δ with
        | zero => exact agrees_tooDeep _
        | succ δ => exact agrees_calledIn _ (h1 _ _ _)
    | _ => agrees_deep
  · intro eval evalList h1 h2 δ C es
    rw [Source.evalList.eq_def]
    agrees_deep
  · intro eval h1 δ C segs
    rw [Source.evalPath.eq_def]
    refine agrees_bind (agrees_refl _) fun σ => ?_
    rcases segs with _ | ⟨x, _ | ⟨y, segs⟩⟩
    · exact agrees_item P C (h1 δ) []
    · cases List.lookup ([x].getLast?.getD "") σ
      · exact agrees_item P C (h1 δ) [x]
      · exact agrees_refl _
    · exact agrees_item P C (h1 δ) (x :: y :: segs)

/-- What ends with calls nested to a depth ends in the same way with calls nested deeper. -/
theorem agrees_succ :
    (∀ δ C e, Agrees (eval δ P C e) (eval (δ + 1) P C e)) ∧
    (∀ δ C fs, Agrees (evalFields δ P C fs) (evalFields (δ + 1) P C fs)) ∧
    (∀ δ C ss e, Agrees (evalBlock δ P C ss e) (evalBlock (δ + 1) P C ss e)) ∧
    (∀ δ C x vs e, Agrees (evalFor δ P C x vs e) (evalFor (δ + 1) P C x vs e)) ∧
    (∀ δ C c e, Agrees (evalWhile δ P C c e) (evalWhile (δ + 1) P C c e)) ∧
    (∀ δ C e, Agrees (evalLoop δ P C e) (evalLoop (δ + 1) P C e)) ∧
    (∀ δ C v arms, Agrees (evalArms δ P C v arms) (evalArms (δ + 1) P C v arms)) ∧
    (∀ δ C v m vs, Agrees (callMethod δ P C v m vs) (callMethod (δ + 1) P C v m vs)) ∧
    (∀ δ C o x vs, Agrees (callPath δ P C o x vs) (callPath (δ + 1) P C o x vs)) ∧
    (∀ δ g vs, Agrees (callFn δ P g vs) (callFn (δ + 1) P g vs)) ∧
    (∀ δ C g vs, Agrees (applyVal δ P C g vs) (applyVal (δ + 1) P C g vs)) ∧
    (∀ δ C es, Agrees (evalList δ P C es) (evalList (δ + 1) P C es)) ∧
    (∀ δ C segs, Agrees (evalPath δ P C segs) (evalPath (δ + 1) P C segs)) := by
  refine eval.mutual_fixpoint_induct P
    (fun f => ∀ δ C e, Agrees (f δ C e) (eval (δ + 1) P C e))
    (fun f => ∀ δ C fs, Agrees (f δ C fs) (evalFields (δ + 1) P C fs))
    (fun f => ∀ δ C ss e, Agrees (f δ C ss e) (evalBlock (δ + 1) P C ss e))
    (fun f => ∀ δ C x vs e, Agrees (f δ C x vs e) (evalFor (δ + 1) P C x vs e))
    (fun f => ∀ δ C c e, Agrees (f δ C c e) (evalWhile (δ + 1) P C c e))
    (fun f => ∀ δ C e, Agrees (f δ C e) (evalLoop (δ + 1) P C e))
    (fun f => ∀ δ C v arms, Agrees (f δ C v arms) (evalArms (δ + 1) P C v arms))
    (fun f => ∀ δ C v m vs, Agrees (f δ C v m vs) (callMethod (δ + 1) P C v m vs))
    (fun f => ∀ δ C o x vs, Agrees (f δ C o x vs) (callPath (δ + 1) P C o x vs))
    (fun f => ∀ δ g vs, Agrees (f δ g vs) (callFn (δ + 1) P g vs))
    (fun f => ∀ δ C g vs, Agrees (f δ C g vs) (applyVal (δ + 1) P C g vs))
    (fun f => ∀ δ C es, Agrees (f δ C es) (evalList (δ + 1) P C es))
    (fun f => ∀ δ C segs, Agrees (f δ C segs) (evalPath (δ + 1) P C segs))
    (admissible3 _) (admissible3 _) (admissible4 _) (admissible5 _) (admissible4 _) (admissible3 _) (admissible4 _) (admissible5 _) (admissible5 _) (admissible3 _) (admissible4 _) (admissible3 _) (admissible3 _)
    ?_ ?_ ?_ ?_ ?_ ?_ ?_ ?_ ?_ ?_ ?_ ?_ ?_
  · intro eval evalFields evalBlock evalFor evalWhile evalLoop evalArms callMethod callPath applyVal evalList evalPath h1 h2 h3 h4 h5 h6 h7 h8 h9 h11 h12 h13 δ C e
    cases e with
    | call f args =>
      rw [Deep.eval.eq_def]
      cases f with
      | path segs =>
        dsimp only
        refine agrees_bind (h12 _ _ _) fun vs => agrees_bind (agrees_refl _) fun σ => ?_
        rcases segs with _ | ⟨x, _ | ⟨y, segs⟩⟩
        · agrees_deep
        · cases List.lookup ([x].getLast?.getD "") σ <;> agrees_deep
        · agrees_deep
      | _ => agrees_deep
    | bin op a b => rw [Deep.eval.eq_def]; dsimp only; cases op <;> dsimp only <;> agrees_deep
    | _ => rw [Deep.eval.eq_def]; dsimp only; agrees_deep
  · intro eval evalFields h1 h2 δ C fs
    rw [Deep.evalFields.eq_def]
    agrees_deep
  · intro eval evalBlock h1 h2 δ C ss e
    rw [Deep.evalBlock.eq_def]
    agrees_deep
  · intro eval evalFor h1 h2 δ C x vs e
    rw [Deep.evalFor.eq_def]
    agrees_deep
  · intro eval evalWhile h1 h2 δ C c e
    rw [Deep.evalWhile.eq_def]
    agrees_deep
  · intro eval evalLoop h1 h2 δ C e
    rw [Deep.evalLoop.eq_def]
    agrees_deep
  · intro eval evalArms h1 h2 δ C v arms
    rw [Deep.evalArms.eq_def]
    agrees_deep
  · intro callPath callFn applyVal h1 h2 h3 δ C v m vs
    rw [Deep.callMethod.eq_def]
    dsimp only
    cases methodOf P v m vs with
    | some f => exact h2 _ _ _
    | none =>
      dsimp only
      rcases higherOrder v m with _ | _ | ⟨w, k⟩
      · agrees_deep
      · rcases vs with _ | ⟨f, _ | ⟨g, vs⟩⟩ <;> agrees_deep
      · rcases vs with _ | ⟨f, _ | ⟨g, vs⟩⟩ <;> agrees_deep
  · intro callPath callFn h1 h2 δ C o x vs
    rw [Deep.callPath.eq_def]
    agrees_deep
  · intro eval h1 δ f vs
    rw [Deep.callFn.eq_def]
    cases δ with
    | zero => exact agrees_tooDeep _
    | succ δ => exact agrees_called _ _ (h1 _ _ _)
  · intro eval callPath h1 h2 δ C f vs
    rw [Deep.applyVal.eq_def]
    cases f with
    | closure params body env ctx =>
      dsimp only
      cases matchPats P ctx params vs with
      | none => exact agrees_refl _
      | some new =>
        cases δ with
        | zero => exact agrees_tooDeep _
        | succ δ => exact agrees_calledIn _ (h1 _ _ _)
    | _ => agrees_deep
  · intro eval evalList h1 h2 δ C es
    rw [Deep.evalList.eq_def]
    agrees_deep
  · intro eval h1 δ C segs
    rw [Deep.evalPath.eq_def]
    refine agrees_bind (agrees_refl _) fun σ => ?_
    rcases segs with _ | ⟨x, _ | ⟨y, segs⟩⟩
    · exact agrees_item P C (h1 δ) []
    · cases List.lookup ([x].getLast?.getD "") σ
      · exact agrees_item P C (h1 δ) [x]
      · exact agrees_refl _
    · exact agrees_item P C (h1 δ) (x :: y :: segs)

end Langtag.Source.Deep
