import Verif.Source.Counted.Semantics

/-! # Counting does not change the results -/

set_option autoImplicit false

namespace Langtag.Source.Counted
open Langtag.Model (Panic Rust)

variable {α β : Type}

/-- If the counting computation ends, the other one ends in the same way. -/
def Erases (x : M α) (y : Source.M α) : Prop := ∀ σ r n, x σ = some (r, n) → y σ = some r

theorem erases_pure (a : α) : Erases (pure a) (pure a) := by
  intro σ r n h
  cases h
  rfl
theorem erases_stuck : Erases (M.stuck : M α) Source.M.stuck := by
  intro σ r n h
  cases h
  rfl
theorem erases_throw (c : Ctl) : Erases (M.throw c : M α) (Source.M.throw c) := by
  intro σ r n h
  cases h
  rfl
theorem erases_env : Erases M.env Source.M.env := by
  intro σ r n h
  cases h
  rfl
theorem erases_setEnv (τ : Env) : Erases (M.setEnv τ) (Source.M.setEnv τ) := by
  intro σ r n h
  cases h
  rfl
theorem erases_free (x : Source.M α) : Erases (free x) x := by
  intro σ r n h
  rw [free, freeR, Option.bind_eq_some_iff] at h
  obtain ⟨_, h, e⟩ := h
  cases e
  exact h
theorem addTicks_eq_some {n m : Nat} {x : Out α} {r : Res α} (h : addTicks n x = some (r, m)) : ∃ k, x = some (r, k) ∧ n + k = m := by
  rw [addTicks, Option.bind_eq_some_iff] at h
  obtain ⟨⟨_, k⟩, h, e⟩ := h
  cases e
  exact ⟨k, h, rfl⟩
theorem erases_tick {k : Nat} {x : M α} {y : Source.M α} (h : Erases x y) : Erases (tick k x) y := by
  intro σ r n e
  obtain ⟨_, e, _⟩ := addTicks_eq_some e
  exact h _ _ _ e
theorem erases_bind {x : M α} {y : Source.M α} {f : α → M β} {g : α → Source.M β} (h : Erases x y) (h' : ∀ a, Erases (f a) (g a)) :
    Erases (x >>= f) (y >>= g) := by
  intro σ r n e
  obtain ⟨⟨r', k⟩, e, e'⟩ := Option.bind_eq_some_iff.mp e
  show (y σ).bind _ = _
  rw [h _ _ _ e]
  rcases r' with a | c
  · obtain ⟨_, e', _⟩ := addTicks_eq_some e'
    exact h' _ _ _ _ e'
  · cases e'
    rfl
theorem erases_inScope {x : M α} {y : Source.M α} (new : Env) (h : Erases x y) : Erases (inScope new x) (Source.inScope new y) := by
  intro σ r n e
  obtain ⟨⟨r', k⟩, e₁, e₂⟩ := Option.bind_eq_some_iff.mp e
  cases e₂
  show (y _).bind _ = _
  rw [h _ _ _ e₁]
  rfl
theorem erases_called {x : M Val} {y : Source.M Val} (ps : List (String × Ty)) (vs : List Val) (h : Erases x y) :
    Erases (called ps vs x) (Source.called ps vs y) := by
  intro σ r n e
  obtain ⟨⟨r', k⟩, e₁, e₂⟩ := Option.bind_eq_some_iff.mp e
  cases e₂
  show (y _).bind _ = _
  rw [h _ _ _ e₁]
  rfl
theorem erases_calledIn {x : M Val} {y : Source.M Val} (new : Env) (h : Erases x y) : Erases (calledIn new x) (Source.calledIn new y) := by
  intro σ r n e
  obtain ⟨⟨r', k⟩, e₁, e₂⟩ := Option.bind_eq_some_iff.mp e
  cases e₂
  show (y _).bind _ = _
  rw [h _ _ _ e₁]
  rcases r' with _ | ⟨_ | _ | _ | _, _⟩ <;> rfl
theorem erases_afterBody {x x' : M Val} {y y' : Source.M Val} (h : Erases x y) (h' : Erases x' y') :
    Erases (afterBody x x') (Source.afterBody y y') := by
  intro σ r n e
  obtain ⟨⟨r', k⟩, e, e'⟩ := Option.bind_eq_some_iff.mp e
  show (y' _).bind _ = _
  rw [h' _ _ _ e]
  rcases r' with _ | ⟨c, _⟩
  · obtain ⟨_, e', _⟩ := addTicks_eq_some e'
    exact h _ _ _ e'
  · cases c <;> cases e' <;> rfl

open Lean.Order in
theorem admissible_erases (y : Source.M α) : admissible fun x : M α => Erases x y := by
  refine admissible_pi_apply (fun σ (o : Option (Res α × Nat)) => ∀ r n, o = some (r, n) → y σ = some r) fun σ => ?_
  refine admissible_pi _ fun r => admissible_pi _ fun n => ?_
  exact Option.admissible_eq_some _ _

open Lean.Order in
theorem admissible_erases1 {ι : Type} (y : ι → Source.M α) : admissible fun x : ι → M α => ∀ i, Erases (x i) (y i) :=
  admissible_pi_apply (fun i (x : M α) => Erases x (y i)) fun _ => admissible_erases _
open Lean.Order in
theorem admissible_erases2 {ι κ : Type} (y : ι → κ → Source.M α) : admissible fun x : ι → κ → M α => ∀ i j, Erases (x i j) (y i j) :=
  admissible_pi_apply (fun i (x : κ → M α) => ∀ j, Erases (x j) (y i j)) fun _ => admissible_erases1 _
open Lean.Order in
theorem admissible_erases3 {ι κ τ : Type} (y : ι → κ → τ → Source.M α) :
    admissible fun x : ι → κ → τ → M α => ∀ i j k, Erases (x i j k) (y i j k) :=
  admissible_pi_apply (fun i (x : κ → τ → M α) => ∀ j k, Erases (x j k) (y i j k)) fun _ => admissible_erases2 _
open Lean.Order in
theorem admissible_erases4 {ι κ τ υ : Type} (y : ι → κ → τ → υ → Source.M α) :
    admissible fun x : ι → κ → τ → υ → M α => ∀ i j k l, Erases (x i j k l) (y i j k l) :=
  admissible_pi_apply (fun i (x : κ → τ → υ → M α) => ∀ j k l, Erases (x j k l) (y i j k l)) fun _ => admissible_erases3 _

attribute [irreducible] Erases

/-- Goes through the two computations side by side. -/
macro "erases" : tactic => `(tactic| repeat first
  | exact erases_pure _ | exact erases_stuck | exact erases_throw _ | exact erases_env | exact erases_setEnv _ | exact erases_free _
  | solve_by_elim only [*] | refine erases_bind ?_ ?_ | refine erases_inScope _ ?_ | refine erases_called _ _ ?_ | refine erases_calledIn _ ?_
  | refine erases_afterBody ?_ ?_ | refine erases_tick ?_ | intro _ | dsimp only | (split <;> rename_i h <;> simp only [h]) | split)

theorem erases_all (P : Program) :
    (∀ C e, Erases (eval P C e) (Source.eval P C e)) ∧ (∀ C fs, Erases (evalFields P C fs) (Source.evalFields P C fs)) ∧
    (∀ C ss e, Erases (evalBlock P C ss e) (Source.evalBlock P C ss e)) ∧
    (∀ C x vs e, Erases (evalFor P C x vs e) (Source.evalFor P C x vs e)) ∧
    (∀ C c e, Erases (evalWhile P C c e) (Source.evalWhile P C c e)) ∧ (∀ C e, Erases (evalLoop P C e) (Source.evalLoop P C e)) ∧
    (∀ C v arms, Erases (evalArms P C v arms) (Source.evalArms P C v arms)) ∧
    (∀ C v m vs, Erases (callMethod P C v m vs) (Source.callMethod P C v m vs)) ∧
    (∀ C o f vs, Erases (callPath P C o f vs) (Source.callPath P C o f vs)) ∧ (∀ f vs, Erases (callFn P f vs) (Source.callFn P f vs)) ∧
    (∀ C f vs, Erases (applyVal P C f vs) (Source.applyVal P C f vs)) ∧ (∀ C es, Erases (evalList P C es) (Source.evalList P C es)) ∧
    (∀ C segs, Erases (evalPath P C segs) (Source.evalPath P C segs)) := by
  refine eval.mutual_fixpoint_induct P (fun f => ∀ C e, Erases (f C e) (Source.eval P C e))
    (fun f => ∀ C fs, Erases (f C fs) (Source.evalFields P C fs)) (fun f => ∀ C ss e, Erases (f C ss e) (Source.evalBlock P C ss e))
    (fun f => ∀ C x vs e, Erases (f C x vs e) (Source.evalFor P C x vs e)) (fun f => ∀ C c e, Erases (f C c e) (Source.evalWhile P C c e))
    (fun f => ∀ C e, Erases (f C e) (Source.evalLoop P C e)) (fun f => ∀ C v arms, Erases (f C v arms) (Source.evalArms P C v arms))
    (fun f => ∀ C v m vs, Erases (f C v m vs) (Source.callMethod P C v m vs)) (fun f => ∀ C o x vs, Erases (f C o x vs) (Source.callPath P C o x vs))
    (fun f => ∀ g vs, Erases (f g vs) (Source.callFn P g vs)) (fun f => ∀ C g vs, Erases (f C g vs) (Source.applyVal P C g vs))
    (fun f => ∀ C es, Erases (f C es) (Source.evalList P C es)) (fun f => ∀ C segs, Erases (f C segs) (Source.evalPath P C segs))
    (admissible_erases2 _) (admissible_erases2 _) (admissible_erases3 _) (admissible_erases4 _) (admissible_erases3 _) (admissible_erases2 _)
    (admissible_erases3 _) (admissible_erases4 _) (admissible_erases4 _) (admissible_erases2 _) (admissible_erases3 _) (admissible_erases2 _)
    (admissible_erases2 _) ?_ ?_ ?_ ?_ ?_ ?_ ?_ ?_ ?_ ?_ ?_ ?_ ?_
  · intro eval evalFields evalBlock evalFor evalWhile evalLoop evalArms callMethod callPath applyVal evalList evalPath h1 h2 h3 h4 h5 h6 h7 h8 h9 h11 h12 h13 C e
    cases e with
    | call f args =>
      rw [Source.eval.eq_def]
      cases f with
      | path segs =>
        dsimp only
        refine erases_bind (h12 _ _) fun vs => erases_bind erases_env fun σ => ?_
        rcases segs with _ | ⟨x, _ | ⟨y, segs⟩⟩
        · erases
        · cases List.lookup ([x].getLast?.getD "") σ <;> erases
        · erases
      | _ => erases
    | bin op a b => rw [Source.eval.eq_def]; dsimp only; cases op <;> dsimp only <;> erases
    | _ => rw [Source.eval.eq_def]; dsimp only; erases
  · intro eval evalFields h1 h2 C fs
    rw [Source.evalFields.eq_def]
    erases
  · intro eval evalBlock h1 h2 C ss e
    rw [Source.evalBlock.eq_def]
    erases
  · intro eval evalFor h1 h2 C x vs e
    rw [Source.evalFor.eq_def]
    erases
  · intro eval evalWhile h1 h2 C c e
    rw [Source.evalWhile.eq_def]
    erases
  · intro eval evalLoop h1 h2 C e
    rw [Source.evalLoop.eq_def]
    erases
  · intro eval evalArms h1 h2 C v arms
    rw [Source.evalArms.eq_def]
    erases
  · intro callPath callFn applyVal h1 h2 h3 C v m vs
    rw [Source.callMethod.eq_def]
    dsimp only
    cases methodOf P v m vs with
    | some f => exact h2 _ _
    | none =>
      dsimp only
      rcases higherOrder v m with _ | _ | ⟨w, k⟩
      · erases
      · rcases vs with _ | ⟨f, _ | ⟨g, vs⟩⟩ <;> erases
      · rcases vs with _ | ⟨f, _ | ⟨g, vs⟩⟩ <;> erases
  · intro callPath callFn h1 h2 C o x vs
    rw [Source.callPath.eq_def]
    erases
  · intro eval h1 f vs
    rw [Source.callFn.eq_def]
    erases
  · intro eval callPath h1 h2 C f vs
    rw [Source.applyVal.eq_def]
    erases
  · intro eval evalList h1 h2 C es
    rw [Source.evalList.eq_def]
    erases
  · intro eval h1 C segs
    rw [Source.evalPath.eq_def]
    refine erases_bind erases_env fun σ => ?_
    rcases segs with _ | ⟨x, _ | ⟨y, segs⟩⟩
    · erases
    · cases List.lookup ([x].getLast?.getD "") σ <;> erases
    · erases

end Langtag.Source.Counted
