import Verif.Source.Store.Calls

/-!
# What is to be proved of each function of the evaluator
-/

set_option autoImplicit false

namespace Langtag.Source.Store
open Langtag.Spec.Store (Scope cells alloc read write keep kept Where whereIs)
open Langtag.Spec.Plain (patNames patNamesAll)

variable {c : Cfg} {w : Bool} {K : List String} {b : Nat} {ρ ρ' : Scope} {σ σ' S S' : Env} {P : Program}

/-- The last value is a closure, and what corresponds to it. -/
def LastClo (c : Cfg) (S : Env) (vs vs' : List Val) : Prop := ∃ init u u', vs = init ++ [u] ∧ vs' = init ++ [u'] ∧ FOs init ∧ Clo c S.length S u u'

/-- The arguments of a call. -/
structure Args (c : Cfg) (name : String) (vs vs' : List Val) (ls : List Where) (S : Env) : Prop where
  length : ls.length = vs.length
  vals : (FOs vs ∧ vs' = vs) ∨ (name ∈ c.T ∧ LastClo c S vs vs')
  holds : name ∈ c.W → (∀ l ∈ ls, l ≠ .part) ∧ Holds S ls vs

/-- Arguments that are temporary. -/
theorem Args.temp {name : String} {vs : List Val} (h : FOs vs) : Args c name vs vs (vs.map fun _ => .temp) S where
  length := by simp
  vals := .inl ⟨h, rfl⟩
  holds _ := by
    refine ⟨by simp, fun l v hm => ?_⟩
    have := (List.of_mem_zip hm).1
    simp at this

theorem not_zip_temp {α : Type} {l : Nat} {vs : List α} {ws : List (Option Val)} {u : Val} (hm : (Where.at l, some u) ∈ (vs.map fun _ => Where.temp).zip ws) : False := by
  have := (List.of_mem_zip hm).1
  simp at this

theorem admits_clo {o : List String} {ps : List Pat} {e : Expr} {σ₁ σ₂ : Env} {C : Ctx} : ∀ (t : Ty), admits o (.closure ps e σ₁ C) t = admits o (.closure ps e σ₂ C) t
  | .ref _ t => by rw [admits, admits, admits_clo t]
  | .path segs ts => by
    unfold admits
    split <;> first | rfl | (rename_i h; cases h)
  | .slice _ => by simp [admits]
  | .array _ _ => by simp [admits]
  | .tuple _ => by simp [admits]
  | .fnMut _ _ => by simp [admits]

theorem admitsAll_last {o : List String} {u u' : Val} (h : ∀ t, admits o u' t = admits o u t) : ∀ (init : List Val) (ps : List (String × Ty)),
    admitsAll o (init ++ [u']) ps = admitsAll o (init ++ [u]) ps
  | [], [] => rfl
  | [], (_, t) :: ps => by
    show (admits o u' t && admitsAll o [] ps) = (admits o u t && admitsAll o [] ps)
    rw [h]
  | _ :: _, [] => rfl
  | v :: init, (_, t) :: ps => by
    show (admits o v t && admitsAll o (init ++ [u']) ps) = (admits o v t && admitsAll o (init ++ [u]) ps)
    rw [admitsAll_last h]

theorem LastClo.lookup {vs vs' : List Val} (h : LastClo c S vs vs') (o : List String) (f : String) : P.lookup o f vs' = P.lookup o f vs := by
  obtain ⟨init, u, u', rfl, rfl, _, ps, body, σ, ρ, C, rfl, rfl, _⟩ := h
  unfold Program.lookup
  congr 1
  funext g
  rw [admitsAll_last fun t => admits_clo t]

theorem LastClo.newOf {vs vs' : List Val} (h : LastClo c S vs vs') (o : List String) (f : String) : newOf P o f vs = none ∧ newOf P o f vs' = none := by
  obtain ⟨init, u, u', rfl, rfl, _, ps, body, σ, ρ, C, rfl, rfl, _⟩ := h
  rcases init with _ | ⟨a, _ | ⟨b, init⟩⟩
  · exact ⟨rfl, rfl⟩
  · constructor <;> (unfold Source.newOf; split <;> first | rfl | (rename_i h; cases h))
  · constructor <;> (unfold Source.newOf; split <;> first | rfl | (rename_i h; cases h))

theorem LastClo.corePath {vs vs' : List Val} (h : LastClo c S vs vs') (o : List String) (f : String) : corePath P o f vs = M.stuck := by
  obtain ⟨init, u, u', rfl, rfl, _, ps, body, σ, ρ, C, rfl, rfl, _⟩ := h
  unfold Source.corePath
  rcases init with _ | ⟨a, _ | ⟨b, init⟩⟩ <;> split <;> first | rfl | (rename_i h; cases h; done) | (rename_i h; simp at h)

theorem lookup_fn {o : List String} {n : String} {vs : List Val} {f : Fn} (h : P.lookup o n vs = some f) :
    f ∈ P.fns ∧ f.fn.name = n ∧ vs.length = f.fn.params.length := by
  unfold Program.lookup at h
  have h1 := List.mem_of_find?_eq_some h
  have h2 := List.find?_some h
  simp only [Bool.and_eq_true, decide_eq_true_eq] at h2
  refine ⟨h1, h2.1.2, ?_⟩
  have : ∀ (vs : List Val) (ps : List (String × Ty)), admitsAll o vs ps = true → vs.length = ps.length := by
    intro vs
    induction vs with
    | nil => intro ps h; cases ps with | nil => rfl | cons _ _ => cases h
    | cons v vs ih =>
      intro ps h
      cases ps with
      | nil => cases h
      | cons p ps =>
        rw [admitsAll, Bool.and_eq_true] at h
        simp [ih ps h.2]
  exact this _ _ h2.2

theorem vals_fo {ps : List (String × Ty)} {vs : List Val} {ls : List Where} (h : FOs vs) (h1 : vs.length = ps.length) (h2 : ls.length = vs.length) :
    Vals (ArgRel c K b S) ps vs vs ls := by
  induction ps generalizing vs ls with
  | nil =>
    cases vs with
    | nil => cases ls with
      | nil => exact .nil
      | cons _ _ => cases h2
    | cons _ _ => cases h1
  | cons p ps ih =>
    cases vs with
    | nil => cases h1
    | cons v vs =>
      cases ls with
      | nil => cases h2
      | cons l ls => exact .cons (.inl ⟨h v (by simp), rfl⟩) (ih (fun v hv => h v (by simp [hv])) (by simpa using h1) (by simpa using h2))

theorem vals_last {ps : List (String × Ty)} {init : List Val} {u u' : Val} {ls : List Where} (h : FOs init) (h1 : init.length + 1 = ps.length)
    (h2 : ls.length = ps.length) {p : String × Ty} (hp : ps.getLast? = some p) (hu : ArgRel c K b S p.1 u u') :
    Vals (ArgRel c K b S) ps (init ++ [u]) (init ++ [u']) ls := by
  induction init generalizing ps ls with
  | nil =>
    match ps, ls, h1, h2 with
    | [q], [l], _, _ =>
      simp at hp
      subst hp
      exact .cons hu .nil
  | cons v init ih =>
    match ps, ls, h1, h2 with
    | q :: r :: ps, l :: k :: ls, h1, h2 =>
      exact .cons (.inl ⟨h v (by simp), rfl⟩) (ih (fun v hv => h v (by simp [hv])) (by simpa using h1) (by simpa using h2) (by simpa using hp))
    | [q], _, h1, _ => simp at h1

theorem Args.toVals {f : FnDef} {vs vs' : List Val} {ls : List Where} (hf : OkFn c f) (h : Args c f.name vs vs' ls S) (hl : vs.length = f.params.length) :
    Vals (ArgRel c (closureParams f) S.length S) f.params vs vs' ls := by
  rcases h.vals with ⟨h1, rfl⟩ | ⟨h1, init, u, u', rfl, rfl, h2, h3⟩
  · exact vals_fo h1 hl h.length
  · have ht := hf.taker h1
    unfold takesClosure at ht
    split at ht
    · rename_i x a r hp
      refine vals_last h2 (by simpa using hl) (by rw [h.length, hl]) hp (.inr ⟨?_, h3⟩)
      exact List.mem_filterMap.mpr ⟨(x, .fnMut a r), List.mem_of_getLast? hp, rfl⟩
    · cases ht

/-! ## The statements -/

/-- The value of an expression; if it is a variable, it is still in its cell. -/
def ValOf (ρ : Scope) (e : Expr) : Env → Val → Val → Prop := fun S v v' =>
  FO v ∧ v' = v ∧ ∀ x l, e = .path [x] → ρ.lookup x = some l → ∃ z, S[l]? = some (z, v)

/-- The values of arguments. -/
def ValsOf (c : Cfg) (cl w : Bool) (ρ : Scope) (es : List Expr) : Env → List Val → List Val → Prop := fun S vs vs' =>
  vs.length = es.length ∧ ((FOs vs ∧ vs' = vs) ∨ (cl = true ∧ LastClo c S vs vs')) ∧
    (w = false → (∀ e ∈ es, simple e = true) → Holds S (es.map (whereIs ρ)) vs)

variable (c P)

def EvalOk (C : Ctx) (e : Expr) (σ : Env) (r : Res Val) : Prop :=
  (∀ w K b ρ S, okE c w K e = true → Inv c K b σ ρ S → End c w K b ρ S (ValOf ρ e) (Spec.Store.eval P C ρ e S) r) ∧
  ∀ ps body, e = .closure ps body → r = .ok (.closure ps body σ C) σ
def FieldsOk (C : Ctx) (fs : List Field) (σ : Env) (r : Res (List (String × Val))) : Prop :=
  ∀ w K b ρ S, okFields c w K fs = true → Inv c K b σ ρ S → End c w K b ρ S (fun _ vs vs' => (∀ e ∈ vs, FO e.2) ∧ vs' = vs) (Spec.Store.evalFields P C ρ fs S) r
def BlockOk (C : Ctx) (ss : List Stmt) (e : Expr) (σ : Env) (r : Res Val) : Prop :=
  ∀ w K b ρ S, okStmts c w K ss = true → okE c w K e = true → Inv c K b σ ρ S → End c w K b ρ S SameVal (Spec.Store.evalBlock P C ρ ss e S) (closeScope σ.length r)
def ForOk (C : Ctx) (x : String) (vs : List Val) (e : Expr) (σ : Env) (r : Res Val) : Prop :=
  ∀ w K b ρ S, FOs vs → x ∉ c.T → okE c w K e = true → Inv c K b σ ρ S → End c w K b ρ S SameVal (Spec.Store.evalFor P C ρ x vs e S) r
def WhileOk (C : Ctx) (d e : Expr) (σ : Env) (r : Res Val) : Prop :=
  ∀ w K b ρ S, okE c w K d = true → okE c w K e = true → Inv c K b σ ρ S → End c w K b ρ S SameVal (Spec.Store.evalWhile P C ρ d e S) r
def LoopOk (C : Ctx) (e : Expr) (σ : Env) (r : Res Val) : Prop :=
  ∀ w K b ρ S, okE c w K e = true → Inv c K b σ ρ S → End c w K b ρ S SameVal (Spec.Store.evalLoop P C ρ e S) r
def ArmsOk (C : Ctx) (v : Val) (arms : List Arm) (σ : Env) (r : Res Val) : Prop :=
  ∀ w K b ρ S, FO v → okArms c w K arms = true → Inv c K b σ ρ S → End c w K b ρ S SameVal (Spec.Store.evalArms P C ρ v arms S) r
def MethodOk (C : Ctx) (v : Val) (m : String) (vs : List Val) (σ : Env) (r : Res (Val × List (Option Val))) : Prop :=
  ∀ vs' ls S, FO v → ((FOs vs ∧ vs' = vs) ∨ (m ∈ higher ∧ LastClo c S vs vs')) → ls.length = vs.length + 1 →
    (m ∈ c.W → (∀ l ∈ ls, l ≠ .part) ∧ Holds S ls (v :: vs)) → CallEnd c m σ S ls (Spec.Store.callMethod P C v m vs' ls S) r
def PathCallOk (C : Ctx) (o : List String) (f : String) (vs : List Val) (σ : Env) (r : Res (Val × List (Option Val))) : Prop :=
  ∀ vs' ls S, Args c f vs vs' ls S → CallEnd c f σ S ls (Spec.Store.callPath P C o f vs' ls S) r
def FnOk (f : Fn) (vs : List Val) (σ : Env) (r : Res (Val × List (Option Val))) : Prop :=
  ∀ vs' ls S, f ∈ P.fns → vs.length = f.fn.params.length → Args c f.fn.name vs vs' ls S → CallEnd c f.fn.name σ S ls (Spec.Store.callFn P f vs' ls S) r
def ApplyOk (C : Ctx) (f : Val) (vs : List Val) (σ : Env) (r : Res Val) : Prop :=
  ∀ f' S, ((FO f ∧ f' = f) ∨ Clo c S.length S f f') → FOs vs → ApplyEnd σ S (Spec.Store.applyVal P C f' vs S) r
def ListOk (C : Ctx) (es : List Expr) (σ : Env) (r : Res (List Val)) : Prop :=
  ∀ cl w K b ρ S, okArgs c cl w K es = true → Inv c K b σ ρ S → End c w K b ρ S (ValsOf c cl w ρ es) (Spec.Store.evalList P C ρ es S) r
def PathOk (C : Ctx) (segs : List String) (σ : Env) (r : Res Val) : Prop :=
  ∀ w K b ρ S, okE c w K (.path segs) = true → Inv c K b σ ρ S → End c w K b ρ S (ValOf ρ (.path segs)) (Spec.Store.evalPath P C ρ segs S) r

/-- Every way the computation ends. -/
def Ends {α : Type} (x : M α) (Φ : Env → Res α → Prop) : Prop := ∀ σ r, x σ = some r → Φ σ r

open Lean.Order in
theorem admissible_ends {α : Type} (Φ : Env → Res α → Prop) : admissible fun x : M α => Ends x Φ := by
  refine admissible_pi_apply (fun σ (o : Option (Res α)) => ∀ r, o = some r → Φ σ r) fun σ => ?_
  refine admissible_pi _ fun r => ?_
  exact Option.admissible_eq_some _ _
open Lean.Order in
theorem admissible_ends2 {α ι κ : Type} (Φ : ι → κ → Env → Res α → Prop) : admissible fun x : ι → κ → M α => ∀ i j, Ends (x i j) (Φ i j) :=
  admissible_pi_apply (fun i (x : κ → M α) => ∀ j, Ends (x j) (Φ i j)) fun _ => admissible_pi_apply (fun j (x : M α) => Ends x (Φ _ j)) fun _ => admissible_ends _
open Lean.Order in
theorem admissible_ends3 {α ι κ τ : Type} (Φ : ι → κ → τ → Env → Res α → Prop) : admissible fun x : ι → κ → τ → M α => ∀ i j k, Ends (x i j k) (Φ i j k) :=
  admissible_pi_apply (fun i (x : κ → τ → M α) => ∀ j k, Ends (x j k) (Φ i j k)) fun _ => admissible_ends2 _
open Lean.Order in
theorem admissible_ends4 {α ι κ τ υ : Type} (Φ : ι → κ → τ → υ → Env → Res α → Prop) :
    admissible fun x : ι → κ → τ → υ → M α => ∀ i j k l, Ends (x i j k l) (Φ i j k l) :=
  admissible_pi_apply (fun i (x : κ → τ → υ → M α) => ∀ j k l, Ends (x j k l) (Φ i j k l)) fun _ => admissible_ends3 _

variable {c P}

theorem End.val {e : Expr} {o : Option (Res Val)} {r : Res Val} (h : End c w K b ρ S SameVal o r) (hp : ∀ x, e ≠ .path [x] := by intro x h; cases h) :
    End c w K b ρ S (ValOf ρ e) o r :=
  h.imp fun _ _ _ _ hq => ⟨hq.1, hq.2, fun x _ hx => absurd hx (hp x)⟩
theorem End.same {e : Expr} {o : Option (Res Val)} {r : Res Val} (h : End c w K b ρ S (ValOf ρ e) o r) : End c w K b ρ S SameVal o r :=
  h.imp fun _ _ _ _ hq => ⟨hq.1, hq.2.1⟩

/-! ## Ends of calls -/

/-- A call of a value changes no variable. -/
theorem ApplyEnd.toEnd {o : Option (Res Val)} {r : Res Val} (h : ApplyEnd σ S o r) (hi : Inv c K b σ ρ S) : End c w K b ρ S SameVal o r := by
  rcases r with ⟨v, σ'⟩ | ⟨d, σ'⟩
  · obtain ⟨rfl, S', h1, h2, h3⟩ := h
    exact ⟨v, S', h1, ⟨h2, rfl⟩, hi.keep h3.weaken, h3.weaken⟩
  · cases d with
    | panic p => exact h
    | stuck => trivial
    | _ => exact h.elim

/-- The body of a closure or a constant. -/
theorem applyEnd_of {σ₀ : Env} {ρ₀ : Scope} {e : Expr} {x y : M Val} (h : ∀ r, x σ₀ = some r → End c false K b ρ₀ S (ValOf ρ₀ e) (y S) r) {r : Res Val}
    (he : calledIn σ₀ x σ = some r) : ApplyEnd σ S (Spec.Store.called y S) r := by
  obtain ⟨r', e1, e2⟩ := Option.bind_eq_some_iff.mp he
  cases e2
  have H := h r' e1
  show ApplyEnd σ S ((y S).bind _) _
  rcases r' with ⟨v, σ'⟩ | ⟨d, σ'⟩
  · obtain ⟨v', S', h1, ⟨h2, rfl, _⟩, _, h3⟩ := H
    rw [h1]
    exact ⟨rfl, S', rfl, h2, h3.weaken⟩
  · cases d with
    | ret v =>
      obtain ⟨S', h1, h2, _, h3⟩ := H
      rw [h1]
      exact ⟨rfl, S', rfl, h2, h3.weaken⟩
    | brk v => trivial
    | panic p =>
      obtain ⟨S', h1⟩ := H
      rw [h1]
      exact ⟨S', rfl⟩
    | stuck => trivial

/-- A call, and what it writes. -/
theorem CallEnd.toEnd {name : String} {es : List Expr} {x : M (Val × List (Option Val))} {y : M Val} {r : Res Val}
    (h : ∀ r, x σ = some r → CallEnd c name σ S (es.map (whereIs ρ)) (y S) r) (hi : Inv c K b σ ρ S)
    (hw : name ∈ c.W → w = true ∧ ∀ e ∈ es, simple e = true)
    (e : (do let (v, ws) ← x; writeBack es ws; pure v : M Val) σ = some r) : End c w K b ρ S SameVal (y S) r := by
  obtain ⟨r', e1, e2⟩ := Option.bind_eq_some_iff.mp e
  have H := h r' e1
  rcases r' with ⟨⟨v, ws⟩, σ'⟩ | ⟨d, σ'⟩
  · obtain ⟨rfl, S', h1, h2, h3, h4⟩ := H
    have e2 : (do writeBack es ws; pure v : M Val) σ' = some r := e2
    by_cases hn : name ∈ c.W
    · obtain ⟨rfl, hs⟩ := hw hn
      obtain ⟨σ'', h5, h6, h7⟩ := h3.writeBack hs hi
      have e2 : (writeBack es ws σ').bind _ = some r := e2
      rw [h5] at e2
      cases e2
      exact ⟨v, S', h1, ⟨h2, rfl⟩, h6, h7⟩
    · rw [writeBack_none es (h4 hn)] at e2
      cases e2
      have hf : Frame false ρ S S' := h3.frame fun l u hm => zip_none (h4 hn) hm
      exact ⟨v, S', h1, ⟨h2, rfl⟩, hi.keep hf, hf.weaken⟩
  · cases e2
    cases d with
    | panic p => exact H
    | stuck => trivial
    | _ => exact H.elim

end Langtag.Source.Store
