import Verif.Source.Store.Inv

/-!
# Two computations side by side

How a computation that copies and one with a memory correspond.
-/

set_option autoImplicit false

namespace Langtag.Source.Store
open Langtag.Spec.Store (Scope cells alloc read write keep kept Where whereIs)
open Langtag.Spec.Plain (patNames patNamesAll)

variable {α β α' β' : Type}

/-- The computation with a memory ends as the other one does: with related results, and cells that have the values of the variables. -/
def End (c : Cfg) (w : Bool) (K : List String) (b : Nat) (ρ : Scope) (S : Env) (Q : Env → α → β → Prop) (o : Option (Res β)) (r : Res α) : Prop :=
  match r with
  | .ok a σ' => ∃ a' S', o = some (.ok a' S') ∧ Q S' a a' ∧ Inv c K b σ' ρ S' ∧ Frame w ρ S S'
  | .ctl (.ret v) σ' => ∃ S', o = some (.ctl (.ret v) S') ∧ FO v ∧ Inv c K b σ' ρ S' ∧ Frame w ρ S S'
  | .ctl (.brk v) σ' => ∃ S', o = some (.ctl (.brk v) S') ∧ FO v ∧ Inv c K b σ' ρ S' ∧ Frame w ρ S S'
  | .ctl (.panic p) _ => ∃ S', o = some (.ctl (.panic p) S')
  | .ctl .stuck _ => True

variable {c : Cfg} {w : Bool} {K : List String} {b : Nat} {ρ ρ' : Scope} {σ σ' S S' : Env}

theorem End.imp {Q Q' : Env → α → β → Prop} {o : Option (Res β)} {r : Res α} (h : End c w K b ρ S Q o r) (hi : ∀ S' a a', Frame w ρ S S' → Q S' a a' → Q' S' a a') :
    End c w K b ρ S Q' o r := by
  rcases r with ⟨a, σ'⟩ | ⟨d, σ'⟩
  · obtain ⟨a', S', h1, h2, h3, h4⟩ := h
    exact ⟨a', S', h1, hi _ _ _ h4 h2, h3, h4⟩
  · cases d <;> exact h

theorem End.weaken {Q : Env → α → β → Prop} {o : Option (Res β)} {r : Res α} (h : End c false K b ρ S Q o r) : End c w K b ρ S Q o r := by
  rcases r with ⟨a, σ'⟩ | ⟨d, σ'⟩
  · obtain ⟨a', S', h1, h2, h3, h4⟩ := h
    exact ⟨a', S', h1, h2, h3, h4.weaken⟩
  · cases d with
    | ret v =>
      obtain ⟨S', h1, h2, h3, h4⟩ := h
      exact ⟨S', h1, h2, h3, h4.weaken⟩
    | brk v =>
      obtain ⟨S', h1, h2, h3, h4⟩ := h
      exact ⟨S', h1, h2, h3, h4.weaken⟩
    | _ => exact h

/-- From an earlier memory. -/
theorem End.trans {Q : Env → α → β → Prop} {o : Option (Res β)} {r : Res α} (hf : Frame w ρ S S') (h : End c w K b ρ S' Q o r) : End c w K b ρ S Q o r := by
  rcases r with ⟨a, σ'⟩ | ⟨d, σ'⟩
  · obtain ⟨a', S', h1, h2, h3, h4⟩ := h
    exact ⟨a', S', h1, h2, h3, hf.trans h4⟩
  · cases d with
    | ret v =>
      obtain ⟨S', h1, h2, h3, h4⟩ := h
      exact ⟨S', h1, h2, h3, hf.trans h4⟩
    | brk v =>
      obtain ⟨S', h1, h2, h3, h4⟩ := h
      exact ⟨S', h1, h2, h3, hf.trans h4⟩
    | _ => exact h

theorem End.pure {Q : Env → α → β → Prop} {a : α} {a' : β} (hi : Inv c K b σ ρ S) (h : Q S a a') {r : Res α} (e : (Pure.pure a : M α) σ = some r) :
    End c w K b ρ S Q ((Pure.pure a' : M β) S) r := by
  cases e
  exact ⟨a', S, rfl, h, hi, .refl⟩

theorem End.stuck {Q : Env → α → β → Prop} {o : Option (Res β)} {r : Res α} (e : (M.stuck : M α) σ = some r) : End c w K b ρ S Q o r := by
  cases e
  trivial

theorem End.bind {Q : Env → α → β → Prop} {Q' : Env → α' → β' → Prop} {x : M α} {y : M β} {f : α → M α'} {g : β → M β'} {r : Res α'}
    (e : (x >>= f) σ = some r) (h : ∀ r, x σ = some r → End c w K b ρ S Q (y S) r)
    (h' : ∀ a a' σ' S', Q S' a a' → Inv c K b σ' ρ S' → Frame w ρ S S' → ∀ r, f a σ' = some r → End c w K b ρ S' Q' (g a' S') r) :
    End c w K b ρ S Q' ((y >>= g) S) r := by
  obtain ⟨r', e1, e2⟩ := Option.bind_eq_some_iff.mp e
  have H := h r' e1
  show End c w K b ρ S Q' ((y S).bind _) r
  rcases r' with ⟨a, σ'⟩ | ⟨d, σ'⟩
  · obtain ⟨a', S', h1, h2, h3, h4⟩ := H
    rw [h1]
    exact (h' a a' σ' S' h2 h3 h4 r e2).trans h4
  · cases e2
    cases d with
    | ret v =>
      obtain ⟨S', h1, h2⟩ := H
      rw [h1]
      exact ⟨S', rfl, h2⟩
    | brk v =>
      obtain ⟨S', h1, h2⟩ := H
      rw [h1]
      exact ⟨S', rfl, h2⟩
    | panic p =>
      obtain ⟨S', h1⟩ := H
      rw [h1]
      exact ⟨S', rfl⟩
    | stuck => trivial

/-- What does not look at variables. -/
theorem End.lift {Q : α → Prop} {x : M α} (h : Lifts Q x) (hi : Inv c K b σ ρ S) {r : Res α} (e : x σ = some r) :
    End c w K b ρ S (fun _ a a' => Q a ∧ a' = a) (x S) r := by
  have H := h σ r e
  rcases r with ⟨a, σ'⟩ | ⟨d, σ'⟩
  · obtain ⟨rfl, hq, hs⟩ := H
    exact ⟨a, S, hs S, ⟨hq, rfl⟩, hi, .refl⟩
  · cases d with
    | panic p => exact ⟨S, H S⟩
    | stuck => trivial
    | _ => exact H.elim

/-- Values without closures, the same. -/
def SameVal : Env → Val → Val → Prop := fun _ v v' => FO v ∧ v' = v

/-! ## Scopes -/

theorem close_close {n m : Nat} (r : Res α) : closeScope m (closeScope (n + m) r) = closeScope m r := by
  have : ∀ σ : Env, (σ.drop (σ.length - (n + m))).drop ((σ.drop (σ.length - (n + m))).length - m) = σ.drop (σ.length - m) := by
    intro σ
    rw [List.drop_drop, List.length_drop]
    congr 1
    omega
  cases r <;> rw [closeScope, closeScope, closeScope, this]

theorem End.scope {n : Scope} {S₁ : Env} {Q : Env → α → β → Prop} {o : Option (Res β)} {r : Res α} (hn : ∀ e ∈ n, S.length ≤ e.2)
    (hf : Frame false ρ S S₁) (h : End c w K b (n ++ ρ) S₁ Q o r) {k : Nat} (hk : k = ρ.length) : End c w K b ρ S Q o (closeScope k r) := by
  subst hk
  have hd : ∀ {σ' S'}, Inv c K b σ' (n ++ ρ) S' → σ'.drop (σ'.length - ρ.length) = σ'.drop n.length := by
    intro σ' S' hi
    rw [hi.length]
    congr 1
    simp
  rcases r with ⟨a, σ'⟩ | ⟨d, σ'⟩
  · obtain ⟨a', S', h1, h2, h3, h4⟩ := h
    refine ⟨a', S', h1, h2, ?_, .inner hn hf h4⟩
    rw [hd h3]
    exact h3.drop
  · cases d with
    | ret v =>
      obtain ⟨S', h1, h2, h3, h4⟩ := h
      refine ⟨S', h1, h2, ?_, .inner hn hf h4⟩
      rw [hd h3]
      exact h3.drop
    | brk v =>
      obtain ⟨S', h1, h2, h3, h4⟩ := h
      refine ⟨S', h1, h2, ?_, .inner hn hf h4⟩
      rw [hd h3]
      exact h3.drop
    | _ => exact h

/-- New variables around a computation. -/
theorem End.inScope {new : Env} {Q : Env → α → β → Prop} {x : M α} {y : Scope → M β} (hi : Inv c K b σ ρ S) (hn : ∀ e ∈ new, FO e.2)
    (ht : ∀ e ∈ new, e.1 ∉ c.T)
    (h : ∀ ρ', Inv c K b (new ++ σ) (ρ' ++ ρ) (S ++ new) → ∀ r, x (new ++ σ) = some r → End c w K b (ρ' ++ ρ) (S ++ new) Q (y ρ' (S ++ new)) r)
    {r : Res α} (e : Source.inScope new x σ = some r) : End c w K b ρ S Q ((alloc new >>= y) S) r := by
  obtain ⟨r', e1, e2⟩ := Option.bind_eq_some_iff.mp e
  cases e2
  exact End.scope (cells_ge _ _) (frame_append S new) (h _ (hi.alloc hn ht) r' e1) hi.length

/-- The body of a loop. -/
theorem End.afterBody {x x' y y' : M Val} {r : Res Val} {Q : Env → Val → Val → Prop} (e : Source.afterBody x x' σ = some r)
    (h : ∀ r, x' σ = some r → End c w K b ρ S Q (y' S) r)
    (h' : ∀ σ' S', Inv c K b σ' ρ S' → ∀ r, x σ' = some r → End c w K b ρ S' SameVal (y S') r) :
    End c w K b ρ S SameVal (Source.afterBody y y' S) r := by
  obtain ⟨r', e1, e2⟩ := Option.bind_eq_some_iff.mp e
  have H := h r' e1
  show End c w K b ρ S SameVal ((y' S).bind _) r
  rcases r' with ⟨a, σ'⟩ | ⟨d, σ'⟩
  · obtain ⟨a', S', h1, h2, h3, h4⟩ := H
    rw [h1]
    exact (h' σ' S' h3 r e2).trans h4
  · cases d with
    | ret v =>
      cases e2
      obtain ⟨S', h1, h2⟩ := H
      rw [h1]
      exact ⟨S', rfl, h2⟩
    | brk v =>
      cases e2
      obtain ⟨S', h1, h2, h3⟩ := H
      rw [h1]
      exact ⟨v, S', rfl, ⟨h2, rfl⟩, h3⟩
    | panic p =>
      cases e2
      obtain ⟨S', h1⟩ := H
      rw [h1]
      exact ⟨S', rfl⟩
    | stuck => cases e2; trivial

/-! ## Places -/

theorem end_readPlace (hi : Inv c K b σ ρ S) : ∀ {p : Expr} (_ : okE c w K p = true) {r : Res Val} (_ : readPlace p σ = some r),
    End c w K b ρ S SameVal (Spec.Store.readPlace ρ p S) r := by
  intro p
  induction p using readPlace.induct with
  | case1 x =>
    intro ho r e
    rw [readPlace] at e
    rw [Spec.Store.readPlace]
    have e : (match σ.lookup x with | some v => pure v | none => M.stuck : M Val) σ = some r := e
    simp only [okE, Bool.not_eq_true', List.contains_eq_mem, decide_eq_false_iff_not] at ho
    cases h : ρ.lookup x with
    | none =>
      rw [hi.vars.lookup_none h] at e
      exact .stuck e
    | some l =>
      obtain ⟨v, z, h1, h2, h3⟩ := hi.var h ho
      rw [h1] at e
      cases e
      refine ⟨v, S, ?_, ⟨h2, rfl⟩, hi, .refl⟩
      show Spec.Store.read l S = _
      unfold Spec.Store.read
      rw [h3]
  | case2 e f ih =>
    intro ho r he
    rw [readPlace] at he
    rw [Spec.Store.readPlace]
    rw [okE] at ho
    refine End.bind he (fun r => ih ho) fun v v' σ' S' hq hi' _ r e => ?_
    obtain ⟨hv, rfl⟩ := hq
    exact (End.lift (lifts_fieldVal hv) hi' e)
  | case3 p h1 h2 =>
    intro ho r e
    rw [readPlace.eq_def] at e
    split at e
    · exact absurd rfl (h1 _)
    · exact absurd rfl (h2 _ _)
    · exact .stuck e

theorem end_assignPlace {p : Expr} {v : Val} (ho : okE c true K p = true) (hv : FO v) (hi : Inv c K b σ ρ S) {r : Res Unit} (e : assignPlace p v σ = some r) :
    End c true K b ρ S (fun _ _ _ => True) (Spec.Store.assignPlace ρ p v S) r := by
  induction p, v using assignPlace.induct generalizing σ S r with
  | case1 x v =>
    rw [assignPlace] at e
    rw [Spec.Store.assignPlace]
    cases e
    cases h : ρ.lookup x with
    | none =>
      refine ⟨(), S, rfl, trivial, ?_, .refl⟩
      rw [hi.vars.set_none h]
      exact hi
    | some l =>
      obtain ⟨S', h1, h2, h3⟩ := hi.write h hv
      exact ⟨(), S', h1, trivial, h2, h3⟩
  | case2 p f v ih =>
    rw [assignPlace] at e
    rw [Spec.Store.assignPlace]
    rw [okE] at ho
    refine End.bind e (fun r => end_readPlace hi ho) fun u u' σ' S' hq hi' _ r e => ?_
    obtain ⟨hu, rfl⟩ := hq
    split at e
    · exact ih _ _ ho (.struct (fo_setField hv hu.struct_inv)) hi' e
    · exact .stuck e
  | case3 p v h1 h2 =>
    rw [assignPlace.eq_def] at e
    split at e
    · exact absurd rfl (h1 _)
    · exact absurd rfl (h2 _ _)
    · exact .stuck e

/-! ## Calls -/

/-- The cells have the values. -/
def Holds (S : Env) (ls : List Where) (vs : List Val) : Prop := ∀ l v, (Where.at l, v) ∈ ls.zip vs → ∃ z, S[l]? = some (z, v)

/-- Only the cells of arguments that are written to are not as before, and they have the values that were written. -/
structure Wrote (S S' : Env) (ls : List Where) (ws : List (Option Val)) : Prop where
  le : S.length ≤ S'.length
  rest : ∀ l, l < S.length → S'[l]? = S[l]? ∨ ∃ u, (Where.at l, some u) ∈ ls.zip ws
  new : ∀ l u, (Where.at l, some u) ∈ ls.zip ws → FO u ∧ ∃ z, S'[l]? = some (z, u)

/-- The end of a call. -/
def CallEnd (c : Cfg) (name : String) (σ S : Env) (ls : List Where) (o : Option (Res Val)) (r : Res (Val × List (Option Val))) : Prop :=
  match r with
  | .ok (v, ws) σ' => σ' = σ ∧ ∃ S', o = some (.ok v S') ∧ FO v ∧ Wrote S S' ls ws ∧ (name ∉ c.W → ∀ w ∈ ws, w = none)
  | .ctl (.panic p) _ => ∃ S', o = some (.ctl (.panic p) S')
  | .ctl .stuck _ => True
  | .ctl _ _ => False

/-- The end of a call of a value. -/
def ApplyEnd (σ S : Env) (o : Option (Res Val)) (r : Res Val) : Prop :=
  match r with
  | .ok v σ' => σ' = σ ∧ ∃ S', o = some (.ok v S') ∧ FO v ∧ Frame false [] S S'
  | .ctl (.panic p) _ => ∃ S', o = some (.ctl (.panic p) S')
  | .ctl .stuck _ => True
  | .ctl _ _ => False

theorem zip_none {ls : List Where} {ws : List (Option Val)} (h : ∀ w ∈ ws, w = none) {l : Nat} {u : Val} (hm : (Where.at l, some u) ∈ ls.zip ws) : False := by
  cases h _ (List.of_mem_zip hm).2

theorem Wrote.frame {ls : List Where} {ws : List (Option Val)} (h : Wrote S S' ls ws) (hn : ∀ l u, (Where.at l, some u) ∈ ls.zip ws → False) : Frame false ρ S S' := by
  refine ⟨h.le, fun l hl _ => ?_⟩
  rcases h.rest l hl with h | ⟨u, h⟩
  · exact h
  · exact (hn _ _ h).elim
theorem wrote_frame {ls : List Where} {ws : List (Option Val)} (h : Frame false ρ S S') (hn : ∀ l u, (Where.at l, some u) ∈ ls.zip ws → False) : Wrote S S' ls ws :=
  ⟨h.1, fun l hl => .inl (h.2 l hl (by simp)), fun l u hm => (hn l u hm).elim⟩

theorem simple_at {e : Expr} (h : simple e = true) {l : Nat} (hl : whereIs ρ e = .at l) : ∃ x, e = .path [x] ∧ ρ.lookup x = some l := by
  cases e with
  | path segs =>
    unfold whereIs at hl
    split at hl
    · rename_i x hx
      cases hx
      split at hl
      · rename_i k hk
        cases hl
        exact ⟨_, rfl, hk⟩
      · cases hl
    all_goals first | cases hl | (rename_i hx; cases hx)
  | ref _ _ => cases h
  | deref _ => cases h
  | field _ _ => cases h
  | index _ _ => cases h
  | _ => cases hl
theorem simple_part {e : Expr} (h : simple e = true) : whereIs ρ e ≠ .part := by
  intro hl
  cases e with
  | path segs =>
    unfold whereIs at hl
    split at hl
    · split at hl <;> cases hl
    all_goals first | (rename_i hx; cases hx; done) | cases hl
  | ref _ _ => cases h
  | deref _ => cases h
  | field _ _ => cases h
  | index _ _ => cases h
  | _ => cases hl

/-- Nothing to write back. -/
theorem writeBack_none (es : List Expr) {ws : List (Option Val)} (h : ∀ w ∈ ws, w = none) : writeBack es ws = pure () := by
  induction es generalizing ws with
  | nil => cases ws <;> rfl
  | cons e es ih =>
    cases ws with
    | nil => rfl
    | cons w ws =>
      obtain rfl := h w (by simp)
      rw [writeBack]
      · rw [ih fun w hw => h w (by simp [hw])]
      all_goals simp

/-- What was written to cells is written back to variables. -/
theorem vars_writeBack {es : List Expr} (hse : ∀ e ∈ es, simple e = true) {ws : List (Option Val)}
    (hn : ∀ l u, (Where.at l, some u) ∈ (es.map (whereIs ρ)).zip ws → FO u ∧ ∃ z, S'[l]? = some (z, u))
    (hv : Vars (fun x v l => Cell c K b S' x v l ∨ ∃ u, (Where.at l, some u) ∈ (es.map (whereIs ρ)).zip ws) σ ρ) (hd : (ρ.map (·.2)).Nodup) :
    ∃ σ', writeBack es ws σ = some (.ok () σ') ∧ Vars (Cell c K b S') σ' ρ := by
  induction es generalizing ws σ with
  | nil =>
    refine ⟨σ, rfl, hv.imp fun x v l _ h => ?_⟩
    simpa using h
  | cons e es ih =>
    cases ws with
    | nil =>
      refine ⟨σ, rfl, hv.imp fun x v l _ h => ?_⟩
      simpa using h
    | cons w ws =>
      have hse' : ∀ e ∈ es, simple e = true := fun e he => hse e (by simp [he])
      have hn' : ∀ l u, (Where.at l, some u) ∈ (es.map (whereIs ρ)).zip ws → FO u ∧ ∃ z, S'[l]? = some (z, u) :=
        fun l u hm => hn l u (by simp [hm])
      -- nothing to do for this one
      have skip : (∀ l u, whereIs ρ e = .at l → w = some u → False) → writeBack (e :: es) (w :: ws) σ = writeBack es ws σ →
          ∃ σ', writeBack (e :: es) (w :: ws) σ = some (.ok () σ') ∧ Vars (Cell c K b S') σ' ρ := by
        intro hf he
        rw [he]
        refine ih hse' hn' (hv.imp fun x v l _ h => ?_)
        rcases h with h | ⟨u, h⟩
        · exact .inl h
        · rw [List.map_cons, List.zip_cons_cons, List.mem_cons] at h
          rcases h with h | h
          · rw [Prod.mk.injEq] at h
            exact (hf l u h.1.symm h.2.symm).elim
          · exact .inr ⟨u, h⟩
      cases w with
      | none => exact skip (fun _ _ _ h => nomatch h) (by rw [writeBack] <;> first | rfl | simp)
      | some u =>
        by_cases hx : ∃ x, e = .path [x]
        · obtain ⟨x, rfl⟩ := hx
          cases h : ρ.lookup x with
          | none =>
            refine skip (fun l u hl _ => ?_) ?_
            · rw [whereIs, h] at hl
              cases hl
            · show writeBack es ws (setField x u σ) = _
              rw [hv.set_none h]
          | some l =>
            have hw : whereIs ρ (.path [x]) = .at l := by rw [whereIs, h]
            obtain ⟨hu, z, hz⟩ := hn l u (by simp [hw])
            refine ih hse' hn' (σ := setField x u σ) (hv.set h hd (.inl ⟨z, u, hz, .inl ⟨hu, rfl⟩⟩) fun y v k hk hr => ?_)
            rcases hr with hr | ⟨u', hr⟩
            · exact .inl hr
            · rw [List.map_cons, List.zip_cons_cons, List.mem_cons, hw] at hr
              rcases hr with hr | hr
              · simp only [Prod.mk.injEq, Where.at.injEq] at hr
                exact absurd hr.1 hk
              · exact .inr ⟨u', hr⟩
        · refine skip (fun l u hl _ => ?_) ?_
          · obtain ⟨x, hx', _⟩ := simple_at (hse e (by simp)) hl
            exact hx ⟨x, hx'⟩
          · rw [writeBack]
            · rintro v x _ rfl
              exact hx ⟨x, rfl⟩
            · rintro v p f _ rfl
              cases hse _ (List.mem_cons_self ..)

theorem Wrote.writeBack {es : List Expr} {ws : List (Option Val)} (h : Wrote S S' (es.map (whereIs ρ)) ws) (hse : ∀ e ∈ es, simple e = true)
    (hi : Inv c K b σ ρ S) : ∃ σ', writeBack es ws σ = some (.ok () σ') ∧ Inv c K b σ' ρ S' ∧ Frame true ρ S S' := by
  have own : ∀ l u, (Where.at l, some u) ∈ (es.map (whereIs ρ)).zip ws → ∃ x, (x, l) ∈ ρ := by
    intro l u hm
    obtain ⟨e, he, h⟩ := List.mem_map.mp (List.of_mem_zip hm).1
    obtain ⟨x, _, hx⟩ := simple_at (hse e he) h
    exact ⟨x, lookup_mem hx⟩
  obtain ⟨σ', h1, h2⟩ := vars_writeBack (c := c) (K := K) (b := b) (σ := σ) hse h.new (hi.vars.imp fun x v l hm hc => by
    rcases h.rest l hc.lt with h' | h'
    · refine .inl (hc.frame h' fun hx k hk => ?_)
      rcases h.rest k (Nat.lt_of_lt_of_le hk hi.le) with h' | ⟨u, h'⟩
      · exact h'
      · obtain ⟨y, hy⟩ := own _ _ h'
        have := hi.own (by rintro rfl; cases hx) _ hy
        dsimp only at this
        omega
    · exact .inr h') hi.nodup
  refine ⟨σ', h1, ⟨h2, hi.nodup, hi.own, hi.names, Nat.le_trans hi.le h.le⟩, h.le, fun l hl hw => ?_⟩
  rcases h.rest l hl with h' | ⟨u, h'⟩
  · exact h'
  · obtain ⟨x, hx⟩ := own _ _ h'
    exact absurd (List.mem_map.mpr ⟨_, hx, rfl⟩) (hw rfl)

end Langtag.Source.Store
