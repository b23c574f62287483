import Verif.Source.Store.Specs

/-!
# Copying is as good as a memory

Every function of the evaluator does what its counterpart with a memory does.
-/

set_option autoImplicit false

namespace Langtag.Source.Store
open Langtag.Spec.Store (Scope cells alloc read write keep kept Where whereIs)
open Langtag.Spec.Plain (patNames patNamesAll)

variable {c : Cfg} {P : Program}

theorem kept_keep (ρ : Scope) : kept (keep ρ) = ρ := by
  unfold kept keep
  rw [List.map_map]
  conv => rhs; rw [← List.map_id ρ]
  apply List.map_congr_left
  intro e _
  rfl

theorem mem_K {K : List String} {x : String} (h : (!K.contains x) = true) : x ∉ K := by simpa using h

theorem all_T {xs : List String} (h : xs.all (fun x => !c.T.contains x) = true) : ∀ x ∈ xs, x ∉ c.T := by
  intro x hx
  have := List.all_eq_true.mp h x hx
  simpa using this

/-- A statement, in the scope of a block. -/
theorem End.bindScope {α β : Type} {w : Bool} {K : List String} {b : Nat} {ρ : Scope} {σ S : Env} {Q : Env → α → β → Prop} {x : M α} {y : M β} {f : α → M Val} {g : β → M Val} {r : Res Val}
    (e : (x >>= f) σ = some r) (h : ∀ r, x σ = some r → End c w K b ρ S Q (y S) r)
    (h' : ∀ a a' σ' S', Q S' a a' → Inv c K b σ' ρ S' → ∀ r, f a σ' = some r → End c w K b ρ S' SameVal (g a' S') (closeScope ρ.length r)) :
    End c w K b ρ S SameVal ((y >>= g) S) (closeScope ρ.length r) := by
  obtain ⟨r', e1, e2⟩ := Option.bind_eq_some_iff.mp e
  have H := h r' e1
  show End c w K b ρ S SameVal ((y S).bind _) (closeScope ρ.length r)
  rcases r' with ⟨a, σ'⟩ | ⟨d, σ'⟩
  · obtain ⟨a', S', h1, h2, h3, h4⟩ := H
    rw [h1]
    exact (h' a a' σ' S' h2 h3 r e2).trans h4
  · cases e2
    cases d with
    | ret v =>
      obtain ⟨S', h1, h2, hi, h3⟩ := H
      rw [h1]
      refine ⟨S', rfl, h2, ?_, h3⟩
      rw [hi.length, Nat.sub_self]
      exact hi
    | brk v =>
      obtain ⟨S', h1, h2, hi, h3⟩ := H
      rw [h1]
      refine ⟨S', rfl, h2, ?_, h3⟩
      rw [hi.length, Nat.sub_self]
      exact hi
    | panic p =>
      obtain ⟨S', h1⟩ := H
      rw [h1]
      exact ⟨S', rfl⟩
    | stuck => trivial

/-- What a function of `core` gives, without writing. -/
theorem callEnd_lift {name : String} {σ S : Env} {ls : List Where} {x : M Val} (h : Lifts FO x) {r : Res (Val × List (Option Val))}
    (e : (do return (← x, []) : M (Val × List (Option Val))) σ = some r) : CallEnd c name σ S ls (x S) r := by
  obtain ⟨r', e1, e2⟩ := Option.bind_eq_some_iff.mp e
  have H := h σ r' e1
  rcases r' with ⟨v, σ'⟩ | ⟨d, σ'⟩
  · cases e2
    exact ⟨H.1, S, H.2.2 S, H.2.1, wrote_frame (ρ := []) .refl (fun _ _ hm => by simp at hm), fun _ _ h => nomatch h⟩
  · cases e2
    cases d with
    | panic p => exact ⟨S, H S⟩
    | stuck => trivial
    | _ => exact H.elim

/-- What a method of `core` writes. -/
theorem writeAll_core {S : Env} {ls : List Where} {u : Val} (h1 : ∀ l ∈ ls, l ≠ .part) (h2 : ∀ l, Where.at l ∈ ls → l < S.length) (hu : FO u) :
    ∃ S', Spec.Store.writeAll ls [none, some u] S = some (.ok () S') ∧ Wrote S S' ls [none, some u] := by
  match ls, h1, h2 with
  | [], _, _ => exact ⟨S, rfl, wrote_frame (ρ := []) .refl (fun _ _ hm => by simp at hm)⟩
  | [l], _, _ =>
    refine ⟨S, ?_, wrote_frame (ρ := []) .refl (fun _ _ hm => by simp at hm)⟩
    cases l <;> rfl
  | l₀ :: .temp :: ls, _, _ =>
    refine ⟨S, ?_, wrote_frame (ρ := []) .refl (fun _ _ hm => by simp at hm)⟩
    cases l₀ <;> cases ls <;> rfl
  | l₀ :: .part :: ls, h1, _ => exact absurd rfl (h1 .part (by simp))
  | l₀ :: .at l :: ls, _, h2 =>
    have hl := h2 l (by simp)
    refine ⟨S.set l ((S[l]).1, u), ?_, by simp, fun k hk => ?_, fun k u' hm => ?_⟩
    · have : Spec.Store.write l u S = some (.ok () (S.set l ((S[l]).1, u))) := by
        unfold Spec.Store.write
        rw [List.getElem?_eq_getElem hl]
      have h : Spec.Store.writeAll (l₀ :: .at l :: ls) [none, some u] S = (Spec.Store.write l u >>= fun _ => Spec.Store.writeAll ls []) S := by
        cases l₀ <;> rfl
      have h' : Spec.Store.writeAll ls [] = pure () := by cases ls <;> rfl
      rw [h, h']
      show (Spec.Store.write l u S).bind _ = _
      rw [this]
      rfl
    · by_cases hk : k = l
      · subst hk
        exact .inr ⟨u, by simp⟩
      · exact .inl (List.getElem?_set_ne fun e => hk e.symm)
    · simp at hm
      obtain ⟨rfl, rfl⟩ := hm
      exact ⟨hu, _, List.getElem?_set_self hl⟩

/-- A method that is not one of the program and does not call its argument. -/
theorem end_core (hT : Tame c P) {σ S : Env} {callPath' : Ctx → List String → String → List Val → M (Val × List (Option Val))}
    (h1 : ∀ C o f vs, Ends (callPath' C o f vs) (PathCallOk c P C o f vs)) (C : Ctx) (v : Val) (m : String) (vs : List Val) (ls : List Where) {r : Res (Val × List (Option Val))}
    (hv : FO v) (hvs : FOs vs) (hlen : ls.length = vs.length + 1) (hw : m ∈ c.W → (∀ l ∈ ls, l ≠ .part) ∧ Holds S ls (v :: vs))
    (e : (match (generalizing := false) v, m, vs with
      | .char c, "try_into", [] => callPath' C (okType P C) "try_from" [.char c]
      | v, m, vs => coreMethod P C v m vs) σ = some r) :
    CallEnd c m σ S ls ((match (generalizing := false) v, m, vs with
      | .char c, "try_into", [] => Spec.Store.callPath P C (okType P C) "try_from" [.char c] [.temp]
      | v, m, vs => do
        let (r, ws) ← coreMethod P C v m vs
        Spec.Store.writeAll ls ws
        pure r : M Val) S) r := by
  split at e
  · rename_i d
    have H := h1 _ _ _ _ σ r e _ _ S (.temp (c := c) (vs := [.char d]) (by intro v hv; simp at hv; subst hv; constructor))
    rcases r with ⟨⟨u, ws⟩, σ'⟩ | ⟨d, σ'⟩
    · obtain ⟨rfl, S', h3, h4, h5, h6⟩ := H
      have h6 := h6 hT.tryFrom
      exact ⟨rfl, S', h3, h4, wrote_frame (ρ := []) (h5.frame fun l u hm => not_zip_temp hm) fun l u hm => zip_none h6 hm, fun _ => h6⟩
    · cases d with
      | panic p => exact H
      | stuck => trivial
      | _ => exact H.elim
  · have H := lifts_coreMethod (P := P) (C := C) (m := m) hv hvs σ r e
    show CallEnd c m σ S ls ((coreMethod P C v m vs S).bind _) r
    rcases r with ⟨⟨u, ws⟩, σ'⟩ | ⟨d, σ'⟩
    · obtain ⟨rfl, ⟨hu, hws⟩, hS⟩ := H
      rw [hS S]
      dsimp only at hu hws
      rcases hws with rfl | ⟨hm, u', rfl, hu'⟩
      · refine ⟨rfl, S, ?_, hu, wrote_frame (ρ := []) .refl (fun _ _ hm => by simp at hm), fun _ _ h => nomatch h⟩
        cases ls <;> rfl
      · have hmw : m ∈ c.W := by
          rcases hm with rfl | rfl
          · exact hT.core.1
          · exact hT.core.2
        obtain ⟨p1, p2⟩ := hw hmw
        have hin : ∀ l, Where.at l ∈ ls → l < S.length := by
          intro l hl
          obtain ⟨i, hi, h⟩ := List.mem_iff_getElem.mp hl
          have hi' : i < (v :: vs).length := by simp; omega
          obtain ⟨z, hz⟩ := p2 l (v :: vs)[i] (by
            rw [← h]
            exact List.mem_iff_getElem.mpr ⟨i, by simp; omega, by simp⟩)
          exact (List.getElem?_eq_some_iff.mp hz).1
        obtain ⟨S', q1, q2⟩ := writeAll_core p1 hin hu'
        refine ⟨rfl, S', ?_, hu, q2, fun h => absurd hmw h⟩
        show (Spec.Store.writeAll ls [none, some u'] S).bind _ = _
        rw [q1]
        rfl
    · cases d with
      | panic p =>
        have H : ∀ S, coreMethod P C v m vs S = some (.ctl (.panic p) S) := H
        rw [H S]
        exact ⟨S, rfl⟩
      | stuck => trivial
      | _ => exact H.elim

/-- A path that is not a variable. -/
theorem end_item (hT : Tame c P) {w : Bool} {K : List String} {b : Nat} {ρ : Scope} {σ S : Env} {eval' : Ctx → Expr → M Val} (h1 : ∀ C e, Ends (eval' C e) (EvalOk c P C e)) (C : Ctx) (segs : List String)
    (hi : Inv c K b σ ρ S) {r : Res Val}
    (e : (match ctorOf P C segs with
       | some (ty, x) => pure (.ctor ty x [])
       | none =>
         if segs = ["u8", "MAX"] then pure (.u8 255)
         else
           match P.consts.find? fun (o, x, _) => o = (memberOf P C segs).1 && x = (memberOf P C segs).2 with
           | some (o, _, e) => calledIn [] (eval' ⟨o, "", .tuple []⟩ e)
           | none => pure (.fn (memberOf P C segs).1 (memberOf P C segs).2) : M Val) σ = some r) :
    End c w K b ρ S SameVal ((match ctorOf P C segs with
       | some (ty, x) => pure (.ctor ty x [])
       | none =>
         if segs = ["u8", "MAX"] then pure (.u8 255)
         else
           match P.consts.find? fun (o, x, _) => o = (memberOf P C segs).1 && x = (memberOf P C segs).2 with
           | some (o, _, e) => Spec.Store.called (Spec.Store.eval P ⟨o, "", .tuple []⟩ [] e)
           | none => pure (.fn (memberOf P C segs).1 (memberOf P C segs).2) : M Val) S) r := by
  cases hc : ctorOf P C segs with
  | some d =>
    rw [hc] at e
    exact .pure hi ⟨.ctor (by simp), rfl⟩ e
  | none =>
    rw [hc] at e
    dsimp only at e ⊢
    split at e
    · rename_i hs
      rw [if_pos hs]
      exact .pure hi ⟨.u8 _, rfl⟩ e
    · rename_i hs
      rw [if_neg hs]
      generalize hd : (P.consts.find? fun (o, x, _) => o = (memberOf P C segs).1 && x = (memberOf P C segs).2) = d at e
      rcases d with _ | ⟨o, x, d⟩
      · exact .pure hi ⟨.fn _ _, rfl⟩ e
      · have ho := hT.consts _ (List.mem_of_find?_eq_some hd)
        refine ApplyEnd.toEnd (applyEnd_of (K := []) (b := 0) (ρ₀ := []) (fun r e => (h1 _ _ _ r e).1 false [] 0 [] S ho ?_) e) hi
        exact ⟨.nil, by simp, fun h => absurd rfl h, by simp, Nat.zero_le _⟩

/-- A call by a path, after its arguments. -/
theorem end_dispatch (hT : Tame c P) {w : Bool} {K : List String} {b : Nat} {ρ : Scope} {σ S : Env}
    {callPath' : Ctx → List String → String → List Val → M (Val × List (Option Val))} {applyVal' : Ctx → Val → List Val → M Val}
    (h9 : ∀ C o f vs, Ends (callPath' C o f vs) (PathCallOk c P C o f vs)) (h11 : ∀ C f vs, Ends (applyVal' C f vs) (ApplyOk c P C f vs))
    (C : Ctx) (segs : List String) (args : List Expr) (vs vs' : List Val) (hi : Inv c K b σ ρ S)
    (hl : vs.length = args.length)
    (hv : (FOs vs ∧ vs' = vs) ∨ (segs ∈ c.Q ∧ LastClo c S vs vs'))
    (hw : segs.getLast?.getD "" ∈ c.W → w = true ∧ (∀ e ∈ args, simple e = true) ∧ Holds S (args.map (whereIs ρ)) vs) {r : Res Val}
    (e : (match (generalizing := false) segs, σ.lookup (segs.getLast?.getD "") with
      | [_], some g => applyVal' C g vs
      | _, _ =>
        match (generalizing := false) ctorOf P C segs with
        | some (ty, x) => pure (.ctor ty x vs)
        | none => do
          let (v, ws) ← callPath' C (memberOf P C segs).1 (memberOf P C segs).2 vs
          writeBack args ws
          pure v : M Val) σ = some r) :
    End c w K b ρ S SameVal ((match (generalizing := false) segs, ρ.lookup (segs.getLast?.getD "") with
      | [_], some l => do
        let g ← read l
        Spec.Store.applyVal P C g vs'
      | _, _ =>
        match (generalizing := false) ctorOf P C segs with
        | some (ty, x) => pure (.ctor ty x vs')
        | none => Spec.Store.callPath P C (memberOf P C segs).1 (memberOf P C segs).2 vs' (args.map (whereIs ρ)) : M Val) S) r := by
  have item : ∀ r, (match (generalizing := false) ctorOf P C segs with
        | some (ty, x) => pure (.ctor ty x vs)
        | none => do
          let (v, ws) ← callPath' C (memberOf P C segs).1 (memberOf P C segs).2 vs
          writeBack args ws
          pure v : M Val) σ = some r →
      End c w K b ρ S SameVal ((match (generalizing := false) ctorOf P C segs with
        | some (ty, x) => pure (.ctor ty x vs')
        | none => Spec.Store.callPath P C (memberOf P C segs).1 (memberOf P C segs).2 vs' (args.map (whereIs ρ)) : M Val) S) r := by
    intro r e
    cases hc : ctorOf P C segs with
    | some d =>
      rw [hc] at e
      rcases hv with ⟨hv, rfl⟩ | ⟨hq, _⟩
      · exact .pure hi ⟨.ctor hv, rfl⟩ e
      · rw [(hT.takers _ hq).2 C] at hc
        cases hc
    | none =>
      rw [hc] at e
      dsimp only at e ⊢
      refine CallEnd.toEnd (name := (memberOf P C segs).2) (fun r e => h9 _ _ _ _ σ r e vs' _ S ⟨by simp [hl], ?_, fun h => ⟨?_, (hw h).2.2⟩⟩) hi
        (fun h => ⟨(hw h).1, (hw h).2.1⟩) e
      · rcases hv with hv | ⟨hq, hv⟩
        · exact .inl hv
        · exact .inr ⟨(hT.takers _ hq).1, hv⟩
      · intro l hl
        obtain ⟨d, hd, rfl⟩ := List.mem_map.mp hl
        exact simple_part ((hw h).2.1 d hd)
  rcases segs with _ | ⟨x, _ | ⟨y, segs⟩⟩
  · exact item r e
  · have e : (match (generalizing := false) σ.lookup x with
      | some g => applyVal' C g vs
      | none =>
        match (generalizing := false) ctorOf P C [x] with
        | some (ty, x) => pure (.ctor ty x vs)
        | none => do
          let (v, ws) ← callPath' C (memberOf P C [x]).1 (memberOf P C [x]).2 vs
          writeBack args ws
          pure v : M Val) σ = some r := by
      rw [← e]
      show _ = (match (generalizing := false) [x], σ.lookup x with | [_], some g => _ | _, _ => _ : M Val) σ
      cases σ.lookup x <;> rfl
    show End c w K b ρ S SameVal ((match (generalizing := false) [x], ρ.lookup x with | [_], some l => _ | _, _ => _ : M Val) S) r
    cases hx : ρ.lookup x with
    | none =>
      rw [hi.vars.lookup_none hx] at e
      exact item r e
    | some l =>
      obtain ⟨g, h1, ⟨z, g', h2, h3⟩, hm⟩ := hi.vars.lookup_some hx
      rw [h1] at e
      rcases hv with ⟨hv, rfl⟩ | ⟨hq, _⟩
      · have : (read l >>= fun g => Spec.Store.applyVal P C g vs' : M Val) S = Spec.Store.applyVal P C g' vs' S := by
          show (Spec.Store.read l S).bind _ = _
          unfold Spec.Store.read
          rw [h2]
          rfl
        refine ApplyEnd.toEnd (o := (read l >>= fun g => Spec.Store.applyVal P C g vs' : M Val) S) ?_ hi
        rw [this]
        refine h11 _ _ _ σ r e g' S ?_ hv
        rcases h3 with ⟨h3, rfl⟩ | ⟨_, h3⟩
        · exact .inl ⟨h3, rfl⟩
        · exact .inr (h3.mono hi.le)
      · exact absurd (hT.takers _ hq).1 (hi.names _ hm)
  · exact item r e

/-- The variables of a call. -/
theorem enter (hT : Tame c P) {f : Fn} {vs vs' : List Val} {ls : List Where} {S : Env} (hf : f ∈ P.fns) (hl : vs.length = f.fn.params.length)
    (ha : Args c f.fn.name vs vs' ls S) : ∃ ρ new, Spec.Store.bindParams f.fn.params vs' ls S = some (.ok ρ (S ++ new)) ∧
      Inv c (closureParams f.fn) S.length ((f.fn.params.map (·.1)).zip vs) ρ (S ++ new) ∧ (0 < f.fn.params.countP isMut → closureParams f.fn = []) ∧
      ρ.map (·.1) = f.fn.params.map (·.1) ∧
      (∀ e ∈ ρ, S.length ≤ e.2 ∨ e.2 < S.length ∧ ∃ t, ((e.1, t), Where.at e.2) ∈ f.fn.params.zip ls ∧ isMut (e.1, t) = true) ∧
      (∀ x t l, ((x, t), Where.at l) ∈ f.fn.params.zip ls → isMut (x, t) = true → (x, l) ∈ ρ) := by
  have hok := hT.fns f hf
  have hK : 0 < f.fn.params.countP isMut → closureParams f.fn = [] := by
    intro h0
    by_cases hk : closureParams f.fn = []
    · exact hk
    · have := hok.closures hk
      omega
  obtain ⟨ρ, new, b1, b2, b3, b4, b5, b6⟩ := bind_params (Nat.le_refl S.length) (ha.toVals hok hl) hok.one (fun h0 => by
    obtain ⟨p1, p2⟩ := ha.holds (hok.writer h0)
    refine ⟨hK h0, p1, fun l v hm => ?_⟩
    obtain ⟨z, hz⟩ := p2 l v hm
    exact ⟨(List.getElem?_eq_some_iff.mp hz).1, z, hz⟩)
  have hi : Inv c (closureParams f.fn) S.length ((f.fn.params.map (·.1)).zip vs) ρ (S ++ new) := by
    refine ⟨b2, b3, fun hk d hd => ?_, fun d hd => ?_, by simp⟩
    · rcases b5 d hd with h | ⟨_, t, ht, hm⟩
      · exact h
      · have := List.countP_eq_zero.mp (hok.closures hk) _ (List.of_mem_zip ht).1
        exact absurd hm this
    · have : d.1 ∈ f.fn.params.map (·.1) := by
        rw [← b4]
        exact List.mem_map.mpr ⟨d, hd, rfl⟩
      obtain ⟨p, hp, e⟩ := List.mem_map.mp this
      rw [← e]
      exact hok.free p hp
  exact ⟨ρ, new, b1, hi, hK, b4, b5, b6⟩

theorem sim_all (hT : Tame c P) :
    (∀ C e, Ends (eval P C e) (EvalOk c P C e)) ∧ (∀ C fs, Ends (evalFields P C fs) (FieldsOk c P C fs)) ∧
    (∀ C ss e, Ends (evalBlock P C ss e) (BlockOk c P C ss e)) ∧ (∀ C x vs e, Ends (evalFor P C x vs e) (ForOk c P C x vs e)) ∧
    (∀ C d e, Ends (evalWhile P C d e) (WhileOk c P C d e)) ∧ (∀ C e, Ends (evalLoop P C e) (LoopOk c P C e)) ∧
    (∀ C v as, Ends (evalArms P C v as) (ArmsOk c P C v as)) ∧ (∀ C v m vs, Ends (callMethod P C v m vs) (MethodOk c P C v m vs)) ∧
    (∀ C o f vs, Ends (callPath P C o f vs) (PathCallOk c P C o f vs)) ∧ (∀ f vs, Ends (callFn P f vs) (FnOk c P f vs)) ∧
    (∀ C f vs, Ends (applyVal P C f vs) (ApplyOk c P C f vs)) ∧ (∀ C es, Ends (evalList P C es) (ListOk c P C es)) ∧
    (∀ C segs, Ends (evalPath P C segs) (PathOk c P C segs)) := by
  refine eval.mutual_fixpoint_induct P (fun f => ∀ C e, Ends (f C e) (EvalOk c P C e))
    (fun f => ∀ C fs, Ends (f C fs) (FieldsOk c P C fs)) (fun f => ∀ C ss e, Ends (f C ss e) (BlockOk c P C ss e))
    (fun f => ∀ C x vs e, Ends (f C x vs e) (ForOk c P C x vs e)) (fun f => ∀ C d e, Ends (f C d e) (WhileOk c P C d e))
    (fun f => ∀ C e, Ends (f C e) (LoopOk c P C e)) (fun f => ∀ C v as, Ends (f C v as) (ArmsOk c P C v as))
    (fun f => ∀ C v m vs, Ends (f C v m vs) (MethodOk c P C v m vs)) (fun f => ∀ C o g vs, Ends (f C o g vs) (PathCallOk c P C o g vs))
    (fun f => ∀ g vs, Ends (f g vs) (FnOk c P g vs)) (fun f => ∀ C g vs, Ends (f C g vs) (ApplyOk c P C g vs))
    (fun f => ∀ C es, Ends (f C es) (ListOk c P C es)) (fun f => ∀ C segs, Ends (f C segs) (PathOk c P C segs))
    (admissible_ends2 _) (admissible_ends2 _) (admissible_ends3 _) (admissible_ends4 _) (admissible_ends3 _) (admissible_ends2 _)
    (admissible_ends3 _) (admissible_ends4 _) (admissible_ends4 _) (admissible_ends2 _) (admissible_ends3 _) (admissible_ends2 _)
    (admissible_ends2 _) ?_ ?_ ?_ ?_ ?_ ?_ ?_ ?_ ?_ ?_ ?_ ?_ ?_
  · intro eval evalFields evalBlock evalFor evalWhile evalLoop evalArms callMethod callPath applyVal evalList evalPath h1 h2 h3 h4 h5 h6 h7 h8 h9 h11 h12 h13 C e₀ σ r e
    by_cases hc : ∃ ps body, e₀ = .closure ps body
    · obtain ⟨ps, body, rfl⟩ := hc
      refine ⟨fun w K b ρ S ho => ?_, fun ps' body' h => ?_⟩
      · rw [okE] at ho
        cases ho
      · cases h
        cases e
        rfl
    refine ⟨fun w K b ρ S ho hi => ?_, fun ps' body' h => absurd ⟨_, _, h⟩ hc⟩
    rw [Spec.Store.eval.eq_def]
    -- a part
    have part : ∀ {d : Expr} {w σ r S}, eval C d σ = some r → okE c w K d = true → Inv c K b σ ρ S → End c w K b ρ S SameVal (Spec.Store.eval P C ρ d S) r :=
      fun {d w σ r S} e ho hi => ((h1 C d σ r e).1 w K b ρ S ho hi).same
    cases e₀ with
    | closure ps body => exact absurd ⟨_, _, rfl⟩ hc
    | lit l =>
      dsimp only at e ⊢
      cases hl : litVal l with
      | none =>
        rw [hl] at e
        exact .stuck e
      | some v =>
        rw [hl] at e
        exact (End.pure hi ⟨fo_litVal hl, rfl⟩ e).val
    | path segs => exact h13 C segs σ r e w K b ρ S ho hi
    | call f args =>
      cases f with
      | path segs =>
        refine End.val ?_
        simp only [okE] at ho
        dsimp only at e ⊢
        split at ho
        · rename_i hW
          simp only [Bool.and_eq_true, List.all_eq_true] at ho
          obtain ⟨⟨rfl, hs⟩, ho⟩ := ho
          refine .bind e (fun r e => (h12 _ _ σ r e false false K b ρ S ho hi).weaken) fun vs vs' σ' S' hq hi' _ r e => ?_
          obtain ⟨hl, hv, hh⟩ := hq
          refine end_dispatch hT h9 h11 C segs args vs vs' hi' hl (.inl ?_) (fun _ => ⟨rfl, hs, hh rfl hs⟩) e
          rcases hv with hv | ⟨h, _⟩
          · exact hv
          · cases h
        · rename_i hW
          refine .bind e (fun r e => h12 _ _ σ r e _ w K b ρ S ho hi) fun vs vs' σ' S' hq hi' _ r e => ?_
          obtain ⟨hl, hv, hh⟩ := hq
          refine end_dispatch hT h9 h11 C segs args vs vs' hi' hl ?_ (fun h => absurd (by simpa using h) hW) e
          rcases hv with hv | ⟨h, hv⟩
          · exact .inl hv
          · exact .inr ⟨by simpa using h, hv⟩
      | _ => exact .stuck e
    | method d m args =>
      refine End.val ?_
      simp only [okE] at ho
      dsimp only at e ⊢
      split at ho
      · rename_i hW
        simp only [Bool.and_eq_true, List.all_eq_true] at ho
        obtain ⟨⟨⟨⟨rfl, hs0⟩, hs⟩, ho0⟩, ho⟩ := ho
        refine .bind e (fun r e => ((h1 _ _ σ r e).1 false K b ρ S ho0 hi).weaken) fun v v' σ' S' hq hi' _ r e => ?_
        obtain ⟨hv, rfl, hpl⟩ := hq
        refine .bind e (fun r e => ((h12 _ _ σ' r e false false K b ρ S' ho hi').imp (Q' := fun S'' vs vs' => ValsOf c false false ρ args S'' vs vs' ∧ Frame false ρ S' S'')
          fun _ _ _ hf hq => ⟨hq, hf⟩).weaken) fun vs vs' σ'' S'' hq hi'' _ r e => ?_
        obtain ⟨⟨hl, hvs, hh⟩, hf⟩ := hq
        obtain ⟨hvs, rfl⟩ : FOs vs ∧ vs' = vs := by
          rcases hvs with h | ⟨h, _⟩
          · exact h
          · cases h
        refine CallEnd.toEnd (es := d :: args) (name := m) (fun r e => h8 _ _ _ _ σ'' r e vs' _ S'' hv (.inl ⟨hvs, rfl⟩) (by simp [hl]) fun _ => ⟨?_, ?_⟩) hi'' (fun _ => ⟨rfl, ?_⟩) e
        · intro l hl
          obtain ⟨a, ha, rfl⟩ := List.mem_map.mp hl
          rcases List.mem_cons.mp ha with rfl | ha
          · exact simple_part hs0
          · exact simple_part (hs a ha)
        · intro l u hm
          rw [List.map_cons, List.zip_cons_cons, List.mem_cons] at hm
          rcases hm with hm | hm
          · simp only [Prod.mk.injEq] at hm
            obtain ⟨hm, rfl⟩ := hm
            obtain ⟨x, rfl, hx⟩ := simple_at hs0 hm.symm
            obtain ⟨z, hz⟩ := hpl x l rfl hx
            rw [← hf.2 l (List.getElem?_eq_some_iff.mp hz).1 (by simp)] at hz
            exact ⟨z, hz⟩
          · exact hh rfl hs l u hm
        · intro a ha
          rcases List.mem_cons.mp ha with rfl | ha
          · exact hs0
          · exact hs a ha
      · rename_i hW
        rw [Bool.and_eq_true] at ho
        have hW : m ∉ c.W := fun h => hW (by simpa using h)
        refine .bind e (fun r e => part e ho.1 hi) fun v v' σ' S' hq hi' _ r e => ?_
        obtain ⟨hv, rfl⟩ := hq
        refine .bind e (fun r e => h12 _ _ σ' r e _ w K b ρ S' ho.2 hi') fun vs vs' σ'' S'' hq hi'' _ r e => ?_
        obtain ⟨hl, hvs, hh⟩ := hq
        refine CallEnd.toEnd (es := d :: args) (name := m) (fun r e => h8 _ _ _ _ σ'' r e vs' _ S'' hv ?_ (by simp [hl]) fun h => absurd h hW) hi'' (fun h => absurd h hW) e
        rcases hvs with h | ⟨h, h'⟩
        · exact .inl h
        · exact .inr ⟨by simpa using h, h'⟩
    | field d f =>
      rw [okE] at ho
      refine End.val (.bind e (fun r e => part e ho hi) fun v v' σ' S' hq hi' _ r e => ?_)
      obtain ⟨hv, rfl⟩ := hq
      exact End.lift (lifts_fieldVal hv) hi' e
    | index a d =>
      rw [okE, Bool.and_eq_true] at ho
      refine End.val (.bind e (fun r e => part e ho.1 hi) fun v v' σ' S' hq hi' _ r e => .bind e (fun r e => part e ho.2 hi') fun u u' σ'' S'' hq' hi'' _ r e => ?_)
      obtain ⟨_, rfl⟩ := hq
      obtain ⟨_, rfl⟩ := hq'
      exact End.lift lifts_indexVal hi'' e
    | range a d =>
      rw [okE, Bool.and_eq_true] at ho
      refine End.val (.bind e (fun r e => part e ho.1 hi) fun v v' σ' S' hq hi' _ r e => .bind e (fun r e => part e ho.2 hi') fun u u' σ'' S'' hq' hi'' _ r e => ?_)
      obtain ⟨_, rfl⟩ := hq
      obtain ⟨_, rfl⟩ := hq'
      split at e
      · exact .pure hi'' ⟨.range _ _, rfl⟩ e
      · exact .stuck e
    | rangeFrom d =>
      rw [okE] at ho
      refine End.val (.bind e (fun r e => part e ho hi) fun v v' σ' S' hq hi' _ r e => ?_)
      obtain ⟨hv, rfl⟩ := hq
      split at e
      · exact .pure hi' ⟨.rangeFrom _, rfl⟩ e
      · exact .stuck e
    | rangeTo d =>
      rw [okE] at ho
      refine End.val (.bind e (fun r e => part e ho hi) fun v v' σ' S' hq hi' _ r e => ?_)
      obtain ⟨hv, rfl⟩ := hq
      split at e
      · exact .pure hi' ⟨.rangeTo _, rfl⟩ e
      · exact .stuck e
    | ref _ d =>
      rw [okE] at ho
      exact End.val (part e ho hi)
    | deref d =>
      rw [okE] at ho
      exact End.val (part e ho hi)
    | not d =>
      rw [okE] at ho
      refine End.val (.bind e (fun r e => part e ho hi) fun v v' σ' S' hq hi' _ r e => ?_)
      obtain ⟨hv, rfl⟩ := hq
      split at e
      · exact .pure hi' ⟨.bool _, rfl⟩ e
      · exact .stuck e
    | bin op a d =>
      rw [okE, Bool.and_eq_true] at ho
      have other : (do let x ← eval C a; let y ← eval C d; binVal P op x y : M Val) σ = some r →
          End c w K b ρ S (ValOf ρ (.bin op a d)) ((do let x ← Spec.Store.eval P C ρ a; let y ← Spec.Store.eval P C ρ d; binVal P op x y : M Val) S) r := by
        intro e
        refine End.val (.bind e (fun r e => part e ho.1 hi) fun v v' σ' S' hq hi' _ r e => .bind e (fun r e => part e ho.2 hi') fun u u' σ'' S'' hq' hi'' _ r e => ?_)
        obtain ⟨_, rfl⟩ := hq
        obtain ⟨_, rfl⟩ := hq'
        exact End.lift lifts_binVal hi'' e
      cases op with
      | and =>
        refine End.val (.bind e (fun r e => part e ho.1 hi) fun v v' σ' S' hq hi' _ r e => ?_)
        obtain ⟨hv, rfl⟩ := hq
        split at e
        · exact part e ho.2 hi'
        · exact .pure hi' ⟨.bool _, rfl⟩ e
        · exact .stuck e
      | or =>
        refine End.val (.bind e (fun r e => part e ho.1 hi) fun v v' σ' S' hq hi' _ r e => ?_)
        obtain ⟨hv, rfl⟩ := hq
        split at e
        · exact .pure hi' ⟨.bool _, rfl⟩ e
        · exact part e ho.2 hi'
        · exact .stuck e
      | _ => exact other e
    | cast d t =>
      rw [okE] at ho
      refine End.val (.bind e (fun r e => part e ho hi) fun v v' σ' S' hq hi' _ r e => ?_)
      obtain ⟨hv, rfl⟩ := hq
      exact End.lift lifts_castVal hi' e
    | ite a d f =>
      rw [okE, Bool.and_eq_true, Bool.and_eq_true] at ho
      refine End.val (.bind e (fun r e => part e ho.1.1 hi) fun v v' σ' S' hq hi' _ r e => ?_)
      obtain ⟨hv, rfl⟩ := hq
      split at e
      · exact part e ho.1.2 hi'
      · exact part e ho.2 hi'
      · exact .stuck e
    | «match» d arms =>
      rw [okE, Bool.and_eq_true] at ho
      refine End.val (.bind e (fun r e => part e ho.1 hi) fun v v' σ' S' hq hi' _ r e => ?_)
      obtain ⟨hv, rfl⟩ := hq
      exact h7 _ _ _ σ' r e w K b ρ S' hv ho.2 hi'
    | loop d =>
      rw [okE] at ho
      exact End.val (h6 _ _ σ r e w K b ρ S ho hi)
    | «while» a d =>
      rw [okE, Bool.and_eq_true] at ho
      exact End.val (h5 _ _ _ σ r e w K b ρ S ho.1 ho.2 hi)
    | «for» x a d =>
      rw [okE, Bool.and_eq_true, Bool.and_eq_true] at ho
      refine End.val (.bind e (fun r e => part e ho.1.2 hi) fun v v' σ' S' hq hi' _ r e => ?_)
      obtain ⟨hv, rfl⟩ := hq
      cases hvs : iterate v' with
      | none =>
        rw [hvs] at e
        exact .stuck e
      | some vs =>
        rw [hvs] at e
        exact h4 _ _ _ _ σ' r e w K b ρ S' (fo_iterate hvs hv) (mem_K ho.1.1) ho.2 hi'
    | «break» d =>
      rw [okE] at ho
      refine End.val (.bind e (fun r e => part e ho hi) fun v v' σ' S' hq hi' _ r e => ?_)
      obtain ⟨hv, rfl⟩ := hq
      cases e
      exact ⟨S', rfl, hv, hi', .refl⟩
    | «return» d =>
      rw [okE] at ho
      refine End.val (.bind e (fun r e => part e ho hi) fun v v' σ' S' hq hi' _ r e => ?_)
      obtain ⟨hv, rfl⟩ := hq
      cases e
      exact ⟨S', rfl, hv, hi', .refl⟩
    | block ss d =>
      rw [okE, Bool.and_eq_true] at ho
      obtain ⟨r', e1, e2⟩ := Option.bind_eq_some_iff.mp e
      cases e2
      exact End.val (h3 _ _ _ σ r' e1 w K b ρ S ho.1 ho.2 hi)
    | struct segs fs =>
      rw [okE] at ho
      refine End.val (.bind e (fun r e => h2 _ _ σ r e w K b ρ S ho hi) fun v v' σ' S' hq hi' _ r e => ?_)
      obtain ⟨hv, rfl⟩ := hq
      exact .pure hi' ⟨.struct hv, rfl⟩ e
    | assign p d =>
      rw [okE, Bool.and_eq_true, Bool.and_eq_true] at ho
      obtain ⟨⟨rfl, ho1⟩, ho2⟩ := ho
      refine End.val (.bind e (fun r e => part e ho2 hi) fun v v' σ' S' hq hi' _ r e => ?_)
      obtain ⟨hv, rfl⟩ := hq
      exact .bind e (fun r e => end_assignPlace ho1 hv hi' e) fun _ _ σ'' S'' _ hi'' _ r e => .pure hi'' ⟨.unit, rfl⟩ e
    | opAssign op p d =>
      rw [okE, Bool.and_eq_true, Bool.and_eq_true] at ho
      obtain ⟨⟨rfl, ho1⟩, ho2⟩ := ho
      refine End.val (.bind e (fun r e => part e ho2 hi) fun v v' σ' S' hq hi' _ r e => ?_)
      obtain ⟨hv, rfl⟩ := hq
      refine .bind e (fun r e => end_readPlace hi' ho1 e) fun u u' σ'' S'' hq hi'' _ r e => ?_
      obtain ⟨hu, rfl⟩ := hq
      refine .bind e (fun r e => End.lift lifts_binVal hi'' e) fun q q' σ₃ S₃ hq hi₃ _ r e => ?_
      obtain ⟨hr, rfl⟩ := hq
      exact .bind e (fun r e => end_assignPlace ho1 hr hi₃ e) fun _ _ σ'' S'' _ hi'' _ r e => .pure hi'' ⟨.unit, rfl⟩ e
    | tuple es =>
      rw [okE] at ho
      refine End.val (.bind e (fun r e => h12 _ _ σ r e false w K b ρ S ho hi) fun v v' σ' S' hq hi' _ r e => ?_)
      obtain ⟨_, ⟨hv, rfl⟩ | ⟨h, _⟩, _⟩ := hq
      · exact .pure hi' ⟨.tuple hv, rfl⟩ e
      · cases h
    | array es =>
      rw [okE] at ho
      refine End.val (.bind e (fun r e => h12 _ _ σ r e false w K b ρ S ho hi) fun v v' σ' S' hq hi' _ r e => ?_)
      obtain ⟨_, ⟨hv, rfl⟩ | ⟨h, _⟩, _⟩ := hq
      · exact .pure hi' ⟨.array hv, rfl⟩ e
      · cases h
    | «matches» d p =>
      rw [okE] at ho
      refine End.val (.bind e (fun r e => part e ho hi) fun v v' σ' S' hq hi' _ r e => ?_)
      obtain ⟨hv, rfl⟩ := hq
      exact .pure hi' ⟨.bool _, rfl⟩ e
    | panic =>
      cases e
      exact ⟨S, rfl⟩
  · -- fields
    intro eval evalFields h1 h2 C fs σ r e w K b ρ S ho hi
    rw [Spec.Store.evalFields.eq_def]
    match fs, ho with
    | [], ho => exact .pure hi ⟨by simp, rfl⟩ e
    | .mk f d :: fs, ho =>
      rw [okFields, Bool.and_eq_true] at ho
      refine .bind e (fun r e => (h1 _ _ σ r e).1 w K b ρ S ho.1 hi) fun v v' σ' S' hq hi' _ r e => ?_
      obtain ⟨hv, rfl, _⟩ := hq
      refine .bind e (fun r e => h2 _ _ σ' r e w K b ρ S' ho.2 hi') fun vs vs' σ'' S'' hq hi'' _ r e => ?_
      obtain ⟨hvs, rfl⟩ := hq
      refine .pure hi'' ⟨?_, rfl⟩ e
      intro p hp
      rcases List.mem_cons.mp hp with rfl | hp
      · exact hv
      · exact hvs p hp
  · -- blocks
    intro eval evalBlock h1 h2 C ss d σ r e w K b ρ S hs ho hi
    rw [Spec.Store.evalBlock.eq_def, hi.length]
    match ss, hs with
    | [], _ => exact End.scope (n := []) (by simp) .refl ((h1 _ _ σ r e).1 w K b ρ S ho hi).same rfl
    | .expr a :: ss, hs =>
      rw [okStmts, Bool.and_eq_true] at hs
      refine End.bindScope e (fun r e => (h1 _ _ σ r e).1 w K b ρ S hs.1 hi) fun v v' σ' S' _ hi' r e => ?_
      have := h2 _ _ _ σ' r e w K b ρ S' hs.2 ho hi'
      rw [hi'.length] at this
      exact this
    | .let p a :: ss, hs =>
      rw [okStmts, Bool.and_eq_true, Bool.and_eq_true] at hs
      refine End.bindScope e (fun r e => (h1 _ _ σ r e).1 w K b ρ S hs.1.2 hi) fun v v' σ' S' hq hi' r e => ?_
      obtain ⟨hv, rfl, _⟩ := hq
      cases hp : matchPat P C p v' with
      | none =>
        rw [hp] at e
        cases e
        trivial
      | some new =>
        rw [hp] at e
        have hn := matchPat_fo hp hv
        have hi'' := hi'.alloc (fun q hq => (hn q hq).1) (fun q hq => all_T hs.1.1 _ (hn q hq).2)
        have := h2 _ _ _ (new ++ σ') r e w K b _ _ hs.2 ho hi''
        rw [List.length_append, hi'.length] at this
        rw [← close_close]
        exact End.scope (cells_ge _ _) (frame_append _ _) this rfl
  · -- `for`
    intro eval evalFor h1 h2 C x vs d σ r e w K b ρ S hv hx ho hi
    rw [Spec.Store.evalFor.eq_def]
    match vs, hv with
    | [], _ => exact .pure hi ⟨.unit, rfl⟩ e
    | v :: vs, hv =>
      refine End.afterBody (Q := SameVal) e (fun r e => ?_) fun σ' S' hi' r e => h2 _ _ _ _ σ' r e w K b ρ S' (fun v h => hv v (by simp [h])) hx ho hi'
      exact End.inScope hi (by simpa using hv v (by simp)) (by simpa using hx) (fun ρ' hi' r e => ((h1 _ _ _ r e).1 w K b _ _ ho hi').same) e
  · -- `while`
    intro eval evalWhile h1 h2 C a d σ r e w K b ρ S ha ho hi
    rw [Spec.Store.evalWhile.eq_def]
    refine .bind e (fun r e => (h1 _ _ σ r e).1 w K b ρ S ha hi) fun v v' σ' S' hq hi' _ r e => ?_
    obtain ⟨hv, rfl, _⟩ := hq
    split at e
    · exact End.afterBody e (fun r e => (h1 _ _ σ' r e).1 w K b ρ S' ho hi') fun σ'' S'' hi'' r e => h2 _ _ _ σ'' r e w K b ρ S'' ha ho hi''
    · exact .pure hi' ⟨.unit, rfl⟩ e
    · exact .stuck e
  · -- `loop`
    intro eval evalLoop h1 h2 C d σ r e w K b ρ S ho hi
    rw [Spec.Store.evalLoop.eq_def]
    exact End.afterBody e (fun r e => (h1 _ _ σ r e).1 w K b ρ S ho hi) fun σ' S' hi' r e => h2 _ _ σ' r e w K b ρ S' ho hi'
  · -- arms
    intro eval evalArms h1 h2 C v as σ r e w K b ρ S hv ho hi
    rw [Spec.Store.evalArms.eq_def]
    match as, ho with
    | [], _ => exact .stuck e
    | .mk p d :: as, ho =>
      rw [okArms, Bool.and_eq_true, Bool.and_eq_true] at ho
      dsimp only at e ⊢
      cases hp : matchPat P C p v with
      | some new =>
        rw [hp] at e
        have hn := matchPat_fo hp hv
        exact End.inScope hi (fun q hq => (hn q hq).1) (fun q hq => all_T ho.1.1 _ (hn q hq).2)
          (fun ρ' hi' r e => ((h1 _ _ _ r e).1 w K b _ _ ho.1.2 hi').same) e
      | none =>
        rw [hp] at e
        exact h2 _ _ _ σ r e w K b ρ S hv ho.2 hi
  · -- methods
    intro callPath callFn applyVal h1 h2 h3 C v m vs σ r e vs' ls S hv hvs hlen hw
    rw [Spec.Store.callMethod.eq_def]
    have none_end : ∀ {o : Val} {vs}, CallEnd c m σ S ls ((pure o : M Val) S) (.ok (o, vs) σ) ↔ FO o ∧ Wrote S S ls vs ∧ (m ∉ c.W → ∀ w ∈ vs, w = none) := by
      intro o vs
      constructor
      · rintro ⟨_, S', h1, h2, h3, h4⟩
        cases h1
        exact ⟨h2, h3, h4⟩
      · rintro ⟨h2, h3, h4⟩
        exact ⟨rfl, S, rfl, h2, h3, h4⟩
    have wnil : Wrote S S ls [] := wrote_frame (ρ := []) .refl (fun _ _ hm => by simp at hm)
    -- a call of the argument
    have apply : ∀ {f f' u : Val} {k : Val → Val} {r}, ((FO f ∧ f' = f) ∨ Clo c S.length S f f') → FO u → (∀ r, FO r → FO (k r)) →
        (do let r ← applyVal C f [u]; pure (k r, []) : M (Val × List (Option Val))) σ = some r →
        CallEnd c m σ S ls ((do let r ← Spec.Store.applyVal P C f' [u]; pure (k r) : M Val) S) r := by
      intro f f' u k r hf hu hk e
      obtain ⟨r', e1, e2⟩ := Option.bind_eq_some_iff.mp e
      have H := h3 _ _ _ σ r' e1 f' S hf (by intro v hv; simp at hv; subst hv; exact hu)
      show CallEnd c m σ S ls ((Spec.Store.applyVal P C f' [u] S).bind _) r
      rcases r' with ⟨v, σ'⟩ | ⟨d, σ'⟩
      · obtain ⟨rfl, S', p1, p2, p3⟩ := H
        cases e2
        rw [p1]
        exact ⟨rfl, S', rfl, hk _ p2, wrote_frame p3 (fun _ _ hm => by simp at hm), fun _ _ h => nomatch h⟩
      · cases e2
        cases d with
        | panic p =>
          obtain ⟨S', p1⟩ := H
          rw [p1]
          exact ⟨S', rfl⟩
        | stuck => trivial
        | _ => exact H.elim
    dsimp only at e ⊢
    rcases hvs with ⟨hvs, rfl⟩ | ⟨hm, hvs⟩
    · cases hf : methodOf P v m vs' with
      | some f =>
        rw [hf] at e
        dsimp only at e ⊢
        obtain ⟨p1, p2, p3⟩ : f ∈ P.fns ∧ f.fn.name = m ∧ (v :: vs').length = f.fn.params.length := by
          unfold methodOf at hf
          split at hf
          · exact lookup_fn hf
          · exact lookup_fn hf
          · cases hf
        subst p2
        refine h2 _ _ σ r e _ ls S p1 p3 ⟨by simpa using hlen, .inl ⟨?_, rfl⟩, hw⟩
        intro x hx
        rcases List.mem_cons.mp hx with rfl | hx
        · exact hv
        · exact hvs x hx
      | none =>
        rw [hf] at e
        dsimp only at e ⊢
        rcases hh : higherOrder v m with _ | r₀ | ⟨u, k⟩
        · rw [hh] at e
          exact end_core hT h1 C v m vs' ls hv hvs hlen hw e
        · rw [hh] at e
          have hr := fo_higherOrder hv hh
          rcases vs' with _ | ⟨f, _ | ⟨g, vs'⟩⟩
          · exact end_core hT h1 C v m _ ls hv hvs hlen hw e
          · cases e
            exact none_end.mpr ⟨hr, wnil, fun _ _ h => nomatch h⟩
          · exact end_core hT h1 C v m _ ls hv hvs hlen hw e
        · rw [hh] at e
          have hr := fo_higherOrder hv hh
          rcases vs' with _ | ⟨f, _ | ⟨g, vs'⟩⟩
          · exact end_core hT h1 C v m _ ls hv hvs hlen hw e
          · exact apply (.inl ⟨hvs f (by simp), rfl⟩) hr.1 hr.2 e
          · exact end_core hT h1 C v m _ ls hv hvs hlen hw e
    · -- no function of the program
      have hno : ∀ vs, methodOf P v m vs = none := by
        intro vs
        cases hf : methodOf P v m vs with
        | none => rfl
        | some f =>
          exfalso
          unfold methodOf at hf
          split at hf
          · obtain ⟨h4, rfl, _⟩ := lookup_fn hf
            exact hT.higher f h4 hm
          · obtain ⟨h4, rfl, _⟩ := lookup_fn hf
            exact hT.higher f h4 hm
          · cases hf
      rw [hno] at e ⊢
      dsimp only at e ⊢
      have core_stuck : ∀ {vs : List Val} {o : Option (Res Val)} {r}, (match (generalizing := false) v, m, vs with
          | .char c, "try_into", [] => callPath C (okType P C) "try_from" [.char c]
          | v, m, vs => coreMethod P C v m vs) σ = some r → CallEnd c m σ S ls o r := by
        intro vs o r e
        split at e
        · simp [higher] at hm
        · rw [coreMethod_higher hm] at e
          cases e
          trivial
      obtain ⟨init, u, u', rfl, rfl, p1, p2⟩ := hvs
      rcases hh : higherOrder v m with _ | r₀ | ⟨q, k⟩
      · rw [hh] at e
        exact core_stuck e
      · rw [hh] at e
        have hr := fo_higherOrder hv hh
        rcases init with _ | ⟨g, _ | ⟨g', init⟩⟩
        · cases e
          exact none_end.mpr ⟨hr, wnil, fun _ _ h => nomatch h⟩
        · exact core_stuck e
        · exact core_stuck e
      · rw [hh] at e
        have hr := fo_higherOrder hv hh
        rcases init with _ | ⟨g, _ | ⟨g', init⟩⟩
        · exact apply (.inr p2) hr.1 hr.2 e
        · exact core_stuck e
        · exact core_stuck e
  · -- calls by name
    intro callPath callFn h1 h2 C o f vs σ r e vs' ls S ha
    rw [Spec.Store.callPath.eq_def]
    have hlk : P.lookup o f vs' = P.lookup o f vs := by
      rcases ha.vals with ⟨_, rfl⟩ | ⟨_, h⟩
      · rfl
      · exact h.lookup o f
    dsimp only at e ⊢
    rw [hlk]
    cases hf : P.lookup o f vs with
    | some g =>
      rw [hf] at e
      obtain ⟨hg, rfl, hl⟩ := lookup_fn hf
      exact h2 _ _ σ r e vs' ls S hg hl ha
    | none =>
      rw [hf] at e
      dsimp only at e ⊢
      rcases ha.vals with ⟨hv, rfl⟩ | ⟨_, h⟩
      · cases hn : newOf P o f vs' with
        | none =>
          rw [hn] at e
          exact callEnd_lift lifts_corePath e
        | some d =>
          rw [hn] at e
          obtain ⟨a, s⟩ := d
          dsimp only at e ⊢
          obtain ⟨r', e1, e2⟩ := Option.bind_eq_some_iff.mp e
          have H := h1 _ _ _ _ σ r' e1 _ _ S (.temp (c := c) (vs := [.str s]) (by intro v hv; simp at hv; subst hv; constructor))
          show CallEnd c f σ S ls ((Spec.Store.callPath P C a "validate_str" [.str s] [.temp] S).bind _) r
          rcases r' with ⟨⟨v, ws⟩, σ'⟩ | ⟨d, σ'⟩
          · obtain ⟨rfl, S', h3, h4, h5, _⟩ := H
            have h3 : Spec.Store.callPath P C a "validate_str" [.str s] [.temp] S = some (.ok v S') := h3
            rw [h3]
            have hfr : Frame false [] S S' := h5.frame fun l u hm => not_zip_temp hm
            have hwr : Wrote S S' ls [] := wrote_frame hfr fun l u hm => by simp at hm
            dsimp only at e2
            split at e2
            · cases e2
              exact ⟨rfl, S', rfl, .ok (.newtype _ _), hwr, fun _ _ h => nomatch h⟩
            · cases e2
              exact ⟨rfl, S', rfl, .err (.str _), hwr, fun _ _ h => nomatch h⟩
            · cases e2
              trivial
          · cases e2
            cases d with
            | panic p =>
              obtain ⟨S', h3⟩ := H
              have h3 : Spec.Store.callPath P C a "validate_str" [.str s] [.temp] S = some (.ctl (.panic p) S') := h3
              rw [h3]
              exact ⟨S', rfl⟩
            | stuck => trivial
            | _ => exact H.elim
      · rw [(h.newOf o f).1] at e
        dsimp only at e
        rw [h.corePath o f] at e
        cases e
        trivial
  · -- functions
    intro eval h1 f vs σ r e vs' ls S hf hl ha
    rw [Spec.Store.callFn.eq_def]
    have hok := hT.fns f hf
    obtain ⟨ρ, new, b1, hi, hK, b4, b5, b6⟩ := enter hT hf hl ha
    obtain ⟨r', e1, e2⟩ := Option.bind_eq_some_iff.mp e
    cases e2
    have H := (h1 _ _ _ r' e1).1 true _ _ ρ (S ++ new) hok.body hi
    have hstore : (do let ρ ← Spec.Store.bindParams f.fn.params vs' ls; Spec.Store.eval P ⟨f.owner, f.trait, f.fn.ret⟩ ρ f.fn.body : M Val) S =
        Spec.Store.eval P ⟨f.owner, f.trait, f.fn.ret⟩ ρ f.fn.body (S ++ new) := by
      show (Spec.Store.bindParams f.fn.params vs' ls S).bind _ = _
      rw [b1]
      rfl
    show CallEnd c f.fn.name σ S ls (((do let ρ ← Spec.Store.bindParams f.fn.params vs' ls; Spec.Store.eval P ⟨f.owner, f.trait, f.fn.ret⟩ ρ f.fn.body : M Val) S).bind _) _
    rw [hstore]
    have wr : ∀ {σ' S'}, Inv c (closureParams f.fn) S.length σ' ρ S' → Frame true ρ (S ++ new) S' → Wrote S S' ls (finals f.fn.params σ') ∧
        (f.fn.name ∉ c.W → ∀ w ∈ finals f.fn.params σ', w = none) := by
      intro σ' S' hi' hf
      refine ⟨wrote_finals hok.names hi' (by simp) (fun l hl => List.getElem?_append_left hl) hf hK b4 b5 b6, fun hn => finals_none ?_⟩
      by_cases h0 : 0 < f.fn.params.countP isMut
      · exact absurd (hok.writer h0) hn
      · omega
    rcases r' with ⟨v, σ'⟩ | ⟨d, σ'⟩
    · obtain ⟨v', S', a1, ⟨a2, rfl, _⟩, a3, a4⟩ := H
      rw [a1]
      exact ⟨rfl, S', rfl, a2, wr a3 a4⟩
    · cases d with
      | ret v =>
        obtain ⟨S', a1, a2, a3, a4⟩ := H
        rw [a1]
        exact ⟨rfl, S', rfl, a2, wr a3 a4⟩
      | brk v => trivial
      | panic p =>
        obtain ⟨S', a1⟩ := H
        rw [a1]
        exact ⟨S', rfl⟩
      | stuck => trivial
  · -- values
    intro eval callPath h1 h2 C f vs σ r e f' S hf hvs
    rcases hf with ⟨hf, rfl⟩ | ⟨ps, body, σ₀, ρ₀, D, rfl, rfl, a1, a2, a3, a4, a5, a6⟩
    · rw [Spec.Store.applyVal.eq_def]
      cases hf with
      | fn o g =>
        dsimp only at e ⊢
        obtain ⟨r', e1, e2⟩ := Option.bind_eq_some_iff.mp e
        have H := h2 _ _ _ _ σ r' e1 _ _ S (.temp hvs)
        rcases r' with ⟨⟨v, ws⟩, σ'⟩ | ⟨d, σ'⟩
        · cases e2
          obtain ⟨rfl, S', b1, b2, b3, _⟩ := H
          exact ⟨rfl, S', b1, b2, b3.frame fun l u hm => not_zip_temp hm⟩
        · cases e2
          cases d with
          | panic p => exact H
          | stuck => trivial
          | _ => exact H.elim
      | _ => cases e; trivial
    · rw [Spec.Store.applyVal.eq_def]
      dsimp only at e ⊢
      cases hp : matchPats P D ps vs with
      | none =>
        rw [hp] at e
        cases e
        trivial
      | some new =>
        rw [hp] at e
        have hn := matchPats_fo hp hvs
        have hi : Inv c [] S.length σ₀ ρ₀ S := by
          refine ⟨a3.imp fun x u l _ hr => ?_, a4, fun h => absurd rfl h, a5, Nat.le_refl _⟩
          obtain ⟨h, z, hz⟩ := hr
          exact ⟨z, u, hz, .inl ⟨h, rfl⟩⟩
        have hi' := hi.alloc (fun q hq => (hn q hq).1) (fun q hq => a1 _ (hn q hq).2)
        refine applyEnd_of (c := c) (K := []) (b := S.length) (ρ₀ := cells S.length new ++ ρ₀) (e := body) (fun r e => ?_) e
        have := (h1 _ _ _ r e).1 false [] S.length _ _ a2 hi'
        show End c false [] S.length _ S _ (Spec.Store.eval P D (cells S.length new ++ kept (keep ρ₀)) body (S ++ new)) r
        rw [kept_keep]
        exact this.trans (frame_append S new)
  · -- arguments
    intro eval evalList h1 h2 C es σ r e cl w K b ρ S ho hi
    rw [Spec.Store.evalList.eq_def]
    match es, ho with
    | [], _ => exact .pure (a := []) (a' := []) hi ⟨rfl, .inl ⟨(fun _ h => nomatch h), rfl⟩, fun _ _ l v hm => by simp at hm⟩ e
    | d :: es, ho =>
      by_cases hd : ∃ ps body, d = .closure ps body
      · obtain ⟨ps, body, rfl⟩ := hd
        simp only [okArgs, Bool.and_eq_true, List.isEmpty_iff] at ho
        obtain ⟨⟨⟨⟨⟨rfl, rfl⟩, rfl⟩, ho2⟩, ho3⟩, _⟩ := ho
        obtain ⟨r', e1, e2⟩ := Option.bind_eq_some_iff.mp e
        obtain rfl := (h1 _ _ σ r' e1).2 ps body rfl
        obtain ⟨r', e3, e4⟩ := Option.bind_eq_some_iff.mp e2
        have H := h2 _ _ σ r' e3 false w [] b ρ S (by rw [okArgs]) hi
        have hst : Spec.Store.eval P C ρ (.closure ps body) S = some (.ok (.closure ps body (keep ρ) C) S) := by
          rw [Spec.Store.eval.eq_def]
          rfl
        show End c w [] b ρ S _ ((Spec.Store.eval P C ρ (.closure ps body) S).bind _) r
        rw [hst]
        show End c w [] b ρ S _ ((Spec.Store.evalList P C ρ [] S).bind _) r
        have hnil : Spec.Store.evalList P C ρ [] S = some (.ok [] S) := by
          rw [Spec.Store.evalList.eq_def]
          rfl
        rw [hnil] at H ⊢
        rcases r' with ⟨vs, σ'⟩ | ⟨d, σ'⟩
        · cases e4
          obtain ⟨vs', S', a1, ⟨a2, _, _⟩, a3, a4⟩ := H
          cases a1
          obtain rfl : vs = [] := List.eq_nil_of_length_eq_zero a2
          refine ⟨_, S, rfl, ⟨rfl, .inr ⟨rfl, [], _, _, rfl, rfl, (fun _ h => nomatch h), ?_⟩, fun _ _ l v hm => by simp [whereIs] at hm⟩, a3, .refl⟩
          refine ⟨ps, body, σ, ρ, C, rfl, rfl, all_T ho2, ho3, hi.vars.imp fun x u l _ hc => ?_, hi.nodup, hi.names, hi.lt⟩
          obtain ⟨z, u', hz, ⟨hu, rfl⟩ | ⟨h, _⟩⟩ := hc
          · exact ⟨hu, z, hz⟩
          · cases h
        · cases e4
          cases d with
          | panic p =>
            obtain ⟨S', a1⟩ := H
            cases a1
          | stuck => trivial
          | ret v =>
            obtain ⟨S', a1, _⟩ := H
            cases a1
          | brk v =>
            obtain ⟨S', a1, _⟩ := H
            cases a1
      · have ho : okE c w K d = true ∧ okArgs c cl w K es = true := by
          rw [okArgs, Bool.and_eq_true] at ho
          · exact ho
          · rintro ps body rfl
            exact hd ⟨ps, body, rfl⟩
        refine .bind e (fun r e => (h1 _ _ σ r e).1 w K b ρ S ho.1 hi) fun v v' σ' S' hq hi' _ r e => ?_
        obtain ⟨hv, rfl, hpl⟩ := hq
        refine .bind e (fun r e => (h2 _ _ σ' r e cl w K b ρ S' ho.2 hi').imp (Q' := fun S'' vs vs' => ValsOf c cl w ρ es S'' vs vs' ∧ Frame w ρ S' S'') fun _ _ _ hf hq => ⟨hq, hf⟩)
          fun vs vs' σ'' S'' hq hi'' _ r e => ?_
        obtain ⟨⟨hl, hvs, hh⟩, hf⟩ := hq
        refine .pure hi'' ⟨by simp [hl], ?_, fun hw hs l u hm => ?_⟩ e
        · rcases hvs with ⟨hvs, rfl⟩ | ⟨hc, init, u, u', rfl, rfl, hin, hu⟩
          · refine .inl ⟨?_, rfl⟩
            intro x hx
            rcases List.mem_cons.mp hx with rfl | hx
            · exact hv
            · exact hvs x hx
          · refine .inr ⟨hc, v' :: init, u, u', rfl, rfl, ?_, hu⟩
            intro x hx
            rcases List.mem_cons.mp hx with rfl | hx
            · exact hv
            · exact hin x hx
        · subst hw
          rw [List.map_cons, List.zip_cons_cons, List.mem_cons] at hm
          rcases hm with hm | hm
          · simp only [Prod.mk.injEq] at hm
            obtain ⟨hm, rfl⟩ := hm
            obtain ⟨x, rfl, hx⟩ := simple_at (hs d (by simp)) hm.symm
            obtain ⟨z, hz⟩ := hpl x l rfl hx
            rw [← hf.2 l (List.getElem?_eq_some_iff.mp hz).1 (by simp)] at hz
            exact ⟨z, hz⟩
          · exact hh rfl (fun d hd => hs d (by simp [hd])) l u hm
  · -- paths
    intro eval h1 C segs σ r e w K b ρ S ho hi
    rw [Spec.Store.evalPath.eq_def]
    rcases segs with _ | ⟨x, _ | ⟨y, segs⟩⟩
    · exact (end_item hT h1 C [] hi e).val
    · have e : (match σ.lookup x with
        | some v => pure v
        | none =>
          match ctorOf P C [x] with
          | some (ty, x) => pure (.ctor ty x [])
          | none =>
            if [x] = ["u8", "MAX"] then pure (.u8 255)
            else
              match P.consts.find? fun (o, y, _) => o = (memberOf P C [x]).1 && y = (memberOf P C [x]).2 with
              | some (o, _, e) => calledIn [] (eval ⟨o, "", .tuple []⟩ e)
              | none => pure (.fn (memberOf P C [x]).1 (memberOf P C [x]).2) : M Val) σ = some r := by
        rw [← e]
        show _ = (match [x], σ.lookup x with | [_], some g => _ | _, _ => _ : M Val) σ
        cases σ.lookup x <;> rfl
      show End c w K b ρ S _ ((match [x], ρ.lookup x with | [_], some l => _ | _, _ => _ : M Val) S) r
      cases hx : ρ.lookup x with
      | none =>
        rw [hi.vars.lookup_none hx] at e
        refine (end_item hT h1 C [x] hi e).imp fun S' v v' _ hq => ⟨hq.1, hq.2, fun y l h hl => ?_⟩
        cases h
        rw [hx] at hl
        cases hl
      | some l =>
        rw [okE] at ho
        obtain ⟨v, z, a1, a2, a3⟩ := hi.var hx (mem_K ho)
        rw [a1] at e
        cases e
        refine ⟨v, S, ?_, ⟨a2, rfl, fun y k h hk => ?_⟩, hi, .refl⟩
        · show Spec.Store.read l S = _
          unfold Spec.Store.read
          rw [a3]
        · cases h
          rw [hx] at hk
          cases hk
          exact ⟨z, a3⟩
    · exact (end_item hT h1 C (x :: y :: segs) hi e).val

/-- What a function writes: a value for each `&mut` parameter. -/
theorem fn_writes (hT : Tame c P) {f : Fn} {vs : List Val} {σ σ' : Env} {v : Val} {ws : List (Option Val)} (hf : f ∈ P.fns) (hl : vs.length = f.fn.params.length)
    (hv : FOs vs) (e : callFn P f vs σ = some (.ok (v, ws) σ')) :
    ∃ g : String × Ty → Option Val, ws = f.fn.params.map g ∧ ∀ p ∈ f.fn.params, (g p).isSome = isMut p := by
  obtain ⟨ρ, new, b1, hi, hK, b4, b5, b6⟩ := enter hT hf hl (.temp (S := []) hv)
  rw [callFn.eq_def] at e
  obtain ⟨r', e1, e2⟩ := Option.bind_eq_some_iff.mp e
  have H := ((sim_all hT).1 _ _ _ r' e1).1 true _ _ ρ _ (hT.fns f hf).body hi
  have key : ∀ {σ' S'}, Inv c (closureParams f.fn) 0 σ' ρ S' →
      ∃ g : String × Ty → Option Val, finals f.fn.params σ' = f.fn.params.map g ∧ ∀ p ∈ f.fn.params, (g p).isSome = isMut p := by
    intro σ' S' hi
    refine ⟨_, rfl, fun ⟨x, t⟩ hp => ?_⟩
    have hl : σ'.length - f.fn.params.length = 0 := by
      rw [hi.length]
      have := congrArg List.length b4
      simp at this
      omega
    dsimp only
    split
    · obtain ⟨l, hx⟩ : ∃ l, ρ.lookup x = some l := by
        have : x ∈ ρ.map (·.1) := by
          rw [b4]
          exact List.mem_map.mpr ⟨_, hp, rfl⟩
        obtain ⟨⟨y, l⟩, hy, rfl⟩ := List.mem_map.mp this
        exact ⟨l, lookup_of_mem (by rw [b4]; exact (hT.fns f hf).names) hy⟩
      obtain ⟨u, z, hu, _⟩ := hi.var hx (by
        rw [hK (List.countP_pos_iff.mpr ⟨_, hp, rfl⟩)]
        simp)
      rw [hl, List.drop_zero, hu]
      rfl
    · rename_i hn
      unfold isMut
      split
      · rename_i h
        cases h
        exact absurd rfl (hn _)
      · rfl
  rcases r' with ⟨v', σ₁⟩ | ⟨d, σ₁⟩
  · obtain ⟨_, _, _, _, hi', _⟩ := H
    cases e2
    exact key hi'
  · cases d with
    | ret v =>
      obtain ⟨_, _, _, hi', _⟩ := H
      cases e2
      exact key hi'
    | _ => cases e2

end Langtag.Source.Store
