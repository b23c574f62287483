import Verif.Source.Store.Tame

/-!
# Values without closures

What is not about variables gives values without closures for values without closures, whatever the variables are.
-/

set_option autoImplicit false

namespace Langtag.Source.Store
open Langtag.Model (Panic Rust)
open Langtag.Spec.Plain (patNames patNamesAll)

/-- All without closures. -/
abbrev FOs (vs : List Val) : Prop := ∀ v ∈ vs, FO v

theorem FO.unit : FO .unit := .tuple (by simp)
theorem FO.some {v : Val} (h : FO v) : FO (.some v) := .ctor (by simpa using h)
theorem FO.none : FO .none := .ctor (by simp)
theorem FO.ok {v : Val} (h : FO v) : FO (.ok v) := .ctor (by simpa using h)
theorem FO.err {v : Val} (h : FO v) : FO (.err v) := .ctor (by simpa using h)
theorem FO.ordering (o : Ordering) : FO (.ordering o) := by cases o <;> exact .ctor (by simp)
theorem FO.newtype (ty : List String) (s : List UInt8) : FO (newtype ty s) := .ctor (by simpa using FO.str s)
theorem FO.ctor_inv {ty : List String} {x : String} {vs : List Val} (h : FO (.ctor ty x vs)) : FOs vs := by cases h; assumption
theorem FO.ctor_one {ty : List String} {x : String} {v : Val} (h : FO (.ctor ty x [v])) : FO v := h.ctor_inv v (by simp)
theorem FO.tuple_inv {vs : List Val} (h : FO (.tuple vs)) : FOs vs := by cases h; assumption
theorem FO.array_inv {vs : List Val} (h : FO (.array vs)) : FOs vs := by cases h; assumption
theorem FO.struct_inv {ty : List String} {fs : List (String × Val)} (h : FO (.struct ty fs)) : ∀ e ∈ fs, FO e.2 := by cases h; assumption

theorem fo_litVal {l : Lit} {v : Val} (h : litVal l = some v) : FO v := by
  unfold litVal at h
  split at h
  · cases h; constructor
  · cases h; constructor
  · cases h
  · cases h; constructor
  · cases h; constructor
  · split at h
    · cases h; constructor
    · cases h
  · split at h
    · cases h; constructor
    · cases h
  · cases h; constructor

mutual
theorem matchPat_fo {P : Program} {C : Ctx} : ∀ {p : Pat} {v : Val} {new : Env}, matchPat P C p v = some new → FO v → ∀ e ∈ new, FO e.2 ∧ e.1 ∈ patNames p
  | .wild, v, new, h, hv => by rw [matchPat] at h; cases h; simp
  | .lit l, v, new, h, hv => by
    rw [matchPat] at h
    split at h
    · cases h; simp
    · cases h
  | .range a b, v, new, h, hv => by
    rw [matchPat] at h
    split at h
    · cases h; simp
    · cases h
  | .path segs, v, new, h, hv => by
    rw [matchPat.eq_def] at h
    dsimp only at h
    split at h
    · split at h
      · split at h
        · cases h; simp
        · cases h
      · cases h
    · split at h
      · cases h
        simpa [patNames] using hv
      · cases h
  | .ctor segs ps, v, new, h, hv => by
    rw [matchPat.eq_def] at h
    dsimp only at h
    split at h
    · split at h
      · rw [patNames]
        exact matchPats_fo h hv.ctor_inv
      · cases h
    · cases h
  | .tuple ps, v, new, h, hv => by
    rw [matchPat.eq_def] at h
    dsimp only at h
    split at h
    · rw [patNames]
      exact matchPats_fo h hv.tuple_inv
    · cases h
  | .or ps, v, new, h, hv => by
    rw [matchPat] at h
    rw [patNames]
    exact matchAny_fo h hv
theorem matchPats_fo {P : Program} {C : Ctx} : ∀ {ps : List Pat} {vs : List Val} {new : Env}, matchPats P C ps vs = some new → FOs vs →
    ∀ e ∈ new, FO e.2 ∧ e.1 ∈ patNamesAll ps
  | [], [], new, h, hv => by rw [matchPats] at h; cases h; simp
  | [], _ :: _, new, h, hv => by simp [matchPats] at h
  | _ :: _, [], new, h, hv => by simp [matchPats] at h
  | p :: ps, v :: vs, new, h, hv => by
    rw [matchPats] at h
    split at h
    · rename_i a b h1 h2
      cases h
      rw [patNamesAll]
      intro e he
      rcases List.mem_append.mp he with he | he
      · have := matchPats_fo h2 (fun v hv' => hv v (by simp [hv'])) e he
        exact ⟨this.1, List.mem_append_right _ this.2⟩
      · have := matchPat_fo h1 (hv v (by simp)) e he
        exact ⟨this.1, List.mem_append_left _ this.2⟩
    · cases h
theorem matchAny_fo {P : Program} {C : Ctx} : ∀ {ps : List Pat} {v : Val} {new : Env}, matchAny P C ps v = some new → FO v →
    ∀ e ∈ new, FO e.2 ∧ e.1 ∈ patNamesAll ps
  | [], v, new, h, hv => by simp [matchAny] at h
  | p :: ps, v, new, h, hv => by
    rw [matchAny] at h
    rw [patNamesAll]
    split at h
    · rename_i a h1
      cases h
      intro e he
      have := matchPat_fo h1 hv e he
      exact ⟨this.1, List.mem_append_left _ this.2⟩
    · intro e he
      have := matchAny_fo h hv e he
      exact ⟨this.1, List.mem_append_right _ this.2⟩
end

theorem fo_iterate {v : Val} {vs : List Val} (h : iterate v = some vs) (hv : FO v) : FOs vs := by
  unfold iterate at h
  split at h
  · cases h
    intro v hv
    obtain ⟨n, _, rfl⟩ := List.mem_map.mp hv
    exact .usize n
  · cases h
    intro v hv
    obtain ⟨n, _, rfl⟩ := List.mem_map.mp hv
    exact .u8 n
  · cases h
    exact hv.array_inv
  · cases h

theorem fo_setField {f : String} {w : Val} {fs : List (String × Val)} (hw : FO w) (h : ∀ e ∈ fs, FO e.2) : ∀ e ∈ setField f w fs, FO e.2 := by
  induction fs with
  | nil => simp [setField]
  | cons e fs ih =>
    obtain ⟨g, v⟩ := e
    rw [setField]
    split
    · intro e he
      rcases List.mem_cons.mp he with rfl | he
      · exact hw
      · exact h e (by simp [he])
    · intro e he
      rcases List.mem_cons.mp he with rfl | he
      · exact h _ (by simp)
      · exact ih (fun e he => h e (by simp [he])) e he

theorem fo_lookup {f : String} {v : Val} {fs : List (String × Val)} (h : ∀ e ∈ fs, FO e.2) (e : fs.lookup f = some v) : FO v := by
  induction fs with
  | nil => cases e
  | cons p fs ih =>
    obtain ⟨g, u⟩ := p
    rw [List.lookup_cons] at e
    split at e
    · cases e
      exact h (g, v) (by simp)
    · exact ih (fun e he => h e (by simp [he])) e

/-! ## Computations that do not look at variables -/

/-- The computation does not depend on the variables, and leaves them as they are. -/
def Lifts {α : Type} (Q : α → Prop) (x : M α) : Prop := ∀ σ r, x σ = some r →
  match r with
  | .ok a σ' => σ' = σ ∧ Q a ∧ ∀ S, x S = some (.ok a S)
  | .ctl (.panic p) _ => ∀ S, x S = some (.ctl (.panic p) S)
  | .ctl .stuck _ => True
  | .ctl _ _ => False

variable {α β : Type}

theorem lifts_pure {Q : α → Prop} {a : α} (h : Q a) : Lifts Q (pure a) := by
  intro σ r e
  cases e
  exact ⟨rfl, h, fun _ => rfl⟩
theorem lifts_stuck {Q : α → Prop} : Lifts Q (M.stuck : M α) := by
  intro σ r e
  cases e
  trivial
theorem lifts_panic {Q : α → Prop} (p : Panic) : Lifts Q (M.throw (.panic p) : M α) := by
  intro σ r e
  cases e
  exact fun _ => rfl
theorem lifts_ofRust {Q : α → Prop} {x : Rust α} (h : ∀ a, x = .ok a → Q a) : Lifts Q (M.ofRust x) := by
  intro σ r e
  unfold M.ofRust at e ⊢
  cases x with
  | ok a => cases e; exact ⟨rfl, h a rfl, fun _ => rfl⟩
  | error p => cases e; exact fun _ => rfl
theorem lifts_bind {Q : α → Prop} {Q' : β → Prop} {x : M α} {f : α → M β} (h : Lifts Q x) (h' : ∀ a, Q a → Lifts Q' (f a)) : Lifts Q' (x >>= f) := by
  intro σ r e
  obtain ⟨r', e1, e2⟩ := Option.bind_eq_some_iff.mp e
  have H := h σ r' e1
  rcases r' with ⟨a, σ'⟩ | ⟨d, σ'⟩
  · obtain ⟨rfl, hq, hs⟩ := H
    have H' := h' a hq _ r e2
    rcases r with ⟨b, τ⟩ | ⟨d, τ⟩
    · refine ⟨H'.1, H'.2.1, fun S => ?_⟩
      show (x S).bind _ = _
      rw [hs S]
      exact H'.2.2 S
    · cases d with
      | panic p =>
        intro S
        show (x S).bind _ = _
        rw [hs S]
        exact H' S
      | stuck => trivial
      | _ => exact H'
  · cases e2
    cases d with
    | panic p =>
      intro S
      show (x S).bind _ = _
      rw [H S]
      rfl
    | stuck => trivial
    | _ => exact H
theorem lifts_imp {Q Q' : α → Prop} {x : M α} (h : Lifts Q x) (h' : ∀ a, Q a → Q' a) : Lifts Q' x := by
  intro σ r e
  have H := h σ r e
  rcases r with ⟨a, σ'⟩ | ⟨d, σ'⟩
  · exact ⟨H.1, h' _ H.2.1, H.2.2⟩
  · cases d <;> exact H

theorem lifts_overflow {P : Program} {v : Val} (h : FO v) : Lifts FO (overflow P v) := by
  unfold overflow
  split
  · exact lifts_pure h
  · exact lifts_panic _
theorem lifts_arith {P : Program} {op : BinOp} {a b : Val} : Lifts FO (arith P op a b) := by
  unfold arith
  split <;> first | exact lifts_stuck | (split <;> first | exact lifts_pure (by constructor) | exact lifts_overflow (by constructor))
theorem lifts_binVal {P : Program} {op : BinOp} {a b : Val} : Lifts FO (binVal P op a b) := by
  unfold binVal
  split
  · exact lifts_arith
  · exact lifts_arith
  · split
    · split <;> first | exact lifts_stuck | exact lifts_pure (by constructor)
    · exact lifts_stuck
theorem lifts_castVal {v : Val} {t : Ty} : Lifts FO (castVal v t) := by
  unfold castVal
  split <;> first | exact lifts_stuck | exact lifts_pure (by constructor)
theorem lifts_indexVal {v i : Val} : Lifts FO (indexVal v i) := by
  unfold indexVal
  split <;> first
    | exact lifts_stuck
    | exact lifts_bind (lifts_ofRust (Q := fun _ => True) (fun _ _ => trivial)) fun _ _ => lifts_pure (by constructor)
theorem lifts_fieldVal {v : Val} {f : String} (hv : FO v) : Lifts FO (fieldVal v f) := by
  unfold fieldVal
  split
  · split
    · rename_i h
      exact lifts_pure (fo_lookup hv.struct_inv h)
    · exact lifts_stuck
  · split
    · exact lifts_pure hv.ctor_one
    · exact lifts_stuck
  · split
    · exact lifts_pure (by constructor)
    · exact lifts_stuck
  · exact lifts_stuck

theorem fo_defaultOf {t : Ty} {v : Val} (h : defaultOf t = some v) : FO v := by
  unfold defaultOf at h
  split at h
  · cases h; constructor
  · cases h; constructor
  · cases h
theorem fo_defaultFields {fs : List (String × Ty)} {vs : List (String × Val)} (h : defaultFields fs = some vs) : ∀ e ∈ vs, FO e.2 := by
  induction fs generalizing vs with
  | nil => cases h; simp
  | cons p fs ih =>
    obtain ⟨f, t⟩ := p
    rw [defaultFields] at h
    split at h
    · rename_i h1 h2
      cases h
      intro e he
      rcases List.mem_cons.mp he with rfl | he
      · exact fo_defaultOf h1
      · exact ih h2 e he
    · cases h
theorem lifts_derivedDefault {P : Program} {ty : List String} : Lifts FO (derivedDefault P ty) := by
  unfold derivedDefault
  split
  · split
    · split
      · rename_i h
        exact lifts_pure (.struct (fo_defaultFields h))
      · exact lifts_stuck
    · exact lifts_stuck
  · exact lifts_stuck
theorem lifts_corePath {P : Program} {o : List String} {f : String} {vs : List Val} : Lifts FO (corePath P o f vs) := by
  unfold corePath
  split
  · split
    · exact lifts_pure (.ok (.tuple (by intro v hv; simp at hv; rcases hv with rfl | rfl <;> constructor)))
    · exact lifts_pure (.err .unit)
  · exact lifts_pure (by constructor)
  · split
    · exact lifts_pure (.newtype _ _)
    · exact lifts_stuck
  · exact lifts_derivedDefault
  · exact lifts_stuck

/-- What a method of `core` gives and writes. -/
def CoreEnd (m : String) (e : Val × List (Option Val)) : Prop :=
  FO e.1 ∧ (e.2 = [] ∨ (m = "fmt" ∨ m = "hash") ∧ ∃ u, e.2 = [none, some u] ∧ FO u)

theorem lifts_coreMethod {P : Program} {C : Ctx} {v : Val} {m : String} {vs : List Val} (hv : FO v) (hvs : FOs vs) :
    Lifts (CoreEnd m) (coreMethod P C v m vs) := by
  unfold coreMethod
  split
  all_goals first
    | exact lifts_stuck
    | exact lifts_panic _
    | exact lifts_pure ⟨.some hv.ctor_one, .inl rfl⟩
    | exact lifts_pure ⟨.none, .inl rfl⟩
    | exact lifts_pure ⟨by constructor, .inl rfl⟩
    | exact lifts_pure ⟨FO.ordering _, .inl rfl⟩
    | exact lifts_pure ⟨hv.ctor_one, .inl rfl⟩
    | exact lifts_pure ⟨hvs _ (by simp), .inl rfl⟩
    | exact lifts_pure ⟨.unit, .inr ⟨.inr rfl, _, rfl, by constructor⟩⟩
    | skip
  · split
    · exact lifts_pure ⟨.some (by constructor), .inl rfl⟩
    · exact lifts_pure ⟨.none, .inl rfl⟩
  · split
    · exact lifts_pure ⟨.some (.tuple (by intro v hv; simp at hv; rcases hv with rfl | rfl <;> constructor)), .inl rfl⟩
    · exact lifts_pure ⟨.none, .inl rfl⟩
  · split
    · exact lifts_pure ⟨.ok .unit, .inr ⟨.inl rfl, _, rfl, by constructor⟩⟩
    · exact lifts_stuck
  · split
    · exact lifts_pure ⟨.ok .unit, .inr ⟨.inl rfl, _, rfl, by constructor⟩⟩
    · split
      · exact lifts_pure ⟨.ok .unit, .inr ⟨.inl rfl, _, rfl, by constructor⟩⟩
      · exact lifts_stuck
  · split
    · exact lifts_bind lifts_derivedDefault fun _ h => lifts_pure ⟨h, .inl rfl⟩
    · exact lifts_stuck
  · split
    · exact lifts_pure ⟨by constructor, .inl rfl⟩
    · exact lifts_stuck
  · split
    · exact lifts_pure ⟨by constructor, .inl rfl⟩
    · exact lifts_stuck

/-- The methods that call their argument do so, or are not covered. -/
theorem coreMethod_higher {P : Program} {C : Ctx} {v : Val} {m : String} {vs : List Val} (h : m ∈ higher) : coreMethod P C v m vs = M.stuck := by
  simp only [higher, List.mem_cons, List.not_mem_nil, or_false] at h
  unfold coreMethod
  rcases h with rfl | rfl | rfl <;> split <;> first | rfl | (rename_i h; exact absurd h (by decide)) | skip

theorem fo_higherOrder {v : Val} {m : String} (hv : FO v) {s : Val ⊕ (Val × (Val → Val))} (h : higherOrder v m = some s) :
    match s with
    | .inl r => FO r
    | .inr (w, k) => FO w ∧ ∀ r, FO r → FO (k r) := by
  unfold higherOrder at h
  split at h <;> cases h
  · exact ⟨hv.ctor_one, fun _ => .some⟩
  · exact .none
  · exact ⟨hv.ctor_one, fun _ => id⟩
  · exact .none
  · exact .ok hv.ctor_one
  · exact ⟨hv.ctor_one, fun _ => .err⟩

end Langtag.Source.Store
