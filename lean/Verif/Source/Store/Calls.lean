import Verif.Source.Store.End

/-!
# Calls

The parameters of a call and what a call writes.
-/

set_option autoImplicit false

namespace Langtag.Source.Store
open Langtag.Spec.Store (Scope cells alloc read write keep kept Where whereIs)
open Langtag.Spec.Plain (patNames patNamesAll)

variable {c : Cfg} {w : Bool} {K : List String} {b : Nat} {ρ ρ' : Scope} {σ σ' S S' : Env}

/-- Arguments, one by one: the same values, or for a parameter that is a closure, closures that correspond. -/
inductive Vals (R : String → Val → Val → Prop) : List (String × Ty) → List Val → List Val → List Where → Prop
  | nil : Vals R [] [] [] []
  | cons {p : String × Ty} {v v' : Val} {l : Where} {ps : List (String × Ty)} {vs vs' : List Val} {ls : List Where} (h : R p.1 v v') (hs : Vals R ps vs vs' ls) :
    Vals R (p :: ps) (v :: vs) (v' :: vs') (l :: ls)

/-- What corresponds in the arguments of a call. -/
def ArgRel (c : Cfg) (K : List String) (b : Nat) (S : Env) (x : String) (v v' : Val) : Prop := (FO v ∧ v' = v) ∨ (x ∈ K ∧ Clo c b S v v')

theorem bindParams_mut {x : String} {t : Ty} {ps : List (String × Ty)} {v : Val} {vs : List Val} {l : Nat} {ls : List Where} :
    Spec.Store.bindParams ((x, .ref true t) :: ps) (v :: vs) (.at l :: ls) = (do return (x, l) :: (← Spec.Store.bindParams ps vs ls)) := by
  rw [Spec.Store.bindParams]
theorem bindParams_new {p : String × Ty} {ps : List (String × Ty)} {v : Val} {vs : List Val} {l : Where} {ls : List Where}
    (h : isMut p = true → l = .temp) :
    Spec.Store.bindParams (p :: ps) (v :: vs) (l :: ls) = (do return (← alloc [(p.1, v)]) ++ (← Spec.Store.bindParams ps vs ls)) := by
  obtain ⟨x, t⟩ := p
  rw [Spec.Store.bindParams]
  · rintro y u rfl rfl
    cases h rfl
  · rintro y rfl rfl
    cases h rfl

theorem Vals.imp {R R' : String → Val → Val → Prop} {ps : List (String × Ty)} {vs vs' : List Val} {ls : List Where} (h : Vals R ps vs vs' ls)
    (hi : ∀ x v v', R x v v' → R' x v v') : Vals R' ps vs vs' ls := by
  induction h with
  | nil => exact .nil
  | cons h _ ih => exact .cons (hi _ _ _ h) ih

theorem ArgRel.frame {x : String} {v v' : Val} (h : ArgRel c K b S x v v') (hs : ∀ l, l < b → S'[l]? = S[l]?) : ArgRel c K b S' x v v' := by
  rcases h with h | ⟨h1, h2⟩
  · exact .inl h
  · exact .inr ⟨h1, h2.frame hs⟩

theorem append_frame (hS : b ≤ S.length) (new : Env) : ∀ l, l < b → (S ++ new)[l]? = S[l]? :=
  fun _ hl => List.getElem?_append_left (Nat.lt_of_lt_of_le hl hS)

/-- The parameters of a call. -/
theorem bind_params {ps : List (String × Ty)} {vs vs' : List Val} {ls : List Where} (hS : b ≤ S.length)
    (hv : Vals (ArgRel c K b S) ps vs vs' ls) (one : ps.countP isMut ≤ 1)
    (hm : 0 < ps.countP isMut → K = [] ∧ (∀ l ∈ ls, l ≠ .part) ∧ ∀ l v, (Where.at l, v) ∈ ls.zip vs → l < b ∧ ∃ z, S[l]? = some (z, v)) :
    ∃ ρ new, Spec.Store.bindParams ps vs' ls S = some (.ok ρ (S ++ new)) ∧ Vars (Cell c K b (S ++ new)) ((ps.map (·.1)).zip vs) ρ ∧
      (ρ.map (·.2)).Nodup ∧ ρ.map (·.1) = ps.map (·.1) ∧
      (∀ e ∈ ρ, S.length ≤ e.2 ∨ e.2 < b ∧ ∃ t, ((e.1, t), Where.at e.2) ∈ ps.zip ls ∧ isMut (e.1, t) = true) ∧
      (∀ x t l, ((x, t), Where.at l) ∈ ps.zip ls → isMut (x, t) = true → (x, l) ∈ ρ) := by
  induction ps generalizing vs vs' ls S with
  | nil =>
    cases hv
    exact ⟨[], [], by simp [Spec.Store.bindParams]; rfl, .nil, by simp, rfl, by simp, by simp⟩
  | cons p ps ih =>
    cases hv with
    | @cons _ v v' l _ vs vs' ls h hs =>
      rw [List.countP_cons] at one hm
      by_cases ha : isMut p = true ∧ ∃ k, l = .at k
      · -- the cell of the argument
        obtain ⟨hp, k, rfl⟩ := ha
        obtain ⟨x, t⟩ := p
        obtain ⟨t, rfl⟩ : ∃ u, t = .ref true u := by
          unfold isMut at hp
          split at hp
          · rename_i h
            cases h
            exact ⟨_, rfl⟩
          · cases hp
        obtain ⟨rfl, hpart, hold⟩ := hm (by rw [if_pos hp]; omega)
        have h0 : ps.countP isMut = 0 := by rw [if_pos hp] at one; omega
        obtain ⟨ρ, new, h1, h2, h3, h4, h5, h6⟩ := ih hS hs (by omega) (fun h => by omega)
        obtain ⟨hk, z, hz⟩ := hold k v (by simp)
        have h5' : ∀ e ∈ ρ, S.length ≤ e.2 := by
          intro e he
          rcases h5 e he with h | ⟨_, t, ht, hm⟩
          · exact h
          · exact absurd hm (by
              have := List.countP_eq_zero.mp h0 _ (List.of_mem_zip ht).1
              exact this)
        refine ⟨(x, k) :: ρ, new, ?_, .cons ⟨z, v, ?_, .inl ⟨?_, rfl⟩⟩ h2, ?_, by simp [h4], ?_, ?_⟩
        · rw [bindParams_mut]
          show (Spec.Store.bindParams ps vs' ls S).bind _ = _
          rw [h1]
          rfl
        · rw [append_frame hS _ k hk]
          exact hz
        · rcases h with h | ⟨h, _⟩
          · exact h.1
          · cases h
        · rw [List.map_cons, List.nodup_cons]
          refine ⟨fun hm => ?_, h3⟩
          obtain ⟨e, he, e'⟩ := List.mem_map.mp hm
          have := h5' e he
          omega
        · intro e he
          rcases List.mem_cons.mp he with rfl | he
          · exact .inr ⟨hk, .ref true t, by simp, hp⟩
          · exact .inl (h5' e he)
        · intro y u j hm hj
          rw [List.zip_cons_cons, List.mem_cons] at hm
          rcases hm with hm | hm
          · simp only [Prod.mk.injEq, Where.at.injEq] at hm
            obtain ⟨⟨rfl, _⟩, rfl⟩ := hm
            simp
          · exact List.mem_cons_of_mem _ (h6 y u j hm hj)
      · -- a new variable
        have hl : isMut p = true → l = .temp := by
          intro hp
          obtain ⟨_, hpart, _⟩ := hm (by rw [if_pos hp]; omega)
          cases l with
          | «at» k => exact absurd ⟨hp, k, rfl⟩ ha
          | part => exact absurd rfl (hpart _ (by simp))
          | temp => rfl
        have hfr := append_frame hS [(p.1, v')]
        obtain ⟨ρ, new, h1, h2, h3, h4, h5, h6⟩ := ih (S := S ++ [(p.1, v')]) (by simp; omega) (hs.imp fun x u u' hr => hr.frame hfr)
          (by omega) (fun h => by
            obtain ⟨hK, hp, hh⟩ := hm (by omega)
            refine ⟨hK, fun l hl => hp l (by simp [hl]), fun k u hm => ?_⟩
            obtain ⟨hk, hz⟩ := hh k u (by simp [hm])
            rw [hfr k hk]
            exact ⟨hk, hz⟩)
        have hat : (S ++ [(p.1, v')] ++ new)[S.length]? = some (p.1, v') := by
          rw [List.append_assoc, List.getElem?_append_right (Nat.le_refl _)]
          simp
        refine ⟨(p.1, S.length) :: ρ, (p.1, v') :: new, ?_, ?_, ?_, by simp [h4], ?_, ?_⟩
        · rw [bindParams_new hl]
          show (Spec.Store.bindParams ps vs' ls (S ++ [(p.1, v')])).bind _ = _
          rw [h1]
          show some (Res.ok ((p.1, S.length) :: ρ) _) = _
          rw [List.append_assoc]
          rfl
        · rw [List.append_assoc] at h2 hat
          refine .cons ⟨p.1, v', hat, ?_⟩ h2
          exact h.frame (append_frame hS _)
        · rw [List.map_cons, List.nodup_cons]
          refine ⟨fun hm => ?_, h3⟩
          obtain ⟨e, he, e'⟩ := List.mem_map.mp hm
          rcases h5 e he with h | ⟨h, _⟩
          · rw [List.length_append] at h
            simp at h
            omega
          · omega
        · intro e he
          rcases List.mem_cons.mp he with rfl | he
          · exact .inl (Nat.le_refl _)
          · rcases h5 e he with h | ⟨h, t, ht, hm⟩
            · rw [List.length_append] at h
              exact .inl (by omega)
            · exact .inr ⟨h, t, by simp [ht], hm⟩
        · intro y u j hm hj
          rw [List.zip_cons_cons, List.mem_cons] at hm
          rcases hm with hm | hm
          · simp only [Prod.mk.injEq] at hm
            obtain ⟨rfl, rfl⟩ := hm
            cases hl hj
          · exact List.mem_cons_of_mem _ (h6 y u j hm hj)

theorem mem_zip_map {α β γ : Type} {ls : List β} {ps : List α} {g : α → γ} {a : β} {d : γ} : (a, d) ∈ ls.zip (ps.map g) ↔ ∃ p, (p, a) ∈ ps.zip ls ∧ g p = d := by
  induction ls generalizing ps with
  | nil => simp
  | cons l ls ih =>
    cases ps with
    | nil => simp
    | cons p ps =>
      simp only [List.map_cons, List.zip_cons_cons, List.mem_cons, ih, Prod.mk.injEq]
      constructor
      · rintro (⟨rfl, rfl⟩ | ⟨q, h, rfl⟩)
        · exact ⟨p, .inl ⟨rfl, rfl⟩, rfl⟩
        · exact ⟨q, .inr h, rfl⟩
      · rintro ⟨q, ⟨rfl, rfl⟩ | h, rfl⟩
        · exact .inl ⟨rfl, rfl⟩
        · exact .inr ⟨q, h, rfl⟩

/-- What a function wrote is in the cells it was given. -/
theorem wrote_finals {ps : List (String × Ty)} {ls : List Where} {S₁ : Env} (hn : (ps.map (·.1)).Nodup)
    (hi : Inv c K b σ' ρ S') (hlen : S.length ≤ S₁.length) (hold : ∀ l, l < S.length → S₁[l]? = S[l]?) (hf : Frame true ρ S₁ S')
    (hK : 0 < ps.countP isMut → K = [])
    (h4 : ρ.map (·.1) = ps.map (·.1))
    (h5 : ∀ e ∈ ρ, S.length ≤ e.2 ∨ e.2 < b ∧ ∃ t, ((e.1, t), Where.at e.2) ∈ ps.zip ls ∧ isMut (e.1, t) = true)
    (h6 : ∀ x t l, ((x, t), Where.at l) ∈ ps.zip ls → isMut (x, t) = true → (x, l) ∈ ρ) : Wrote S S' ls (finals ps σ') := by
  have hl : σ'.length - ps.length = 0 := by
    rw [hi.length]
    have := congrArg List.length h4
    simp at this
    omega
  -- a parameter
  have key : ∀ x t l, ((x, t), Where.at l) ∈ ps.zip ls → isMut (x, t) = true → ∃ u z, σ'.lookup x = some u ∧ FO u ∧ S'[l]? = some (z, u) := by
    intro x t l hm hmut
    have h0 : 0 < ps.countP isMut := List.countP_pos_iff.mpr ⟨_, (List.of_mem_zip hm).1, hmut⟩
    have hx := lookup_of_mem (by rw [h4]; exact hn) (h6 x t l hm hmut)
    exact hi.var hx (by rw [hK h0]; simp)
  have fin : ∀ x t u, (match t with | Ty.ref true _ => (σ'.drop (σ'.length - ps.length)).lookup x | _ => none) = some u → isMut (x, t) = true ∧ σ'.lookup x = some u := by
    intro x t u h
    split at h
    · rw [hl, List.drop_zero] at h
      exact ⟨rfl, h⟩
    · cases h
  have fin' : ∀ x t, isMut (x, t) = true → (match t with | Ty.ref true _ => (σ'.drop (σ'.length - ps.length)).lookup x | _ => none) = σ'.lookup x := by
    intro x t h
    unfold isMut at h
    split at h
    · rename_i e
      cases e
      dsimp only
      rw [hl, List.drop_zero]
    · cases h
  refine ⟨Nat.le_trans hlen hf.1, fun l hlt => ?_, fun l u hm => ?_⟩
  · by_cases hm : l ∈ ρ.map (·.2)
    · obtain ⟨⟨x, k⟩, he, rfl⟩ := List.mem_map.mp hm
      rcases h5 _ he with h | ⟨_, t, ht, hmut⟩
      · dsimp only at h hlt
        omega
      · obtain ⟨u, z, h1, _, _⟩ := key x t k ht hmut
        refine .inr ⟨u, mem_zip_map.mpr ⟨(x, t), ht, ?_⟩⟩
        exact (fin' x t hmut).trans h1
    · left
      rw [hf.2 l (Nat.lt_of_lt_of_le hlt hlen) fun _ => hm]
      exact hold l hlt
  · obtain ⟨⟨x, t⟩, hp, e⟩ := mem_zip_map.mp hm
    obtain ⟨hmut, e⟩ := fin x t u e
    obtain ⟨u', z, h1, h2, h3⟩ := key x t l hp hmut
    rw [e] at h1
    cases h1
    exact ⟨h2, z, h3⟩

theorem finals_none {ps : List (String × Ty)} (h : ps.countP isMut = 0) : ∀ w ∈ finals ps σ', w = none := by
  intro w hw
  obtain ⟨⟨x, t⟩, hp, rfl⟩ := List.mem_map.mp hw
  have := List.countP_eq_zero.mp h _ hp
  dsimp only
  split
  · exact absurd rfl this
  · rfl

end Langtag.Source.Store
