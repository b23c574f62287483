import Verif.Source.Store.Values

/-!
# Variables and cells

How the variables of the semantics that copies and the cells of the memory correspond.
-/

set_option autoImplicit false

namespace Langtag.Source.Store
open Langtag.Spec.Store (Scope cells alloc read write keep kept Where whereIs)
open Langtag.Spec.Plain (patNames patNamesAll)

/-- The same variables, related one by one. -/
inductive Vars (R : String → Val → Nat → Prop) : Env → Scope → Prop
  | nil : Vars R [] []
  | cons {x : String} {v : Val} {l : Nat} {σ : Env} {ρ : Scope} (h : R x v l) (hs : Vars R σ ρ) : Vars R ((x, v) :: σ) ((x, l) :: ρ)

section
variable {R R' : String → Val → Nat → Prop} {σ σ' : Env} {ρ ρ' : Scope}

theorem Vars.length (h : Vars R σ ρ) : σ.length = ρ.length := by induction h <;> simp [*]
theorem Vars.append (h : Vars R σ ρ) (h' : Vars R σ' ρ') : Vars R (σ ++ σ') (ρ ++ ρ') := by
  induction h with
  | nil => exact h'
  | cons h _ ih => exact .cons h ih
theorem Vars.imp (h : Vars R σ ρ) (hi : ∀ x v l, (x, l) ∈ ρ → R x v l → R' x v l) : Vars R' σ ρ := by
  induction h with
  | nil => exact .nil
  | cons h _ ih => exact .cons (hi _ _ _ (by simp) h) (ih fun x v l hm => hi x v l (by simp [hm]))
theorem Vars.drop (h : Vars R σ (ρ ++ ρ')) : Vars R (σ.drop ρ.length) ρ' := by
  induction ρ generalizing σ with
  | nil => exact h
  | cons e ρ ih =>
    cases h with
    | cons _ hs => exact ih hs
theorem Vars.mem (h : Vars R σ ρ) {x : String} {l : Nat} (hm : (x, l) ∈ ρ) : ∃ v, (x, v) ∈ σ ∧ R x v l := by
  induction h with
  | nil => cases hm
  | cons h _ ih =>
    rcases List.mem_cons.mp hm with e | hm
    · cases e
      exact ⟨_, by simp, h⟩
    · obtain ⟨v, h1, h2⟩ := ih hm
      exact ⟨v, by simp [h1], h2⟩
theorem Vars.lookup_some (h : Vars R σ ρ) {x : String} {l : Nat} (e : ρ.lookup x = some l) : ∃ v, σ.lookup x = some v ∧ R x v l ∧ (x, l) ∈ ρ := by
  induction h with
  | nil => cases e
  | @cons y v k σ ρ h _ ih =>
    rw [List.lookup_cons] at e ⊢
    by_cases hx : x = y
    · subst hx
      simp only [beq_self_eq_true] at e ⊢
      cases e
      exact ⟨v, rfl, h, by simp⟩
    · have : (x == y) = false := by simpa using hx
      simp only [this] at e ⊢
      obtain ⟨v, h1, h2, h3⟩ := ih e
      exact ⟨v, h1, h2, by simp [h3]⟩
theorem Vars.lookup_none (h : Vars R σ ρ) {x : String} (e : ρ.lookup x = none) : σ.lookup x = none := by
  induction h with
  | nil => rfl
  | @cons y v k σ ρ h _ ih =>
    rw [List.lookup_cons] at e ⊢
    split at e
    · cases e
    · exact ih e
theorem Vars.set (h : Vars R σ ρ) {x : String} {l : Nat} {v : Val} (e : ρ.lookup x = some l) (hn : (ρ.map (·.2)).Nodup)
    (h1 : R' x v l) (h2 : ∀ y u k, k ≠ l → R y u k → R' y u k) : Vars R' (setField x v σ) ρ := by
  induction h with
  | nil => cases e
  | @cons y u k σ ρ h hs ih =>
    rw [List.lookup_cons] at e
    rw [List.map_cons, List.nodup_cons] at hn
    rw [setField]
    by_cases hx : x = y
    · subst hx
      simp only [beq_self_eq_true] at e
      cases e
      rw [if_pos rfl]
      refine .cons h1 (hs.imp fun z w j hm hr => h2 z w j ?_ hr)
      rintro rfl
      exact hn.1 (List.mem_map.mpr ⟨_, hm, rfl⟩)
    · have : (x == y) = false := by simpa using hx
      simp only [this] at e
      rw [if_neg fun e => hx e.symm]
      refine .cons (h2 _ _ _ ?_ h) (ih e hn.2)
      rintro rfl
      obtain ⟨_, _, _, hm⟩ := hs.lookup_some e
      exact hn.1 (List.mem_map.mpr ⟨_, hm, rfl⟩)
theorem Vars.set_none (h : Vars R σ ρ) {x : String} {v : Val} (e : ρ.lookup x = none) : setField x v σ = σ := by
  induction h with
  | nil => rfl
  | @cons y u k σ ρ h hs ih =>
    rw [List.lookup_cons] at e
    split at e
    · cases e
    · rename_i hx
      rw [setField, if_neg (by rintro rfl; simp at hx), ih e]
end

theorem lookup_mem {ρ : Scope} {x : String} {l : Nat} (e : ρ.lookup x = some l) : (x, l) ∈ ρ := by
  induction ρ with
  | nil => cases e
  | cons p ρ ih =>
    obtain ⟨y, k⟩ := p
    rw [List.lookup_cons] at e
    by_cases hx : x = y
    · subst hx
      simp only [beq_self_eq_true] at e
      cases e
      simp
    · have : (x == y) = false := by simpa using hx
      simp only [this] at e
      simp [ih e]

/-- A name that is there once is found. -/
theorem lookup_of_mem {ρ : Scope} {x : String} {l : Nat} (hn : (ρ.map (·.1)).Nodup) (hm : (x, l) ∈ ρ) : ρ.lookup x = some l := by
  induction ρ with
  | nil => cases hm
  | cons p ρ ih =>
    obtain ⟨y, k⟩ := p
    rw [List.map_cons, List.nodup_cons] at hn
    rw [List.lookup_cons]
    rcases List.mem_cons.mp hm with e | hm
    · cases e
      simp
    · have : (x == y) = false := by
        simp only [beq_eq_false_iff_ne, ne_eq]
        rintro rfl
        exact hn.1 (List.mem_map.mpr ⟨(x, l), by assumption, rfl⟩)
      simp only [this]
      exact ih hn.2 (by assumption)

variable (c : Cfg)

/-- A closure that keeps values and one that keeps cells: the cells, before the `b`-th, have the values. -/
def Clo (b : Nat) (S : Env) (v w : Val) : Prop :=
  ∃ ps body σ ρ C, v = .closure ps body σ C ∧ w = .closure ps body (keep ρ) C ∧ (∀ x ∈ patNamesAll ps, x ∉ c.T) ∧ okE c false [] body = true ∧
    Vars (fun _ u l => FO u ∧ ∃ z, S[l]? = some (z, u)) σ ρ ∧ (ρ.map (·.2)).Nodup ∧ (∀ e ∈ ρ, e.1 ∉ c.T) ∧ ∀ e ∈ ρ, e.2 < b

/-- A variable and its cell: the same value, or a closure and what corresponds to it. -/
def Cell (K : List String) (b : Nat) (S : Env) (x : String) (v : Val) (l : Nat) : Prop :=
  ∃ z w, S[l]? = some (z, w) ∧ ((FO v ∧ w = v) ∨ (x ∈ K ∧ Clo c b S v w))

/-- The variables of a call, which began when the memory had `b` cells, and their cells. -/
structure Inv (K : List String) (b : Nat) (σ : Env) (ρ : Scope) (S : Env) : Prop where
  vars : Vars (Cell c K b S) σ ρ
  nodup : (ρ.map (·.2)).Nodup
  own : K ≠ [] → ∀ e ∈ ρ, b ≤ e.2
  names : ∀ e ∈ ρ, e.1 ∉ c.T
  le : b ≤ S.length

/-- Cells that are not those of the variables, or with `w = false` all cells, are as before. -/
def Frame (w : Bool) (ρ : Scope) (S S' : Env) : Prop :=
  S.length ≤ S'.length ∧ ∀ l, l < S.length → (w = true → l ∉ ρ.map (·.2)) → S'[l]? = S[l]?

variable {c} {K : List String} {b : Nat} {σ : Env} {ρ ρ' : Scope} {S S' : Env} {w : Bool}

theorem Frame.refl : Frame w ρ S S := ⟨Nat.le_refl _, fun _ _ _ => rfl⟩
theorem Frame.trans {S'' : Env} (h : Frame w ρ S S') (h' : Frame w ρ S' S'') : Frame w ρ S S'' :=
  ⟨Nat.le_trans h.1 h'.1, fun l hl hw => (h'.2 l (Nat.lt_of_lt_of_le hl h.1) hw).trans (h.2 l hl hw)⟩
theorem Frame.weaken (h : Frame false ρ S S') : Frame w ρ' S S' := ⟨h.1, fun l hl _ => h.2 l hl (by simp)⟩
/-- New cells are no old ones. -/
theorem Frame.inner {n : Scope} (hn : ∀ e ∈ n, S.length ≤ e.2) {S₁ : Env} (h0 : Frame false ρ S S₁) (h : Frame w (n ++ ρ) S₁ S') : Frame w ρ S S' := by
  refine ⟨Nat.le_trans h0.1 h.1, fun l hl hw => ?_⟩
  rw [h.2 l (Nat.lt_of_lt_of_le hl h0.1), h0.2 l hl (by simp)]
  intro e hm
  rw [List.map_append, List.mem_append] at hm
  rcases hm with hm | hm
  · obtain ⟨e, he, rfl⟩ := List.mem_map.mp hm
    have := hn e he
    omega
  · exact hw e hm
theorem frame_append (S new : Env) : Frame false ρ S (S ++ new) :=
  ⟨by simp, fun l hl _ => List.getElem?_append_left hl⟩

theorem Clo.mono {v u : Val} (h : Clo c b S v u) {b' : Nat} (hb : b ≤ b') : Clo c b' S v u := by
  obtain ⟨ps, body, σ, ρ, C, h1, h2, h3, h4, h5, h6, h7, h8⟩ := h
  exact ⟨ps, body, σ, ρ, C, h1, h2, h3, h4, h5, h6, h7, fun e he => Nat.lt_of_lt_of_le (h8 e he) hb⟩
theorem Clo.frame {v u : Val} (h : Clo c b S v u) (hs : ∀ l, l < b → S'[l]? = S[l]?) : Clo c b S' v u := by
  obtain ⟨ps, body, σ, ρ, C, h1, h2, h3, h4, h5, h6, h7, h8⟩ := h
  refine ⟨ps, body, σ, ρ, C, h1, h2, h3, h4, h5.imp fun x u l hm hr => ⟨hr.1, ?_⟩, h6, h7, h8⟩
  rw [hs l (h8 _ hm)]
  exact hr.2

theorem Cell.lt {x : String} {v : Val} {l : Nat} (h : Cell c K b S x v l) : l < S.length := by
  obtain ⟨z, w, h, _⟩ := h
  exact (List.getElem?_eq_some_iff.mp h).1
theorem Cell.frame {x : String} {v : Val} {l : Nat} (h : Cell c K b S x v l) (hl : S'[l]? = S[l]?) (hs : x ∈ K → ∀ l, l < b → S'[l]? = S[l]?) :
    Cell c K b S' x v l := by
  obtain ⟨z, w, h1, h2⟩ := h
  refine ⟨z, w, hl.trans h1, ?_⟩
  rcases h2 with h2 | ⟨h2, h3⟩
  · exact .inl h2
  · exact .inr ⟨h2, h3.frame (hs h2)⟩

theorem Inv.lt (h : Inv c K b σ ρ S) : ∀ e ∈ ρ, e.2 < S.length := by
  intro ⟨x, l⟩ he
  obtain ⟨v, _, hc⟩ := h.vars.mem he
  exact hc.lt
theorem Inv.length (h : Inv c K b σ ρ S) : σ.length = ρ.length := h.vars.length

/-- The variables are as before if the cells are. -/
theorem Inv.keep (h : Inv c K b σ ρ S) (hf : Frame false ρ S S') : Inv c K b σ ρ S' where
  vars := h.vars.imp fun x v l hm hc => hc.frame (hf.2 l hc.lt (by simp)) fun _ l hl => hf.2 l (Nat.lt_of_lt_of_le hl h.le) (by simp)
  nodup := h.nodup
  own := h.own
  names := h.names
  le := Nat.le_trans h.le hf.1

theorem cells_ge (n : Nat) (new : Env) : ∀ e ∈ cells n new, n ≤ e.2 := by
  induction new generalizing n with
  | nil => simp [cells]
  | cons p new ih =>
    intro e he
    rcases List.mem_cons.mp he with rfl | he
    · exact Nat.le_refl _
    · exact Nat.le_trans (Nat.le_succ n) (ih (n + 1) e he)
theorem cells_length (n : Nat) (new : Env) : (cells n new).length = new.length := by
  induction new generalizing n with
  | nil => rfl
  | cons p new ih => simp [cells, ih]
theorem cells_nodup (n : Nat) (new : Env) : ((cells n new).map (·.2)).Nodup := by
  induction new generalizing n with
  | nil => simp [cells]
  | cons p new ih =>
    rw [cells, List.map_cons, List.nodup_cons]
    refine ⟨fun hm => ?_, ih _⟩
    obtain ⟨e, he, h⟩ := List.mem_map.mp hm
    have := cells_ge (n + 1) new e he
    dsimp only at h
    omega
theorem cells_names (n : Nat) (new : Env) {p : String → Prop} (h : ∀ e ∈ new, p e.1) : ∀ e ∈ cells n new, p e.1 := by
  induction new generalizing n with
  | nil => simp [cells]
  | cons q new ih =>
    intro e he
    rcases List.mem_cons.mp he with rfl | he
    · exact h q (by simp)
    · exact ih (n + 1) (fun e he => h e (by simp [he])) e he
theorem cells_vars (S new : Env) (hn : ∀ e ∈ new, FO e.2) :
    Vars (fun _ v l => FO v ∧ ∃ z, (S ++ new)[l]? = some (z, v)) new (cells S.length new) := by
  induction new generalizing S with
  | nil => exact .nil
  | cons p new ih =>
    obtain ⟨x, v⟩ := p
    refine .cons ⟨hn (x, v) (by simp), x, ?_⟩ ?_
    · rw [List.getElem?_append_right (Nat.le_refl _)]
      simp
    · have := ih (S ++ [(x, v)]) fun e he => hn e (by simp [he])
      rw [List.length_append, List.append_assoc] at this
      exact this

/-- New variables. -/
theorem Inv.alloc (h : Inv c K b σ ρ S) {new : Env} (hn : ∀ e ∈ new, FO e.2) (ht : ∀ e ∈ new, e.1 ∉ c.T) :
    Inv c K b (new ++ σ) (cells S.length new ++ ρ) (S ++ new) where
  vars := by
    refine Vars.append ((cells_vars S new hn).imp fun x v l _ hr => ?_) (h.keep (frame_append _ _)).vars
    obtain ⟨hf, z, e⟩ := hr
    exact ⟨z, v, e, .inl ⟨hf, rfl⟩⟩
  nodup := by
    rw [List.map_append, List.nodup_append]
    refine ⟨cells_nodup _ _, h.nodup, ?_⟩
    intro l hl k hk e
    subst e
    obtain ⟨e1, h1, rfl⟩ := List.mem_map.mp hl
    obtain ⟨e2, h2, h3⟩ := List.mem_map.mp hk
    have a := cells_ge _ _ _ h1
    have b := h.lt _ h2
    omega
  own hK e he := by
    rcases List.mem_append.mp he with he | he
    · exact Nat.le_trans h.le (cells_ge _ _ e he)
    · exact h.own hK e he
  names e he := by
    rcases List.mem_append.mp he with he | he
    · exact cells_names _ _ (p := (· ∉ c.T)) ht e he
    · exact h.names e he
  le := by
    have := h.le
    simp
    omega

/-- The end of a scope. -/
theorem Inv.drop (h : Inv c K b σ (ρ ++ ρ') S) : Inv c K b (σ.drop ρ.length) ρ' S where
  vars := h.vars.drop
  nodup := by
    have := h.nodup
    rw [List.map_append, List.nodup_append] at this
    exact this.2.1
  own hK e he := h.own hK e (List.mem_append_right _ he)
  names e he := h.names e (List.mem_append_right _ he)
  le := h.le

/-- An assignment to a variable. -/
theorem Inv.write (h : Inv c K b σ ρ S) {x : String} {l : Nat} {v : Val} (e : ρ.lookup x = some l) (hv : FO v) :
    ∃ S', write l v S = some (.ok () S') ∧ Inv c K b (setField x v σ) ρ S' ∧ Frame true ρ S S' := by
  obtain ⟨u, _, hc, hm⟩ := h.vars.lookup_some e
  obtain ⟨z, w, hl, _⟩ := hc
  have hlt := (List.getElem?_eq_some_iff.mp hl).1
  refine ⟨S.set l (z, v), ?_, ⟨?_, h.nodup, h.own, h.names, by simpa using h.le⟩, by simp, fun k hk hw => ?_⟩
  · unfold Spec.Store.write
    rw [hl]
  · refine h.vars.set e h.nodup ⟨z, v, ?_, .inl ⟨hv, rfl⟩⟩ fun y u k hk hc => hc.frame ?_ fun hy j hj => ?_
    · rw [List.getElem?_set_self hlt]
    · exact List.getElem?_set_ne fun e => hk e.symm
    · refine List.getElem?_set_ne ?_
      have := h.own (by rintro rfl; cases hy) _ hm
      dsimp only at this
      omega
  · refine List.getElem?_set_ne ?_
    rintro rfl
    exact hw rfl (List.mem_map.mpr ⟨_, hm, rfl⟩)

/-- A variable that is not a closure. -/
theorem Inv.var (h : Inv c K b σ ρ S) {x : String} {l : Nat} (e : ρ.lookup x = some l) (hx : x ∉ K) :
    ∃ v z, σ.lookup x = some v ∧ FO v ∧ S[l]? = some (z, v) := by
  obtain ⟨v, h1, ⟨z, w, h2, h3⟩, _⟩ := h.vars.lookup_some e
  rcases h3 with ⟨h3, rfl⟩ | ⟨h3, _⟩
  · exact ⟨_, z, h1, h3, h2⟩
  · exact absurd h3 hx

end Langtag.Source.Store
