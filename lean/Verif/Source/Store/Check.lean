import Verif.Source.Store.Sim
import Verif.Spec.Memory
import Verif.Source.KernelRfl

/-!
# The crate, with a memory

The crate meets the conditions of `Tame.lean`.  So its calls end with a memory as they do without.
-/

set_option autoImplicit false

namespace Langtag.Source.Store
open Langtag.Spec.Store (Where mutArgs before places)

/-- The names in the crate. -/
def cfg : Cfg where
  W := ["next", "next_back", "fmt", "hash", "case_insensitive_hash", "push"]
  T := ["find_list_end"]
  Q := [["find_list_end"], ["super", "find_list_end"]]

instance (f : FnDef) : Decidable (OkFn cfg f) :=
  decidable_of_iff ((f.params.map (·.1)).Nodup ∧ (∀ p ∈ f.params, p.1 ∉ cfg.T) ∧ f.params.countP isMut ≤ 1 ∧
    (0 < f.params.countP isMut → f.name ∈ cfg.W) ∧ ((closureParams f).isEmpty = false → f.params.countP isMut = 0) ∧
    (f.name ∈ cfg.T → takesClosure f = true) ∧ okE cfg true (closureParams f) f.body = true)
    ⟨fun ⟨a, b, c, d, e, g, h⟩ => ⟨a, b, c, d, fun k => e (by simpa using k), g, h⟩,
     fun ⟨a, b, c, d, e, g, h⟩ => ⟨a, b, c, d, fun k => e (by simpa using k), g, h⟩⟩

theorem tame_fns : ∀ f ∈ (crate 0).fns, OkFn cfg f.fn := by decide +kernel
theorem tame_consts : ∀ d ∈ (crate 0).consts, okE cfg false [] d.2.2 = true := by decide +kernel
theorem tame_higher : ∀ f ∈ (crate 0).fns, f.fn.name ∉ higher := by decide +kernel

theorem tame (max : Nat) : Tame cfg (crate max) where
  fns := tame_fns
  consts := tame_consts
  tryFrom := by decide
  core := by decide
  higher := tame_higher
  takers := by
    intro s hs
    simp only [cfg, List.mem_cons, List.not_mem_nil, or_false] at hs
    rcases hs with rfl | rfl
    · exact ⟨by decide, fun C => by kernel_rfl⟩
    · exact ⟨by decide, fun C => by kernel_rfl⟩

theorem tame_release (max : Nat) : Tame cfg (crate max).release := by
  have h := tame max
  exact ⟨h.fns, h.consts, h.tryFrom, h.core, h.higher, h.takers⟩

/-! ## Calls -/

variable {c : Cfg} {P : Program}

theorem before_get {args : List Val} {i : Nat} : (before args)[i]? = (args[i]?).map fun v => ("", v) := by
  unfold before
  rw [List.getElem?_map]

/-- Arguments in the first cells. -/
theorem args_before {name : String} {args : List Val} (h : FOs args) : Args c name args args (places args) (before args) where
  length := by simp [places]
  vals := .inl ⟨h, rfl⟩
  holds _ := by
    refine ⟨by simp [places], fun l v hm => ?_⟩
    obtain ⟨i, hi, e⟩ := List.mem_iff_getElem.mp hm
    have hi' : i < args.length := by
      rw [List.length_zip] at hi
      omega
    simp [places] at e
    obtain ⟨rfl, rfl⟩ := e
    exact ⟨"", by rw [before_get, List.getElem?_eq_getElem hi']; rfl⟩

/-- What was written is in the first cells. -/
theorem mutArgs_eq {ps : List (String × Ty)} {g : String × Ty → Option Val} (hg : ∀ p ∈ ps, (g p).isSome = isMut p) {S : Env} (hl : ps.length ≤ S.length)
    (h : ∀ (i : Nat) p u, ps[i]? = some p → g p = some u → ∃ z, S[i]? = some (z, u)) : mutArgs ps S = (ps.map g).filterMap id := by
  induction ps generalizing S with
  | nil => rfl
  | cons p ps ih =>
    obtain _ | ⟨⟨y, v⟩, S⟩ := S
    · simp at hl
    have ih := ih (fun q hq => hg q (by simp [hq])) (by simpa using hl) (S := S) fun i q u hq hu => h (i + 1) q u (by simpa using hq) hu
    have hp := hg p (by simp)
    cases hu : g p with
    | some u =>
      rw [hu] at hp
      obtain ⟨z, hz⟩ := h 0 p u rfl hu
      cases hz
      obtain ⟨x, t⟩ := p
      unfold isMut at hp
      split at hp
      · rename_i e
        cases e
        rw [List.map_cons, hu, mutArgs, ih]
        rfl
      · cases hp
    | none =>
      rw [hu] at hp
      rw [List.map_cons, hu, List.filterMap_cons_none rfl, ← ih, mutArgs]
      rintro x t z u rfl
      cases hp

/-- A function. -/
theorem fn_memory (hT : Tame c P) {f : Fn} {args : List Val} {o : Outcome} (hf : f ∈ P.fns) (hl : args.length = f.fn.params.length) (ha : FOs args)
    (h : outcome (callFn P f args []) = some o) (ho : o ≠ .stuck) :
    Spec.Store.outcome f.fn.params (Spec.Store.callFn P f args (places args) (before args)) = some o := by
  cases e : callFn P f args [] with
  | none =>
    rw [e] at h
    cases h
  | some r =>
    rw [e] at h
    have H := (sim_all hT).2.2.2.2.2.2.2.2.2.1 f args [] r e args _ _ hf hl (args_before ha)
    rcases r with ⟨⟨v, ws⟩, σ'⟩ | ⟨d, σ'⟩
    · obtain ⟨_, S', e', _, hw, _⟩ := H
      rw [e']
      cases h
      obtain ⟨g, rfl, hg⟩ := fn_writes hT hf hl ha e
      show some (Outcome.returns v (mutArgs f.fn.params S')) = _
      rw [mutArgs_eq hg]
      · have := hw.le
        simp [before] at this
        omega
      · intro i p u hp hu
        refine (hw.new i u ?_).2
        obtain ⟨hi, hp⟩ := List.getElem?_eq_some_iff.mp hp
        refine List.mem_iff_getElem.mpr ⟨i, by simp [places]; omega, ?_⟩
        simp [places, hp, hu]
    · cases d with
      | panic p =>
        obtain ⟨S', e'⟩ := H
        rw [e']
        exact h
      | _ =>
        cases h
        exact absurd rfl ho

/-- A call by name. -/
theorem run_memory (hT : Tame c P) {T : List String} {f : String} {args : List Val} {o : Outcome} (ha : FOs args)
    (h : runIn T f args (some P) = some o) (ho : o ≠ .stuck) : Spec.Store.runIn T f args (some P) = some o := by
  unfold Source.runIn at h
  unfold Spec.Store.runIn
  cases hF : P.lookup T f args with
  | some F =>
    obtain ⟨h1, h2, h3⟩ := lookup_fn hF
    dsimp only at h ⊢
    rw [callPath.eq_def, hF] at h
    rw [Spec.Store.callPath.eq_def, hF]
    exact fn_memory hT h1 h3 ha h ho
  | none =>
    dsimp only at h ⊢
    cases e : callPath P ⟨[], "", .tuple []⟩ T f args [] with
    | none =>
      rw [e] at h
      cases h
    | some r =>
      rw [e] at h
      have H := (sim_all hT).2.2.2.2.2.2.2.2.1 _ T f args [] r e args _ _ (args_before ha)
      rcases r with ⟨⟨v, ws⟩, σ'⟩ | ⟨d, σ'⟩
      · obtain ⟨_, S', e', _⟩ := H
        rw [e']
        cases h
        have hws : ws = [] := by
          rw [callPath.eq_def, hF] at e
          dsimp only at e
          cases hn : newOf P T f args with
          | none =>
            rw [hn] at e
            obtain ⟨r, _, e⟩ := Option.bind_eq_some_iff.mp e
            cases r <;> cases e
            rfl
          | some d =>
            rw [hn] at e
            obtain ⟨r, _, e⟩ := Option.bind_eq_some_iff.mp e
            rcases r with ⟨⟨v, ws⟩, σ'⟩ | ⟨d, σ'⟩
            · dsimp only at e
              split at e <;> cases e <;> rfl
            · cases e
        subst hws
        rw [hF]
        rfl
      · cases d with
        | panic p =>
          obtain ⟨S', e'⟩ := H
          rw [e']
          exact h
        | _ =>
          cases h
          exact absurd rfl ho

end Langtag.Source.Store
