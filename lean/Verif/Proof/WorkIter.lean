import Verif.Proof.Work

/-! # Bounds on the number of loop iterations: parts of values and whole iterations -/

set_option autoImplicit false

namespace Langtag.Proof
open Langtag.Spec Langtag.Model

variable {α β σ : Type}

theorem work_tick_bind {f : Unit → Timed β} {q : Rust β} {m : Nat} (hf : WorkAtMost (f ()) q m) :
    WorkAtMost (Timed.tick >>= f) q (m + 1) := by
  refine ⟨?_, timed_tick_bind_le hf.2⟩
  rw [timed_bind_result, timed_tick_result, ok_bind, hf.1]

/-! ## Parts of values -/

theorem work_splitOnceDash (s : Str) : WorkAtMost (Timed.splitOnceDash s) (.ok (splitOnceDash s)) s.length := by
  induction s with
  | nil => exact work_pure _
  | cons b s ih =>
    unfold Timed.splitOnceDash splitOnceDash
    refine work_tick_bind ?_
    by_cases hb : b = 45
    · simp only [if_pos hb]
      exact work_mono (work_pure _) (Nat.zero_le _)
    · simp only [if_neg hb]
      exact work_bind_const ih fun _ _ => work_pure _

theorem work_primary (l : Language) : WorkAtMost (Timed.primary l) (.ok l.primary) l.str.length := by
  have key : (.ok l.primary : Rust _) = (.ok (splitOnceDash l.str) : Rust _) >>= fun o => .ok l.primary := rfl
  rw [key]
  refine work_bind_const (work_splitOnceDash l.str) fun o ho => ?_
  cases ho
  unfold Language.primary
  cases splitOnceDash l.str <;> exact work_pure _

theorem work_extension (l : Language) : WorkAtMost (Timed.extension l) (.ok l.extension) l.str.length :=
  work_bind_const (work_splitOnceDash l.str) fun _ _ => work_pure _

theorem work_extensionSubtags (l : Language) : WorkAtMost (Timed.extensionSubtags l) (.ok l.extensionSubtags) l.str.length :=
  work_bind_const (work_extension l) fun _ _ => work_pure _

theorem work_getLoop (s : Str) (g : Model.Singleton) (i : Nat) (starting : Bool) :
    WorkAtMost (Timed.getLoop s g i starting) (Extensions.getLoop s g i starting) (s.length - i) := by
  induction h : s.length - i generalizing i starting with
  | zero =>
    rw [Timed.getLoop.eq_def, Extensions.getLoop.eq_def, if_neg (by omega), if_neg (by omega)]
    exact work_pure _
  | succ n ih =>
    rw [Timed.getLoop.eq_def, Extensions.getLoop.eq_def]
    by_cases hi : i + 1 < s.length
    · rw [if_pos hi, if_pos hi]
      refine work_tick_bind ?_
      cases starting with
      | true =>
        refine work_lift_bind fun b _ => ?_
        cases b with
        | true =>
          refine work_bind_const (work_mono (work_findListEnd (k := 0) (fun o u => ?_) _) (by omega)) fun _ _ => work_lift_bind fun _ _ => work_pure _
          exact work_mono (work_pure _) (Nat.zero_le _)
        | false => exact ih _ _ (by omega)
      | false =>
        refine work_lift_bind fun b _ => ?_
        by_cases hb : b = 45
        · simp only [if_pos hb]; exact ih _ _ (by omega)
        · simp only [if_neg hb]; exact ih _ _ (by omega)
    · rw [if_neg hi, if_neg hi]
      exact work_mono (work_pure _) (Nat.zero_le _)

theorem work_get (e : Extensions) (g : Model.Singleton) : WorkAtMost (Timed.get e g) (e.get g) e.str.length :=
  work_getLoop e.str g 0 true

theorem work_iterExtension (e : Extensions) (g : Model.Singleton) :
    WorkAtMost (Timed.iterExtension e g) (e.iterExtension g) e.str.length :=
  work_bind_const (work_get e g) fun _ _ => work_pure _

/-! ## Whole iterations -/

/-- If each call takes from a potential what it costs, all the calls together cost at most the potential. -/
theorem work_collect {next : σ → Timed (Option α × σ)} {next' : σ → Rust (Option α × σ)} {Inv : σ → Prop} {φ : σ → Nat}
    (h : ∀ it, Inv it → WorkAtMost (next it) (next' it) (φ it) ∧
      ∀ x it', next' it = .ok (x, it') → Inv it' ∧ (next it).steps + φ it' ≤ φ it)
    (n : Nat) (it : σ) (hi : Inv it) : WorkAtMost (collectTimed next n it) (collect next' n it) (φ it) := by
  induction n generalizing it with
  | zero => exact work_mono (work_pure _) (Nat.zero_le _)
  | succ n ih =>
    obtain ⟨h1, h2⟩ := h it hi
    cases hn : next' it with
    | error e =>
      have hr : (next it).result = .error e := by rw [h1.1, hn]
      constructor
      · simp only [collectTimed, collect, timed_bind_result, hr, hn]
        rfl
      · rw [collectTimed, timed_bind_steps_error _ hr]
        exact h1.2
    | ok p =>
      obtain ⟨x, it'⟩ := p
      obtain ⟨h3, h4⟩ := h2 x it' hn
      have hr : (next it).result = .ok (x, it') := by rw [h1.1, hn]
      have hb : WorkAtMost (collectTimed next n it' >>= fun xs => pure (x :: xs)) (collect next' n it' >>= fun xs => pure (x :: xs)) (φ it') :=
        work_bind_const (ih it' h3) fun _ _ => work_pure _
      constructor
      · simp only [collectTimed, collect, timed_bind_result, hr, hn, ok_bind]
        rw [← hb.1, timed_bind_result]
      · rw [collectTimed, timed_bind_steps_ok _ hr]
        have := hb.2
        dsimp only
        omega

theorem work_collectSides {next nextBack : σ → Timed (Option α × σ)} {next' nextBack' : σ → Rust (Option α × σ)} {Inv : σ → Prop}
    {φ : σ → Nat}
    (hf : ∀ it, Inv it → WorkAtMost (next it) (next' it) (φ it) ∧
      ∀ x it', next' it = .ok (x, it') → Inv it' ∧ (next it).steps + φ it' ≤ φ it)
    (hb : ∀ it, Inv it → WorkAtMost (nextBack it) (nextBack' it) (φ it) ∧
      ∀ x it', nextBack' it = .ok (x, it') → Inv it' ∧ (nextBack it).steps + φ it' ≤ φ it)
    (history : List Side) (it : σ) (hi : Inv it) :
    WorkAtMost (collectSidesTimed next nextBack history it) (collectSides next' nextBack' history it) (φ it) := by
  induction history generalizing it with
  | nil => exact work_mono (work_pure _) (Nat.zero_le _)
  | cons side history ih =>
    have key : ∀ (y : Timed (Option α × σ)) (y' : Rust (Option α × σ)), (WorkAtMost y y' (φ it) ∧
        ∀ x it', y' = .ok (x, it') → Inv it' ∧ y.steps + φ it' ≤ φ it) →
        WorkAtMost (y >>= fun p => collectSidesTimed next nextBack history p.2 >>= fun xs => pure (p.1 :: xs))
          (y' >>= fun p => collectSides next' nextBack' history p.2 >>= fun xs => pure (p.1 :: xs)) (φ it) := by
      rintro y y' ⟨h1, h2⟩
      cases hn : y' with
      | error e =>
        have hr : y.result = .error e := by rw [h1.1, hn]
        constructor
        · rw [timed_bind_result, hr]; rfl
        · rw [timed_bind_steps_error _ hr]
          exact h1.2
      | ok p =>
        obtain ⟨x, it'⟩ := p
        obtain ⟨h3, h4⟩ := h2 x it' hn
        have hr : y.result = .ok (x, it') := by rw [h1.1, hn]
        have hb : WorkAtMost (collectSidesTimed next nextBack history it' >>= fun xs => pure (x :: xs))
            (collectSides next' nextBack' history it' >>= fun xs => pure (x :: xs)) (φ it') :=
          work_bind_const (ih it' h3) fun _ _ => work_pure _
        constructor
        · rw [timed_bind_result, hr, ok_bind, ok_bind, ← hb.1]
        · rw [timed_bind_steps_ok _ hr]
          have := hb.2
          dsimp only
          omega
    cases side with
    | front => exact key (next it) (next' it) (hf it hi)
    | back => exact key (nextBack it) (nextBack' it) (hb it hi)

/-! ### Segments -/

/-- The end of the segment: the next dash or the end of the text; one iteration for each byte looked at. -/
theorem findSegmentEndLoop_exact (s : Str) (i : Nat) : ∃ e, findSegmentEndLoop s i = .ok e ∧ i ≤ e ∧
    (s.length ≤ i ∧ e = i ∧ (Timed.findSegmentEndLoop s i).steps = 0 ∨
      e = s.length ∧ (Timed.findSegmentEndLoop s i).steps + i = e ∨
      e < s.length ∧ s[e]? = some 45 ∧ (Timed.findSegmentEndLoop s i).steps + i = e + 1) ∧
    ∀ j, i ≤ j → j < e → s[j]? ≠ some 45 := by
  induction h : s.length - i generalizing i with
  | zero =>
    rw [Timed.findSegmentEndLoop.eq_def, findSegmentEndLoop.eq_def, if_neg (by omega), if_neg (by omega)]
    exact ⟨i, rfl, Nat.le_refl i, Or.inl ⟨by omega, rfl, rfl⟩, by omega⟩
  | succ n ih =>
    have hi : i < s.length := by omega
    rw [Timed.findSegmentEndLoop.eq_def, findSegmentEndLoop.eq_def, if_pos hi, if_pos hi]
    have hx : index s i = .ok s[i] := by unfold index; simp [hi]
    rw [timed_bind_steps_ok _ timed_tick_result]
    rw [timed_bind_steps_ok (x := (liftM (index s i) : Timed _)) _ (by rw [timed_lift_result, hx]), hx, ok_bind]
    by_cases hb : s[i] = 45
    · simp only [if_pos hb]
      exact ⟨i, rfl, Nat.le_refl i, Or.inr (Or.inr ⟨hi, by rw [List.getElem?_eq_getElem hi, hb], by simp; omega⟩), by omega⟩
    · simp only [if_neg hb]
      obtain ⟨e, h1, h2, h3, h4⟩ := ih (i + 1) (by omega)
      refine ⟨e, h1, by omega, ?_, ?_⟩
      · simp only [timed_tick_steps, timed_lift_steps]
        rcases h3 with ⟨h3, rfl, h5⟩ | ⟨h3, h5⟩ | ⟨h3, h3', h5⟩
        · right; left; omega
        · right; left; omega
        · right; right; exact ⟨h3, h3', by omega⟩
      · intro j hj hje
        by_cases hji : j = i
        · subst hji
          rw [List.getElem?_eq_getElem hi]
          simpa using hb
        · exact h4 j (by omega) hje

/-- One call of a forward iterator: it pays for the bytes it goes past. -/
theorem work_forward (s : Str) (offset : Nat) (mk : Str → α) (build : Nat → σ) (it : σ) :
    let y : Timed (Option α × σ) := if offset < s.length then (do
      let e ← Timed.findSegmentEnd s offset
      let u ← sliceRange s offset e
      return (some (mk u), build (e + 1))) else return (none, it)
    let y' : Rust (Option α × σ) := if offset < s.length then (do
      let e ← findSegmentEnd s offset
      let u ← sliceRange s offset e
      return (some (mk u), build (e + 1))) else return (none, it)
    WorkAtMost y y' (s.length - offset) ∧
      ∀ x it', y' = .ok (x, it') → it' = it ∧ y.steps = 0 ∨ ∃ e, it' = build (e + 1) ∧ y.steps + (s.length - (e + 1)) ≤ s.length - offset := by
  intro y y'
  by_cases h : offset < s.length
  · obtain ⟨e, h1, h2, h3, _⟩ := findSegmentEndLoop_exact s offset
    have hs : (Timed.findSegmentEnd s offset).steps + (s.length - (e + 1)) ≤ s.length - offset := by
      unfold Timed.findSegmentEnd
      omega
    have hy : y = _ := if_pos h
    have hy' : y' = _ := if_pos h
    rw [hy, hy']
    constructor
    · exact work_bind_const ⟨findSegmentEnd_timed _ _, by omega⟩ fun _ _ => work_lift_bind fun _ _ => work_pure _
    · intro x it' hr
      right
      refine ⟨e, ?_, ?_⟩
      · rw [findSegmentEnd, h1, ok_bind] at hr
        cases hu : sliceRange s offset e with
        | error => rw [hu] at hr; cases hr
        | ok u => rw [hu] at hr; cases hr; rfl
      · have hr1 : (Timed.findSegmentEnd s offset).result = .ok e := by rw [findSegmentEnd_timed]; exact h1
        rw [timed_bind_steps_ok _ hr1]
        cases hu : sliceRange s offset e with
        | error => exact hs
        | ok u => exact hs
  · have hy : y = _ := if_neg h
    have hy' : y' = _ := if_neg h
    rw [hy, hy']
    refine ⟨work_mono (work_pure _) (Nat.zero_le _), ?_⟩
    intro x it' hr
    cases hr
    exact Or.inl ⟨rfl, rfl⟩

theorem work_extensionIter (n : Nat) (it : ExtensionIter) :
    WorkAtMost (collectTimed Timed.extensionNext n it) (collect ExtensionIter.next n it) (it.data.length - it.offset) := by
  refine work_collect (Inv := fun _ => True) (φ := fun it => it.data.length - it.offset) (fun it _ => ?_) n it trivial
  obtain ⟨h1, h2⟩ := work_forward it.data it.offset ExtensionSubtag.mk (fun o => ({ it with offset := o } : ExtensionIter)) it
  refine ⟨h1, fun x it' hr => ⟨trivial, ?_⟩⟩
  rcases h2 x it' hr with ⟨rfl, h⟩ | ⟨e, rfl, h⟩
  · exact Nat.le_of_eq ((congrArg (· + _) h).trans (Nat.zero_add _))
  · exact h

theorem work_privateUseIter (n : Nat) (it : PrivateUseIter) :
    WorkAtMost (collectTimed Timed.privateUseNext n it) (collect PrivateUseIter.next n it) (it.data.length - it.offset) := by
  refine work_collect (Inv := fun _ => True) (φ := fun it => it.data.length - it.offset) (fun it _ => ?_) n it trivial
  obtain ⟨h1, h2⟩ := work_forward it.data it.offset PrivateUseSubtag.mk (fun o => ({ it with offset := o } : PrivateUseIter)) it
  refine ⟨h1, fun x it' hr => ⟨trivial, ?_⟩⟩
  rcases h2 x it' hr with ⟨rfl, h⟩ | ⟨e, rfl, h⟩
  · exact Nat.le_of_eq ((congrArg (· + _) h).trans (Nat.zero_add _))
  · exact h

theorem work_languageExtensionIter (n : Nat) (it : LanguageExtensionIter) :
    WorkAtMost (collectTimed Timed.languageExtensionNext n it) (collect LanguageExtensionIter.next n it)
      (it.data.length - it.offset) := by
  refine work_collect (Inv := fun _ => True) (φ := fun it => it.data.length - it.offset) (fun it _ => ?_) n it trivial
  obtain ⟨h1, h2⟩ := work_forward it.data it.offset ExtendedLangTag.mk (fun o => ({ it with offset := o } : LanguageExtensionIter)) it
  refine ⟨h1, fun x it' hr => ⟨trivial, ?_⟩⟩
  rcases h2 x it' hr with ⟨rfl, h⟩ | ⟨e, rfl, h⟩
  · exact Nat.le_of_eq ((congrArg (· + _) h).trans (Nat.zero_add _))
  · exact h

/-! ### Variants, from both ends -/

/-- The start of the segment: just after the previous dash, or the start of the text. -/
theorem findSegmentStartLoop_exact (s : Str) (i : Nat) (hi : i < s.length) : ∃ r, findSegmentStartLoop s i = .ok r ∧ r ≤ i + 1 ∧
    (r = 0 ∧ (Timed.findSegmentStartLoop s i).steps = i + 1 ∨
      0 < r ∧ s[r - 1]? = some 45 ∧ (Timed.findSegmentStartLoop s i).steps + r = i + 2) ∧
    ∀ j, r ≤ j → j ≤ i → s[j]? ≠ some 45 := by
  have hx : ∀ i (h : i < s.length), index s i = .ok s[i] := by intro i h; unfold index; simp [h]
  induction i with
  | zero =>
    rw [Timed.findSegmentStartLoop.eq_def, findSegmentStartLoop.eq_def, timed_bind_steps_ok _ timed_tick_result,
      timed_bind_steps_ok (x := (liftM (index s 0) : Timed _)) _ (by rw [timed_lift_result, hx _ hi]), hx _ hi, ok_bind]
    by_cases hb : s[0] = 45
    · simp only [if_pos hb]
      exact ⟨1, rfl, Nat.le_refl _, Or.inr ⟨by omega, by rw [List.getElem?_eq_getElem hi, hb], rfl⟩, by omega⟩
    · simp only [if_neg hb]
      refine ⟨0, rfl, by omega, Or.inl ⟨rfl, rfl⟩, fun j _ hj => ?_⟩
      obtain rfl : j = 0 := by omega
      rw [List.getElem?_eq_getElem hi]
      simpa using hb
  | succ i ih =>
    rw [Timed.findSegmentStartLoop.eq_def, findSegmentStartLoop.eq_def, timed_bind_steps_ok _ timed_tick_result,
      timed_bind_steps_ok (x := (liftM (index s (i + 1)) : Timed _)) _ (by rw [timed_lift_result, hx _ hi]), hx _ hi, ok_bind]
    by_cases hb : s[i + 1] = 45
    · simp only [if_pos hb]
      refine ⟨i + 1 + 1, rfl, by omega, Or.inr ⟨by omega, ?_, ?_⟩, by omega⟩
      · rw [Nat.add_sub_cancel, List.getElem?_eq_getElem hi, hb]
      · simp; omega
    · simp only [if_neg hb]
      obtain ⟨r, h1, h2, h3, h4⟩ := ih (by omega)
      refine ⟨r, h1, by omega, ?_, ?_⟩
      · simp only [timed_tick_steps, timed_lift_steps]
        rcases h3 with ⟨h3, h5⟩ | ⟨h3, h3', h5⟩
        · left; omega
        · right; exact ⟨h3, h3', by omega⟩
      · intro j hj hji
        by_cases hj' : j = i + 1
        · subst hj'
          rw [List.getElem?_eq_getElem hi]
          simpa using hb
        · exact h4 j hj (by omega)

/-- Both ends are at the ends of segments, until nothing is left. -/
def BoundInv (it : VariantsIter) : Prop :=
  it.end_ ≤ it.data.length ∧
  (it.end_ ≤ it.offset ∨
    (it.end_ = it.data.length ∨ it.data[it.end_]? = some 45) ∧ (it.offset = 0 ∨ it.data[it.offset - 1]? = some 45))

theorem work_variantsNext (it : VariantsIter) (hi : BoundInv it) :
    WorkAtMost (Timed.variantsNext it) it.next (it.end_ + 1 - it.offset) ∧
      ∀ x it', it.next = .ok (x, it') → BoundInv it' ∧
        (Timed.variantsNext it).steps + (it'.end_ + 1 - it'.offset) ≤ it.end_ + 1 - it.offset := by
  obtain ⟨hl, hb⟩ := hi
  unfold Timed.variantsNext VariantsIter.next
  by_cases h : it.offset < it.end_
  · obtain ⟨hb1, hb2⟩ := hb.resolve_left (by omega)
    obtain ⟨e, h1, h2, h3, h4⟩ := findSegmentEndLoop_exact it.data it.offset
    have he : e ≤ it.end_ := by
      rcases hb1 with hb1 | hb1
      · omega
      · by_cases hc : e ≤ it.end_
        · exact hc
        · exact absurd hb1 (h4 _ (by omega) (by omega))
    have hs : (Timed.findSegmentEnd it.data it.offset).steps + (it.end_ + 1 - (e + 1)) ≤ it.end_ + 1 - it.offset := by
      unfold Timed.findSegmentEnd
      omega
    rw [if_pos h, if_pos h]
    constructor
    · exact work_bind_const ⟨findSegmentEnd_timed _ _, by omega⟩ fun _ _ => work_lift_bind fun _ _ => work_pure _
    · intro x it' hr
      have hr1 : (Timed.findSegmentEnd it.data it.offset).result = .ok e := by rw [findSegmentEnd_timed]; exact h1
      rw [timed_bind_steps_ok _ hr1]
      rw [findSegmentEnd, h1, ok_bind] at hr
      cases hu : sliceRange it.data it.offset e with
      | error => rw [hu] at hr; cases hr
      | ok u =>
        rw [hu] at hr; cases hr
        refine ⟨⟨hl, ?_⟩, hs⟩
        dsimp only
        rcases h3 with h3 | h3 | ⟨h3, h3', _⟩
        · omega
        · left; omega
        · right; exact ⟨hb1, Or.inr h3'⟩
  · rw [if_neg h, if_neg h]
    refine ⟨work_mono (work_pure _) (Nat.zero_le _), fun x it' hr => ?_⟩
    cases hr
    exact ⟨⟨hl, Or.inl (by omega)⟩, by simp⟩

theorem work_variantsNextBack (it : VariantsIter) (hi : BoundInv it) :
    WorkAtMost (Timed.variantsNextBack it) it.nextBack (it.end_ + 1 - it.offset) ∧
      ∀ x it', it.nextBack = .ok (x, it') → BoundInv it' ∧
        (Timed.variantsNextBack it).steps + (it'.end_ + 1 - it'.offset) ≤ it.end_ + 1 - it.offset := by
  obtain ⟨hl, hb⟩ := hi
  unfold Timed.variantsNextBack VariantsIter.nextBack
  by_cases h : it.end_ > it.offset
  · obtain ⟨hb1, hb2⟩ := hb.resolve_left (by omega)
    obtain ⟨r, h1, h2, h3, h4⟩ := findSegmentStartLoop_exact it.data (it.end_ - 1) (by omega)
    have hpos : it.end_ > 0 := by omega
    have hst : findSegmentStart it.data it.end_ = .ok r := by rw [findSegmentStart, if_pos hpos, h1]
    have hre : it.offset ≤ r := by
      rcases hb2 with hb2 | hb2
      · omega
      · by_cases hc : it.offset ≤ r
        · exact hc
        · exact absurd hb2 (h4 _ (by omega) (by omega))
    have hs : (Timed.findSegmentStart it.data it.end_).steps + ((if r > 0 then r - 1 else 0) + 1 - it.offset) ≤ it.end_ + 1 - it.offset := by
      rw [Timed.findSegmentStart, if_pos hpos]
      split <;> omega
    rw [if_pos h, if_pos h]
    constructor
    · exact work_bind_const ⟨findSegmentStart_timed _ _, by omega⟩ fun _ _ => work_lift_bind fun _ _ => work_pure _
    · intro x it' hr
      have hr1 : (Timed.findSegmentStart it.data it.end_).result = .ok r := by rw [findSegmentStart_timed, hst]
      rw [timed_bind_steps_ok _ hr1]
      rw [hst, ok_bind] at hr
      cases hu : sliceRange it.data r it.end_ with
      | error => rw [hu] at hr; cases hr
      | ok u =>
        rw [hu] at hr; cases hr
        refine ⟨⟨?_, ?_⟩, hs⟩
        · dsimp only; split <;> omega
        · dsimp only
          rcases h3 with ⟨h3, _⟩ | ⟨h3, h3', _⟩
          · left; rw [if_neg (by omega)]; omega
          · right
            rw [if_pos h3]
            exact ⟨Or.inr h3', hb2⟩
  · rw [if_neg h, if_neg h]
    refine ⟨work_mono (work_pure _) (Nat.zero_le _), fun x it' hr => ?_⟩
    cases hr
    exact ⟨⟨hl, Or.inl (by omega)⟩, by simp⟩

theorem boundInv_iter (v : Variants) : BoundInv v.iter := ⟨Nat.le_refl _, Or.inr ⟨Or.inl rfl, Or.inl rfl⟩⟩

theorem work_variantsIter (history : List Side) (v : Variants) :
    WorkAtMost (collectSidesTimed Timed.variantsNext Timed.variantsNextBack history v.iter)
      (collectSides VariantsIter.next VariantsIter.nextBack history v.iter) (v.str.length + 1) :=
  work_collectSides (Inv := BoundInv) (φ := fun it => it.end_ + 1 - it.offset) work_variantsNext work_variantsNextBack history v.iter
    (boundInv_iter v)

theorem work_first (v : Variants) : WorkAtMost (Timed.first v) v.first (v.str.length + 1) :=
  work_bind_const (work_variantsNext v.iter (boundInv_iter v)).1 fun _ _ => work_pure _

theorem work_last (v : Variants) : WorkAtMost (Timed.last v) v.last (v.str.length + 1) :=
  work_bind_const (work_variantsNextBack v.iter (boundInv_iter v)).1 fun _ _ => work_pure _

/-! ### Extensions -/

/-- A scan that stops at segments of one byte goes no further than the end of the first one. -/
theorem findListEndLoop_stop {s : Str} {f : Nat → Str → Timed Bool} {k j : Nat} (hf : ∀ o u, (f o u).steps ≤ k * u.length)
    (hf1 : ∀ o u, u.length = 1 → (f o u).result = .ok false) (h2 : 2 ≤ j) (hj : s[j]? = some 45) (hj1 : s[j - 1]? ≠ some 45)
    (hj2 : s[j - 2]? = some 45) (offset i e : Nat) (hoi : offset ≤ i) (hij : i ≤ j) (hoj : offset + 1 ≤ j)
    (hno : ∀ m, offset ≤ m → m < i → s[m]? ≠ some 45) :
    (Timed.findListEndLoop s f offset i e).steps ≤ (j + 1 - i) + k * (j - offset) := by
  have hjl : j < s.length := by
    by_cases h : j < s.length
    · exact h
    · rw [List.getElem?_eq_none (by omega)] at hj; cases hj
  induction h : j - i generalizing offset i e with
  | zero =>
    obtain rfl : i = j := by omega
    obtain ho : offset + 1 = i := by
      by_cases hc : offset + 1 = i
      · exact hc
      · exact absurd hj2 (hno _ (by omega) (by omega))
    rw [Timed.findListEndLoop.eq_def, if_pos hjl, Nat.add_sub_cancel_left, Nat.add_comm 1]
    refine timed_tick_bind_le (timed_lift_bind_le fun b hb => ?_)
    have hb' : b = 45 := by
      unfold index at hb
      rw [hj] at hb
      cases hb; rfl
    simp only [if_pos hb']
    refine timed_lift_bind_le fun u hu => ?_
    have hl := length_sliceRange hu
    have hc := hf offset u
    rw [hl] at hc
    refine timed_bind_pure_le hc fun c hcr => ?_
    rw [hf1 offset u (by omega)] at hcr
    cases hcr
    rfl
  | succ n ih =>
    rw [Timed.findListEndLoop.eq_def, if_pos (by omega)]
    have e1 : j + 1 - i + k * (j - offset) = j - i + k * (j - offset) + 1 := by omega
    rw [e1]
    refine timed_tick_bind_le (timed_lift_bind_le fun b hb => ?_)
    have hb' : s[i]? = some b := by
      unfold index at hb
      cases hs : s[i]? with
      | none => rw [hs] at hb; cases hb
      | some c => rw [hs] at hb; cases hb; rfl
    by_cases hq : b = 45
    · simp only [if_pos hq]
      subst hq
      refine timed_lift_bind_le fun u hu => ?_
      have h1 := hf offset u
      rw [length_sliceRange hu] at h1
      have hi1 : i ≠ j - 1 := by
        rintro rfl
        exact hj1 hb'
      have e2 : k * (i - offset) + (j + 1 - (i + 1) + k * (j - (i + 1))) ≤ j - i + k * (j - offset) := by
        have : k * (i - offset) + k * (j - (i + 1)) ≤ k * (j - offset) := by
          rw [← Nat.mul_add]
          exact Nat.mul_le_mul_left k (by omega)
        omega
      refine Nat.le_trans (timed_bind_le h1 fun b _ => ?_) e2
      split
      · exact ih _ _ _ (by omega) (by omega) (by omega) (by omega) (by omega)
      · exact Nat.zero_le _
    · simp only [if_neg hq]
      refine Nat.le_trans (ih offset (i + 1) e (by omega) (by omega) (by omega) ?_ (by omega)) (by omega)
      intro m hm hmi
      by_cases hmi' : m = i
      · subst hmi'
        rw [hb']
        simpa using hq
      · exact hno m hm (by omega)

theorem work_extensionsNext {data : Text} {offset : Nat} {items : List Text} (h : ExtInv data offset items) :
    WorkAtMost (Timed.extensionsNext ⟨data, offset⟩) (ExtensionsIter.next ⟨data, offset⟩) (2 * (data.length - offset)) ∧
      ∀ x it', ExtensionsIter.next ⟨data, offset⟩ = .ok (x, it') → it'.data = data ∧ (∃ items', ExtInv data it'.offset items') ∧
        (Timed.extensionsNext ⟨data, offset⟩).steps + 2 * (data.length - it'.offset) ≤ 2 * (data.length - offset) := by
  cases items with
  | nil =>
    have h0 := extInv_nil h
    unfold Timed.extensionsNext ExtensionsIter.next
    rw [if_neg h0, if_neg h0]
    refine ⟨work_mono (work_pure _) (Nat.zero_le _), fun x it' hr => ?_⟩
    cases hr
    exact ⟨rfl, ⟨[], h⟩, by simp⟩
  | cons x xs =>
    obtain ⟨h1, h2, h3, h4⟩ := extInv_cons h
    have hcost : ∀ (o : Nat) (u : Str), (Timed.isOk ExtensionSubtag u).steps ≤ 1 * u.length := fun o u => by
      rw [Nat.one_mul]; exact isOk_steps _ _
    have hres : (Timed.findListEnd data (offset + 2) fun _ segment => Timed.isOk ExtensionSubtag segment).result = .ok (offset + x.length) := by
      rw [findListEnd_timed (f' := fun _ segment => .ok (StrNewtype.isOk ExtensionSubtag segment)) (fun o u => isOk_timed _ u)]
      exact h2
    have hsteps : (Timed.findListEnd data (offset + 2) fun _ segment => Timed.isOk ExtensionSubtag segment).steps +
        2 * (data.length - (offset + x.length + 1)) ≤ 2 * (data.length - offset) := by
      cases xs with
      | nil =>
        have := findListEnd_steps (s := data) (f := fun _ segment => Timed.isOk ExtensionSubtag segment) hcost (offset + 2)
        have h5 := extInv_nil h4
        omega
      | cons y ys =>
        obtain ⟨ha, ⟨h, _⟩ | ⟨_, hu, pre, rfl, rfl⟩⟩ := h
        · simp at h
        simp only [List.forall_mem_cons] at hu
        obtain ⟨hx, hy, _⟩ := hu
        obtain ⟨b, us, rfl, hne, hb, hus⟩ := (matches_extension y).mp hy
        obtain ⟨b', us', rfl, hne', hb', hus'⟩ := (matches_extension x).mp hx
        obtain ⟨rest, e⟩ : ∃ rest, pre ++ joinDash (joinDash ([b'] :: us') :: joinDash ([b] :: us) :: ys) =
            pre ++ joinDash ([b'] :: us') ++ dash :: b :: dash :: rest := by
          obtain ⟨u, us, rfl⟩ := List.exists_cons_of_ne_nil hne
          refine ⟨u ++ tail us ++ tail ys, ?_⟩
          rw [joinDash_cons_tail (joinDash ([b'] :: us')), joinDash_cons_tail [b]]
          simp [tail]
        rw [e]
        generalize hxl : joinDash ([b'] :: us') = x'
        have hlen : 4 ≤ x'.length := by
          obtain ⟨u, us'', rfl⟩ := List.exists_cons_of_ne_nil hne'
          have := ((matches_extensionSubtag u).mp (hus' u (by simp))).1
          rw [← hxl, joinDash_cons_tail]
          simp [tail]
          omega
        have hbd : b ≠ dash := by
          rintro rfl
          exact dashFree_of_alphanum (w := [dash]) (by simpa using hb.1) (by simp)
        have hstop := findListEndLoop_stop (s := pre ++ x' ++ dash :: b :: dash :: rest) (k := 1) (j := pre.length + x'.length + 2)
          (f := fun _ segment => Timed.isOk ExtensionSubtag segment) hcost ?_ (by omega) ?_ ?_ ?_ (pre.length + 2) (pre.length + 2)
          (pre.length + 2) (Nat.le_refl _) (by omega) (by omega) (by omega)
        · have : (Timed.findListEnd (pre ++ x' ++ dash :: b :: dash :: rest) (pre.length + 2) fun _ segment => Timed.isOk ExtensionSubtag segment) =
            Timed.findListEndLoop (pre ++ x' ++ dash :: b :: dash :: rest) (fun _ segment => Timed.isOk ExtensionSubtag segment) (pre.length + 2) (pre.length + 2) (pre.length + 2) := rfl
          rw [this]
          simp only [List.length_append, List.length_cons]
          omega
        · intro o u hu
          rw [isOk_timed, isOk_false (isOk_ExtensionSubtag u)]
          intro hm
          have := ((matches_extensionSubtag u).mp hm).1
          omega
        · rw [← List.length_append, List.getElem?_append_right (by omega)]
          simp [dash]
        · rw [← List.length_append, List.getElem?_append_right (by omega)]
          simpa [dash] using hbd
        · rw [← List.length_append, List.getElem?_append_right (by omega)]
          simp [dash]
    have hnext : ExtensionsIter.next ⟨data, offset⟩ = .ok (some ⟨x⟩, ⟨data, offset + x.length + 1⟩) := by
      unfold ExtensionsIter.next
      rw [if_pos h1]
      simp only [h2, ok_bind, h3]
      rfl
    have hst : (Timed.extensionsNext ⟨data, offset⟩).steps =
        (Timed.findListEnd data (offset + 2) fun _ segment => Timed.isOk ExtensionSubtag segment).steps := by
      unfold Timed.extensionsNext
      rw [if_pos h1]
      simp only []
      rw [timed_bind_steps_ok _ hres, h3]
      rfl
    have hrs : (Timed.extensionsNext ⟨data, offset⟩).result = ExtensionsIter.next ⟨data, offset⟩ := by
      rw [hnext]
      unfold Timed.extensionsNext
      rw [if_pos h1]
      simp only [timed_bind_result, hres, ok_bind, timed_lift_result, h3]
      rfl
    refine ⟨⟨hrs, by omega⟩, fun z it' hr => ?_⟩
    rw [hnext] at hr
    cases hr
    exact ⟨rfl, ⟨xs, h4⟩, by dsimp only; omega⟩

theorem work_extensionsIter (n : Nat) {data : Text} {offset : Nat} {items : List Text} (h : ExtInv data offset items) :
    WorkAtMost (collectTimed Timed.extensionsNext n ⟨data, offset⟩) (collect ExtensionsIter.next n ⟨data, offset⟩)
      (2 * (data.length - offset)) := by
  refine work_collect (Inv := fun it : ExtensionsIter => it.data = data ∧ ∃ items, ExtInv data it.offset items)
    (φ := fun it : ExtensionsIter => 2 * (data.length - it.offset)) ?_ n ⟨data, offset⟩ ⟨rfl, items, h⟩
  rintro ⟨d, o⟩ ⟨rfl, items', hi⟩
  obtain ⟨h1, h2⟩ := work_extensionsNext hi
  exact ⟨h1, fun x it' hr => by obtain ⟨h3, h4, h5⟩ := h2 x it' hr; exact ⟨⟨h3, h4⟩, h5⟩⟩

end Langtag.Proof
