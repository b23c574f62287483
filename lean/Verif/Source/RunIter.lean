import Verif.Props.Source
import Verif.Spec.Run

/-! # Histories of calls on an iterator, in the text and in the model -/

set_option autoImplicit false

namespace Langtag.Source
open Langtag.Model Langtag.Spec

section
variable {σ α : Type} [Rep σ] [Rep α]

theorem runCalls_cons {max : Nat} {I f : String} {fs : List String} {it v it' : Val} (h : run max [I] f [it] = some (.returns v [it'])) :
    runCalls max I (f :: fs) it = (runCalls max I fs it').map (v :: ·) :=
  congrArg (followedBy (runCalls max I fs)) h

/-- A history of calls in the model. -/
theorem runCalls_collect {max : Nat} {I : String} {next : σ → Rust (Option α × σ)} (P : σ → Prop)
    (hr : ∀ it, P it → run max [I] "next" [val it] = givesNext (next it)) (hP : ∀ it x it', P it → next it = .ok (x, it') → P it') :
    ∀ (n : Nat) (it : σ) (xs : List (Option α)), P it → collect next n it = .ok xs →
      runCalls max I (List.replicate n "next") (val it) = some (xs.map val)
  | 0, it, xs, _, h => by cases h; rfl
  | n + 1, it, xs, hi, h => by
    rw [collect] at h
    cases hn : next it with
    | error p => rw [hn] at h; cases h
    | ok r =>
      obtain ⟨x, it'⟩ := r
      rw [hn] at h
      cases hc : collect next n it' with
      | error p => simp [bind, Except.bind, hc] at h
      | ok ys =>
        simp only [bind, Except.bind, hc, pure, Except.pure, Except.ok.injEq] at h
        subst h
        rw [List.replicate_succ, runCalls_cons (v := val x) (it' := val it') (by rw [hr it hi, hn]; rfl),
          runCalls_collect P hr hP n it' ys (hP _ _ _ hi hn) hc]
        rfl

/-- A history of calls at both ends in the model. -/
theorem runCalls_collectSides {max : Nat} {I : String} {next nextBack : σ → Rust (Option α × σ)} (P : σ → Prop)
    (hr : ∀ it, P it → run max [I] "next" [val it] = givesNext (next it)) (hP : ∀ it x it', P it → next it = .ok (x, it') → P it')
    (hr' : ∀ it, P it → run max [I] "next_back" [val it] = givesNext (nextBack it))
    (hP' : ∀ it x it', P it → nextBack it = .ok (x, it') → P it') :
    ∀ (hist : List Side) (it : σ) (xs : List (Option α)), P it → collectSides next nextBack hist it = .ok xs →
      runCalls max I (hist.map Side.fn) (val it) = some (xs.map val)
  | [], it, xs, _, h => by cases h; rfl
  | side :: hist, it, xs, hi, h => by
    have key : ∃ f : σ → Rust (Option α × σ), run max [I] side.fn [val it] = givesNext (f it) ∧ (∀ x it', f it = .ok (x, it') → P it') ∧
        collectSides next nextBack (side :: hist) it = (do
          let (x, it) ← f it
          let xs ← collectSides next nextBack hist it
          return x :: xs) := by
      cases side
      · exact ⟨next, hr it hi, fun x it' => hP it x it' hi, rfl⟩
      · exact ⟨nextBack, hr' it hi, fun x it' => hP' it x it' hi, rfl⟩
    obtain ⟨f, k1, k2, k3⟩ := key
    rw [k3] at h
    cases hn : f it with
    | error p => rw [hn] at h; cases h
    | ok r =>
      obtain ⟨x, it'⟩ := r
      rw [hn] at h
      cases hc : collectSides next nextBack hist it' with
      | error p => simp [bind, Except.bind, hc] at h
      | ok ys =>
        simp only [bind, Except.bind, hc, pure, Except.pure, Except.ok.injEq] at h
        subst h
        rw [List.map_cons, runCalls_cons (v := val x) (it' := val it') (by rw [k1, hn]; rfl), runCalls_collectSides P hr hP hr' hP' hist it' ys (k2 _ _ hn) hc]
        rfl
end

section
variable {σ α : Type} [Rep σ] [Rep α]

theorem optTag_map {T : String} {mk : Text → α} (hv : ∀ s, val (mk s) = tag T s) (o : Option Text) : val (o.map mk) = optTag T o := by
  cases o with
  | none => rfl
  | some s => show Val.ctor ["Option"] "Some" [val (mk s)] = _; rw [hv]; rfl

theorem runEnumerates_of {max : Nat} {I : String} {next : σ → Rust (Option α × σ)} (P : σ → Prop)
    (hr : ∀ it, P it → run max [I] "next" [val it] = givesNext (next it)) (hP : ∀ it x it', P it → next it = .ok (x, it') → P it')
    {T : String} {mk : Text → α} (hv : ∀ s, val (mk s) = tag T s) {it : σ} {items : List Text} (hi : P it)
    (h : Enumerates next it (items.map mk)) : RunEnumerates max I (val it) T items := fun n => by
  rw [runCalls_collect P hr hP n it _ hi (h n), List.map_map]
  congr 1
  refine List.map_congr_left fun k _ => ?_
  rw [Function.comp_apply, List.getElem?_map, optTag_map hv]

theorem takeSides_map {α β : Type} (f : α → β) : ∀ (hist : List Side) (items : List α),
    takeSides hist (items.map f) = (takeSides hist items).map (Option.map f)
  | [], _ => rfl
  | .front :: hist, items => by
    simp only [takeSides, List.head?_map, ← List.map_tail, takeSides_map f hist, List.map_cons]
  | .back :: hist, items => by
    simp only [takeSides, List.getLast?_map, ← List.map_dropLast, takeSides_map f hist, List.map_cons]

theorem runEnumeratesBothEnds_of {max : Nat} {I : String} {next nextBack : σ → Rust (Option α × σ)} (P : σ → Prop)
    (hr : ∀ it, P it → run max [I] "next" [val it] = givesNext (next it)) (hP : ∀ it x it', P it → next it = .ok (x, it') → P it')
    (hr' : ∀ it, P it → run max [I] "next_back" [val it] = givesNext (nextBack it))
    (hP' : ∀ it x it', P it → nextBack it = .ok (x, it') → P it')
    {T : String} {mk : Text → α} (hv : ∀ s, val (mk s) = tag T s) {it : σ} {items : List Text} (hi : P it)
    (h : EnumeratesBothEnds next nextBack it (items.map mk)) : RunEnumeratesBothEnds max I (val it) T items := fun hist => by
  rw [runCalls_collectSides P hr hP hr' hP' hist it _ hi (h hist), takeSides_map, List.map_map]
  congr 1
  refine List.map_congr_left fun k _ => ?_
  rw [Function.comp_apply, optTag_map hv]
end

/-! ## The iterators of the crate -/

theorem privateUseIter_runs {max : Nat} {it : PrivateUseIter} {items : List Text} (hs : it.data.length + 1 ≤ max)
    (h : Enumerates PrivateUseIter.next it (items.map PrivateUseSubtag.mk)) :
    RunEnumerates max "PrivateUseIter" (val it) "PrivateUseSubtag" items :=
  runEnumerates_of (fun j => j.data.length + 1 ≤ max)
    (fun j hj => (Props.C69_iterators max j.data j.offset 0 hj).2.2.2.2.2.2.2.2.2.2.2.2.2.1)
    (fun j x j' hj e => by rw [Langtag.Proof.data_privateUse e]; exact hj) (fun _ => rfl) hs h

theorem extensionIter_runs {max : Nat} {it : ExtensionIter} {items : List Text} (hs : it.data.length + 1 ≤ max)
    (h : Enumerates ExtensionIter.next it (items.map ExtensionSubtag.mk)) :
    RunEnumerates max "ExtensionIter" (val it) "ExtensionSubtag" items :=
  runEnumerates_of (fun j => j.data.length + 1 ≤ max)
    (fun j hj => (Props.C69_iterators max j.data j.offset 0 hj).2.2.2.2.2.2.2.2.2.2.2.1)
    (fun j x j' hj e => by rw [Langtag.Proof.data_extension e]; exact hj) (fun _ => rfl) hs h

theorem languageExtensionIter_runs {max : Nat} {it : LanguageExtensionIter} {items : List Text} (hs : it.data.length + 1 ≤ max)
    (h : Enumerates LanguageExtensionIter.next it (items.map ExtendedLangTag.mk)) :
    RunEnumerates max "LanguageExtensionIter" (val it) "ExtendedLangTag" items :=
  runEnumerates_of (fun j => j.data.length + 1 ≤ max)
    (fun j hj => (Props.C69_iterators max j.data j.offset 0 hj).2.2.2.2.2.2.2.2.2.2.2.2.2.2)
    (fun j x j' hj e => by rw [Langtag.Proof.data_languageExtension e]; exact hj) (fun _ => rfl) hs h

theorem extensionsIter_runs {max : Nat} {it : ExtensionsIter} {items : List Text} (hs : it.data.length + 1 ≤ max)
    (h : Enumerates ExtensionsIter.next it (items.map Extension.mk)) :
    RunEnumerates max "ExtensionsIter" (val it) "Extension" items :=
  runEnumerates_of (fun j => j.data.length + 1 ≤ max)
    (fun j hj => (Props.C69_iterators max j.data j.offset 0 hj).2.2.2.2.2.2.2.2.2.2.2.2.1)
    (fun j x j' hj e => by rw [Langtag.Proof.data_extensions e]; exact hj) (fun _ => rfl) hs h

theorem variantsIter_runs {max : Nat} {it : VariantsIter} {items : List Text} (hs : it.data.length + 1 ≤ max) (he : it.end_ ≤ it.data.length)
    (h : EnumeratesBothEnds VariantsIter.next VariantsIter.nextBack it (items.map Variant.mk)) :
    RunEnumeratesBothEnds max "VariantsIter" (val it) "Variant" items :=
  runEnumeratesBothEnds_of (fun j => j.data = it.data ∧ j.end_ ≤ j.data.length)
    (fun j hj => (Props.C69_iterators max j.data j.offset j.end_ (by rw [hj.1]; exact hs)).2.2.2.2.2.2.2.2.2.1 hj.2)
    (fun _ _ _ hj e => Langtag.Proof.variants_inv hj (.inl e))
    (fun j hj => (Props.C69_iterators max j.data j.offset j.end_ (by rw [hj.1]; exact hs)).2.2.2.2.2.2.2.2.2.2.1)
    (fun _ _ _ hj e => Langtag.Proof.variants_inv hj (.inr e)) (fun _ => rfl) ⟨rfl, he⟩ h

end Langtag.Source
