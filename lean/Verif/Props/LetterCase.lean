import Verif.Source.Lower
import Verif.Props.Client
import Verif.Props.SourceMore

/-!
# C71: letter case is not information

Statements about the text of the crate and every program that uses it.  `lowerVal v` is the value `v` with all its letters in lower case, so
`lowerVal v = lowerVal w` says that `v` and `w` differ in letter case only.  A program (`UserProgram`) decides its next step from the values
it holds; `P.exec max n held` is what it holds after `n` steps, or `none` if a call has panicked.
-/

set_option autoImplicit false

namespace Langtag.Props
open Langtag.Source Langtag.Spec

/-- C71: a public function, other than the four that compare singletons, called on arguments that differ in letter case only: both calls
panic, or both return, and what they return and leave in their `&mut` parameters differs in letter case only. -/
theorem C71_calls (max : Nat) (hmax : 12 ≤ max) (F : PubFn) (hF : F ∈ api) (hc : F ∉ caseSensitive) (args args' : List Val)
    (hf : FitAll F.params args) (ha : ∀ a ∈ args, Obtainable max a) (ha' : ∀ a ∈ args', Obtainable max a)
    (h : args.map lowerVal = args'.map lowerVal) :
    (run max F.owner F.name args).map lowerOutcome = (run max F.owner F.name args').map lowerOutcome :=
  Lower.calls_agree hmax hF hc hf (fun a h => Client.sound_of_obtainable hmax (ha a h)) (fun a h => Client.sound_of_obtainable hmax (ha' a h)) h

/-- C71: a program that does not look at letter case, run on inputs that differ in letter case only, for any number of steps: it panics on
both or on neither, and the values it then holds differ in letter case only. -/
theorem C71_programs (max : Nat) (hmax : 12 ≤ max) (P : UserProgram) (hP : CaseBlind P) (n : Nat) (inputs inputs' : List Val)
    (ha : ∀ a ∈ inputs, Obtainable max a) (ha' : ∀ a ∈ inputs', Obtainable max a) (h : inputs.map lowerVal = inputs'.map lowerVal) :
    (P.exec max n inputs).map (List.map lowerVal) = (P.exec max n inputs').map (List.map lowerVal) :=
  Lower.exec_lower hmax hP n inputs inputs' h ha ha'

/-- C71: and so on texts that are equal but for case, in whatever case. -/
theorem C71_texts (max : Nat) (hmax : 12 ≤ max) (P : UserProgram) (hP : CaseBlind P) (n : Nat) (s t : Text) (hs : IsUtf8 s)
    (ht : IsUtf8 t) (hl : s.length + 1 ≤ max) (h : CaseEq s t) :
    (P.exec max n [.str s]).map (List.map lowerVal) = (P.exec max n [.str t]).map (List.map lowerVal) := by
  have hl' : t.length = s.length := by simpa [lowerText] using (congrArg List.length h).symm
  exact C71_programs max hmax P hP n _ _ (by simpa using Obtainable.str s hs hl) (by simpa using Obtainable.str t ht (by omega))
    (by simp only [List.map_cons, List.map_nil, lowerVal]; rw [show lowerText s = lowerText t from h])

/-- C71: the steps of a program get hold of nothing but what a program can get hold of. -/
theorem C71_obtainable (max : Nat) (P : UserProgram) (n : Nat) (inputs held : List Val) (ha : ∀ a ∈ inputs, Obtainable max a)
    (h : P.exec max n inputs = some held) : ∀ a ∈ held, Obtainable max a := by
  induction n generalizing inputs with
  | zero => injection h with h; subst h; exact ha
  | succ n ih =>
    simp only [UserProgram.exec_succ] at h
    cases e : P inputs with
    | none => rw [e] at h; injection h with h; subst h; exact ha
    | some step =>
      rw [e] at h
      obtain ⟨w, hw, h⟩ := Option.bind_eq_some_iff.mp h
      exact ih w (Lower.obtainable_take ha hw) h

/-! ## Such a program -/

/-- `LangTag::new(input)?.language()?.primary()`, as text. -/
def primaryOf : UserProgram := fun held =>
  match held.length with
  | 1 => some (.call ⟨["LangTag"], "new", [.str]⟩ [0])
  | 2 => some (.field 1 0)
  | 3 => some (.call ⟨["LangTag"], "language", [.of "LangTag"]⟩ [2])
  | 4 => some (.field 3 0)
  | 5 => some (.call ⟨["Language"], "primary", [.of "Language"]⟩ [4])
  | 6 => some (.text 5)
  | _ => none

theorem primaryOf_caseBlind : CaseBlind primaryOf := by
  constructor
  · intro held held' h
    unfold primaryOf
    rw [show held.length = held'.length by simpa using congrArg List.length h]
  · intro held F is h
    unfold primaryOf at h
    split at h <;> first | (injection h with h; injection h with h; subst h; decide) | (injection h with h; cases h) | cases h

theorem take_call {max : Nat} {held args : List Val} {F : PubFn} {is : List Nat} {v : Val} {ws : List Val} (hi : is.mapM (held[·]?) = some args)
    (hF : F ∈ api) (hf : fitAll F.params args = true) (hr : run max F.owner F.name args = some (.returns v ws)) :
    Step.take max held (.call F is) = some (held ++ v :: ws) := by
  simp only [Step.take, Step.takeWith, hi]
  rw [if_pos ⟨hF, hf⟩, hr]
  rfl

theorem exec_step {max : Nat} {P : UserProgram} {held held' : List Val} {step : Step} (n : Nat) (hp : P held = some step)
    (ht : step.take max held = some held') : P.exec max (n + 1) held = P.exec max n held' := by
  simp only [UserProgram.exec_succ, hp, ht, Option.bind_some]

theorem exec_stop {max : Nat} {P : UserProgram} {held : List Val} (n : Nat) (hp : P held = none) :
    P.exec max (n + 1) held = some held := by
  simp only [UserProgram.exec_succ, hp]

-- on `EN-gb` it makes its three calls, and ends with `EN`
theorem primaryOf_EN : primaryOf.exec 100 10 [.str (ascii "EN-gb")] =
    some [.str (ascii "EN-gb"), .ok (tag "LangTag" (ascii "EN-gb")), tag "LangTag" (ascii "EN-gb"), .some (tag "Language" (ascii "EN")),
      tag "Language" (ascii "EN"), tag "PrimaryLanguage" (ascii "EN"), .str (ascii "EN")] := by
  have h1 : run 100 ["LangTag"] "new" [.str (ascii "EN-gb")] = some (.returns (.ok (tag "LangTag" (ascii "EN-gb"))) []) :=
    (LangTag.source.new 100 (ascii "EN-gb") (by decide +kernel)).trans (by kernel_rfl)
  have h2 : run 100 ["LangTag"] "language" [tag "LangTag" (ascii "EN-gb")] = some (.returns (.some (tag "Language" (ascii "EN"))) []) :=
    (C69_langTag 100 ⟨ascii "EN-gb"⟩ (by decide +kernel)).1.trans (by kernel_rfl)
  have h3 : run 100 ["Language"] "primary" [tag "Language" (ascii "EN")] = some (.returns (tag "PrimaryLanguage" (ascii "EN")) []) :=
    (C69_parts 100 (ascii "EN") ⟨0⟩ (by decide +kernel)).1.trans (by kernel_rfl)
  generalize ascii "EN-gb" = s at *
  generalize ascii "EN" = t at *
  exact (exec_step 9 rfl (take_call (args := [.str s]) rfl (by decide) rfl h1)).trans <|
    (exec_step 8 rfl (step := .field 1 0) rfl).trans <|
    (exec_step 7 rfl (take_call (args := [tag "LangTag" s]) rfl (by decide) rfl h2)).trans <|
    (exec_step 6 rfl (step := .field 3 0) rfl).trans <|
    (exec_step 5 rfl (take_call (args := [tag "Language" t]) rfl (by decide) rfl h3)).trans <|
    (exec_step 4 rfl (step := .text 5) rfl).trans <|
    exec_stop 3 rfl

-- so on `en-GB` it ends with `en`, in some case
example : (primaryOf.exec 100 10 [.str (ascii "en-GB")]).map (List.map lowerVal) =
    some [.str (ascii "en-gb"), .ok (tag "LangTag" (ascii "en-gb")), tag "LangTag" (ascii "en-gb"), .some (tag "Language" (ascii "en")),
      tag "Language" (ascii "en"), tag "PrimaryLanguage" (ascii "en"), .str (ascii "en")] := by
  have h := C71_texts 100 (by decide) primaryOf primaryOf_caseBlind 10 (ascii "EN-gb") (ascii "en-GB")
    (Client.isUtf8_of_ascii (by unfold Proof.Ascii; decide +kernel)) (Client.isUtf8_of_ascii (by unfold Proof.Ascii; decide +kernel))
    (by decide +kernel) (by unfold CaseEq; decide +kernel)
  rw [primaryOf_EN] at h
  exact h.symm.trans (by kernel_rfl)

/-! ## The exceptions -/

theorem outcomes_ne {max : Nat} {T : List String} {f : String} {args args' : List Val} {v v' : Val}
    (h : run max T f args = some (.returns v [])) (h' : run max T f args' = some (.returns v' [])) (hv : lowerVal v ≠ lowerVal v') :
    (run max T f args).map lowerOutcome ≠ (run max T f args').map lowerOutcome := by
  rw [h, h']
  intro e
  injection e with e
  injection e with e
  exact hv e

/-- C71: the four exceptions are exceptions: a program can have arguments that differ in letter case only, on which the function does not
return the same up to letter case. -/
theorem C71_exceptions (F : PubFn) (hF : F ∈ caseSensitive) :
    ∃ args args', FitAll F.params args ∧ FitAll F.params args' ∧ (∀ a ∈ args, Obtainable 100 a) ∧ (∀ a ∈ args', Obtainable 100 a) ∧
      args.map lowerVal = args'.map lowerVal ∧
      (run 100 F.owner F.name args).map lowerOutcome ≠ (run 100 F.owner F.name args').map lowerOutcome := by
  have hs : ∀ b, b = 97 ∨ b = 65 → Obtainable 100 (singletonVal b) := by
    intro b hb
    refine obtainable_ok (.call ⟨["Singleton"], "new", [.u8]⟩ (by decide) [.u8 b] ⟨⟨b, rfl⟩, trivial⟩ (by simpa using .u8 b) _ []
      ((C69_singleton 100 ⟨0⟩ [] b 'a' .default []).1.trans ?_) _ (List.mem_singleton.mpr rfl))
    rcases hb with rfl | rfl <;> rfl
  have he : ∀ s, s = ascii "a-bb" ∨ s = ascii "A-bb" → Obtainable 100 (tag "Extensions" s) := by
    intro s h
    refine (C70_reached 100 "Extensions" (by decide) s).1 ⟨_, rfl, (Proof.accepts_iff Proof.is_Extensions _).mp ?_⟩ (by rcases h with rfl | rfl <;> decide +kernel)
    rcases h with rfl | rfl <;> exact Proof.accepts_of_isOk (by decide +kernel)
  have hl : lowerVal (singletonVal 97) = lowerVal (singletonVal 65) := by kernel_rfl
  have hx : lowerVal (tag "Extensions" (ascii "a-bb")) = lowerVal (tag "Extensions" (ascii "A-bb")) := by kernel_rfl
  have hb : lowerVal (.bool true) ≠ lowerVal (.bool false) := by simp [lowerVal]
  simp only [caseSensitive, List.mem_cons, List.not_mem_nil, or_false] at hF
  rcases hF with rfl | rfl | rfl | rfl
  · refine ⟨[singletonVal 97, .u8 97], [singletonVal 65, .u8 97], ⟨rfl, ⟨_, rfl⟩, trivial⟩, ⟨rfl, ⟨_, rfl⟩, trivial⟩, ?_, ?_, ?_,
      outcomes_ne ((C69_singleton 100 ⟨97⟩ [] 97 'a' .default []).2.2.2.2.2.2.1.trans (by kernel_rfl))
        ((C69_singleton 100 ⟨65⟩ [] 97 'a' .default []).2.2.2.2.2.2.1.trans (by kernel_rfl)) hb⟩
    · simpa using ⟨hs 97 (.inl rfl), .u8 97⟩
    · simpa using ⟨hs 65 (.inr rfl), .u8 97⟩
    · simp only [List.map_cons, hl]
  · refine ⟨[singletonVal 97, .char 'a'], [singletonVal 65, .char 'a'], ⟨rfl, ⟨_, rfl⟩, trivial⟩, ⟨rfl, ⟨_, rfl⟩, trivial⟩, ?_, ?_, ?_,
      outcomes_ne ((C69_singleton 100 ⟨97⟩ [] 97 'a' .default []).2.2.2.2.2.2.2.1.trans (by kernel_rfl))
        ((C69_singleton 100 ⟨65⟩ [] 97 'a' .default []).2.2.2.2.2.2.2.1.trans (by kernel_rfl)) hb⟩
    · simpa using ⟨hs 97 (.inl rfl), .char 'a'⟩
    · simpa using ⟨hs 65 (.inr rfl), .char 'a'⟩
    · simp only [List.map_cons, hl]
  · refine ⟨[tag "Extensions" (ascii "a-bb"), singletonVal 97], [tag "Extensions" (ascii "A-bb"), singletonVal 97], ⟨rfl, rfl, trivial⟩,
      ⟨rfl, rfl, trivial⟩, ?_, ?_, ?_, outcomes_ne C31_source_violated.2.2.1 C31_source_violated.2.2.2 ?_⟩
    · simpa using ⟨he _ (.inl rfl), hs 97 (.inl rfl)⟩
    · simpa using ⟨he _ (.inr rfl), hs 97 (.inl rfl)⟩
    · simp only [List.map_cons, hx]
    · simp [optTag, Val.some, Val.none, lowerVal]
  · refine ⟨[tag "Extensions" (ascii "a-bb"), singletonVal 97], [tag "Extensions" (ascii "A-bb"), singletonVal 97], ⟨rfl, rfl, trivial⟩,
      ⟨rfl, rfl, trivial⟩, ?_, ?_, ?_,
      outcomes_ne ((C69_parts 100 (ascii "a-bb") ⟨97⟩ (by decide +kernel)).2.2.2.2.2.2.2.2.2.2.2.1.trans
          (show gives _ = some (.returns (val (Model.ExtensionIter.mk (ascii "a-bb") 2)) []) by kernel_rfl))
        ((C69_parts 100 (ascii "A-bb") ⟨97⟩ (by decide +kernel)).2.2.2.2.2.2.2.2.2.2.2.1.trans
          (show gives _ = some (.returns (val Model.ExtensionIter.empty) []) by kernel_rfl)) ?_⟩
    · simpa using ⟨he _ (.inl rfl), hs 97 (.inl rfl)⟩
    · simpa using ⟨he _ (.inr rfl), hs 97 (.inl rfl)⟩
    · simp only [List.map_cons, hx]
    · intro h
      have h' := congrArg (fun v => match v with | .struct _ [(_, .str s), _] => s.length | _ => 0) h
      revert h'
      decide +kernel

end Langtag.Props
