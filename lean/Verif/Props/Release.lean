import Verif.Source.Release
import Verif.Props.LetterCase

/-!
# C74: the same in debug and release builds

Statements about the text of the crate and every program that uses it.  `run` is a build with overflow checks (a debug build), `runRelease`
one without (a release build), in which a sum or difference that does not fit its type wraps around.
-/

set_option autoImplicit false

namespace Langtag.Props
open Langtag.Source Langtag.Spec

/-- C74: a public function, called on values a program can have, ends in a release build as it does in a debug build: with the same value,
leaving the same in its `&mut` parameters, or with the same panic. -/
theorem C74_calls (max : Nat) (hmax : 12 ≤ max) (F : PubFn) (hF : F ∈ api) (args : List Val) (hf : FitAll F.params args)
    (ha : ∀ a ∈ args, Obtainable max a) : run max F.owner F.name args = runRelease max F.owner F.name args := by
  rcases C70_ends max hmax F hF args hf ha with ⟨v, after, h⟩ | ⟨p, h⟩
  · rw [h, Release.run_release h (by simp)]
  · rw [h, Release.run_release h]
    rw [C70_panic max hmax F hF args hf ha p h]
    unfold panicOf
    split <;> simp

/-- C74: and no addition or subtraction of the crate overflows: no call panics for it in a debug build. -/
theorem C74_overflow (max : Nat) (hmax : 12 ≤ max) (F : PubFn) (hF : F ∈ api) (args : List Val) (hf : FitAll F.params args)
    (ha : ∀ a ∈ args, Obtainable max a) : run max F.owner F.name args ≠ some (.panics .overflow) := by
  intro h
  have := C70_panic max hmax F hF args hf ha _ h
  unfold panicOf at this
  split at this <;> cases this

/-- C74: a program, for any number of steps: it panics in both builds or in neither, and holds the same values. -/
theorem C74_programs (max : Nat) (hmax : 12 ≤ max) (P : UserProgram) : ∀ (n : Nat) (inputs : List Val), (∀ a ∈ inputs, Obtainable max a) →
    P.exec max n inputs = P.execWith (runRelease max) n inputs
  | 0, held, _ => by rw [UserProgram.exec_zero, UserProgram.execWith]
  | n + 1, held, ha => by
    rw [UserProgram.exec_succ, UserProgram.execWith]
    cases P held with
    | none => rfl
    | some step =>
      have e : step.takeWith (runRelease max) held = step.take max held := by
        cases step with
        | call F is =>
          simp only [Step.take, Step.takeWith]
          cases e : is.mapM (held[·]?) with
          | none => rfl
          | some args =>
            simp only
            split
            · rename_i hF
              rw [C74_calls max hmax F hF.1 args ((Lower.fitAll_iff _ _).mp hF.2) fun a h => ha a (Lower.mem_of_mapM e a h)]
            · rfl
        | text i => simp only [Step.take, Step.takeWith]
        | field i j => simp only [Step.take, Step.takeWith]
        | typed x i => simp only [Step.take, Step.takeWith]
      simp only [e]
      cases e : step.take max held with
      | none => rw [Option.bind_none, Option.bind_none]
      | some w =>
        rw [Option.bind_some, Option.bind_some]
        exact C74_programs max hmax P n w (Lower.obtainable_take ha e)

-- what the builds differ in: 250 + 10, as `u8`
example (max : Nat) (σ : Env) : arith (crate max) .add (.u8 250) (.u8 10) σ = some (.ctl (.panic .overflow) σ) ∧
    arith (crate max).release .add (.u8 250) (.u8 10) σ = some (.ok (.u8 4) σ) := by
  constructor
  · simp only [arith, overflow, show (crate max).wraps = false from rfl]
    rfl
  · simp only [arith, overflow, show (crate max).release.wraps = true from rfl]
    rfl

-- the program of C71 in both builds
example : primaryOf.execWith (runRelease 100) 10 [.str (ascii "EN-gb")] =
    some [.str (ascii "EN-gb"), .ok (tag "LangTag" (ascii "EN-gb")), tag "LangTag" (ascii "EN-gb"), .some (tag "Language" (ascii "EN")),
      tag "Language" (ascii "EN"), tag "PrimaryLanguage" (ascii "EN"), .str (ascii "EN")] := by
  rw [← C74_programs 100 (by decide) primaryOf 10 [.str (ascii "EN-gb")]
    (by simpa using Obtainable.str _ (Client.isUtf8_of_ascii (by unfold Proof.Ascii; decide +kernel)) (by decide +kernel)), primaryOf_EN]

end Langtag.Props
