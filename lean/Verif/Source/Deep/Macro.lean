import Verif.Source.Deep.Lib
import Verif.Source.Refine.Macro

/-! # `langtag!`, with bounded nesting -/

set_option autoImplicit false

namespace Langtag.Source.Deep

open Langtag.Model (Panic Rust StrNewtype)

open Langtag.Model

variable {δ : Nat} {max : Nat} {C : Ctx} {σ : Env}

theorem langtagFn_callPath (v : Val) : callPath δ (crate max) C [] "langtag" [v] σ = callFn δ (crate max) langtagFn [v] σ := by
  rw [callPath, show (crate max).lookup [] "langtag" [v] = some langtagFn by kernel_rfl]

theorem LangTag.from_str_eq (s : List UInt8) (hs : s.length + 1 ≤ max) :
      callPath (δ + 3) (crate max) C ["LangTag"] "from_str" [.str s] σ =
        if StrNewtype.isOk LangTag s = true then some (.ok (.ctor ["Result"] "Ok" [.ctor ["LangTag"] "LangTag" [.str s]], []) σ)
        else some (.ok (.ctor ["Result"] "Err" [.str s], []) σ) := by
  rw [isOk_eq]
  exact new_newtype hs (by kernel_rfl) (by kernel_rfl) (languageTag_automaton max)

theorem langtag_eq (s : List UInt8) (hs : s.length + 1 ≤ max) :
    callFn (δ + 4) (crate max) langtagFn [.str s] σ = lift (fun r => (val r, [none])) (LangTag.langtag! s) σ := by
  rw [callFn_apply]
  simp only [langtagFn, LangTag.langtag!, new_isOk]
  deep [macro_ctor, macro_member, LangTag.from_str_eq s hs]
  by_cases h : StrNewtype.isOk LangTag s = true
  · deep [h]
    rfl
  · deep [h]

end Langtag.Source.Deep
