import Verif.Source.Refine.Lib

/-! # `langtag!` -/

set_option autoImplicit false

namespace Langtag.Source
open Langtag.Model (Panic Rust StrNewtype)
open Langtag.Model
variable {max : Nat} {C : Ctx} {σ : Env}

/-- The macro as a function: what `itemFns` makes of it. -/
def langtagFn : Fn := ⟨[], "", ⟨"langtag", [("value", .path ["literal"] [])], .tuple [],
  (.block []
      (.match (.call (.path ["crate", "LangTag", "from_str"]) [(.path ["value"])]) [
        .mk (.ctor ["Ok"] [(.path ["value"])]) (.path ["value"]),
        .mk (.ctor ["Err"] [.wild]) .panic]))⟩⟩

theorem langtagFn_callPath (v : Val) : callPath (crate max) C [] "langtag" [v] σ = callFn (crate max) langtagFn [v] σ := by
  rw [callPath, show (crate max).lookup [] "langtag" [v] = some langtagFn by kernel_rfl]

theorem LangTag.from_str_eq (s : List UInt8) (hs : s.length + 1 ≤ max) :
      callPath (crate max) C ["LangTag"] "from_str" [.str s] σ =
        if StrNewtype.isOk LangTag s = true then some (.ok (.ctor ["Result"] "Ok" [.ctor ["LangTag"] "LangTag" [.str s]], []) σ)
        else some (.ok (.ctor ["Result"] "Err" [.str s], []) σ) := by
  rw [isOk_eq]
  exact new_newtype hs (by kernel_rfl) (by kernel_rfl) (languageTag_automaton max)

theorem macro_ctor : ctorOf (crate max) ⟨[], "", .tuple []⟩ ["crate", "LangTag", "from_str"] = none := by kernel_rfl
theorem macro_member : memberOf (crate max) ⟨[], "", .tuple []⟩ ["crate", "LangTag", "from_str"] = (["LangTag"], "from_str") := by kernel_rfl

theorem langtag_eq (s : List UInt8) (hs : s.length + 1 ≤ max) :
    callFn (crate max) langtagFn [.str s] σ = lift (fun r => (val r, [none])) (LangTag.langtag! s) σ := by
  rw [callFn_apply]
  simp only [langtagFn, LangTag.langtag!, new_isOk]
  exec [macro_ctor, macro_member, LangTag.from_str_eq s hs]
  by_cases h : StrNewtype.isOk LangTag s = true
  · exec [h]
    rfl
  · exec [h]

end Langtag.Source
