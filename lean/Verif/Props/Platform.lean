import Verif.Source.Platform
import Verif.Props.LetterCase

/-!
# C72: the same on every platform

Statements about the text of the crate and every program that uses it, for two sizes of `usize`: `max` is the largest `usize` of a platform
(`2 ^ 16 - 1`, `2 ^ 32 - 1` or `2 ^ 64 - 1`).
-/

set_option autoImplicit false

namespace Langtag.Props
open Langtag.Source Langtag.Spec

/-- C72: a public function, called on values a program can have on the smaller platform, ends on the larger one as it does on the smaller:
with the same value, leaving the same in its `&mut` parameters, or with the same panic. -/
theorem C72_calls (max max' : Nat) (hmax : 12 ≤ max) (hm : max ≤ max') (F : PubFn) (hF : F ∈ api) (args : List Val) (hf : FitAll F.params args)
    (ha : ∀ a ∈ args, Obtainable max a) : run max F.owner F.name args = run max' F.owner F.name args :=
  Platform.api_same hmax hm F hF args hf fun a h => Client.sound_of_obtainable hmax (ha a h)

/-- C72: a program, on inputs that fit the smaller platform, for any number of steps: it panics on both platforms or on neither, and holds
the same values. -/
theorem C72_programs (max max' : Nat) (hmax : 12 ≤ max) (hm : max ≤ max') (P : UserProgram) (n : Nat) (inputs : List Val)
    (ha : ∀ a ∈ inputs, Obtainable max a) : P.exec max n inputs = P.exec max' n inputs :=
  Platform.exec_same hmax hm P n inputs ha

/-- C72: what a program can get hold of on the smaller platform it can get hold of on the larger one. -/
theorem C72_obtainable (max max' : Nat) (hmax : 12 ≤ max) (hm : max ≤ max') (v : Val) (h : Obtainable max v) : Obtainable max' v := by
  induction h with
  | bool b => exact .bool b
  | u8 b => exact .u8 b
  | char c => exact .char c
  | str s h hs => exact .str s h (Nat.le_trans hs hm)
  | bytes s hs => exact .bytes s (Nat.le_trans hs hm)
  | hasher w => exact .hasher w
  | formatter f out => exact .formatter f out
  | kind x h => exact .kind x h
  | grandfathered x h => exact .grandfathered x h
  | typed x T v hx hT h ih => exact .typed x T v hx hT ih
  | empty T h => exact .empty T h
  | text T s h hv ih => exact .text T s h ih
  | field T x vs v h hv ho ih => exact .field T x vs v h hv ih
  | call F hF args hf ha v after hr w hw ih =>
    exact .call F hF args hf ih v after ((C72_calls max max' hmax hm F hF args hf ha).symm.trans hr) w hw

-- the program of C71, on 16-bit and on 64-bit platforms
example : primaryOf.exec (2 ^ 16 - 1) 10 [.str (ascii "EN-gb")] = primaryOf.exec (2 ^ 64 - 1) 10 [.str (ascii "EN-gb")] :=
  C72_programs _ _ (by decide) (by decide) primaryOf 10 [.str (ascii "EN-gb")]
    (by simpa using Obtainable.str _ (Client.isUtf8_of_ascii (by unfold Proof.Ascii; decide +kernel)) (by decide +kernel))

-- where it ends with `EN`: on the platform of 100 bytes of C71, and so on every larger one
example (max : Nat) (h : 100 ≤ max) : ∃ held, primaryOf.exec max 10 [.str (ascii "EN-gb")] = some (held ++ [.str (ascii "EN")]) := by
  have k := C72_programs 100 max (by decide) h primaryOf 10 [.str (ascii "EN-gb")]
    (by simpa using Obtainable.str _ (Client.isUtf8_of_ascii (by unfold Proof.Ascii; decide +kernel)) (by decide +kernel))
  rw [← k, primaryOf_EN]
  exact ⟨[_, _, _, _, _, _], rfl⟩

end Langtag.Props
