import Verif.Source.Counted.Parts
import Verif.Source.Refine.Normal

/-! # `Singleton` (`/repo/src/normal/extension.rs`), counting: no loops -/

set_option autoImplicit false

namespace Langtag.Source.Counted
open Langtag.Source (val)
open Langtag.Model

variable {C : Ctx} {σ : Env} {max : Nat}

@[cnt] theorem Singleton.new_eq (c : UInt8) : callFn (crate max) ⟨["Singleton"], "", Ast.Singleton_new⟩ [.u8 c] σ =
    fin (.ok (singletonResult .u8 (Singleton.new c), [none]) σ) := by
  rw [callFn_apply]
  simp only [Ast.Singleton_new, Singleton.new]
  count
  by_cases h1 : c = 120 <;> by_cases h2 : c = 88 <;> cases h3 : isAsciiAlphanumeric c <;> simp_all [src, cnt]

@[cnt] theorem Singleton.try_from_u8_eq (c : UInt8) : callFn (crate max) ⟨["Singleton"], "TryFrom", Ast.Singleton_TryFrom_try_from⟩ [.u8 c] σ =
    fin (.ok (singletonResult .u8 (Singleton.tryFromU8 c), [none]) σ) := by
  rw [callFn_apply]
  simp only [Ast.Singleton_TryFrom_try_from, Singleton.tryFromU8]
  count

@[cnt] theorem Singleton.try_from_char_eq (c : Char) : callFn (crate max) ⟨["Singleton"], "TryFrom", Ast.Singleton_TryFrom_try_from_2⟩ [.char c] σ =
    fin (.ok (singletonResult .char (Singleton.tryFromChar c), [none]) σ) := by
  rw [callFn_apply]
  simp only [Ast.Singleton_TryFrom_try_from_2, Singleton.tryFromChar]
  count
  rw [show UInt8.toNat 255 = 255 from rfl]
  by_cases h : c.toNat < 255
  · simp only [h, if_true]
    cases Singleton.new (UInt8.ofNat c.toNat) <;> count
  · simp only [h, if_false]
    count

/-- `try_into` of a `char`, in a function the result of which is a `Result<Self, _>`. -/
@[cnt] theorem Singleton.try_into_eq (t : String) (ts : List Ty) (c : Char) :
    callMethod (crate max) ⟨["Singleton"], t, .path ["Result"] (.path ["Self"] [] :: ts)⟩ (.char c) "try_into" [] σ =
    fin (.ok (singletonResult .char (Singleton.tryFromChar c), [none]) σ) := by
  rw [callMethod.eq_def]
  show callPath (crate max) _ (okType (crate max) ⟨["Singleton"], t, .path ["Result"] (.path ["Self"] [] :: ts)⟩) "try_from" [.char c] σ = _
  rw [show okType (crate max) ⟨["Singleton"], t, .path ["Result"] (.path ["Self"] [] :: ts)⟩ = ["Singleton"] from by kernel_rfl]
  count

@[cnt] theorem Singleton.from_string_eq (s : List UInt8) : callFn (crate max) ⟨["Singleton"], "", Ast.Singleton_from_string⟩ [.str s] σ =
    freeR (lift (fun r => (singletonResult .str r, [none])) (Singleton.fromString s) σ) := by
  rw [callFn_apply]
  simp only [Ast.Singleton_from_string, Singleton.fromString]
  count
  split
  · cases Singleton.charsNext s <;> count
    cases Singleton.tryFromChar _ <;> count
  · count

/-! ## `Extension::singleton` -/

theorem Extension.singleton_eq (x : String) (s : List UInt8) :
    callFn (crate max) ⟨["Extension"], "", Ast.Extension_singleton⟩ [.ctor ["Extension"] x [.str s]] σ =
    freeR (lift (fun r => (val r, [none])) (Extension.singleton ⟨s⟩) σ) := by
  rw [callFn_apply]
  simp only [Ast.Extension_singleton, Extension.singleton]
  count
  cases Langtag.Model.index s 0 <;> count

end Langtag.Source.Counted
