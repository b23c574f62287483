import Verif.Source.Refine.Parts

/-! # `Singleton` (`/repo/src/normal/extension.rs`): the text and the model -/

set_option autoImplicit false

namespace Langtag.Source
open Langtag.Model (Panic Rust StrNewtype)
open Langtag.Model

variable {C : Ctx} {σ : Env} {max : Nat}

instance : Rep Model.Singleton := ⟨fun g => .ctor ["Singleton"] "Singleton" [.u8 g.byte]⟩
@[src] theorem val_Singleton (g : UInt8) : val (⟨g⟩ : Model.Singleton) = .ctor ["Singleton"] "Singleton" [.u8 g] := rfl

/-- An `InvalidSingleton`. -/
def invalidSingleton (v : Val) : Val := .ctor ["InvalidSingleton"] "InvalidSingleton" [v]
attribute [src] invalidSingleton

/-- The result of a function that makes a `Singleton`. -/
def singletonResult {α : Type} (v : α → Val) : Except α Model.Singleton → Val
  | .ok g => .ctor ["Result"] "Ok" [val g]
  | .error e => .ctor ["Result"] "Err" [invalidSingleton (v e)]
@[src] theorem singletonResult_ok {α : Type} (v : α → Val) (g : Model.Singleton) : singletonResult v (.ok g) = .ctor ["Result"] "Ok" [val g] := rfl
@[src] theorem singletonResult_error {α : Type} (v : α → Val) (e : α) :
    singletonResult v (.error e) = .ctor ["Result"] "Err" [invalidSingleton (v e)] := rfl

@[src] theorem Singleton.new_eq (c : UInt8) : callFn (crate max) ⟨["Singleton"], "", Ast.Singleton_new⟩ [.u8 c] σ =
    some (.ok (singletonResult .u8 (Singleton.new c), [none]) σ) := by
  rw [callFn_apply]
  simp only [Ast.Singleton_new, Singleton.new]
  exec
  by_cases h1 : c = 120 <;> by_cases h2 : c = 88 <;> cases h3 : isAsciiAlphanumeric c <;> simp_all [src]

@[src] theorem Singleton.try_from_u8_eq (c : UInt8) : callFn (crate max) ⟨["Singleton"], "TryFrom", Ast.Singleton_TryFrom_try_from⟩ [.u8 c] σ =
    some (.ok (singletonResult .u8 (Singleton.tryFromU8 c), [none]) σ) := by
  rw [callFn_apply]
  simp only [Ast.Singleton_TryFrom_try_from, Singleton.tryFromU8]
  exec

@[src] theorem Singleton.try_from_char_eq (c : Char) : callFn (crate max) ⟨["Singleton"], "TryFrom", Ast.Singleton_TryFrom_try_from_2⟩ [.char c] σ =
    some (.ok (singletonResult .char (Singleton.tryFromChar c), [none]) σ) := by
  rw [callFn_apply]
  simp only [Ast.Singleton_TryFrom_try_from_2, Singleton.tryFromChar]
  exec
  rw [show UInt8.toNat 255 = 255 from rfl]
  by_cases h : c.toNat < 255
  · simp only [h, if_true]
    cases Singleton.new (UInt8.ofNat c.toNat) <;> exec
  · simp only [h, if_false]
    exec

/-- `try_into` of a `char`, in a function the result of which is a `Result<Self, _>`. -/
@[src] theorem Singleton.try_into_eq (t : String) (ts : List Ty) (c : Char) :
    callMethod (crate max) ⟨["Singleton"], t, .path ["Result"] (.path ["Self"] [] :: ts)⟩ (.char c) "try_into" [] σ =
    some (.ok (singletonResult .char (Singleton.tryFromChar c), [none]) σ) := by
  rw [callMethod.eq_def]
  show callPath (crate max) _ (okType (crate max) ⟨["Singleton"], t, .path ["Result"] (.path ["Self"] [] :: ts)⟩) "try_from" [.char c] σ = _
  rw [show okType (crate max) ⟨["Singleton"], t, .path ["Result"] (.path ["Self"] [] :: ts)⟩ = ["Singleton"] from by kernel_rfl]
  exec

@[src] theorem Singleton.from_string_eq (s : List UInt8) : callFn (crate max) ⟨["Singleton"], "", Ast.Singleton_from_string⟩ [.str s] σ =
    lift (fun r => (singletonResult .str r, [none])) (Singleton.fromString s) σ := by
  rw [callFn_apply]
  simp only [Ast.Singleton_from_string, Singleton.fromString]
  exec
  split
  · cases Singleton.charsNext s <;> exec
    cases Singleton.tryFromChar _ <;> exec
  · exec

theorem Singleton.from_str_eq (s : List UInt8) : callFn (crate max) ⟨["Singleton"], "FromStr", Ast.Singleton_FromStr_from_str⟩ [.str s] σ =
    lift (fun r => (singletonResult .str r, [none])) (Singleton.fromStr s) σ := by
  rw [callFn_apply]
  simp only [Ast.Singleton_FromStr_from_str, Singleton.fromStr]
  exec
  rcases Singleton.fromString s with _ | ⟨_ | _⟩ <;> exec

theorem Singleton.unwrap_eq (g : UInt8) (x : String) : callFn (crate max) ⟨["Singleton"], "", Ast.Singleton_unwrap⟩ [.ctor ["Singleton"] x [.u8 g]] σ =
    some (.ok (val (Singleton.unwrap ⟨g⟩), [none]) σ) := by
  rw [callFn_apply]
  simp only [Ast.Singleton_unwrap, Singleton.unwrap]
  exec

theorem Singleton.eq_u8_eq (g b : UInt8) (x : String) :
    callFn (crate max) ⟨["Singleton"], "PartialEq", Ast.Singleton_PartialEq_eq⟩ [.ctor ["Singleton"] x [.u8 g], .u8 b] σ =
    some (.ok (val (Singleton.eqU8 ⟨g⟩ b), [none, none]) σ) := by
  rw [callFn_apply]
  simp only [Ast.Singleton_PartialEq_eq, Singleton.eqU8]
  exec
  rfl

theorem Singleton.eq_char_eq (g : UInt8) (c : Char) (x : String) :
    callFn (crate max) ⟨["Singleton"], "PartialEq", Ast.Singleton_PartialEq_eq_2⟩ [.ctor ["Singleton"] x [.u8 g], .char c] σ =
    some (.ok (val (Singleton.eqChar ⟨g⟩ c), [none, none]) σ) := by
  rw [callFn_apply]
  simp only [Ast.Singleton_PartialEq_eq_2, Singleton.eqChar]
  exec
  rfl

@[src] theorem char_fmt_display (o : List String) (r : Ty) (c : Char) (f : Formatter) (out : List Char) :
    callMethod (crate max) ⟨o, "Display", r⟩ (.char c) "fmt" [.formatter f out] σ =
    some (.ok (.ctor ["Result"] "Ok" [.tuple []], [none, some (.formatter f (out ++ f.pad [c]))]) σ) := core_eq rfl rfl (by decide)
theorem char_fmt_debug (o : List String) (r : Ty) {c : Char} (h : c.isAlphanum = true) (f : Formatter) (out : List Char) :
    callMethod (crate max) ⟨o, "Debug", r⟩ (.char c) "fmt" [.formatter f out] σ =
    some (.ok (.ctor ["Result"] "Ok" [.tuple []], [none, some (.formatter f (out ++ ['\'', c, '\'']))]) σ) := by
  rw [core_eq rfl rfl (by decide)]
  simp only [coreMethod, h]
  rfl

theorem Singleton.fmt_eq (g : UInt8) (x : String) (f : Formatter) (out : List Char) :
    callFn (crate max) ⟨["Singleton"], "Display", Ast.Singleton_Display_fmt⟩ [.ctor ["Singleton"] x [.u8 g], .formatter f out] σ =
    some (.ok (.ctor ["Result"] "Ok" [.tuple []], [none, some (.formatter f (out ++ Singleton.fmt ⟨g⟩ f))]) σ) := by
  rw [callFn_apply]
  simp only [Ast.Singleton_Display_fmt, Singleton.fmt, Singleton.display]
  exec

theorem Singleton.fmt_debug_eq (g : UInt8) (hg : (Char.ofNat g.toNat).isAlphanum = true) (x : String) (f : Formatter) (out : List Char) :
    callFn (crate max) ⟨["Singleton"], "Debug", Ast.Singleton_Debug_fmt⟩ [.ctor ["Singleton"] x [.u8 g], .formatter f out] σ =
    some (.ok (.ctor ["Result"] "Ok" [.tuple []], [none, some (.formatter f (out ++ Singleton.fmtDebug ⟨g⟩ f))]) σ) := by
  rw [callFn_apply]
  simp only [Ast.Singleton_Debug_fmt, Singleton.fmtDebug, Singleton.display]
  exec [char_fmt_debug _ _ hg]

/-! ## `Extension::singleton` -/

theorem Extension.singleton_eq (x : String) (s : List UInt8) :
    callFn (crate max) ⟨["Extension"], "", Ast.Extension_singleton⟩ [.ctor ["Extension"] x [.str s]] σ =
    lift (fun r => (val r, [none])) (Extension.singleton ⟨s⟩) σ := by
  rw [callFn_apply]
  simp only [Ast.Extension_singleton, Extension.singleton]
  exec
  cases Langtag.Model.index s 0 <;> exec

end Langtag.Source
