import Verif.Source.Refine.Normal

/-! # `/repo/src/grandfathered.rs`: the text and the model -/

set_option autoImplicit false

namespace Langtag.Source
open Langtag.Model (Panic Rust StrNewtype)
open Langtag.Model

variable {C : Ctx} {σ : Env} {max : Nat}

/-- The name of a variant. -/
def variantName : GrandfatheredLangTag → String
  | .EnGbOed => "EnGbOed" | .IAmi => "IAmi" | .IBnn => "IBnn" | .IDefault => "IDefault" | .IEnochian => "IEnochian" | .IHak => "IHak"
  | .IKlingon => "IKlingon" | .ILux => "ILux" | .IMingo => "IMingo" | .INavajo => "INavajo" | .IPwn => "IPwn" | .ITao => "ITao"
  | .ITay => "ITay" | .ITsu => "ITsu" | .SgnBeFr => "SgnBeFr" | .SgnBeNl => "SgnBeNl" | .SgnChDe => "SgnChDe"
  | .ArtLojban => "ArtLojban" | .CelGaulish => "CelGaulish" | .NoBok => "NoBok" | .NoNyn => "NoNyn" | .ZhGuoyu => "ZhGuoyu"
  | .ZhHakka => "ZhHakka" | .ZhMin => "ZhMin" | .ZhMinNan => "ZhMinNan" | .ZhXiang => "ZhXiang"

instance : Rep GrandfatheredLangTag := ⟨fun g => .ctor ["GrandfatheredLangTag"] (variantName g) []⟩
@[src] theorem val_Grandfathered (g : GrandfatheredLangTag) : val g = .ctor ["GrandfatheredLangTag"] (variantName g) [] := rfl

attribute [src] litBytes

@[src] theorem GrandfatheredLangTag.as_bytes_eq (g : GrandfatheredLangTag) :
    callFn (crate max) ⟨["GrandfatheredLangTag"], "", Ast.GrandfatheredLangTag_as_bytes⟩ [.ctor ["GrandfatheredLangTag"] (variantName g) []] σ =
    some (.ok (.bytes g.asBytes, [none]) σ) := by
  rw [callFn_apply]
  simp only [Ast.GrandfatheredLangTag_as_bytes]
  cases g <;> simp only [variantName] <;> exec [List.all_cons, List.all_nil, Nat.reduceLT, decide_true, Bool.and_self] <;> rfl

/-- `core::str::from_utf8_unchecked` -/
@[src] theorem from_utf8_unchecked_eq (s : List UInt8) :
    callPath (crate max) C [] "from_utf8_unchecked" [.bytes s] σ = some (.ok (.str s, []) σ) := by
  rw [callPath, show (crate max).lookup [] "from_utf8_unchecked" [.bytes s] = none from by kernel_rfl]
  rfl

@[src] theorem GrandfatheredLangTag.as_str_eq (g : GrandfatheredLangTag) :
    callFn (crate max) ⟨["GrandfatheredLangTag"], "", Ast.GrandfatheredLangTag_as_str⟩ [.ctor ["GrandfatheredLangTag"] (variantName g) []] σ =
    some (.ok (.str g.asStr, [none]) σ) := by
  rw [callFn_apply]
  simp only [Ast.GrandfatheredLangTag_as_str, GrandfatheredLangTag.asStr]
  exec

@[src] theorem GrandfatheredLangTag.language_eq (g : GrandfatheredLangTag) :
    callFn (crate max) ⟨["GrandfatheredLangTag"], "", Ast.GrandfatheredLangTag_language⟩ [.ctor ["GrandfatheredLangTag"] (variantName g) []] σ =
    some (.ok (val g.language, [none]) σ) := by
  rw [callFn_apply]
  simp only [Ast.GrandfatheredLangTag_language]
  cases g <;> simp only [variantName] <;> exec [List.all_cons, List.all_nil, Nat.reduceLT, decide_true, Bool.and_self] <;> rfl

/-- `GRANDFATHERED` -/
@[src] theorem GRANDFATHERED_const : globalR (crate max) C ["GRANDFATHERED"] none σ =
    some (.ok (.array (GRANDFATHERED.map val)) σ) := by
  have hm : memberOf (crate max) C ["GRANDFATHERED"] = ([], "GRANDFATHERED") := by kernel_rfl
  have hc : ((crate max).consts.find? fun (o', x', _) => o' = [] && x' = "GRANDFATHERED") =
      some ([], "GRANDFATHERED", (.array (GRANDFATHERED.map fun g => .path [variantName g]))) := by kernel_rfl
  rw [globalR_const (by decide) hm hc]
  simp only [GRANDFATHERED, List.map_cons, List.map_nil, variantName]
  exec
  simp only [variantName]

/-- The result of `TryFrom<&[u8]>`. -/
def tryFromResult : Except Str GrandfatheredLangTag → Val
  | .ok g => .ctor ["Result"] "Ok" [val g]
  | .error e => .ctor ["Result"] "Err" [.ctor ["InvalidGrandfatheredTag"] "InvalidGrandfatheredTag" [.bytes e]]
@[src] theorem tryFromResult_ok (g : GrandfatheredLangTag) : tryFromResult (.ok g) = .ctor ["Result"] "Ok" [val g] := rfl
@[src] theorem tryFromResult_error (e : Str) :
    tryFromResult (.error e) = .ctor ["Result"] "Err" [.ctor ["InvalidGrandfatheredTag"] "InvalidGrandfatheredTag" [.bytes e]] := rfl

theorem inv_bytes : ("InvalidGrandfatheredTag" == "bytes") = false := by decide +kernel

@[src] theorem GrandfatheredLangTag.try_from_eq (s : List UInt8) :
    callFn (crate max) ⟨["GrandfatheredLangTag"], "TryFrom", Ast.GrandfatheredLangTag_TryFrom_try_from⟩ [.bytes s] σ =
    lift (fun r => (tryFromResult r, [none])) (GrandfatheredLangTag.tryFrom s) σ := by
  rw [callFn_apply]
  simp only [Ast.GrandfatheredLangTag_TryFrom_try_from, GrandfatheredLangTag.tryFrom]
  exec
  refine for_list_rule (ι := Unit) (fun r => callR _ σ (closeR _ (bindR r _))) val (fun _ => [("bytes", Val.bytes s)])
    (fun as _ => lift _ (GrandfatheredLangTag.tryFromLoop s as) σ) GRANDFATHERED () ?_ ?_
  · intro _
    simp only [GrandfatheredLangTag.tryFromLoop]
    exec [inv_bytes]
  · intro g gs _ ih
    simp only [GrandfatheredLangTag.tryFromLoop]
    exec
    rcases caseInsensitiveEq g.asBytes s with _ | ⟨_ | _⟩ <;> exec
    exact ih ()

/-- The result of `new`. -/
def newResult : Except Str GrandfatheredLangTag → Val
  | .ok g => .ctor ["Result"] "Ok" [val g]
  | .error e => .ctor ["Result"] "Err" [.str e]
@[src] theorem newResult_ok (g : GrandfatheredLangTag) : newResult (.ok g) = .ctor ["Result"] "Ok" [val g] := rfl
@[src] theorem newResult_error (e : Str) : newResult (.error e) = .ctor ["Result"] "Err" [.str e] := rfl

@[src] theorem GrandfatheredLangTag.new_eq (s : List UInt8) :
    callFn (crate max) ⟨["GrandfatheredLangTag"], "", Ast.GrandfatheredLangTag_new⟩ [.str s] σ =
    lift (fun r => (newResult r, [none])) (GrandfatheredLangTag.new s) σ := by
  rw [callFn_apply]
  simp only [Ast.GrandfatheredLangTag_new, GrandfatheredLangTag.new]
  exec
  rcases GrandfatheredLangTag.tryFrom s with _ | ⟨_ | _⟩ <;> exec

@[src] theorem str_fmt_display (o : List String) (r : Ty) (s : List UInt8) (f : Formatter) (out : List Char) :
    callMethod (crate max) ⟨o, "Display", r⟩ (.str s) "fmt" [.formatter f out] σ =
    some (.ok (.ctor ["Result"] "Ok" [.tuple []], [none, some (.formatter f (out ++ f.pad (asciiChars s)))]) σ) := core_eq rfl rfl (by decide)

theorem GrandfatheredLangTag.fmt_eq (g : GrandfatheredLangTag) (f : Formatter) (out : List Char) :
    callFn (crate max) ⟨["GrandfatheredLangTag"], "Display", Ast.GrandfatheredLangTag_Display_fmt⟩
      [.ctor ["GrandfatheredLangTag"] (variantName g) [], .formatter f out] σ =
    some (.ok (.ctor ["Result"] "Ok" [.tuple []], [none, some (.formatter f (out ++ GrandfatheredLangTag.fmt g f))]) σ) := by
  rw [callFn_apply]
  simp only [Ast.GrandfatheredLangTag_Display_fmt, GrandfatheredLangTag.fmt]
  exec

end Langtag.Source
