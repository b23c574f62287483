import Verif.Source.Deep.Normal
import Verif.Source.Refine.Grandfathered

/-! # `/repo/src/grandfathered.rs`, with bounded nesting -/

set_option autoImplicit false

namespace Langtag.Source.Deep

open Langtag.Model (Panic Rust StrNewtype)

open Langtag.Model

variable {δ : Nat} {C : Ctx} {σ : Env} {max : Nat}

@[dep] theorem GrandfatheredLangTag.as_bytes_eq (g : GrandfatheredLangTag) :
    callFn (δ + 1) (crate max) ⟨["GrandfatheredLangTag"], "", Ast.GrandfatheredLangTag_as_bytes⟩ [.ctor ["GrandfatheredLangTag"] (variantName g) []] σ =
    some (.ok (.bytes g.asBytes, [none]) σ) := by
  rw [callFn_apply]
  simp only [Ast.GrandfatheredLangTag_as_bytes]
  cases g <;> simp only [variantName] <;> deep [List.all_cons, List.all_nil, Nat.reduceLT, decide_true, Bool.and_self] <;> rfl

/-- `core::str::from_utf8_unchecked` -/
@[dep] theorem from_utf8_unchecked_eq (s : List UInt8) :
    callPath δ (crate max) C [] "from_utf8_unchecked" [.bytes s] σ = some (.ok (.str s, []) σ) := by
  rw [callPath, show (crate max).lookup [] "from_utf8_unchecked" [.bytes s] = none from by kernel_rfl]
  rfl

@[dep] theorem GrandfatheredLangTag.as_str_eq (g : GrandfatheredLangTag) :
    callFn (δ + 2) (crate max) ⟨["GrandfatheredLangTag"], "", Ast.GrandfatheredLangTag_as_str⟩ [.ctor ["GrandfatheredLangTag"] (variantName g) []] σ =
    some (.ok (.str g.asStr, [none]) σ) := by
  rw [callFn_apply]
  simp only [Ast.GrandfatheredLangTag_as_str, GrandfatheredLangTag.asStr]
  deep

@[dep] theorem GrandfatheredLangTag.language_eq (g : GrandfatheredLangTag) :
    callFn (δ + 1) (crate max) ⟨["GrandfatheredLangTag"], "", Ast.GrandfatheredLangTag_language⟩ [.ctor ["GrandfatheredLangTag"] (variantName g) []] σ =
    some (.ok (val g.language, [none]) σ) := by
  rw [callFn_apply]
  simp only [Ast.GrandfatheredLangTag_language]
  cases g <;> simp only [variantName] <;> deep [List.all_cons, List.all_nil, Nat.reduceLT, decide_true, Bool.and_self] <;> rfl

/-- `GRANDFATHERED` -/
@[dep] theorem GRANDFATHERED_const : globalR δ (crate max) C ["GRANDFATHERED"] none σ =
    some (.ok (.array (GRANDFATHERED.map val)) σ) := by
  have hm : memberOf (crate max) C ["GRANDFATHERED"] = ([], "GRANDFATHERED") := by kernel_rfl
  have hc : ((crate max).consts.find? fun (o', x', _) => o' = [] && x' = "GRANDFATHERED") =
      some ([], "GRANDFATHERED", (.array (GRANDFATHERED.map fun g => .path [variantName g]))) := by kernel_rfl
  rw [globalR_const (by decide) hm hc]
  simp only [GRANDFATHERED, List.map_cons, List.map_nil, variantName]
  deep
  simp only [variantName]

@[dep] theorem GrandfatheredLangTag.try_from_eq (s : List UInt8) :
    callFn (δ + 3) (crate max) ⟨["GrandfatheredLangTag"], "TryFrom", Ast.GrandfatheredLangTag_TryFrom_try_from⟩ [.bytes s] σ =
    lift (fun r => (tryFromResult r, [none])) (GrandfatheredLangTag.tryFrom s) σ := by
  rw [callFn_apply]
  simp only [Ast.GrandfatheredLangTag_TryFrom_try_from, GrandfatheredLangTag.tryFrom]
  deep
  refine for_list_rule (ι := Unit) (fun r => callR _ σ (closeR _ (bindR r _))) val (fun _ => [("bytes", Val.bytes s)])
    (fun as _ => lift _ (GrandfatheredLangTag.tryFromLoop s as) σ) GRANDFATHERED () ?_ ?_
  · intro _
    simp only [GrandfatheredLangTag.tryFromLoop]
    deep [inv_bytes]
  · intro g gs _ ih
    simp only [GrandfatheredLangTag.tryFromLoop]
    deep
    rcases caseInsensitiveEq g.asBytes s with _ | ⟨_ | _⟩ <;> deep
    exact ih ()

@[dep] theorem GrandfatheredLangTag.new_eq (s : List UInt8) :
    callFn (δ + 4) (crate max) ⟨["GrandfatheredLangTag"], "", Ast.GrandfatheredLangTag_new⟩ [.str s] σ =
    lift (fun r => (newResult r, [none])) (GrandfatheredLangTag.new s) σ := by
  rw [callFn_apply]
  simp only [Ast.GrandfatheredLangTag_new, GrandfatheredLangTag.new]
  deep
  rcases GrandfatheredLangTag.tryFrom s with _ | ⟨_ | _⟩ <;> deep

@[dep] theorem str_fmt_display (o : List String) (r : Ty) (s : List UInt8) (f : Formatter) (out : List Char) :
    callMethod δ (crate max) ⟨o, "Display", r⟩ (.str s) "fmt" [.formatter f out] σ =
    some (.ok (.ctor ["Result"] "Ok" [.tuple []], [none, some (.formatter f (out ++ f.pad (asciiChars s)))]) σ) := core_eq rfl rfl (by decide)

theorem GrandfatheredLangTag.fmt_eq (g : GrandfatheredLangTag) (f : Formatter) (out : List Char) :
    callFn (δ + 3) (crate max) ⟨["GrandfatheredLangTag"], "Display", Ast.GrandfatheredLangTag_Display_fmt⟩
      [.ctor ["GrandfatheredLangTag"] (variantName g) [], .formatter f out] σ =
    some (.ok (.ctor ["Result"] "Ok" [.tuple []], [none, some (.formatter f (out ++ GrandfatheredLangTag.fmt g f))]) σ) := by
  rw [callFn_apply]
  simp only [Ast.GrandfatheredLangTag_Display_fmt, GrandfatheredLangTag.fmt]
  deep

end Langtag.Source.Deep
