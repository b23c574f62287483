import Verif.Source.Counted.Normal
import Verif.Source.Refine.Lib

/-! # `/repo/src/grandfathered.rs`: the text and the counting model -/

set_option autoImplicit false

namespace Langtag.Source.Counted
open Langtag.Source (val)
open Langtag.Model

variable {C : Ctx} {σ : Env} {max : Nat}

@[cnt] theorem GrandfatheredLangTag.as_bytes_eq (g : GrandfatheredLangTag) :
    callFn (crate max) ⟨["GrandfatheredLangTag"], "", Ast.GrandfatheredLangTag_as_bytes⟩ [.ctor ["GrandfatheredLangTag"] (variantName g) []] σ =
    fin (.ok (.bytes g.asBytes, [none]) σ) := by
  rw [callFn_apply]
  simp only [Ast.GrandfatheredLangTag_as_bytes]
  cases g <;> simp only [variantName] <;> count [List.all_cons, List.all_nil, Nat.reduceLT, decide_true, Bool.and_self] <;> rfl

/-- `core::str::from_utf8_unchecked` -/
@[cnt] theorem from_utf8_unchecked_eq (s : List UInt8) :
    callPath (crate max) C [] "from_utf8_unchecked" [.bytes s] σ = fin (.ok (.str s, []) σ) := by
  rw [callPath, show (crate max).lookup [] "from_utf8_unchecked" [.bytes s] = none from by kernel_rfl]
  rfl

@[cnt] theorem GrandfatheredLangTag.as_str_eq (g : GrandfatheredLangTag) :
    callFn (crate max) ⟨["GrandfatheredLangTag"], "", Ast.GrandfatheredLangTag_as_str⟩ [.ctor ["GrandfatheredLangTag"] (variantName g) []] σ =
    fin (.ok (.str g.asStr, [none]) σ) := by
  rw [callFn_apply]
  simp only [Ast.GrandfatheredLangTag_as_str, GrandfatheredLangTag.asStr]
  count

@[cnt] theorem GrandfatheredLangTag.language_eq (g : GrandfatheredLangTag) :
    callFn (crate max) ⟨["GrandfatheredLangTag"], "", Ast.GrandfatheredLangTag_language⟩ [.ctor ["GrandfatheredLangTag"] (variantName g) []] σ =
    fin (.ok (val g.language, [none]) σ) := by
  rw [callFn_apply]
  simp only [Ast.GrandfatheredLangTag_language]
  cases g <;> simp only [variantName] <;> count [List.all_cons, List.all_nil, Nat.reduceLT, decide_true, Bool.and_self] <;> rfl

/-- `GRANDFATHERED` -/
@[cnt] theorem GRANDFATHERED_const : globalR (crate max) C ["GRANDFATHERED"] none σ =
    fin (.ok (.array (GRANDFATHERED.map val)) σ) := by
  have hm : memberOf (crate max) C ["GRANDFATHERED"] = ([], "GRANDFATHERED") := by kernel_rfl
  have hc : ((crate max).consts.find? fun (o', x', _) => o' = [] && x' = "GRANDFATHERED") =
      some ([], "GRANDFATHERED", (.array (GRANDFATHERED.map fun g => .path [variantName g]))) := by kernel_rfl
  rw [globalR_const (by decide) hm hc]
  simp only [GRANDFATHERED, List.map_cons, List.map_nil, variantName]
  count
  simp only [variantName]

@[cnt] theorem GrandfatheredLangTag.try_from_eq (s : List UInt8) :
    callFn (crate max) ⟨["GrandfatheredLangTag"], "TryFrom", Ast.GrandfatheredLangTag_TryFrom_try_from⟩ [.bytes s] σ =
    liftT (fun r => (tryFromResult r, [none])) (Timed.tryFrom s) σ := by
  rw [callFn_apply]
  simp only [Ast.GrandfatheredLangTag_TryFrom_try_from, Timed.tryFrom]
  count
  refine for_list_rule (ι := Unit) (fun r => callR _ σ (closeR _ (bindR r _))) val (fun _ => [("bytes", Val.bytes s)])
    (fun as _ => liftT (fun r => (tryFromResult r, [none])) (Timed.tryFromLoop s as) σ) GRANDFATHERED () ?_ ?_
  · intro _
    simp only [Timed.tryFromLoop]
    count [inv_bytes]
  · intro g gs _ ih
    simp only [Timed.tryFromLoop]
    count
    rcases Timed.caseInsensitiveEq g.asBytes s with ⟨_ | ⟨_ | _⟩, k⟩ <;> count
    · exact addTicks_congr (Nat.add_comm ..) rfl
    · exact addTicks_congr (Nat.add_comm ..) (ih ())
    · exact addTicks_congr (Nat.add_comm ..) rfl

@[cnt] theorem GrandfatheredLangTag.new_eq (s : List UInt8) :
    callFn (crate max) ⟨["GrandfatheredLangTag"], "", Ast.GrandfatheredLangTag_new⟩ [.str s] σ =
    liftT (fun r => (newResult r, [none])) (Timed.newGrandfathered s) σ := by
  rw [callFn_apply]
  simp only [Ast.GrandfatheredLangTag_new, Timed.newGrandfathered]
  count
  rcases Timed.tryFrom s with ⟨_ | ⟨_ | _⟩, k⟩ <;> count

end Langtag.Source.Counted
