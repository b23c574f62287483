import Verif.Source.Deep.LeastParts
import Verif.Proof.Classify

/-! # How deep calls are nested at least: `/repo/src/grandfathered.rs` -/

set_option autoImplicit false

namespace Langtag.Source.Deep

open Langtag.Model (Panic Rust StrNewtype)

open Langtag.Model Langtag.Proof Langtag.Spec

variable {δ : Nat} {C : Ctx} {σ : Env} {max : Nat}

theorem case_insensitive_eq_false (a b : List UInt8) (h : a.length ≠ b.length) :
    callFn 1 (crate max) ⟨[], "", Ast.case_insensitive_eq⟩ [.bytes a, .bytes b] σ = some (.ok (.bool false, [none, none]) σ) := by
  rw [callFn_apply]
  simp only [Ast.case_insensitive_eq]
  deep
  rw [if_neg h]

theorem asBytes_ne_nil (g : GrandfatheredLangTag) : g.asBytes ≠ [] := by cases g <;> decide

/-- The first tag of the table that is as long as the text is compared with it byte by byte. -/
theorem GrandfatheredLangTag.try_from_none (s : List UInt8) (h : ∃ g ∈ GRANDFATHERED, g.asBytes.length = s.length) :
    callFn 2 (crate max) ⟨["GrandfatheredLangTag"], "TryFrom", Ast.GrandfatheredLangTag_TryFrom_try_from⟩ [.bytes s] σ = none := by
  rw [callFn_apply]
  simp only [Ast.GrandfatheredLangTag_TryFrom_try_from]
  deep
  refine for_list_rule (ι := Unit) (fun r => callR _ σ (closeR _ (bindR r _))) val (fun _ => [("bytes", Val.bytes s)])
    (fun as _ => if ∃ g ∈ as, g.asBytes.length = s.length then none else
      lift (fun r => (tryFromResult r, [none])) (.ok (.error s)) σ) GRANDFATHERED () ?_ ?_ |>.trans (if_pos h)
  · intro _
    rw [if_neg (by simp)]
    deep [inv_bytes]
  · intro g gs _ ih
    by_cases hg : g.asBytes.length = s.length
    · rw [if_pos ⟨g, by simp, hg⟩]
      deep
      rw [case_insensitive_eq_none _ _ hg (asBytes_ne_nil g)]
      rfl
    · deep
      rw [case_insensitive_eq_false _ _ hg]
      deep
      refine (ih ()).trans ?_
      by_cases h' : ∃ g ∈ gs, g.asBytes.length = s.length
      · rw [if_pos h', if_pos (h'.imp fun _ h => ⟨List.mem_cons_of_mem _ h.1, h.2⟩)]
      · rw [if_neg h', if_neg fun ⟨y, hy, e⟩ => (List.mem_cons.mp hy).elim (fun e' => hg (e' ▸ e)) fun hy => h' ⟨y, hy, e⟩]
        rfl

section

variable (s : List UInt8) (h : ∃ g ∈ GRANDFATHERED, g.asBytes.length = s.length)

include h

theorem GrandfatheredLangTag.new_none :
    callFn 3 (crate max) ⟨["GrandfatheredLangTag"], "", Ast.GrandfatheredLangTag_new⟩ [.str s] σ = none := by
  rw [callFn_apply]
  simp only [Ast.GrandfatheredLangTag_new]
  deep [GrandfatheredLangTag.try_from_none s h]
  rfl

variable (x : String)

theorem LangTag.as_grandfathered_none :
    callFn 4 (crate max) ⟨["LangTag"], "", Ast.LangTag_as_grandfathered⟩ [.ctor ["LangTag"] x [.str s]] σ = none := by
  rw [callFn_apply]
  simp only [Ast.LangTag_as_grandfathered]
  deep [GrandfatheredLangTag.new_none s h]
  rfl

theorem LangTag.is_grandfathered_none :
    callFn 5 (crate max) ⟨["LangTag"], "", Ast.LangTag_is_grandfathered⟩ [.ctor ["LangTag"] x [.str s]] σ = none := by
  rw [callFn_apply]
  simp only [Ast.LangTag_is_grandfathered]
  deep [LangTag.as_grandfathered_none s h x]
  rfl

variable (hs : s.length + 1 ≤ max) (hn : ¬ StrNewtype.isOk NormalLangTag s = true) (hp : ¬ StrNewtype.isOk PrivateUse s = true)

include hs hn hp

theorem LangTag.as_typed_none :
    callFn 4 (crate max) ⟨["LangTag"], "", Ast.LangTag_as_typed⟩ [.ctor ["LangTag"] x [.str s]] σ = none := by
  rw [callFn_apply]
  simp only [Ast.LangTag_as_typed]
  deep [hs]
  rw [if_neg hn, if_neg hp]
  deep [GrandfatheredLangTag.new_none s h]
  rfl

theorem LangTag.kind_none :
    callFn 5 (crate max) ⟨["LangTag"], "", Ast.LangTag_kind⟩ [.ctor ["LangTag"] x [.str s]] σ = none := by
  rw [callFn_apply]
  simp only [Ast.LangTag_kind]
  deep [LangTag.as_typed_none s h x hs hn hp]
  rfl

end

end Langtag.Source.Deep
