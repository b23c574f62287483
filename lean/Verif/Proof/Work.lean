import Verif.Proof.Timed
import Verif.Proof.Iter
import Verif.Spec.Work

/-! # Bounds on the number of loop iterations: iterators, accessors, tags -/

set_option autoImplicit false

namespace Langtag.Proof
open Langtag.Spec Langtag.Model

variable {α β σ : Type}

/-! ## Combining bounds -/

theorem work_pure (a : α) : WorkAtMost (pure a) (.ok a) 0 := ⟨rfl, Nat.le_refl 0⟩

theorem work_ite (c : Prop) [Decidable c] (a b : α) :
    WorkAtMost (if c then pure a else pure b) (if c then pure a else pure b) 0 := by
  split <;> exact work_pure _

theorem work_mono {x : Timed α} {p : Rust α} {n m : Nat} (h : WorkAtMost x p n) (hnm : n ≤ m) : WorkAtMost x p m :=
  ⟨h.1, Nat.le_trans h.2 hnm⟩

theorem work_bind {x : Timed α} {p : Rust α} {f : α → Timed β} {q : α → Rust β} {n m : Nat} (hx : WorkAtMost x p n)
    (hf : ∀ a, p = .ok a → WorkAtMost (f a) (q a) m) : WorkAtMost (x >>= f) (p >>= q) (n + m) := by
  refine ⟨?_, timed_bind_le hx.2 fun a ha => (hf a (hx.1 ▸ ha)).2⟩
  rw [timed_bind_result, hx.1]
  exact bind_congr_ok fun a ha => (hf a ha).1

theorem work_bind_const {x : Timed α} {p : Rust α} {f : α → Timed β} {q : α → Rust β} {n : Nat} (hx : WorkAtMost x p n)
    (hf : ∀ a, p = .ok a → WorkAtMost (f a) (q a) 0) : WorkAtMost (x >>= f) (p >>= q) n := work_bind hx hf

theorem work_lift_bind {p : Rust α} {f : α → Timed β} {q : α → Rust β} {m : Nat} (hf : ∀ a, p = .ok a → WorkAtMost (f a) (q a) m) :
    WorkAtMost ((liftM p : Timed α) >>= f) (p >>= q) m := by
  have := work_bind (x := (liftM p : Timed α)) (p := p) (n := 0) ⟨rfl, Nat.le_refl 0⟩ hf
  rwa [Nat.zero_add] at this

theorem work_lift (p : Rust α) : WorkAtMost (liftM p : Timed α) p 0 := ⟨rfl, Nat.le_refl 0⟩

theorem work_new (T : Type) [StrNewtype T] (s : Str) : WorkAtMost (Timed.new T s) (.ok (StrNewtype.new T s)) s.length :=
  ⟨new_timed T s, new_steps T s⟩

theorem work_isOk (T : Type) [StrNewtype T] (s : Str) : WorkAtMost (Timed.isOk T s) (.ok (StrNewtype.isOk T s)) s.length :=
  ⟨isOk_timed T s, isOk_steps T s⟩

theorem work_findListEnd {s : Str} {f : Nat → Str → Timed Bool} {f' : Nat → Str → Rust Bool} {k : Nat}
    (hf : ∀ o u, WorkAtMost (f o u) (f' o u) (k * u.length)) (offset : Nat) :
    WorkAtMost (Timed.findListEnd s offset f) (findListEnd s offset f') ((k + 1) * (s.length - offset)) :=
  ⟨findListEnd_timed (fun o u => (hf o u).1) offset, findListEnd_steps (fun o u => (hf o u).2) offset⟩

/-! ## The accessors of a normal tag -/

theorem work_languageEnd (t : NormalLangTag) : WorkAtMost (Timed.languageEnd t) t.languageEnd (2 * t.str.length) := by
  refine work_findListEnd (k := 1) (fun o u => ?_) 0
  rw [Nat.one_mul]
  cases h : (o == 0)
  · exact work_isOk _ _
  · exact work_mono (work_pure true) (Nat.zero_le _)

theorem work_language (t : NormalLangTag) : WorkAtMost (Timed.language t) t.language (2 * t.str.length) :=
  work_bind_const (work_languageEnd t) fun _ _ => work_lift_bind fun _ _ => work_pure _

/-- The scan of `script_range` and `region_range`. -/
theorem work_one (T : Type) [StrNewtype T] (s : Str) (offset : Nat) :
    WorkAtMost (Timed.findListEnd s offset fun i segment => if i == offset then Timed.isOk T segment else return false)
      (findListEnd s offset fun i segment => .ok (i == offset && StrNewtype.isOk T segment)) (2 * s.length) := by
  refine work_mono (work_findListEnd (k := 1) (fun o u => ?_) offset) (Nat.mul_le_mul_left 2 (Nat.sub_le _ _))
  rw [Nat.one_mul]
  cases h : (o == offset)
  · exact work_mono (work_pure false) (Nat.zero_le _)
  · exact work_isOk _ _

theorem work_scriptRange (t : NormalLangTag) : WorkAtMost (Timed.scriptRange t) t.scriptRange (4 * t.str.length) := by
  refine work_mono (work_bind (work_languageEnd t) fun a _ => work_bind_const (work_one Script t.str _) fun e _ => work_ite _ _ _) (by omega)

theorem work_script (t : NormalLangTag) : WorkAtMost (Timed.script t) t.script (4 * t.str.length) := by
  refine work_bind_const (work_scriptRange t) fun r _ => ?_
  cases r with
  | error => exact work_pure _
  | ok r => exact work_lift_bind fun _ _ => work_pure _

theorem work_regionRange (t : NormalLangTag) : WorkAtMost (Timed.regionRange t) t.regionRange (6 * t.str.length) := by
  refine work_mono (work_bind (work_scriptRange t) fun a _ => work_bind_const (work_one Region t.str _) fun e _ => work_ite _ _ _) (by omega)

theorem work_region (t : NormalLangTag) : WorkAtMost (Timed.region t) t.region (6 * t.str.length) := by
  refine work_bind_const (work_regionRange t) fun r _ => ?_
  cases r with
  | error => exact work_pure _
  | ok r => exact work_lift_bind fun _ _ => work_pure _

theorem work_variantsRange (t : NormalLangTag) : WorkAtMost (Timed.variantsRange t) t.variantsRange (8 * t.str.length) := by
  refine work_mono (work_bind (m := 2 * t.str.length) (work_regionRange t) fun a _ => work_bind_const ?_ fun e _ => ?_) (by omega)
  · refine work_mono (work_findListEnd (k := 1) (fun o u => ?_) _) (Nat.mul_le_mul_left 2 (Nat.sub_le _ _))
    rw [Nat.one_mul]
    exact work_isOk _ _
  · exact work_ite _ _ _

theorem work_variants (t : NormalLangTag) : WorkAtMost (Timed.variants t) t.variants (8 * t.str.length) :=
  work_bind_const (work_variantsRange t) fun _ _ => work_lift_bind fun _ _ => work_pure _

theorem work_extensionsRange (t : NormalLangTag) : WorkAtMost (Timed.extensionsRange t) t.extensionsRange (10 * t.str.length) := by
  refine work_mono (work_bind (m := 2 * t.str.length) (work_variantsRange t) fun a _ => work_bind_const ?_ fun e _ => ?_) (by omega)
  · refine work_mono (work_findListEnd (k := 1) (fun o u => ?_) _) (Nat.mul_le_mul_left 2 (Nat.sub_le _ _))
    rw [Nat.one_mul]
    refine work_lift_bind fun b _ => ?_
    cases b
    · exact work_isOk _ _
    · exact work_mono (work_pure true) (Nat.zero_le _)
  · exact work_ite _ _ _

theorem work_extensions (t : NormalLangTag) : WorkAtMost (Timed.extensions t) t.extensions (10 * t.str.length) :=
  work_bind_const (work_extensionsRange t) fun _ _ => work_lift_bind fun _ _ => work_pure _

theorem work_privateUseOffset (t : NormalLangTag) : WorkAtMost (Timed.privateUseOffset t) t.privateUseOffset (8 * t.str.length) := by
  refine work_bind_const (work_variantsRange t) fun r _ => ?_
  dsimp only
  split <;> exact work_pure _

theorem work_privateUse (t : NormalLangTag) : WorkAtMost (Timed.privateUse t) t.privateUse (8 * t.str.length) := by
  refine work_bind_const (work_privateUseOffset t) fun r _ => ?_
  cases r with
  | none => exact work_pure _
  | some i => exact work_lift_bind fun _ _ => work_pure _

theorem work_privateUseSubtags (t : NormalLangTag) :
    WorkAtMost (Timed.privateUseSubtags t) t.privateUseSubtags (8 * t.str.length) := by
  refine work_bind_const (work_privateUse t) fun r _ => ?_
  cases r <;> exact work_pure _

/-! ## Grandfathered tags -/

theorem work_tryFromLoop (s : Str) (tags : List GrandfatheredLangTag) (h : ∀ g ∈ tags, g.asBytes.length ≤ 11) :
    WorkAtMost (Timed.tryFromLoop s tags) (GrandfatheredLangTag.tryFromLoop s tags) (12 * tags.length) := by
  induction tags with
  | nil => exact work_pure _
  | cons g tags ih =>
    rw [List.forall_mem_cons] at h
    unfold Timed.tryFromLoop GrandfatheredLangTag.tryFromLoop
    have h1 : WorkAtMost (Timed.caseInsensitiveEq g.asBytes s) (caseInsensitiveEq g.asBytes s) 11 :=
      ⟨caseInsensitiveEq_timed _ _, Nat.le_trans (caseInsensitiveEq_steps _ _) (by omega)⟩
    have h2 : WorkAtMost Timed.tick (.ok ()) 1 := ⟨rfl, Nat.le_refl 1⟩
    have := work_bind (f := fun _ => Timed.caseInsensitiveEq g.asBytes s >>= fun b => if b then return .ok g else Timed.tryFromLoop s tags)
      h2 fun _ _ => work_bind (q := fun b => if b then return .ok g else GrandfatheredLangTag.tryFromLoop s tags) h1 (m := 12 * tags.length) fun b _ => by
        cases b
        · exact ih h.2
        · exact work_mono (work_pure _) (Nat.zero_le _)
    refine work_mono this ?_
    simp only [List.length_cons]
    omega

theorem work_tryFrom (s : Str) : WorkAtMost (Timed.tryFrom s) (GrandfatheredLangTag.tryFrom s) 312 :=
  work_tryFromLoop s _ (by decide +kernel)

theorem work_newGrandfathered (s : Str) : WorkAtMost (Timed.newGrandfathered s) (GrandfatheredLangTag.new s) 312 := by
  refine work_bind_const (work_tryFrom s) fun r _ => ?_
  cases r <;> exact work_pure _

/-! ## Any tag -/

theorem work_asNormal (t : LangTag) : WorkAtMost (Timed.LangTag.asNormal t) (.ok t.asNormal) t.str.length :=
  work_bind_const (work_new NormalLangTag t.str) fun _ _ => work_pure _

theorem work_asPrivateUse (t : LangTag) : WorkAtMost (Timed.LangTag.asPrivateUse t) (.ok t.asPrivateUse) t.str.length :=
  work_bind_const (work_new PrivateUse t.str) fun _ _ => work_pure _

theorem work_asGrandfathered (t : LangTag) : WorkAtMost (Timed.LangTag.asGrandfathered t) t.asGrandfathered 312 :=
  work_bind_const (work_newGrandfathered t.str) fun _ _ => work_pure _

/-- What `new` accepts has the same text. -/
theorem new_str_normal {s : Str} {n : NormalLangTag} (h : StrNewtype.new NormalLangTag s = .ok n) : n.str = s := by
  unfold StrNewtype.new at h
  split at h <;> cases h
  rfl

theorem asNormal_str {t : LangTag} {n : NormalLangTag} (h : t.asNormal = some n) : n.str = t.str := by
  unfold LangTag.asNormal at h
  cases hn : StrNewtype.new NormalLangTag t.str with
  | error e => rw [hn] at h; cases h
  | ok m =>
    rw [hn] at h
    cases h
    exact new_str_normal hn

theorem work_langTag_language (t : LangTag) :
    WorkAtMost (Timed.LangTag.language t) t.language (3 * t.str.length + 312) := by
  have key : t.language = (.ok (StrNewtype.new NormalLangTag t.str) : Rust _) >>= fun r => match r with
    | .ok n => do return some (← n.language)
    | .error _ => do
      match ← GrandfatheredLangTag.new t.str with
      | .ok g => return g.language
      | .error _ => return none := rfl
  rw [key]
  refine work_mono (work_bind (m := 2 * t.str.length + 312) (work_new NormalLangTag t.str) fun r hr => ?_) (by omega)
  cases r with
  | ok n =>
    have hn := new_str_normal (Except.ok.inj hr)
    refine work_mono (work_bind_const (work_language n) fun _ _ => work_pure _) ?_
    rw [hn]; omega
  | error e =>
    refine work_mono (work_bind_const (work_newGrandfathered t.str) fun r _ => ?_) (by omega)
    cases r <;> exact work_pure _

/-- The accessors of a tag look at it as a normal tag first. -/
theorem work_viaNormal (t : LangTag) {f : NormalLangTag → Timed α} {f' : NormalLangTag → Rust α} {k : Nat} (d : α)
    (hf : ∀ n, WorkAtMost (f n) (f' n) (k * n.str.length)) :
    WorkAtMost (Timed.LangTag.asNormal t >>= fun o => match o with | some n => f n | none => pure d)
      (match t.asNormal with | some n => f' n | none => pure d) ((k + 1) * t.str.length) := by
  have key : (match t.asNormal with | some n => f' n | none => pure d) =
      (.ok t.asNormal : Rust _) >>= fun o => match o with | some n => f' n | none => pure d := rfl
  rw [key]
  refine work_mono (work_bind (m := k * t.str.length) (work_asNormal t) fun o ho => ?_) ?_
  · cases o with
    | none => exact work_mono (work_pure _) (Nat.zero_le _)
    | some n => rw [← asNormal_str (Except.ok.inj ho)]; exact hf n
  · rw [Nat.add_mul, Nat.one_mul]; omega

theorem work_langTag_script (t : LangTag) : WorkAtMost (Timed.LangTag.script t) t.script (5 * t.str.length) :=
  work_viaNormal t none work_script
theorem work_langTag_region (t : LangTag) : WorkAtMost (Timed.LangTag.region t) t.region (7 * t.str.length) :=
  work_viaNormal t none work_region
theorem work_langTag_variants (t : LangTag) : WorkAtMost (Timed.LangTag.variants t) t.variants (9 * t.str.length) :=
  work_viaNormal t Variants.EMPTY work_variants
theorem work_langTag_extensions (t : LangTag) : WorkAtMost (Timed.LangTag.extensions t) t.extensions (11 * t.str.length) :=
  work_viaNormal t Extensions.EMPTY work_extensions
theorem work_langTag_privateUse (t : LangTag) : WorkAtMost (Timed.LangTag.privateUse t) t.privateUse (9 * t.str.length) :=
  work_viaNormal t none work_privateUse
theorem work_langTag_privateUseSubtags (t : LangTag) :
    WorkAtMost (Timed.LangTag.privateUseSubtags t) t.privateUseSubtags (9 * t.str.length) :=
  work_bind_const (work_langTag_privateUse t) fun _ _ => work_pure _

theorem work_isNormal (t : LangTag) : WorkAtMost (Timed.LangTag.isNormal t) (.ok t.isNormal) t.str.length :=
  work_bind_const (work_asNormal t) fun _ _ => work_pure _
theorem work_isPrivateUse (t : LangTag) : WorkAtMost (Timed.LangTag.isPrivateUse t) (.ok t.isPrivateUse) t.str.length :=
  work_bind_const (work_asPrivateUse t) fun _ _ => work_pure _
theorem work_isGrandfathered (t : LangTag) : WorkAtMost (Timed.LangTag.isGrandfathered t) t.isGrandfathered 312 :=
  work_bind_const (work_asGrandfathered t) fun _ _ => work_pure _

theorem work_asTyped (t : LangTag) : WorkAtMost (Timed.LangTag.asTyped t) t.asTyped (2 * t.str.length + 312) := by
  have key : t.asTyped = (.ok (StrNewtype.new NormalLangTag t.str) : Rust _) >>= fun r => match r with
    | .ok n => .ok (.Normal n)
    | .error _ => (.ok (StrNewtype.new PrivateUse t.str) : Rust _) >>= fun r => match r with
      | .ok p => .ok (.PrivateUse p)
      | .error _ => GrandfatheredLangTag.new t.str >>= fun r => match r with
        | .ok g => .ok (.Grandfathered g)
        | .error _ => .error .unwrap := rfl
  rw [key]
  refine work_mono (work_bind (m := t.str.length + 312) (work_new NormalLangTag t.str) fun r hr => ?_) (by omega)
  cases r with
  | ok n => exact work_mono (work_pure _) (Nat.zero_le _)
  | error e =>
    refine work_bind (work_new PrivateUse t.str) fun r hr => ?_
    cases r with
    | ok p => exact work_mono (work_pure _) (Nat.zero_le _)
    | error e =>
      refine work_bind_const (work_newGrandfathered t.str) fun r hr => ?_
      cases r with
      | ok g => exact work_pure _
      | error e => exact work_lift _

theorem work_kind (t : LangTag) : WorkAtMost (Timed.LangTag.kind t) t.kind (2 * t.str.length + 312) :=
  work_bind_const (work_asTyped t) fun _ _ => work_pure _

end Langtag.Proof
