import Verif.Spec.Tag
import Verif.Proof.Subtags

/-! # The grammar rules in terms of lengths, character classes and `-`-separated pieces -/

set_option autoImplicit false

namespace Langtag.Proof
open Langtag.Spec Langtag.Spec.Grammar

/-- `a` describes single bytes satisfying `P`. -/
def IsClass (a : Abnf) (P : UInt8 → Prop) : Prop := ∀ w, a.Matches w ↔ ∃ b, w = [b] ∧ P b

theorem isClass_range {lo hi : Nat} {P : UInt8 → Prop} (h : ∀ b : UInt8, (lo ≤ b.toNat ∧ b.toNat ≤ hi) ↔ P b) :
    IsClass (.range lo hi) P := by
  intro w
  simp only [Abnf.Matches, h]

theorem isClass_alt {a b : Abnf} {P Q R : UInt8 → Prop} (ha : IsClass a P) (hb : IsClass b Q)
    (h : ∀ x, (P x ∨ Q x) ↔ R x) : IsClass (.alt a b) R := by
  intro w
  simp only [Abnf.Matches, ha w, hb w, ← h]
  constructor
  · rintro (⟨b, rfl, hb⟩ | ⟨b, rfl, hb⟩)
    · exact ⟨b, rfl, Or.inl hb⟩
    · exact ⟨b, rfl, Or.inr hb⟩
  · rintro ⟨b, rfl, hb | hb⟩
    · exact Or.inl ⟨b, rfl, hb⟩
    · exact Or.inr ⟨b, rfl, hb⟩

theorem isClass_ALPHA : IsClass ALPHA IsAlpha := by
  refine isClass_alt (P := fun b => 65 ≤ b ∧ b ≤ 90) (Q := fun b => 97 ≤ b ∧ b ≤ 122) (isClass_range ?_)
    (isClass_range ?_) (fun x => Iff.rfl)
  · intro b; simp only [UInt8.le_iff_toNat_le]; exact Iff.rfl
  · intro b; simp only [UInt8.le_iff_toNat_le]; exact Iff.rfl

theorem isClass_DIGIT : IsClass DIGIT IsDigit := by
  refine isClass_range ?_
  intro b; simp only [IsDigit, UInt8.le_iff_toNat_le]; exact Iff.rfl

theorem isClass_alphanum : IsClass alphanum IsAlphanum :=
  isClass_alt isClass_ALPHA isClass_DIGIT fun _ => Iff.rfl

/-- A singleton byte: alphanumeric, not `x` or `X`. -/
def IsSingleton (b : UInt8) : Prop := IsAlphanum b ∧ b ≠ 120 ∧ b ≠ 88

theorem isClass_singleton : IsClass singleton IsSingleton := by
  have h : ∀ (lo hi : Nat) , IsClass (.range lo hi) (fun b => lo ≤ b.toNat ∧ b.toNat ≤ hi) :=
    fun lo hi => isClass_range fun _ => Iff.rfl
  refine isClass_alt (isClass_alt (isClass_alt (isClass_alt isClass_DIGIT (h _ _) fun _ => Iff.rfl) (h _ _)
    fun _ => Iff.rfl) (h _ _) fun _ => Iff.rfl) (h _ _) fun b => ?_
  simp only [IsSingleton, IsAlphanum, IsAlpha, IsDigit, UInt8.le_iff_toNat_le, ne_eq, ← UInt8.toNat_inj]
  simp only [UInt8.reduceToNat]
  omega

theorem matches_rep_class {a : Abnf} {P : UInt8 → Prop} (ha : IsClass a P) (m : Nat) (max : Option Nat) (w : Text) :
    (Abnf.rep m max a).Matches w ↔ m ≤ w.length ∧ (∀ n, max = some n → w.length ≤ n) ∧ ∀ b ∈ w, P b := by
  constructor
  · rintro ⟨ws, rfl, hm, hn, hall⟩
    have hlen : ws.flatten.length = ws.length := by
      clear hm hn
      induction ws with
      | nil => rfl
      | cons x xs ih =>
        rw [List.forall_mem_cons] at hall
        obtain ⟨b, rfl, _⟩ := (ha x).mp hall.1
        simp [ih hall.2]
    rw [hlen]
    refine ⟨hm, hn, ?_⟩
    intro b hb
    obtain ⟨u, hu, hb⟩ := List.mem_flatten.mp hb
    obtain ⟨c, rfl, hc⟩ := (ha u).mp (hall u hu)
    simp only [List.mem_singleton] at hb
    exact hb ▸ hc
  · rintro ⟨hm, hn, hall⟩
    refine ⟨w.map fun b => [b], ?_, by simpa using hm, by simpa using hn, ?_⟩
    · clear hm hn hall
      induction w with
      | nil => rfl
      | cons b w ih => simp [← ih]
    · intro u hu
      obtain ⟨b, hb, rfl⟩ := List.mem_map.mp hu
      exact (ha _).mpr ⟨b, rfl, hall b hb⟩

theorem matches_exactly {a : Abnf} {P : UInt8 → Prop} (ha : IsClass a P) (n : Nat) (w : Text) :
    (Abnf.exactly n a).Matches w ↔ w.length = n ∧ ∀ b ∈ w, P b := by
  unfold Abnf.exactly
  rw [matches_rep_class ha]
  simp only [Option.some.injEq, forall_eq']
  constructor
  · rintro ⟨h1, h2, h3⟩; exact ⟨by omega, h3⟩
  · rintro ⟨h1, h3⟩; exact ⟨by omega, by omega, h3⟩

theorem matches_between {a : Abnf} {P : UInt8 → Prop} (ha : IsClass a P) (m n : Nat) (w : Text) :
    (Abnf.between m n a).Matches w ↔ m ≤ w.length ∧ w.length ≤ n ∧ ∀ b ∈ w, P b := by
  unfold Abnf.between
  rw [matches_rep_class ha]
  simp only [Option.some.injEq, forall_eq']

theorem matches_primary (w : Text) : primary.Matches w ↔ 2 ≤ w.length ∧ w.length ≤ 3 ∧ ∀ b ∈ w, IsAlpha b :=
  matches_between isClass_ALPHA 2 3 w

theorem matches_extlangTag (w : Text) : extlangTag.Matches w ↔ w.length = 3 ∧ ∀ b ∈ w, IsAlpha b :=
  matches_exactly isClass_ALPHA 3 w

theorem matches_script (w : Text) : script.Matches w ↔ w.length = 4 ∧ ∀ b ∈ w, IsAlpha b :=
  matches_exactly isClass_ALPHA 4 w

theorem matches_region (w : Text) :
    region.Matches w ↔ (w.length = 2 ∧ ∀ b ∈ w, IsAlpha b) ∨ (w.length = 3 ∧ ∀ b ∈ w, IsDigit b) := by
  rw [← matches_exactly isClass_ALPHA, ← matches_exactly isClass_DIGIT]; rfl

theorem matches_variant (w : Text) :
    variant.Matches w ↔ (5 ≤ w.length ∧ w.length ≤ 8 ∧ ∀ b ∈ w, IsAlphanum b) ∨
      (w.length = 4 ∧ (∀ b ∈ w, IsAlphanum b) ∧ ∃ b ∈ w.head?, IsDigit b) := by
  rw [← matches_between isClass_alphanum]
  refine or_congr Iff.rfl ?_
  simp only [Abnf.Matches, isClass_DIGIT _, matches_exactly isClass_alphanum]
  constructor
  · rintro ⟨_, v, rfl, ⟨b, rfl, hb⟩, hl, hv⟩
    refine ⟨by simp [hl], ?_, b, rfl, hb⟩
    simp only [List.cons_append, List.nil_append, List.forall_mem_cons]
    exact ⟨Or.inr hb, hv⟩
  · rintro ⟨hl, hv, b, hb, hd⟩
    cases w with
    | nil => simp at hl
    | cons c w =>
      simp only [List.head?_cons, Option.mem_def, Option.some.injEq] at hb
      subst hb
      rw [List.forall_mem_cons] at hv
      exact ⟨[c], w, rfl, ⟨c, rfl, hd⟩, by simpa using hl, hv.2⟩

theorem matches_extensionSubtag (w : Text) :
    extensionSubtag.Matches w ↔ 2 ≤ w.length ∧ w.length ≤ 8 ∧ ∀ b ∈ w, IsAlphanum b :=
  matches_between isClass_alphanum 2 8 w

theorem matches_privateuseSubtag (w : Text) :
    privateuseSubtag.Matches w ↔ 1 ≤ w.length ∧ w.length ≤ 8 ∧ ∀ b ∈ w, IsAlphanum b :=
  matches_between isClass_alphanum 1 8 w

/-! ## Lists -/

theorem matches_dash (w : Text) : (Abnf.str "-").Matches w ↔ w = [dash] := by
  have : ("-" : String).toList = ['-'] := by decide
  simp only [Abnf.Matches, this]
  constructor
  · intro h
    match w, h with
    | [b], h =>
      simp only [List.map_cons, List.map_nil, List.cons.injEq, and_true] at h
      have h' : lowerCode b.toNat = 45 := h
      unfold lowerCode at h'
      have hb : b.toNat = 45 := by grind
      rw [show b = dash from UInt8.toNat_inj.mp hb]
    | [], h => simp at h
    | _ :: _ :: _, h => simp at h
  · rintro rfl
    decide

theorem matches_dash_seq (a : Abnf) (w : Text) :
    (Abnf.seq (.str "-") a).Matches w ↔ ∃ u, w = dash :: u ∧ a.Matches u := by
  constructor
  · rintro ⟨x, v, rfl, hx, hv⟩
    have hx := (matches_dash x).mp hx
    exact ⟨v, by rw [hx]; rfl, hv⟩
  · rintro ⟨u, rfl, hu⟩
    exact ⟨[dash], u, rfl, (matches_dash _).mpr rfl, hu⟩

/-- `<m>*<max>("-" a)` -/
theorem matches_rep_dash (m : Nat) (max : Option Nat) (a : Abnf) (w : Text) :
    (Abnf.rep m max (.seq (.str "-") a)).Matches w ↔
      ∃ us : List Text, w = us.flatMap (dash :: ·) ∧ m ≤ us.length ∧ (∀ n, max = some n → us.length ≤ n) ∧
        ∀ u ∈ us, a.Matches u := by
  constructor
  · rintro ⟨ws, rfl, hm, hn, hall⟩
    have : ∃ us : List Text, ws = us.map (dash :: ·) ∧ ∀ u ∈ us, a.Matches u := by
      clear hm hn
      induction ws with
      | nil => exact ⟨[], rfl, by simp⟩
      | cons x xs ih =>
        rw [List.forall_mem_cons] at hall
        obtain ⟨u, rfl, hu⟩ := (matches_dash_seq a x).mp hall.1
        obtain ⟨us, rfl, hus⟩ := ih hall.2
        exact ⟨u :: us, rfl, by simpa using ⟨hu, hus⟩⟩
    obtain ⟨us, rfl, hus⟩ := this
    exact ⟨us, by rw [List.flatMap_def], by simpa using hm, by simpa using hn, hus⟩
  · rintro ⟨us, rfl, hm, hn, hus⟩
    refine ⟨us.map (dash :: ·), by rw [List.flatMap_def], by simpa using hm, by simpa using hn, ?_⟩
    intro x hx
    obtain ⟨u, hu, rfl⟩ := List.mem_map.mp hx
    exact (matches_dash_seq a _).mpr ⟨u, rfl, hus u hu⟩

/-- `a <m>*<max>("-" b)` -/
theorem matches_list (a b : Abnf) (m : Nat) (max : Option Nat) (w : Text) :
    (Abnf.seq a (.rep m max (.seq (.str "-") b))).Matches w ↔
      ∃ (v : Text) (us : List Text), w = joinDash (v :: us) ∧ a.Matches v ∧ m ≤ us.length ∧
        (∀ n, max = some n → us.length ≤ n) ∧ ∀ u ∈ us, b.Matches u := by
  constructor
  · rintro ⟨v, x, rfl, hv, hx⟩
    obtain ⟨us, rfl, h⟩ := (matches_rep_dash _ _ _ _).mp hx
    exact ⟨v, us, (joinDash_cons _ _).symm, hv, h⟩
  · rintro ⟨v, us, rfl, hv, h⟩
    exact ⟨v, us.flatMap (dash :: ·), joinDash_cons _ _, hv, (matches_rep_dash _ _ _ _).mpr ⟨us, rfl, h⟩⟩

theorem matches_opt (a : Abnf) (w : Text) : (Abnf.opt a).Matches w ↔ w = [] ∨ a.Matches w := by
  constructor
  · rintro ⟨ws, rfl, _, hn, hall⟩
    have := hn 1 rfl
    match ws with
    | [] => exact Or.inl rfl
    | [u] => exact Or.inr (by simpa using hall u (by simp))
  · rintro (rfl | h)
    · exact ⟨[], rfl, by simp, by simp, by simp⟩
    · exact ⟨[w], by simp, by simp, by simp, by simpa using h⟩

theorem matches_extlang (w : Text) :
    extlang.Matches w ↔ ∃ us : List Text, us ≠ [] ∧ us.length ≤ 3 ∧ w = joinDash us ∧ ∀ u ∈ us, extlangTag.Matches u := by
  unfold extlang Abnf.between
  rw [matches_list]
  constructor
  · rintro ⟨v, us, rfl, hv, _, hn, hus⟩
    exact ⟨v :: us, by simp, by simpa using hn 2 rfl, rfl, by simpa using ⟨hv, hus⟩⟩
  · rintro ⟨us, hne, hl, rfl, hus⟩
    match us with
    | v :: us =>
      rw [List.forall_mem_cons] at hus
      exact ⟨v, us, rfl, hus.1, by simp, by simpa using hl, hus.2⟩

theorem matches_language (w : Text) :
    language.Matches w ↔
      (∃ (v : Text) (us : List Text), w = joinDash (v :: us) ∧ us.length ≤ 3 ∧ primary.Matches v ∧
        ∀ u ∈ us, extlangTag.Matches u) ∨
      (4 ≤ w.length ∧ w.length ≤ 8 ∧ ∀ b ∈ w, IsAlpha b) := by
  have h1 : (Abnf.seq primary (Abnf.opt (.seq (.str "-") extlang))).Matches w ↔
      ∃ (v : Text) (us : List Text), w = joinDash (v :: us) ∧ us.length ≤ 3 ∧ primary.Matches v ∧
        ∀ u ∈ us, extlangTag.Matches u := by
    constructor
    · rintro ⟨v, x, rfl, hv, hx⟩
      rcases (matches_opt _ _).mp hx with rfl | hx
      · exact ⟨v, [], by simp [joinDash], by simp, hv, by simp⟩
      · obtain ⟨u, rfl, hu⟩ := (matches_dash_seq _ _).mp hx
        obtain ⟨us, hne, hl, rfl, hus⟩ := (matches_extlang _).mp hu
        exact ⟨v, us, by rw [joinDash_cons_of_ne_nil _ hne], hl, hv, hus⟩
    · rintro ⟨v, us, rfl, hl, hv, hus⟩
      cases us with
      | nil => exact ⟨v, [], by simp [joinDash], hv, (matches_opt _ _).mpr (Or.inl rfl)⟩
      | cons u us =>
        refine ⟨v, dash :: joinDash (u :: us), rfl, hv, (matches_opt _ _).mpr (Or.inr ?_)⟩
        exact (matches_dash_seq _ _).mpr ⟨_, rfl, (matches_extlang _).mpr ⟨u :: us, by simp, hl, rfl, hus⟩⟩
  have h2 : language.Matches w ↔ ((Abnf.seq primary (Abnf.opt (.seq (.str "-") extlang))).Matches w ∨
      (Abnf.exactly 4 ALPHA).Matches w) ∨ (Abnf.between 5 8 ALPHA).Matches w := Iff.rfl
  rw [h2, h1, matches_exactly isClass_ALPHA, matches_between isClass_ALPHA, or_assoc]
  refine or_congr Iff.rfl ?_
  constructor
  · rintro (⟨h, h'⟩ | ⟨h, h', h''⟩)
    · exact ⟨by omega, by omega, h'⟩
    · exact ⟨by omega, h', h''⟩
  · rintro ⟨h, h', h''⟩
    by_cases h4 : w.length = 4
    · exact Or.inl ⟨h4, h''⟩
    · exact Or.inr ⟨by omega, h', h''⟩

theorem matches_extension (w : Text) :
    extension.Matches w ↔ ∃ (b : UInt8) (us : List Text), w = joinDash ([b] :: us) ∧ us ≠ [] ∧ IsSingleton b ∧
      ∀ u ∈ us, extensionSubtag.Matches u := by
  unfold extension Abnf.many1
  rw [matches_list]
  constructor
  · rintro ⟨v, us, rfl, hv, hm, _, hus⟩
    obtain ⟨b, rfl, hb⟩ := (isClass_singleton _).mp hv
    exact ⟨b, us, rfl, by rintro rfl; simp at hm, hb, hus⟩
  · rintro ⟨b, us, rfl, hne, hb, hus⟩
    exact ⟨[b], us, rfl, (isClass_singleton _).mpr ⟨b, rfl, hb⟩, List.length_pos_iff.mpr hne, by simp, hus⟩

theorem isClass_x : IsClass (.str "x") fun b => b = 120 ∨ b = 88 := by
  intro w
  have : ("x" : String).toList = ['x'] := by decide
  simp only [Abnf.Matches, this]
  constructor
  · intro h
    match w, h with
    | [b], h =>
      simp only [List.map_cons, List.map_nil, List.cons.injEq, and_true] at h
      have h' : lowerCode b.toNat = 120 := h
      unfold lowerCode at h'
      refine ⟨b, rfl, ?_⟩
      simp only [← UInt8.toNat_inj, UInt8.reduceToNat]
      grind
    | [], h => simp at h
    | _ :: _ :: _, h => simp at h
  · rintro ⟨b, rfl, rfl | rfl⟩ <;> decide

theorem matches_privateuse (w : Text) :
    privateuse.Matches w ↔ ∃ (b : UInt8) (us : List Text), w = joinDash ([b] :: us) ∧ us ≠ [] ∧ (b = 120 ∨ b = 88) ∧
      ∀ u ∈ us, privateuseSubtag.Matches u := by
  unfold privateuse Abnf.many1
  rw [matches_list]
  constructor
  · rintro ⟨v, us, rfl, hv, hm, _, hus⟩
    obtain ⟨b, rfl, hb⟩ := (isClass_x _).mp hv
    exact ⟨b, us, rfl, by rintro rfl; simp at hm, hb, hus⟩
  · rintro ⟨b, us, rfl, hne, hb, hus⟩
    exact ⟨[b], us, rfl, (isClass_x _).mpr ⟨b, rfl, hb⟩, List.length_pos_iff.mpr hne, by simp, hus⟩

/-- `[ a *("-" a) ]` -/
theorem matches_optList (a : Abnf) (w : Text) :
    (Abnf.opt (.seq a (.many (.seq (.str "-") a)))).Matches w ↔ ∃ vs : List Text, w = joinDash vs ∧ ∀ v ∈ vs, a.Matches v := by
  rw [matches_opt]
  unfold Abnf.many
  rw [matches_list]
  constructor
  · rintro (rfl | ⟨v, us, rfl, hv, _, _, hus⟩)
    · exact ⟨[], rfl, by simp⟩
    · exact ⟨v :: us, rfl, by simpa using ⟨hv, hus⟩⟩
  · rintro ⟨vs, rfl, h⟩
    cases vs with
    | nil => exact Or.inl rfl
    | cons v us =>
      rw [List.forall_mem_cons] at h
      exact Or.inr ⟨v, us, rfl, h.1, by simp, by simp, h.2⟩

theorem matches_variants (w : Text) :
    variants.Matches w ↔ ∃ vs : List Text, w = joinDash vs ∧ ∀ v ∈ vs, variant.Matches v := matches_optList _ w

theorem matches_extensions (w : Text) :
    extensions.Matches w ↔ ∃ vs : List Text, w = joinDash vs ∧ ∀ v ∈ vs, extension.Matches v := matches_optList _ w

/-! ## The whole tag -/

theorem matches_optDash (a : Abnf) (w : Text) :
    (Abnf.opt (.seq (.str "-") a)).Matches w ↔
      ∃ o : Option Text, w = o.toList.flatMap (dash :: ·) ∧ ∀ s, o = some s → a.Matches s := by
  rw [matches_opt, matches_dash_seq]
  constructor
  · rintro (rfl | ⟨u, rfl, hu⟩)
    · exact ⟨none, rfl, by simp⟩
    · exact ⟨some u, by simp, by simpa using hu⟩
  · rintro ⟨o, rfl, h⟩
    cases o with
    | none => exact Or.inl rfl
    | some u => exact Or.inr ⟨u, by simp, h u rfl⟩

theorem matches_manyDash (a : Abnf) (w : Text) :
    (Abnf.many (.seq (.str "-") a)).Matches w ↔
      ∃ vs : List Text, w = vs.flatMap (dash :: ·) ∧ ∀ v ∈ vs, a.Matches v := by
  unfold Abnf.many
  rw [matches_rep_dash]
  simp

theorem matches_langtag (w : Text) : langtag.Matches w ↔ ∃ p, Decomposes w p := by
  constructor
  · rintro ⟨_, x6, rfl, ⟨_, x5, rfl, ⟨_, x4, rfl, ⟨_, x3, rfl, ⟨l, x2, rfl, hl, h2⟩, h3⟩, h4⟩, h5⟩, h6⟩
    obtain ⟨sc, rfl, hsc⟩ := (matches_optDash _ _).mp h2
    obtain ⟨re, rfl, hre⟩ := (matches_optDash _ _).mp h3
    obtain ⟨va, rfl, hva⟩ := (matches_manyDash _ _).mp h4
    obtain ⟨ex, rfl, hex⟩ := (matches_manyDash _ _).mp h5
    obtain ⟨pu, rfl, hpu⟩ := (matches_optDash _ _).mp h6
    refine ⟨⟨l, sc, re, va, ex, pu⟩, ⟨hl, hsc, hre, hva, hex, hpu⟩, ?_⟩
    simp [Parts.render, Parts.afterLanguage, Parts.afterScript, Parts.afterRegion, Parts.afterVariants, joinDash_cons]
  · rintro ⟨⟨l, sc, re, va, ex, pu⟩, ⟨hl, hsc, hre, hva, hex, hpu⟩, rfl⟩
    refine ⟨_, pu.toList.flatMap (dash :: ·), ?_, ⟨_, ex.flatMap (dash :: ·), rfl, ⟨_, va.flatMap (dash :: ·), rfl,
      ⟨_, re.toList.flatMap (dash :: ·), rfl, ⟨l, sc.toList.flatMap (dash :: ·), rfl, hl,
      (matches_optDash _ _).mpr ⟨_, rfl, hsc⟩⟩, (matches_optDash _ _).mpr ⟨_, rfl, hre⟩⟩,
      (matches_manyDash _ _).mpr ⟨_, rfl, hva⟩⟩, (matches_manyDash _ _).mpr ⟨_, rfl, hex⟩⟩,
      (matches_optDash _ _).mpr ⟨_, rfl, hpu⟩⟩
    simp [Parts.render, Parts.afterLanguage, Parts.afterScript, Parts.afterRegion, Parts.afterVariants, joinDash_cons]

end Langtag.Proof
