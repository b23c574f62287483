import Verif.Model.Normal
import Verif.Proof.Accept
import Verif.Proof.Shapes
import Verif.Proof.Singleton
import Verif.Proof.Segments
import Verif.Proof.Case

/-! # The accessors of `NormalLangTag` on a tag with given parts -/

set_option autoImplicit false

namespace Langtag.Proof
open Langtag.Spec Langtag.Model

/-! ## Bytes -/

theorem isAlpha_ne_dash {b : UInt8} (h : IsAlpha b) : dash ≠ b := by
  rintro rfl
  revert h; unfold IsAlpha dash; decide

theorem isAlphanum_ne_dash {b : UInt8} (h : IsAlphanum b) : dash ≠ b := by
  rintro rfl
  revert h; unfold IsAlphanum IsAlpha IsDigit dash; decide

theorem dashFree_of_alphanum {w : Text} (h : ∀ b ∈ w, IsAlphanum b) : dash ∉ w :=
  fun hm => isAlphanum_ne_dash (h _ hm) rfl

theorem dashFree_of_alpha {w : Text} (h : ∀ b ∈ w, IsAlpha b) : dash ∉ w :=
  fun hm => isAlpha_ne_dash (h _ hm) rfl

theorem not_digit_of_alpha {b : UInt8} (h : IsAlpha b) : ¬ IsDigit b := by
  simp only [IsAlpha, IsDigit, UInt8.le_iff_toNat_le, UInt8.reduceToNat] at *
  omega

theorem dashFree_script {w : Text} (h : Grammar.script.Matches w) : dash ∉ w :=
  dashFree_of_alpha ((matches_script w).mp h).2

theorem alphanum_region {w : Text} (h : Grammar.region.Matches w) : ∀ b ∈ w, IsAlphanum b := by
  rcases (matches_region w).mp h with ⟨_, h⟩ | ⟨_, h⟩
  · exact fun b hb => Or.inl (h b hb)
  · exact fun b hb => Or.inr (h b hb)

theorem dashFree_region {w : Text} (h : Grammar.region.Matches w) : dash ∉ w :=
  dashFree_of_alphanum (alphanum_region h)

theorem alphanum_variant {w : Text} (h : Grammar.variant.Matches w) : ∀ b ∈ w, IsAlphanum b := by
  rcases (matches_variant w).mp h with ⟨_, _, h⟩ | ⟨_, h, _⟩ <;> exact h

theorem dashFree_variant {w : Text} (h : Grammar.variant.Matches w) : dash ∉ w :=
  dashFree_of_alphanum (alphanum_variant h)

theorem length_variant {w : Text} (h : Grammar.variant.Matches w) : 4 ≤ w.length ∧ w.length ≤ 8 := by
  rcases (matches_variant w).mp h with ⟨h1, h2, _⟩ | ⟨h1, _, _⟩ <;> omega

theorem length_region {w : Text} (h : Grammar.region.Matches w) : 2 ≤ w.length ∧ w.length ≤ 3 := by
  rcases (matches_region w).mp h with ⟨h1, _⟩ | ⟨h1, _⟩ <;> omega

theorem ascii_of_matches {a : Abnf} (ha : (Re.ofAbnf a).okRe = true) {w : Text} (h : a.Matches w) : Ascii w := by
  intro b hb
  have := Re.lang_alphabet ha ((Re.lang_ofAbnf a w).mpr h) b hb
  rw [UInt8.lt_iff_toNat_lt]
  show b.toNat < 128
  unfold repOf at this
  grind

theorem okRe_langtag : (Re.ofAbnf Grammar.langtag).okRe = true := by decide +kernel

/-! ## `isOk` of the subtag types -/

theorem isOk_false {T : Type} [StrNewtype T] {a : Abnf} {s : Text} (h : StrNewtype.isOk T s = true ↔ a.Matches s)
    (hn : ¬ a.Matches s) : StrNewtype.isOk T s = false := by
  rw [Bool.eq_false_iff]
  exact fun hh => hn (h.mp hh)

/-! ## Tails: `-` before each piece -/

/-- Each piece preceded by `-`. -/
def tail (ws : List Text) : Text := ws.flatMap (dash :: ·)

theorem tail_append (us vs : List Text) : tail (us ++ vs) = tail us ++ tail vs := by simp [tail]

theorem tail_eq_of_ne_nil {ws : List Text} (h : ws ≠ []) : tail ws = dash :: joinDash ws := by
  cases ws with
  | nil => exact absurd rfl h
  | cons u ws => simp [tail, joinDash_cons]

theorem tail_subtags (u : Text) : tail (subtags u) = dash :: u := by
  rw [tail_eq_of_ne_nil (subtags_ne_nil u), joinDash_subtags]

theorem tail_flatMap_subtags (ws : List Text) : tail (ws.flatMap subtags) = tail ws := by
  induction ws with
  | nil => rfl
  | cons u ws ih =>
    rw [List.flatMap_cons, tail_append, ih, tail_subtags]
    rfl

theorem joinDash_cons_tail (u : Text) (ws : List Text) : joinDash (u :: ws) = u ++ tail ws := joinDash_cons u ws

/-! ## `find_list_end` after a prefix -/

variable {f : Nat → Str → Rust Bool}

theorem findListEnd_list {cur : Text} {as bs : List Text} (hne : as ++ bs ≠ []) (hs : Ascii (cur ++ tail (as ++ bs)))
    (hd : ∀ u ∈ as ++ bs, dash ∉ u)
    (ha : ∀ off, ∀ a ∈ as, f off a = .ok true)
    (hb : ∀ off, cur.length + 1 ≤ off → ∀ b ∈ bs.head?, f off b = .ok false) :
    findListEnd (cur ++ tail (as ++ bs)) (cur.length + 1) f =
      .ok (if as = [] then cur.length + 1 else (cur ++ tail as).length) := by
  unfold findListEnd
  have e1 : cur ++ tail (as ++ bs) = (cur ++ [dash]) ++ joinDash (as ++ bs) := by
    rw [tail_eq_of_ne_nil hne]; simp
  have e2 : cur.length + 1 = (cur ++ [dash]).length := by simp
  rw [e2] at hb
  rw [e1] at hs ⊢
  rw [e2, findListEndLoop_list hne hs hd (fun off _ => ha off) hb]
  by_cases h : as = []
  · rw [if_pos h, if_pos h]
  · rw [if_neg h, if_neg h, tail_eq_of_ne_nil h]
    simp; omega

theorem findListEnd_one {cur a : Text} {bs : List Text} (hs : Ascii (cur ++ tail (a :: bs)))
    (hd : ∀ u ∈ a :: bs, dash ∉ u) (ha : f (cur.length + 1) a = .ok true)
    (hb : ∀ off, cur.length + 1 < off → ∀ b ∈ bs.head?, f off b = .ok false) :
    findListEnd (cur ++ tail (a :: bs)) (cur.length + 1) f = .ok (cur ++ tail [a]).length := by
  unfold findListEnd
  have e1 : cur ++ tail (a :: bs) = (cur ++ [dash]) ++ joinDash (a :: [] ++ bs) := by
    rw [tail_eq_of_ne_nil (by simp)]; simp
  have e2 : cur.length + 1 = (cur ++ [dash]).length := by simp
  rw [e2] at hb ha
  rw [e1] at hs ⊢
  rw [e2, findListEndLoop_first hs hd ha (by simp) hb]
  simp [tail, joinDash]; omega

theorem findListEnd_panic {s : Text} {i : Nat} (h : s.length < i) : findListEnd s i f = .error .slice :=
  findListEndLoop_panic h

/-! ## Heads -/

/-- A segment of length one. -/
def HeadOne (R : List Text) : Prop := ∀ a ∈ R.head?, a.length = 1

theorem head?_flatMap_subtags {ws : List Text} {a : Text} (h : a ∈ (ws.flatMap subtags).head?) :
    ∃ u ∈ ws.head?, a ∈ (subtags u).head? := by
  cases ws with
  | nil => simp at h
  | cons u ws =>
    refine ⟨u, rfl, ?_⟩
    rw [List.flatMap_cons] at h
    cases hu : subtags u with
    | nil => exact absurd hu (subtags_ne_nil u)
    | cons x xs => rw [hu] at h; simpa using h

theorem subtags_extension {e : Text} (h : Grammar.extension.Matches e) :
    ∃ (b : UInt8) (us : List Text), subtags e = [b] :: us ∧ us ≠ [] ∧ IsSingleton b ∧
      ∀ u ∈ us, Grammar.extensionSubtag.Matches u := by
  obtain ⟨b, us, rfl, hne, hb, hus⟩ := (matches_extension e).mp h
  refine ⟨b, us, ?_, hne, hb, hus⟩
  refine subtags_joinDash_of_dashFree (by simp) ?_
  rw [List.forall_mem_cons]
  refine ⟨?_, fun u hu => dashFree_of_alphanum ((matches_extensionSubtag u).mp (hus u hu)).2.2⟩
  exact dashFree_of_alphanum (by simpa using hb.1)

theorem isAlphanum_x {b : UInt8} (h : b = 120 ∨ b = 88) : IsAlphanum b := by
  rcases h with rfl | rfl <;> (unfold IsAlphanum IsAlpha IsDigit; decide)

theorem subtags_privateuse {e : Text} (h : Grammar.privateuse.Matches e) :
    ∃ (b : UInt8) (us : List Text), subtags e = [b] :: us ∧ us ≠ [] ∧ (b = 120 ∨ b = 88) ∧
      ∀ u ∈ us, Grammar.privateuseSubtag.Matches u := by
  obtain ⟨b, us, rfl, hne, hb, hus⟩ := (matches_privateuse e).mp h
  refine ⟨b, us, ?_, hne, hb, hus⟩
  refine subtags_joinDash_of_dashFree (by simp) ?_
  rw [List.forall_mem_cons]
  refine ⟨?_, fun u hu => dashFree_of_alphanum ((matches_privateuseSubtag u).mp (hus u hu)).2.2⟩
  exact dashFree_of_alphanum (by simpa using isAlphanum_x hb)

theorem subtags_language {l : Text} (h : Grammar.language.Matches l) :
    ∃ (v : Text) (us : List Text), subtags l = v :: us ∧ us.length ≤ 3 ∧ (us ≠ [] → Grammar.primary.Matches v) ∧
      2 ≤ v.length ∧ v.length ≤ 8 ∧ (∀ b ∈ v, IsAlpha b) ∧ ∀ u ∈ us, Grammar.extlangTag.Matches u := by
  rcases (matches_language l).mp h with ⟨v, us, rfl, hl, hv, hus⟩ | ⟨h1, h2, h3⟩
  · have hv' := (matches_primary v).mp hv
    refine ⟨v, us, ?_, hl, fun _ => hv, hv'.1, by omega, hv'.2.2, hus⟩
    refine subtags_joinDash_of_dashFree (by simp) ?_
    rw [List.forall_mem_cons]
    exact ⟨dashFree_of_alpha hv'.2.2, fun u hu => dashFree_of_alpha ((matches_extlangTag u).mp (hus u hu)).2⟩
  · exact ⟨l, [], subtags_of_dashFree (dashFree_of_alpha h3), by simp, by simp, by omega, h2, h3, by simp⟩

/-! ## The segments of a tag -/

section
variable {p : Parts}

/-- Segments after the variants. -/
def segs4 (p : Parts) : List Text := p.afterVariants.flatMap subtags
/-- Segments after the region. -/
def segs3 (p : Parts) : List Text := p.variants ++ segs4 p
/-- Segments after the script. -/
def segs2 (p : Parts) : List Text := p.region.toList ++ segs3 p
/-- Segments after the language. -/
def segs1 (p : Parts) : List Text := p.script.toList ++ segs2 p

theorem render_eq (p : Parts) : p.render = p.language ++ tail (segs1 p) := by
  rw [Parts.render, joinDash_cons_tail]
  simp only [segs1, segs2, segs3, segs4, Parts.afterLanguage, Parts.afterScript, Parts.afterRegion, tail_append,
    tail_flatMap_subtags]

theorem flatMap_subtags_eq_nil {ws : List Text} : ws.flatMap subtags = [] ↔ ws = [] := by
  constructor
  · intro h
    by_cases hw : ws = []
    · exact hw
    · exact absurd h (flatMap_subtags_ne_nil hw)
  · rintro rfl; rfl

theorem segs4_eq_nil : segs4 p = [] ↔ p.afterVariants = [] := flatMap_subtags_eq_nil
theorem segs3_eq_nil : segs3 p = [] ↔ p.afterRegion = [] := by
  simp [segs3, Parts.afterRegion, segs4_eq_nil]
theorem segs2_eq_nil : segs2 p = [] ↔ p.afterScript = [] := by
  simp [segs2, Parts.afterScript, segs3_eq_nil]
theorem segs1_eq_nil : segs1 p = [] ↔ p.afterLanguage = [] := by
  simp [segs1, Parts.afterLanguage, segs2_eq_nil]

theorem dashFree_segs4 : ∀ u ∈ segs4 p, dash ∉ u := by
  intro u hu
  obtain ⟨v, _, hv⟩ := List.mem_flatMap.mp hu
  exact subtags_dashFree v u hv

theorem dashFree_segs3 (h : p.WF) : ∀ u ∈ segs3 p, dash ∉ u := by
  intro u hu
  rcases List.mem_append.mp hu with hu | hu
  · exact dashFree_variant (h.variants u hu)
  · exact dashFree_segs4 u hu

theorem dashFree_segs2 (h : p.WF) : ∀ u ∈ segs2 p, dash ∉ u := by
  intro u hu
  rcases List.mem_append.mp hu with hu | hu
  · exact dashFree_region (h.region u (by simpa using hu))
  · exact dashFree_segs3 h u hu

theorem dashFree_segs1 (h : p.WF) : ∀ u ∈ segs1 p, dash ∉ u := by
  intro u hu
  rcases List.mem_append.mp hu with hu | hu
  · exact dashFree_script (h.script u (by simpa using hu))
  · exact dashFree_segs2 h u hu

theorem head_segs4 (h : p.WF) : ∀ a ∈ (segs4 p).head?, a.length = 1 := by
  intro a ha
  obtain ⟨u, hu, ha⟩ := head?_flatMap_subtags ha
  have hu : u ∈ p.extensions ∨ u ∈ p.privateUse.toList := by
    have := List.mem_of_mem_head? hu
    exact List.mem_append.mp this
  rcases hu with hu | hu
  · obtain ⟨b, us, e, _⟩ := subtags_extension (h.extensions u hu)
    rw [e] at ha
    simp only [List.head?_cons, Option.mem_def, Option.some.injEq] at ha
    subst ha; rfl
  · obtain ⟨b, us, e, _⟩ := subtags_privateuse (h.privateUse u (by simpa using hu))
    rw [e] at ha
    simp only [List.head?_cons, Option.mem_def, Option.some.injEq] at ha
    subst ha; rfl

theorem head?_append_cases {α : Type} {a : α} {as bs : List α} (h : a ∈ (as ++ bs).head?) :
    a ∈ as ∨ a ∈ bs.head? := by
  cases as with
  | nil => exact Or.inr h
  | cons x xs => simp only [List.cons_append, List.head?_cons, Option.mem_def, Option.some.injEq] at h; simp [h]

theorem head_segs3 (h : p.WF) : ∀ a ∈ (segs3 p).head?, a.length = 1 ∨ Grammar.variant.Matches a := by
  intro a ha
  rcases head?_append_cases ha with ha | ha
  · exact Or.inr (h.variants a ha)
  · exact Or.inl (head_segs4 h a ha)

theorem head_segs2 (h : p.WF) :
    ∀ a ∈ (segs2 p).head?, a.length = 1 ∨ Grammar.variant.Matches a ∨ Grammar.region.Matches a := by
  intro a ha
  rcases head?_append_cases ha with ha | ha
  · exact Or.inr (Or.inr (h.region a (by simpa using ha)))
  · exact (head_segs3 h a ha).imp_right Or.inl

theorem head_segs1 (h : p.WF) :
    ∀ a ∈ (segs1 p).head?, a.length = 1 ∨ Grammar.variant.Matches a ∨ Grammar.region.Matches a ∨
      Grammar.script.Matches a := by
  intro a ha
  rcases head?_append_cases ha with ha | ha
  · exact Or.inr (Or.inr (Or.inr (h.script a (by simpa using ha))))
  · rcases head_segs2 h a ha with h | h | h <;> simp [h]

theorem variant_not_script {w : Text} (h : Grammar.variant.Matches w) : ¬ Grammar.script.Matches w := by
  intro hs
  obtain ⟨h4, ha⟩ := (matches_script w).mp hs
  rcases (matches_variant w).mp h with ⟨h1, _⟩ | ⟨_, _, b, hb, hd⟩
  · omega
  · exact not_digit_of_alpha (ha b (List.mem_of_mem_head? hb)) hd

theorem head1_not_extlang (h : p.WF) : ∀ a ∈ (segs1 p).head?, ¬ Grammar.extlangTag.Matches a := by
  intro a ha he
  obtain ⟨h3, hal⟩ := (matches_extlangTag a).mp he
  rcases head_segs1 h a ha with h | h | h | h
  · omega
  · have := length_variant h; omega
  · rcases (matches_region a).mp h with ⟨h2, _⟩ | ⟨_, hd⟩
    · omega
    · cases a with
      | nil => simp at h3
      | cons b a => exact not_digit_of_alpha (hal b (by simp)) (hd b (by simp))
  · have := ((matches_script a).mp h).1; omega

theorem head2_not_script (h : p.WF) : ∀ a ∈ (segs2 p).head?, ¬ Grammar.script.Matches a := by
  intro a ha hs
  have h4 := ((matches_script a).mp hs).1
  rcases head_segs2 h a ha with h | h | h
  · omega
  · exact variant_not_script h hs
  · have := length_region h; omega

theorem head3_not_region (h : p.WF) : ∀ a ∈ (segs3 p).head?, ¬ Grammar.region.Matches a := by
  intro a ha hs
  have hl := length_region hs
  rcases head_segs3 h a ha with h | h
  · omega
  · have := length_variant h; omega

theorem head4_not_variant (h : p.WF) : ∀ a ∈ (segs4 p).head?, ¬ Grammar.variant.Matches a := by
  intro a ha hs
  have := length_variant hs
  have := head_segs4 h a ha
  omega

theorem ascii_render (h : p.WF) : Ascii p.render :=
  ascii_of_matches okRe_langtag ((matches_langtag _).mpr ⟨p, h, rfl⟩)

/-! ## Prefixes -/

/-- The tag up to and including the script. -/
def upTo2 (p : Parts) : Text := p.language ++ tail p.script.toList
/-- The tag up to and including the region. -/
def upTo3 (p : Parts) : Text := upTo2 p ++ tail p.region.toList
/-- The tag up to and including the variants. -/
def upTo4 (p : Parts) : Text := upTo3 p ++ tail p.variants
/-- The tag up to and including the extensions. -/
def upTo5 (p : Parts) : Text := upTo4 p ++ tail p.extensions

theorem render_eq2 (p : Parts) : p.render = upTo2 p ++ tail (segs2 p) := by
  rw [render_eq, segs1, tail_append, upTo2, List.append_assoc]
theorem render_eq3 (p : Parts) : p.render = upTo3 p ++ tail (segs3 p) := by
  rw [render_eq2, segs2, tail_append, upTo3, List.append_assoc]
theorem render_eq4 (p : Parts) : p.render = upTo4 p ++ tail (segs4 p) := by
  rw [render_eq3, segs3, tail_append, upTo4, List.append_assoc]

/-! ## The accessors -/

theorem languageEnd_eq (h : p.WF) : (NormalLangTag.mk p.render).languageEnd = .ok p.language.length := by
  unfold NormalLangTag.languageEnd findListEnd
  obtain ⟨v, us, e, _, _, _, _, hv, hus⟩ := subtags_language h.language
  have hl : p.language = joinDash (v :: us) := by rw [← e, joinDash_subtags]
  have e1 : p.render = [] ++ joinDash (v :: us ++ segs1 p) := by
    rw [render_eq, hl]; simp [joinDash_cons_tail, tail_append]
  have hs := ascii_render h
  rw [e1] at hs
  simp only
  rw [e1]
  refine (findListEndLoop_first (pre := []) hs ?_ ?_ ?_ ?_ 0).trans ?_
  · intro u hu
    rcases List.mem_append.mp hu with hu | hu
    · exact subtags_dashFree _ u (e ▸ hu)
    · exact dashFree_segs1 h u hu
  · simp
  · intro off _ a ha
    rw [(isOk_ExtendedLangTag a).mpr (hus a ha)]; simp
  · intro off ho b hb
    rw [isOk_false (isOk_ExtendedLangTag b) (head1_not_extlang h b hb)]
    have : off ≠ 0 := by simp at ho; omega
    simp [this]
  · rw [← hl]; simp

theorem language_eq (h : p.WF) : (NormalLangTag.mk p.render).language = .ok ⟨p.language⟩ := by
  unfold NormalLangTag.language
  rw [languageEnd_eq h]
  have hs := ascii_render h
  simp only [bind, Except.bind]
  rw [render_eq] at hs ⊢
  have := sliceRange_append (pre := []) (mid := p.language) (post := tail (segs1 p)) hs
  simp only [List.nil_append, List.length_nil, Nat.zero_add] at this
  rw [this]; rfl

theorem scriptRange_eq (h : p.WF) :
    (NormalLangTag.mk p.render).scriptRange =
      if p.afterLanguage = [] then .error .slice
      else match p.script with
        | some _ => .ok (.ok (p.language.length + 1, (upTo2 p).length))
        | none => .ok (.error p.language.length) := by
  unfold NormalLangTag.scriptRange
  rw [languageEnd_eq h]
  simp only [bind, Except.bind]
  by_cases hA : p.afterLanguage = []
  · rw [if_pos hA, findListEnd_panic]
    rw [render_eq, segs1_eq_nil.mpr hA]
    simp [tail]
  · have hs := ascii_render h
    have hd := dashFree_segs1 h
    have hne : segs1 p ≠ [] := fun hh => hA (segs1_eq_nil.mp hh)
    rw [if_neg hA]
    rw [render_eq] at hs ⊢
    cases hsc : p.script with
    | some s =>
      have e1 : segs1 p = s :: segs2 p := by simp [segs1, hsc]
      rw [e1] at hs hd ⊢
      rw [findListEnd_one hs hd]
      · have : (upTo2 p).length ≠ p.language.length + 1 := by
          have := ((matches_script s).mp (h.script s hsc)).1
          simp [upTo2, hsc, tail, this]
        simp only [upTo2, hsc, Option.toList] at this ⊢
        rw [if_pos this]; rfl
      · rw [(isOk_Script s).mpr (h.script s hsc)]; simp
      · intro off ho b _
        have : off ≠ p.language.length + 1 := by omega
        simp [this]
    | none =>
      have e1 : segs1 p = [] ++ segs2 p := by simp [segs1, hsc]
      rw [e1] at hs hd hne ⊢
      rw [findListEnd_list hne hs hd (by simp)]
      · simp [pure, Except.pure]
      · intro off ho b hb
        rw [isOk_false (isOk_Script b) (head2_not_script h b hb)]
        simp

theorem script_eq (h : p.WF) :
    (NormalLangTag.mk p.render).script =
      if p.afterLanguage = [] then .error .slice else .ok (p.script.map Script.mk) := by
  unfold NormalLangTag.script
  rw [scriptRange_eq h]
  split
  · rfl
  · cases hsc : p.script with
    | none => rfl
    | some s =>
      have hs := ascii_render h
      simp only [bind, Except.bind]
      have e1 : p.render = (p.language ++ [dash]) ++ s ++ tail (segs2 p) := by
        rw [render_eq2, upTo2, hsc]; simp [tail]
      rw [e1] at hs ⊢
      have := sliceRange_append hs
      have e2 : (p.language ++ [dash]).length = p.language.length + 1 := by simp
      have e3 : (p.language ++ [dash]).length + s.length = (upTo2 p).length := by
        simp [upTo2, hsc, tail]; omega
      rw [e3, e2] at this
      rw [this]; rfl

theorem scriptEnd_ok (h : p.WF) (hne : p.afterLanguage ≠ []) :
    (∃ a, (NormalLangTag.mk p.render).scriptRange = .ok (.ok (a, (upTo2 p).length))) ∨
      (NormalLangTag.mk p.render).scriptRange = .ok (.error (upTo2 p).length) := by
  rw [scriptRange_eq h, if_neg hne]
  cases hsc : p.script with
  | none => exact Or.inr (by simp [upTo2, hsc, tail])
  | some s => exact Or.inl ⟨_, rfl⟩

theorem afterLanguage_ne_nil_of {p : Parts} (h : p.afterScript ≠ []) : p.afterLanguage ≠ [] := by
  simp [Parts.afterLanguage, h]
theorem afterScript_ne_nil_of {p : Parts} (h : p.afterRegion ≠ []) : p.afterScript ≠ [] := by
  simp [Parts.afterScript, h]
theorem afterRegion_ne_nil_of {p : Parts} (h : p.afterVariants ≠ []) : p.afterRegion ≠ [] := by
  simp [Parts.afterRegion, h]

theorem regionRange_eq (h : p.WF) :
    (NormalLangTag.mk p.render).regionRange =
      if p.afterScript = [] then .error .slice
      else match p.region with
        | some _ => .ok (.ok ((upTo2 p).length + 1, (upTo3 p).length))
        | none => .ok (.error (upTo2 p).length) := by
  unfold NormalLangTag.regionRange
  by_cases hL : p.afterLanguage = []
  · rw [scriptRange_eq h, if_pos hL, if_pos (Decidable.byContradiction fun hh => afterLanguage_ne_nil_of hh hL)]
    rfl
  · rcases scriptEnd_ok h hL with ⟨a, hr⟩ | hr
    all_goals
    rw [hr]
    simp only [bind, Except.bind]
    by_cases hA : p.afterScript = []
    · rw [if_pos hA, findListEnd_panic]
      rw [render_eq2, segs2_eq_nil.mpr hA]
      simp [tail]
    · have hs := ascii_render h
      have hd := dashFree_segs2 h
      have hne : segs2 p ≠ [] := fun hh => hA (segs2_eq_nil.mp hh)
      rw [if_neg hA]
      rw [render_eq2] at hs ⊢
      cases hsc : p.region with
      | some s =>
        have e1 : segs2 p = s :: segs3 p := by simp [segs2, hsc]
        rw [e1] at hs hd ⊢
        rw [findListEnd_one hs hd]
        · have : (upTo3 p).length ≠ (upTo2 p).length + 1 := by
            have := length_region (h.region s hsc)
            rw [upTo3, hsc, List.length_append]
            simp only [Option.toList, tail, List.flatMap_cons, List.flatMap_nil, List.append_nil, List.length_cons]
            omega
          simp only [upTo3, hsc, Option.toList] at this ⊢
          rw [if_pos this]; rfl
        · rw [(isOk_Region s).mpr (h.region s hsc)]; simp
        · intro off ho b _
          have : off ≠ (upTo2 p).length + 1 := by omega
          simp [this]
      | none =>
        have e1 : segs2 p = [] ++ segs3 p := by simp [segs2, hsc]
        rw [e1] at hs hd hne ⊢
        rw [findListEnd_list hne hs hd (by simp)]
        · simp [pure, Except.pure]
        · intro off ho b hb
          rw [isOk_false (isOk_Region b) (head3_not_region h b hb)]
          simp

theorem region_eq (h : p.WF) :
    (NormalLangTag.mk p.render).region =
      if p.afterScript = [] then .error .slice else .ok (p.region.map Region.mk) := by
  unfold NormalLangTag.region
  rw [regionRange_eq h]
  split
  · rfl
  · cases hsc : p.region with
    | none => rfl
    | some s =>
      have hs := ascii_render h
      simp only [bind, Except.bind]
      have e1 : p.render = (upTo2 p ++ [dash]) ++ s ++ tail (segs3 p) := by
        rw [render_eq3, upTo3, hsc]; simp [tail]
      rw [e1] at hs ⊢
      have := sliceRange_append hs
      have e2 : (upTo2 p ++ [dash]).length = (upTo2 p).length + 1 := by simp
      have e3 : (upTo2 p ++ [dash]).length + s.length = (upTo3 p).length := by
        simp [upTo3, hsc, tail]; omega
      rw [e3, e2] at this
      rw [this]; rfl

theorem regionEnd_ok (h : p.WF) (hL : p.afterScript ≠ []) :
    (∃ a, (NormalLangTag.mk p.render).regionRange = .ok (.ok (a, (upTo3 p).length))) ∨
      (NormalLangTag.mk p.render).regionRange = .ok (.error (upTo3 p).length) := by
  rw [regionRange_eq h, if_neg hL]
  cases hsc : p.region with
  | none => exact Or.inr (by simp [upTo3, hsc, tail])
  | some s => exact Or.inl ⟨_, rfl⟩

theorem joinDash_length_pos {ws : List Text} (hne : ws ≠ []) (h : ∀ w ∈ ws, w ≠ []) : 0 < (joinDash ws).length := by
  cases ws with
  | nil => exact absurd rfl hne
  | cons u ws =>
    have := List.length_pos_iff.mpr (h u (by simp))
    rw [joinDash_cons]; simp; omega

theorem variants_ne (h : p.WF) : ∀ v ∈ p.variants, v ≠ [] := by
  rintro v hv rfl
  have := length_variant (h.variants _ hv)
  simp at this

theorem variantsRange_eq (h : p.WF) :
    (NormalLangTag.mk p.render).variantsRange =
      if p.afterRegion = [] then .error .slice
      else if p.variants = [] then .ok ((upTo3 p).length, (upTo3 p).length)
      else .ok ((upTo3 p).length + 1, (upTo4 p).length) := by
  unfold NormalLangTag.variantsRange
  by_cases hL : p.afterScript = []
  · rw [regionRange_eq h, if_pos hL, if_pos (Decidable.byContradiction fun hh => afterScript_ne_nil_of hh hL)]
    rfl
  · rcases regionEnd_ok h hL with ⟨a, hr⟩ | hr
    all_goals
    rw [hr]
    simp only [bind, Except.bind]
    by_cases hA : p.afterRegion = []
    · rw [if_pos hA, findListEnd_panic]
      rw [render_eq3, segs3_eq_nil.mpr hA]
      simp [tail]
    · have hs := ascii_render h
      have hd := dashFree_segs3 h
      have hne : segs3 p ≠ [] := fun hh => hA (segs3_eq_nil.mp hh)
      rw [if_neg hA]
      rw [render_eq3] at hs ⊢
      rw [segs3] at hs hd hne ⊢
      rw [findListEnd_list hne hs hd]
      · by_cases hv : p.variants = []
        · simp [hv, pure, Except.pure]
        · rw [if_neg hv, if_neg hv]
          simp only
          have hpos := joinDash_length_pos hv (variants_ne h)
          rw [if_neg (by rw [tail_eq_of_ne_nil hv]; simp; exact List.length_pos_iff.mp hpos)]
          rfl
      · intro off a ha
        rw [(isOk_Variant a).mpr (h.variants a ha)]
      · intro off _ b hb
        rw [isOk_false (isOk_Variant b) (head4_not_variant h b hb)]

theorem variants_eq (h : p.WF) :
    (NormalLangTag.mk p.render).variants =
      if p.afterRegion = [] then .error .slice else .ok ⟨joinDash p.variants⟩ := by
  unfold NormalLangTag.variants
  rw [variantsRange_eq h]
  split
  · rfl
  · have hs := ascii_render h
    split <;> rename_i hv
    · simp only [bind, Except.bind]
      have e1 : p.render = upTo3 p ++ [] ++ tail (segs3 p) := by rw [render_eq3]; simp
      rw [e1] at hs ⊢
      have := sliceRange_append hs
      simp only [List.length_nil, Nat.add_zero] at this
      rw [this, hv]; rfl
    · simp only [bind, Except.bind]
      have e1 : p.render = (upTo3 p ++ [dash]) ++ joinDash p.variants ++ tail (segs4 p) := by
        rw [render_eq4, upTo4, tail_eq_of_ne_nil hv]; simp
      rw [e1] at hs ⊢
      have := sliceRange_append hs
      have e2 : (upTo3 p ++ [dash]).length = (upTo3 p).length + 1 := by simp
      have e3 : (upTo3 p ++ [dash]).length + (joinDash p.variants).length = (upTo4 p).length := by
        simp [upTo4, tail_eq_of_ne_nil hv]; omega
      rw [e3, e2] at this
      rw [this]; rfl

theorem variantsEnd_ok (h : p.WF) (hA : p.afterRegion ≠ []) :
    ∃ r, (NormalLangTag.mk p.render).variantsRange = .ok r ∧ r.2 = (upTo4 p).length := by
  rw [variantsRange_eq h, if_neg hA]
  split <;> rename_i hv
  · exact ⟨_, rfl, by simp [upTo4, hv, tail]⟩
  · exact ⟨_, rfl, rfl⟩

theorem not_isSingleton_x {b : UInt8} (h : b = 120 ∨ b = 88) : ¬ IsSingleton b := by
  rintro ⟨_, h1, h2⟩
  rcases h with h | h
  · exact h1 h
  · exact h2 h

theorem extensions_ne (h : p.WF) : ∀ v ∈ p.extensions, v ≠ [] := by
  rintro v hv rfl
  obtain ⟨b, us, e, _⟩ := (matches_extension _).mp (h.extensions _ hv)
  simp [joinDash_cons] at e

theorem extensionsRange_eq (h : p.WF) :
    (NormalLangTag.mk p.render).extensionsRange =
      if p.afterVariants = [] then .error .slice
      else if p.extensions = [] then .ok ((upTo4 p).length, (upTo4 p).length)
      else .ok ((upTo4 p).length + 1, (upTo5 p).length) := by
  unfold NormalLangTag.extensionsRange
  by_cases hL : p.afterRegion = []
  · rw [variantsRange_eq h, if_pos hL, if_pos (Decidable.byContradiction fun hh => afterRegion_ne_nil_of hh hL)]
    rfl
  · obtain ⟨r, hr, hr'⟩ := variantsEnd_ok h hL
    rw [hr]
    simp only [bind, Except.bind]
    rw [hr']
    by_cases hA : p.afterVariants = []
    · rw [if_pos hA, findListEnd_panic]
      rw [render_eq4, segs4_eq_nil.mpr hA]
      simp [tail]
    · have hs := ascii_render h
      have hd := dashFree_segs4 (p := p)
      have hne : segs4 p ≠ [] := fun hh => hA (segs4_eq_nil.mp hh)
      rw [if_neg hA]
      rw [render_eq4] at hs ⊢
      have e4 : segs4 p = p.extensions.flatMap subtags ++ p.privateUse.toList.flatMap subtags := by
        simp [segs4, Parts.afterVariants]
      rw [e4] at hs hd hne ⊢
      rw [findListEnd_list hne hs hd]
      · by_cases hv : p.extensions = []
        · simp [hv, pure, Except.pure]
        · rw [if_neg (fun hh => hv (flatMap_subtags_eq_nil.mp hh)), if_neg hv, tail_flatMap_subtags]
          simp only
          have hpos := joinDash_length_pos hv (extensions_ne h)
          rw [if_neg (by rw [tail_eq_of_ne_nil hv]; simp; exact List.length_pos_iff.mp hpos)]
          rfl
      · intro off a ha
        obtain ⟨e, he, ha⟩ := List.mem_flatMap.mp ha
        obtain ⟨b, us, eq, _, hb, hus⟩ := subtags_extension (h.extensions e he)
        rw [eq] at ha
        rcases List.mem_cons.mp ha with rfl | ha
        · rw [fromStringIsOk_singleton hb]; rfl
        · have hm := hus a ha
          have := (matches_extensionSubtag a).mp hm
          rw [fromStringIsOk_other (by omega), (isOk_ExtensionSubtag a).mpr hm]; rfl
      · intro off _ a ha
        obtain ⟨u, hu, ha⟩ := head?_flatMap_subtags ha
        have hu := List.mem_of_mem_head? hu
        obtain ⟨b, us, eq, _, hb, hus⟩ := subtags_privateuse (h.privateUse u (by simpa using hu))
        rw [eq] at ha
        simp only [List.head?_cons, Option.mem_def, Option.some.injEq] at ha
        subst ha
        rw [fromStringIsOk_not (isAlphanum_lt (isAlphanum_x hb)) (not_isSingleton_x hb), isOk_false (isOk_ExtensionSubtag _)]
        · rfl
        · intro hm
          have := ((matches_extensionSubtag _).mp hm).1
          simp at this

theorem extensions_eq (h : p.WF) :
    (NormalLangTag.mk p.render).extensions =
      if p.afterVariants = [] then .error .slice else .ok ⟨joinDash p.extensions⟩ := by
  unfold NormalLangTag.extensions
  rw [extensionsRange_eq h]
  split
  · rfl
  · have hs := ascii_render h
    split <;> rename_i hv
    · simp only [bind, Except.bind]
      have e1 : p.render = upTo4 p ++ [] ++ tail (segs4 p) := by rw [render_eq4]; simp
      rw [e1] at hs ⊢
      have := sliceRange_append hs
      simp only [List.length_nil, Nat.add_zero] at this
      rw [this, hv]; rfl
    · simp only [bind, Except.bind]
      have e1 : p.render = (upTo4 p ++ [dash]) ++ joinDash p.extensions ++ tail p.privateUse.toList := by
        rw [render_eq4, segs4, tail_flatMap_subtags, Parts.afterVariants, tail_append, tail_eq_of_ne_nil hv]; simp
      rw [e1] at hs ⊢
      have := sliceRange_append hs
      have e2 : (upTo4 p ++ [dash]).length = (upTo4 p).length + 1 := by simp
      have e3 : (upTo4 p ++ [dash]).length + (joinDash p.extensions).length = (upTo5 p).length := by
        simp [upTo5, tail_eq_of_ne_nil hv]; omega
      rw [e3, e2] at this
      rw [this]; rfl

theorem privateUse_eq (h : p.WF) :
    (NormalLangTag.mk p.render).privateUse =
      if p.afterRegion = [] then .error .slice
      else if p.afterVariants = [] then .ok none
      else .ok (some ⟨joinDash p.afterVariants⟩) := by
  unfold NormalLangTag.privateUse NormalLangTag.privateUseOffset
  by_cases hL : p.afterRegion = []
  · rw [variantsRange_eq h, if_pos hL, if_pos hL]; rfl
  · obtain ⟨r, hr, hr'⟩ := variantsEnd_ok h hL
    rw [hr, if_neg hL]
    simp only [bind, Except.bind]
    rw [hr']
    have e1 : p.render = upTo4 p ++ tail p.afterVariants := by
      rw [render_eq4, segs4, tail_flatMap_subtags]
    by_cases hA : p.afterVariants = []
    · rw [if_pos hA, if_neg (by rw [e1, hA]; simp [tail])]; rfl
    · rw [if_neg hA, if_pos (by rw [e1, tail_eq_of_ne_nil hA]; simp)]
      simp only [pure, Except.pure]
      have hs := ascii_render h
      have e2 : p.render = (upTo4 p ++ [dash]) ++ joinDash p.afterVariants := by
        rw [e1, tail_eq_of_ne_nil hA]; simp
      rw [e2] at hs ⊢
      have := sliceFrom_append hs
      rw [show (upTo4 p ++ [dash]).length = (upTo4 p).length + 1 by simp] at this
      rw [this]

end

end Langtag.Proof
