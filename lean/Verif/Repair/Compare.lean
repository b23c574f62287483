import Verif.Props.Sorting
import Verif.Props.Equal
import Verif.Proof.Lower

/-!
# A repaired `utils.rs` and `Extensions::get` (not the code of the repository)

C31, C46, C48 and C59 are false of the code.  Four edits, after each of which one of them holds:

* `case_insensitive_cmp` puts a text after its proper prefixes, not before them (C59);
* `case_insensitive_hash` writes a last byte 0xff, as `str` does (C46);
* two `Singleton`s are compared ignoring case (C48);
* `Extensions::get` compares the singleton ignoring case (C31).

No claim of the manifest is about these definitions.
-/

set_option autoImplicit false

namespace Langtag.Repair
open Langtag.Spec Langtag.Model Langtag.Proof Langtag.Props Langtag.Lower

/-! ## Comparison -/

/-- The `loop` of `case_insensitive_cmp`, src/utils.rs:33-48, with `Less` and `Greater` exchanged in lines 38 and 41. -/
def cmpLoop (a b : Str) (i : Nat) : Rust Ordering :=
  if a.length ≤ i then
    if b.length ≤ i then .ok .eq else .ok .lt
  else if b.length ≤ i then .ok .gt
  else do
    let x ← intoSmallcase (← index a i)
    let y ← intoSmallcase (← index b i)
    match compare x y with
    | .eq => cmpLoop a b (i + 1)
    | ord => return ord
termination_by a.length - i

/-- `case_insensitive_cmp`, src/utils.rs:30-49, with this loop. -/
def cmp (a b : Str) : Rust Ordering := cmpLoop a b 0

/-- The comparison, by recursion. -/
def cmpTexts : Text → Text → Ordering
  | [], [] => .eq
  | [], _ :: _ => .lt
  | _ :: _, [] => .gt
  | x :: u, y :: v =>
    match compare x y with
    | .eq => cmpTexts u v
    | o => o

theorem cmpLoop_eq (a b : Str) (i : Nat) : cmpLoop a b i = .ok (cmpTexts (lowerText (a.drop i)) (lowerText (b.drop i))) := by
  induction h : a.length - i generalizing i with
  | zero =>
    rw [cmpLoop.eq_def, if_pos (by omega)]
    rw [List.drop_eq_nil_of_le (as := a) (by omega)]
    by_cases hb : b.length ≤ i
    · rw [if_pos hb, List.drop_eq_nil_of_le hb]; rfl
    · rw [if_neg hb, List.drop_eq_getElem_cons (by omega : i < b.length)]; rfl
  | succ n ih =>
    have hia : i < a.length := by omega
    rw [cmpLoop.eq_def, if_neg (by omega)]
    rw [List.drop_eq_getElem_cons hia]
    by_cases hb : b.length ≤ i
    · rw [if_pos hb, List.drop_eq_nil_of_le hb]; rfl
    · have hib : i < b.length := by omega
      have ha : index a i = .ok a[i] := by simp [index, hia]
      have hb' : index b i = .ok b[i] := by simp [index, hib]
      rw [if_neg hb, ha, hb', List.drop_eq_getElem_cons hib]
      simp only [bind, Except.bind, intoSmallcase_eq, lowerText, List.map_cons, cmpTexts]
      cases hc : compare (lower a[i]) (lower b[i]) with
      | eq =>
        simp only
        rw [ih (i + 1) (by omega)]
        rfl
      | lt => rfl
      | gt => rfl

theorem cmp_eq (a b : Str) : cmp a b = .ok (cmpTexts (lowerText a) (lowerText b)) := cmpLoop_eq a b 0

theorem cmpTexts_lt_iff (u v : Text) : cmpTexts u v = .lt ↔ u < v := by
  fun_induction cmpTexts u v with
  | case1 => simp
  | case2 => simp
  | case3 => simp
  | case4 x u y v h ih =>
    rw [compare_eq_iff] at h
    subst h
    simp [ih]
  | case5 x u y v h1 =>
    have hne : x ≠ y := fun hh => h1 ((compare_eq_iff x y).mpr hh)
    rw [List.cons_lt_cons_iff, compare_lt_iff]
    simp [hne]

theorem cmpTexts_swap (u v : Text) : (cmpTexts u v).swap = cmpTexts v u := by
  fun_induction cmpTexts u v with
  | case1 => rfl
  | case2 => rfl
  | case3 => rfl
  | case4 x u y v h ih =>
    rw [compare_eq_iff] at h
    subst h
    simp [cmpTexts, ih]
  | case5 x u y v h1 =>
    simp only [cmpTexts]
    cases h : compare x y with
    | eq => exact absurd h h1
    | lt =>
      have := (compare_gt_iff y x).mpr ((compare_lt_iff x y).mp h)
      rw [this]; rfl
    | gt =>
      have := (compare_lt_iff y x).mpr ((compare_gt_iff x y).mp h)
      rw [this]; rfl

theorem cmpTexts_gt_iff (u v : Text) : cmpTexts u v = .gt ↔ v < u := by
  rw [← cmpTexts_lt_iff, ← cmpTexts_swap u v]
  cases cmpTexts u v <;> simp

theorem cmpTexts_eq_iff (u v : Text) : cmpTexts u v = .eq ↔ u = v := by
  fun_induction cmpTexts u v with
  | case1 => simp
  | case2 => simp
  | case3 => simp
  | case4 x u y v h ih =>
    rw [compare_eq_iff] at h
    simp [ih, h]
  | case5 x u y v h1 =>
    have : x ≠ y := fun hh => h1 ((compare_eq_iff x y).mpr hh)
    simp only [List.cons.injEq]
    constructor
    · intro hh; exact absurd hh h1
    · rintro ⟨hh, _⟩; exact absurd hh this

/-- The repaired comparison is the order of the texts in lower case in which a text comes after its proper prefixes, that of `str`. -/
theorem cmp_order (a b : Str) :
    (cmp a b = .ok .lt ↔ lowerText a < lowerText b) ∧ (cmp a b = .ok .gt ↔ lowerText b < lowerText a) ∧
    (cmp a b = .ok .eq ↔ CaseEq a b) := by
  rw [cmp_eq]
  simp only [Except.ok.injEq]
  exact ⟨cmpTexts_lt_iff _ _, cmpTexts_gt_iff _ _, cmpTexts_eq_iff _ _⟩

/-- What is left after a common prefix of the first and the last of three texts in order. -/
theorem prefix_between {p u v w : Text} (h1 : ¬ v < p ++ u) (h2 : ¬ p ++ w < v) : ∃ v', v = p ++ v' ∧ ¬ v' < u ∧ ¬ w < v' := by
  induction p generalizing v with
  | nil => exact ⟨v, rfl, h1, h2⟩
  | cons x p ih =>
    cases v with
    | nil => exact absurd (by simp) h1
    | cons y v =>
      simp only [List.cons_append, List.cons_lt_cons_iff, not_or] at h1 h2
      have hxy : x = y := UInt8.le_antisymm (UInt8.not_lt.mp h1.1) (UInt8.not_lt.mp h2.1)
      subst hxy
      obtain ⟨v', rfl, h⟩ := ih (fun h => h1.2 ⟨rfl, h⟩) (fun h => h2.2 ⟨rfl, h⟩)
      exact ⟨v', rfl, h⟩

/-- What follows the first subtag. -/
theorem first_rest {w u : Text} {us : List Text} (h : subtags w = u :: us) : ∃ r, w = u ++ r ∧ (r = [] ∨ ∃ r', r = dash :: r') := by
  rw [← joinDash_subtags w, h, joinDash_cons_tail]
  refine ⟨_, rfl, ?_⟩
  by_cases hu : us = []
  · exact Or.inl (by rw [hu]; rfl)
  · exact Or.inr ⟨_, tail_eq_of_ne_nil hu⟩

theorem dash_lt_lower {b : UInt8} (h : IsAlphanum b) : dash < lower b := by
  unfold lower dash
  unfold IsAlphanum IsAlpha IsDigit at h
  grind

/-- C59 with the repaired comparison: a tag between two tags of one primary language has that primary language. -/
theorem C59_sorted (a b c : NormalLangTag) (la lb lc : Language) (ha : Constructed a) (hb : Constructed b)
    (hc : Constructed c) (h1 : a.language = .ok la) (h2 : b.language = .ok lb) (h3 : c.language = .ok lc)
    (hab : cmp a.str b.str ≠ .ok .gt) (hbc : cmp b.str c.str ≠ .ok .gt) (hac : Compare.eq la.primary lc.primary = .ok true) :
    Compare.eq la.primary lb.primary = .ok true := by
  rw [eq_true_iff] at hac ⊢
  obtain ⟨ua, pa⟩ := primary_first ha h1
  obtain ⟨ub, pb⟩ := primary_first hb h2
  obtain ⟨uc, pc⟩ := primary_first hc h3
  have halnum : ∀ x ∈ lb.primary.str, IsAlphanum x := by
    obtain ⟨p, hp⟩ := (normal_has_parts b).mp hb
    refine (good_render hp.1 lb.primary.str ?_).2.2
    rw [hp.2, pb]
    simp
  rw [ne_eq, (cmp_order _ _).2.1] at hab hbc
  obtain ⟨ra, ea, da⟩ := first_rest pa
  obtain ⟨rb, eb, db⟩ := first_rest pb
  obtain ⟨rc, ec, dc⟩ := first_rest pc
  have hac : lowerText la.primary.str = lowerText lc.primary.str := hac
  rw [ea, lowerText_append] at hab
  rw [ec, lowerText_append, ← hac] at hbc
  obtain ⟨v, hv, _, hrc⟩ := prefix_between hab hbc
  have hd : dash ∉ lowerText la.primary.str := by
    intro h
    obtain ⟨x, hx, hxd⟩ := List.mem_map.mp h
    rw [lower_eq_dash] at hxd
    exact subtags_dashFree a.str _ (by rw [pa]; simp) (hxd ▸ hx)
  have hpre : lowerText la.primary.str <+: lowerText lb.primary.str :=
    prefix_first (by rw [subtags_lowerText, pb]; rfl) hd ⟨v, hv.symm⟩
  obtain ⟨q, hq⟩ := hpre
  show lowerText la.primary.str = lowerText lb.primary.str
  cases q with
  | nil => simpa using hq
  | cons x q =>
    exfalso
    have hx : dash < x := by
      have : x ∈ lowerText lb.primary.str := by rw [← hq]; simp
      obtain ⟨y, hy, rfl⟩ := List.mem_map.mp this
      exact dash_lt_lower (halnum y hy)
    rw [eb, lowerText_append, ← hq, List.append_assoc, List.append_cancel_left_eq] at hv
    refine hrc ?_
    rw [← hv]
    rcases dc with rfl | ⟨r', rfl⟩
    · simp [lowerText]
    · rw [show lowerText (dash :: r') = dash :: lowerText r' from rfl, List.cons_append, List.cons_lt_cons_iff]
      exact Or.inl hx

-- in order: `de`, `de-at`, `de-ch`, `deu`
example : cmp (ascii "de") (ascii "de-AT") = .ok .lt ∧ cmp (ascii "de-at") (ascii "DE-CH") = .ok .lt ∧
    cmp (ascii "de-ch") (ascii "deu") = .ok .lt ∧ Constructed (NormalLangTag.mk (ascii "de-AT")) :=
  ⟨by decide +kernel, by decide +kernel, by decide +kernel, ascii "de-AT", by decide +kernel⟩

/-! ## Hashing -/

/-- `case_insensitive_hash`, src/utils.rs:24-28, with a last line `0xffu8.hash(hasher)`. -/
def hash (H : Hasher) (s : Str) (st : H.State) : Rust H.State := do
  return H.writeU8 (← caseInsensitiveHash H s st) 0xff

/-- C37 with the repaired hash: equal texts hash alike. -/
theorem C37_hash (H : Hasher) (a b : Text) (h : CaseEq a b) (st : H.State) : hash H a st = hash H b st := by
  unfold hash
  rw [hash_eq, hash_eq, show lowerText a = lowerText b from h]

theorem until_ff {x y w : Text} (hx : 0xff ∉ x) (hy : 0xff ∉ y) (h : y ++ [0xff] = x ++ ([0xff] ++ w)) : x = y := by
  induction x generalizing y with
  | nil =>
    cases y with
    | nil => rfl
    | cons c y => simp at h hy; exact absurd h.1.symm hy.1
  | cons c x ih =>
    cases y with
    | nil => simp at h
    | cons d y =>
      simp only [List.cons_append, List.cons.injEq] at h
      simp only [List.mem_cons, not_or] at hx hy
      rw [h.1, ih hx.2 hy.2 h.2]

/-- C46 with the repaired hash: no text gives a hasher a prefix of what an unequal text gives it. -/
theorem C46_hash (a b : Text) (u w : Text) (ha : Ascii a) (hb : Ascii b) (h1 : hash recorder a [] = .ok u)
    (h2 : hash recorder b [] = .ok (u ++ w)) : CaseEq a b := by
  unfold hash at h1 h2
  rw [hash_eq, recorder_foldl] at h1 h2
  have h1 : lowerText a ++ [0xff] = u := Except.ok.inj h1
  have h2 : lowerText b ++ [0xff] = u ++ w := Except.ok.inj h2
  rw [← h1, List.append_assoc] at h2
  have no {s : Text} (hs : Ascii s) : (0xff : UInt8) ∉ lowerText s := by
    intro h
    obtain ⟨x, hx, e⟩ := List.mem_map.mp h
    have := hs x hx
    unfold lower at e
    grind
  exact until_ff (no ha) (no hb) h2

example : hash recorder (ascii "en") [] = .ok (ascii "en" ++ [0xff]) ∧ hash recorder (ascii "EN-us") [] = .ok (ascii "en-us" ++ [0xff]) ∧
    Ascii (ascii "EN-us") := ⟨by decide +kernel, by decide +kernel, by unfold Ascii; decide +kernel⟩

/-! ## Singletons -/

/-- A comparison of two `Singleton`s that ignores case, in place of the derived one of src/normal/extension.rs:5. -/
def singletonEq (g g' : Model.Singleton) : Rust Bool := do
  return decide ((← intoSmallcase g.byte) = (← intoSmallcase g'.byte))

/-- C48 with the repaired comparison: equal extensions have equal singletons. -/
theorem C48_singleton (a b : Extension) (g g' : Model.Singleton) (ha : Constructed a) (hb : Constructed b)
    (h : Compare.eq a b = .ok true) (hg : a.singleton = .ok g) (hg' : b.singleton = .ok g') : singletonEq g g' = .ok true := by
  obtain ⟨k, k', h1, h2, h3, -⟩ := C48_singleton_partial a b ha hb h
  rw [hg] at h1
  rw [hg'] at h2
  obtain rfl := Except.ok.inj h1
  obtain rfl := Except.ok.inj h2
  unfold singletonEq
  rw [intoSmallcase_eq, intoSmallcase_eq]
  exact congrArg _ (decide_eq_true h3)

/-! ## `Extensions::get` -/

/-- The condition of src/normal/extension.rs:220, with both sides of the first comparison in lower case. -/
def startsHere (s : Str) (singleton : Model.Singleton) (i : Nat) : Rust Bool := do
  if (← intoSmallcase (← index s i)) = (← intoSmallcase singleton.byte) then return decide ((← index s (i + 1)) = 45) else return false

/-- The `while` loop of `Extensions::get`, src/normal/extension.rs:218-234, with this condition. -/
def getLoop (s : Str) (singleton : Model.Singleton) (i : Nat) (starting : Bool) : Rust (Option Extension) :=
  if i + 1 < s.length then do
    if starting then
      if ← startsHere s singleton i then
        let end_ ← findListEnd s (i + 2) fun _ segment => .ok (decide (segment.length > 1))
        return some ⟨← sliceRange s i end_⟩
      else getLoop s singleton (i + 1) false
    else if (← index s i) = 45 then getLoop s singleton (i + 1) true
    else getLoop s singleton (i + 1) false
  else return none
termination_by s.length - i

/-- `Extensions::get`, src/normal/extension.rs:214-235, with this loop. -/
def get (e : Extensions) (singleton : Model.Singleton) : Rust (Option Extension) := getLoop e.str singleton 0 true

theorem startsHere_lower (s : Str) (g : Model.Singleton) (i : Nat) :
    Extensions.startsHere (lowerText s) ⟨lower g.byte⟩ i = startsHere s g i := by
  unfold Extensions.startsHere startsHere
  rw [index_lower, index_lower]
  cases index s i with
  | error p => rfl
  | ok b =>
    simp only [bind, Except.bind, mapR, intoSmallcase_eq]
    split
    · cases index s (i + 1) with
      | error p => rfl
      | ok c =>
        have : lower c = 45 ↔ c = 45 := lower_eq_dash
        simp [this]
    · rfl

/-- The loop of the repository on the text in lower case finds what the repaired one finds, in lower case. -/
theorem getLoop_lower (s : Str) (g : Model.Singleton) (i : Nat) (st : Bool) :
    Extensions.getLoop (lowerText s) ⟨lower g.byte⟩ i st =
      mapR (Option.map fun e => Extension.mk (lowerText e.str)) (getLoop s g i st) := by
  induction hn : s.length - i using Nat.strongRecOn generalizing i st with
  | ind n ih =>
    subst hn
    rw [Extensions.getLoop.eq_def, getLoop.eq_def, length_lowerText]
    by_cases hi : i + 1 < s.length
    · rw [if_pos hi, if_pos hi, startsHere_lower, index_lower]
      have next (st : Bool) := ih (s.length - (i + 1)) (by omega) (i + 1) st rfl
      cases st with
      | true =>
        simp only [if_true]
        cases startsHere s g i with
        | error p => rfl
        | ok b =>
          cases b with
          | false => exact next false
          | true =>
            simp only [bind, Except.bind, if_true]
            rw [findListEnd_lower s (g := fun _ segment => .ok (decide (segment.length > 1)))
              (fun _ u => by rw [length_lowerText]) (i + 2)]
            cases findListEnd s (i + 2) fun _ segment => .ok (decide (segment.length > 1)) with
            | error p => rfl
            | ok e =>
              simp only
              rw [sliceRange_lower]
              cases sliceRange s i e <;> rfl
      | false =>
        simp only [Bool.false_eq_true, if_false]
        cases index s i with
        | error p => rfl
        | ok c =>
          have hc : lower c = 45 ↔ c = 45 := lower_eq_dash
          simp only [bind, Except.bind, mapR]
          by_cases h45 : c = 45
          · rw [if_pos h45, if_pos (hc.mpr h45)]; exact next true
          · rw [if_neg h45, if_neg (mt hc.mp h45)]; exact next false
    · rw [if_neg hi, if_neg hi]; rfl

/-- C30 with the repaired `get`: it finds the first of the extensions whose singleton is the one asked for, ignoring case. -/
theorem C30_get (x : Extensions) (es : List Text) (h : IsListOf x es) (g : Model.Singleton) :
    ∃ r, get x g = .ok r ∧ (r.map fun e => lowerText e.str) =
      (es.map lowerText).find? fun e => e.head? == some (lower g.byte) := by
  have low : ∀ e ∈ es.map lowerText, Grammar.extension.Matches e := by
    intro e he
    obtain ⟨e', he', rfl⟩ := List.mem_map.mp he
    exact (matches_caseEq okRe_extension (caseEq_lowerText e')).mp (h.1 e' he')
  have key := getLoop_eq ⟨lower g.byte⟩ _ low [] (by
    have := ascii_isListOf (x := ⟨joinDash (es.map lowerText)⟩) ⟨low, rfl⟩
    simpa using this)
  rw [List.nil_append, ← lowerText_joinDash, ← h.2] at key
  rw [show ([] : Text).length = 0 from rfl, getLoop_lower] at key
  unfold get
  cases hr : getLoop x.str g 0 true with
  | error p => rw [hr] at key; simp [mapR] at key
  | ok r =>
    rw [hr] at key
    refine ⟨r, rfl, ?_⟩
    have key := Except.ok.inj key
    have := congrArg (Option.map (·.str)) key
    rw [Option.map_map, Option.map_map] at this
    exact this.trans Option.map_id'

/-- C31 with the repaired `get`: equal `Extensions` answer alike, whatever the case of the singleton asked for. -/
theorem C31_get (x y : Extensions) (hx : Constructed x) (hy : Constructed y) (hc : Compare.eq x y = .ok true)
    (g g' : Model.Singleton) (hg : lower g.byte = lower g'.byte) :
    ∃ r s, get x g = .ok r ∧ get y g' = .ok s ∧ r.isSome = s.isSome ∧ ∀ e ∈ r, ∀ f ∈ s, Compare.eq e f = .ok true := by
  obtain ⟨es, hes⟩ := C29_exists x hx
  obtain ⟨fs, hfs⟩ := C29_exists y hy
  obtain ⟨r, h1, h2⟩ := C30_get x es hes g
  obtain ⟨s, h3, h4⟩ := C30_get y fs hfs g'
  rw [lower_lists hes hfs ((eq_true_iff x y).mp hc), hg, ← h4] at h2
  refine ⟨r, s, h1, h3, by simpa using congrArg Option.isSome h2, ?_⟩
  rintro e rfl f rfl
  exact (eq_true_iff e f).mpr (Option.some.inj h2)

example : get ⟨ascii "a-bb-B-cc-dd"⟩ ⟨98⟩ = .ok (some ⟨ascii "B-cc-dd"⟩) ∧ get ⟨ascii "A-BB-b-cc-DD"⟩ ⟨66⟩ = .ok (some ⟨ascii "b-cc-DD"⟩) ∧
    Constructed (Extensions.mk (ascii "a-bb-B-cc-dd")) := ⟨by decide +kernel, by decide +kernel, ascii "a-bb-B-cc-dd", by decide +kernel⟩

end Langtag.Repair
