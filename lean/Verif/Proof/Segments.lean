import Verif.Model.Segments
import Verif.Proof.Subtags

/-! # Slices and the scanning helpers on `-`-separated text -/

set_option autoImplicit false

namespace Langtag.Proof
open Langtag.Spec Langtag.Model

/-- Only ASCII bytes. -/
def Ascii (s : Text) : Prop := ∀ b ∈ s, b < 0x80

theorem isCharBoundary_of_ascii {s : Text} (hs : Ascii s) {i : Nat} (hi : i ≤ s.length) : isCharBoundary s i = true := by
  unfold isCharBoundary
  split
  · rfl
  · split <;> rename_i h
    · have := List.getElem?_eq_none_iff.mp h
      simp; omega
    · have := hs _ (List.mem_of_getElem? h)
      simp [this]

theorem sliceRange_ok {s : Text} (hs : Ascii s) {a b : Nat} (hab : a ≤ b) (hb : b ≤ s.length) :
    sliceRange s a b = .ok ((s.drop a).take (b - a)) := by
  unfold sliceRange
  rw [if_pos ⟨hab, hb, isCharBoundary_of_ascii hs (by omega), isCharBoundary_of_ascii hs hb⟩]

theorem sliceRange_append {pre mid post : Text} (hs : Ascii (pre ++ mid ++ post)) :
    sliceRange (pre ++ mid ++ post) pre.length (pre.length + mid.length) = .ok mid := by
  rw [sliceRange_ok hs (by omega) (by simp)]
  simp

theorem sliceFrom_append {pre post : Text} (hs : Ascii (pre ++ post)) :
    sliceFrom (pre ++ post) pre.length = .ok post := by
  unfold sliceFrom
  rw [sliceRange_ok hs (by simp) (by simp)]
  simp

theorem sliceFrom_panic {s : Text} {i : Nat} (h : s.length < i) : sliceFrom s i = .error .slice := by
  unfold sliceFrom sliceRange
  rw [if_neg (by omega)]

theorem index_append {pre post : Text} {b : UInt8} : index (pre ++ b :: post) pre.length = .ok b := by
  simp [index]

theorem index_ok {s : Text} {i : Nat} (h : i < s.length) : index s i = .ok s[i] := by
  simp [index, List.getElem?_eq_getElem h]

/-! ## `find_list_end` -/

variable {f : Nat → Str → Rust Bool}

/-- The loop skips bytes that are not `-`. -/
theorem findListEndLoop_skip {pre seg post : Text} (hd : dash ∉ seg) (off e : Nat) :
    findListEndLoop (pre ++ seg ++ post) f off pre.length e =
      findListEndLoop (pre ++ seg ++ post) f off (pre.length + seg.length) e := by
  induction seg generalizing pre with
  | nil => simp
  | cons b seg ih =>
    simp only [List.mem_cons, not_or] at hd
    rw [findListEndLoop.eq_def, if_pos (by simp)]
    have hidx : index (pre ++ b :: seg ++ post) pre.length = .ok b := by
      rw [show pre ++ b :: seg ++ post = pre ++ b :: (seg ++ post) by simp]
      exact index_append
    rw [hidx]
    simp only [bind, Except.bind]
    rw [if_neg (by rintro rfl; exact hd.1 rfl)]
    have := ih (pre := pre ++ [b]) hd.2
    simp only [List.length_append, List.length_cons, List.length_nil, List.append_assoc, List.cons_append,
      List.nil_append] at this ⊢
    rw [show pre.length + (seg.length + 1) = pre.length + 0 + 1 + seg.length by omega]
    exact this

theorem findListEndLoop_last {pre seg : Text} (hs : Ascii (pre ++ seg)) (hd : dash ∉ seg) (e : Nat) :
    findListEndLoop (pre ++ seg) f pre.length pre.length e =
      (do if ← f pre.length seg then return (pre ++ seg).length else return e) := by
  have h := findListEndLoop_skip (f := f) (pre := pre) (seg := seg) (post := []) hd pre.length e
  simp only [List.append_nil] at h
  rw [h, findListEndLoop.eq_def, if_neg (by simp), sliceFrom_append hs]
  rfl

theorem findListEndLoop_mid {pre seg post : Text} (hs : Ascii (pre ++ seg ++ dash :: post)) (hd : dash ∉ seg) (e : Nat) :
    findListEndLoop (pre ++ seg ++ dash :: post) f pre.length pre.length e =
      (do if ← f pre.length seg then
            findListEndLoop (pre ++ seg ++ dash :: post) f (pre.length + seg.length + 1) (pre.length + seg.length + 1)
              (pre.length + seg.length)
          else return e) := by
  rw [findListEndLoop_skip hd, findListEndLoop.eq_def, if_pos (by simp)]
  have hidx : index (pre ++ seg ++ dash :: post) (pre.length + seg.length) = .ok dash := by
    rw [← List.length_append]
    exact index_append
  rw [hidx, sliceRange_append hs]
  rfl

theorem findListEndLoop_panic {s : Text} {i e : Nat} (h : s.length < i) :
    findListEndLoop s f i i e = .error .slice := by
  rw [findListEndLoop.eq_def, if_neg (by omega), sliceFrom_panic h]
  rfl

/-- The segments `as` pass the test and the next one, if any, does not: the scan stops after `as`. -/
theorem findListEndLoop_list {pre : Text} {as bs : List Text} (hne : as ++ bs ≠ [])
    (hs : Ascii (pre ++ joinDash (as ++ bs))) (hd : ∀ u ∈ as ++ bs, dash ∉ u)
    (ha : ∀ off, pre.length ≤ off → ∀ a ∈ as, f off a = .ok true)
    (hb : ∀ off, pre.length ≤ off → ∀ b ∈ bs.head?, f off b = .ok false) (e : Nat) :
    findListEndLoop (pre ++ joinDash (as ++ bs)) f pre.length pre.length e =
      .ok (if as = [] then e else pre.length + (joinDash as).length) := by
  induction as generalizing pre e with
  | nil =>
    cases bs with
    | nil => exact absurd rfl hne
    | cons b bs =>
      have hf := hb pre.length (Nat.le_refl _) b rfl
      have hdb : dash ∉ b := hd b (by simp)
      by_cases hbs : bs = []
      · subst hbs
        simp only [List.nil_append, joinDash] at hs ⊢
        rw [findListEndLoop_last hs hdb, hf]; rfl
      · simp only [List.nil_append] at hs ⊢
        rw [joinDash_cons_of_ne_nil _ hbs, ← List.append_assoc] at hs ⊢
        rw [findListEndLoop_mid hs hdb, hf]; rfl
  | cons a as ih =>
    have hf := ha pre.length (Nat.le_refl _) a (by simp)
    have hda : dash ∉ a := hd a (by simp)
    by_cases hr : as ++ bs = []
    · obtain ⟨rfl, rfl⟩ := List.append_eq_nil_iff.mp hr
      simp only [List.append_nil, joinDash] at hs ⊢
      rw [findListEndLoop_last hs hda, hf]
      simp [bind, Except.bind, pure, Except.pure]
    · simp only [List.cons_append] at hs ⊢
      rw [joinDash_cons_of_ne_nil _ hr, ← List.append_assoc] at hs ⊢
      rw [findListEndLoop_mid hs hda, hf]
      simp only [bind, Except.bind, if_true]
      have e1 : pre ++ a ++ dash :: joinDash (as ++ bs) = (pre ++ a ++ [dash]) ++ joinDash (as ++ bs) := by simp
      have e2 : pre.length + a.length + 1 = (pre ++ a ++ [dash]).length := by simp; omega
      rw [e1] at hs ⊢
      rw [e2, ih hr hs (fun u hu => hd u (List.mem_cons_of_mem _ hu))
        (fun off ho x hx => ha off (by simp at ho; omega) x (by simp [hx]))
        (fun off ho x hx => hb off (by simp at ho; omega) x hx)]
      by_cases has : as = []
      · subst has; simp [joinDash]
      · rw [if_neg has, if_neg (by simp), joinDash_cons_of_ne_nil _ has]
        simp; omega

/-- As `findListEndLoop_list` when the test treats the first segment differently (`i == offset`). -/
theorem findListEndLoop_first {pre a : Text} {as bs : List Text}
    (hs : Ascii (pre ++ joinDash (a :: as ++ bs))) (hd : ∀ u ∈ a :: as ++ bs, dash ∉ u)
    (hf : f pre.length a = .ok true)
    (ha : ∀ off, pre.length < off → ∀ a ∈ as, f off a = .ok true)
    (hb : ∀ off, pre.length < off → ∀ b ∈ bs.head?, f off b = .ok false) (e : Nat) :
    findListEndLoop (pre ++ joinDash (a :: as ++ bs)) f pre.length pre.length e =
      .ok (pre.length + (joinDash (a :: as)).length) := by
  have hda : dash ∉ a := hd a (by simp)
  by_cases hr : as ++ bs = []
  · obtain ⟨rfl, rfl⟩ := List.append_eq_nil_iff.mp hr
    simp only [List.append_nil, joinDash] at hs ⊢
    rw [findListEndLoop_last hs hda, hf]
    simp [bind, Except.bind, pure, Except.pure]
  · simp only [List.cons_append] at hs ⊢
    rw [joinDash_cons_of_ne_nil _ hr, ← List.append_assoc] at hs ⊢
    rw [findListEndLoop_mid hs hda, hf]
    simp only [bind, Except.bind, if_true]
    have e1 : pre ++ a ++ dash :: joinDash (as ++ bs) = (pre ++ a ++ [dash]) ++ joinDash (as ++ bs) := by simp
    have e2 : pre.length + a.length + 1 = (pre ++ a ++ [dash]).length := by simp; omega
    rw [e1] at hs ⊢
    rw [e2, findListEndLoop_list hr hs (fun u hu => hd u (List.mem_cons_of_mem _ hu))
      (fun off ho x hx => ha off (by simp at ho; omega) x hx)
      (fun off ho x hx => hb off (by simp at ho; omega) x hx)]
    by_cases has : as = []
    · subst has; simp [joinDash]
    · rw [if_neg has, joinDash_cons_of_ne_nil _ has]
      simp; omega

/-! ## `find_segment_end` and `find_segment_start` -/

theorem findSegmentEnd_eq {pre seg post : Text} (hd : dash ∉ seg) (hp : ∀ b ∈ post.head?, b = dash) :
    findSegmentEnd (pre ++ seg ++ post) pre.length = .ok (pre.length + seg.length) := by
  unfold findSegmentEnd
  induction seg generalizing pre with
  | nil =>
    rw [findSegmentEndLoop.eq_def]
    cases post with
    | nil => simp [pure, Except.pure]
    | cons b post =>
      have := hp b rfl
      subst this
      rw [if_pos (by simp), List.append_nil, index_append]
      simp [bind, Except.bind, pure, Except.pure, dash]
  | cons b seg ih =>
    simp only [List.mem_cons, not_or] at hd
    rw [findSegmentEndLoop.eq_def, if_pos (by simp)]
    have hidx : index (pre ++ b :: seg ++ post) pre.length = .ok b := by
      rw [show pre ++ b :: seg ++ post = pre ++ b :: (seg ++ post) by simp]
      exact index_append
    rw [hidx]
    simp only [bind, Except.bind]
    rw [if_neg (by rintro rfl; exact hd.1 rfl)]
    have := ih (pre := pre ++ [b]) hd.2
    simp only [List.length_append, List.length_cons, List.length_nil, List.append_assoc, List.cons_append,
      List.nil_append] at this ⊢
    rw [show pre.length + (seg.length + 1) = pre.length + 0 + 1 + seg.length by omega]
    exact this

theorem findSegmentStartLoop_dash {pre post : Text} :
    findSegmentStartLoop (pre ++ dash :: post) pre.length = .ok (pre.length + 1) := by
  rw [findSegmentStartLoop.eq_def, index_append]
  simp [bind, Except.bind, pure, Except.pure, dash]

theorem findSegmentStartLoop_eq {pre seg post : Text} {b : UInt8} (hd : dash ∉ seg) (hb : b ≠ dash)
    (hp : ∀ b ∈ pre.getLast?, b = dash) :
    findSegmentStartLoop (pre ++ seg ++ b :: post) (pre.length + seg.length) = .ok pre.length := by
  induction h : seg.length generalizing seg b post with
  | zero =>
    have := List.length_eq_zero_iff.mp h
    subst this
    have hidx : index (pre ++ [] ++ b :: post) (pre.length + 0) = .ok b := by
      rw [List.append_nil]; exact index_append
    rw [findSegmentStartLoop.eq_def, hidx]
    simp only [bind, Except.bind]
    rw [if_neg (by exact hb)]
    rcases List.eq_nil_or_concat pre with rfl | ⟨pre', c, rfl⟩
    · rfl
    · have := hp c (by simp)
      subst this
      simp only [List.concat_eq_append, List.length_append, List.length_cons, List.length_nil, List.append_assoc,
        List.cons_append, List.nil_append]
      exact findSegmentStartLoop_dash
  | succ n ih =>
    rcases List.eq_nil_or_concat seg with rfl | ⟨seg', c, rfl⟩
    · simp at h
    · simp only [List.concat_eq_append, List.length_append, List.length_cons, List.length_nil,
        Nat.add_right_cancel_iff] at h
      simp only [List.concat_eq_append, List.mem_append, List.mem_singleton, not_or] at hd
      have hidx : index (pre ++ (seg' ++ [c]) ++ b :: post) (pre.length + (n + 1)) = .ok b := by
        have : pre.length + (n + 1) = (pre ++ (seg' ++ [c])).length := by simp; omega
        rw [this]; exact index_append
      rw [List.concat_eq_append, findSegmentStartLoop.eq_def, hidx]
      simp only [bind, Except.bind]
      rw [if_neg (by exact hb)]
      have := ih (seg := seg') (b := c) (post := b :: post) hd.1 (Ne.symm hd.2) h
      simpa using this

theorem findSegmentStart_eq {pre seg post : Text} (hd : dash ∉ seg) (hne : seg ≠ [])
    (hp : ∀ b ∈ pre.getLast?, b = dash) :
    findSegmentStart (pre ++ seg ++ post) (pre.length + seg.length) = .ok pre.length := by
  rcases List.eq_nil_or_concat seg with rfl | ⟨seg', c, rfl⟩
  · exact absurd rfl hne
  · unfold findSegmentStart
    rw [if_pos (by simp; omega)]
    simp only [List.concat_eq_append, List.mem_append, List.mem_singleton, not_or] at hd
    have := findSegmentStartLoop_eq (post := post) hd.1 (Ne.symm hd.2) hp
    simpa [← Nat.add_assoc] using this

end Langtag.Proof
