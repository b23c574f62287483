import Verif.Proof.Iter

/-! # `Extensions::get` -/

set_option autoImplicit false

namespace Langtag.Proof
open Langtag.Spec Langtag.Model

theorem getLoop_end {s : Text} {g : Singleton} {i : Nat} {st : Bool} (h : s.length ≤ i + 1) :
    Extensions.getLoop s g i st = .ok none := by
  rw [Extensions.getLoop.eq_def, if_neg (by omega)]; rfl

/-- Not at the start of a segment: the loop runs to the next one. -/
theorem getLoop_skip {pre seg : Text} {g : Singleton} (hd : dash ∉ seg) (post : List Text) :
    Extensions.getLoop (pre ++ seg ++ tail post) g pre.length false =
      (if post = [] then .ok none
       else Extensions.getLoop (pre ++ seg ++ tail post) g (pre.length + seg.length + 1) true) := by
  induction seg generalizing pre with
  | nil =>
    by_cases hp : post = []
    · subst hp
      rw [if_pos rfl, getLoop_end (by simp [tail])]
    · rw [if_neg hp, tail_eq_of_ne_nil hp]
      simp only [List.append_nil]
      have hidx : index (pre ++ dash :: joinDash post) pre.length = .ok dash := index_append
      by_cases hl : pre.length + 1 < (pre ++ dash :: joinDash post).length
      · rw [Extensions.getLoop.eq_def, if_pos hl, hidx]
        rfl
      · rw [getLoop_end (by omega), getLoop_end (by omega)]
  | cons b seg ih =>
    simp only [List.mem_cons, not_or] at hd
    have e : pre ++ b :: seg ++ tail post = (pre ++ [b]) ++ seg ++ tail post := by simp
    have hidx : index (pre ++ b :: seg ++ tail post) pre.length = .ok b := by
      rw [show pre ++ b :: seg ++ tail post = pre ++ b :: (seg ++ tail post) by simp]; exact index_append
    have ih' := ih (pre := pre ++ [b]) hd.2
    rw [← e] at ih'
    simp only [List.length_append, List.length_cons, List.length_nil, Nat.zero_add] at ih'
    by_cases hl : pre.length + 1 < (pre ++ b :: seg ++ tail post).length
    · rw [Extensions.getLoop.eq_def, if_pos hl, hidx]
      simp only [bind, Except.bind, Bool.false_eq_true, if_false]
      rw [if_neg (show ¬ b = 45 from fun h => hd.1 h.symm), ih']
      simp only [List.length_cons]
      congr 2
      omega
    · rw [getLoop_end (by omega)]
      simp only [List.length_append, List.length_cons] at hl
      have hp : post = [] := by
        cases post with
        | nil => rfl
        | cons u us => simp [tail] at hl; omega
      rw [if_pos hp]

/-- At the start of a segment that is not the singleton looked for. -/
theorem getLoop_segment {pre seg : Text} {g : Singleton} (hne : seg ≠ []) (hd : dash ∉ seg)
    (hg : seg ≠ [g.byte]) (post : List Text) :
    Extensions.getLoop (pre ++ seg ++ tail post) g pre.length true =
      (if post = [] then .ok none
       else Extensions.getLoop (pre ++ seg ++ tail post) g (pre.length + seg.length + 1) true) := by
  cases seg with
  | nil => exact absurd rfl hne
  | cons b seg =>
    simp only [List.mem_cons, not_or] at hd
    have e : pre ++ b :: seg ++ tail post = (pre ++ [b]) ++ seg ++ tail post := by simp
    have hskip := getLoop_skip (pre := pre ++ [b]) (g := g) hd.2 post
    rw [← e] at hskip
    simp only [List.length_append, List.length_cons, List.length_nil, Nat.zero_add] at hskip
    have hidx : index (pre ++ b :: seg ++ tail post) pre.length = .ok b := by
      rw [show pre ++ b :: seg ++ tail post = pre ++ b :: (seg ++ tail post) by simp]; exact index_append
    by_cases hl : pre.length + 1 < (pre ++ b :: seg ++ tail post).length
    · rw [Extensions.getLoop.eq_def, if_pos hl]
      have hst : Extensions.startsHere (pre ++ b :: seg ++ tail post) g pre.length = .ok false := by
        unfold Extensions.startsHere
        rw [hidx]
        simp only [bind, Except.bind]
        by_cases hb : b = g.byte
        · rw [if_pos hb]
          cases seg with
          | nil => exact absurd (by rw [hb]) hg
          | cons c seg =>
            have hidx2 : index (pre ++ b :: c :: seg ++ tail post) (pre.length + 1) = .ok c := by
              have := index_append (pre := pre ++ [b]) (post := seg ++ tail post) (b := c)
              simpa using this
            rw [hidx2]
            have hc : ¬ c = 45 := fun h => hd.2 (by simp [h, dash])
            simp [hc, pure, Except.pure]
        · rw [if_neg hb]; rfl
      rw [if_pos rfl, hst]
      simp only [bind, Except.bind, Bool.false_eq_true, if_false]
      rw [hskip]
      simp only [List.length_cons]
      congr 2
      omega
    · rw [getLoop_end (by omega)]
      simp only [List.length_append, List.length_cons] at hl
      have hp : post = [] := by
        cases post with
        | nil => rfl
        | cons u us => simp [tail] at hl; omega
      rw [if_pos hp]

/-- Several segments none of which is the singleton looked for. -/
theorem getLoop_segments {g : Singleton} (segs : List Text) (post : List Text) (hne : segs ≠ [])
    (h : ∀ u ∈ segs, u ≠ [] ∧ dash ∉ u ∧ u ≠ [g.byte]) (pre : Text) :
    Extensions.getLoop (pre ++ joinDash (segs ++ post)) g pre.length true =
      (if post = [] then .ok none
       else Extensions.getLoop (pre ++ joinDash (segs ++ post)) g (pre.length + (joinDash segs).length + 1) true) := by
  induction segs generalizing pre with
  | nil => exact absurd rfl hne
  | cons u us ih =>
    rw [List.forall_mem_cons] at h
    obtain ⟨⟨h1, h2, h3⟩, hus⟩ := h
    have e : pre ++ joinDash (u :: us ++ post) = pre ++ u ++ tail (us ++ post) := by
      rw [List.cons_append, joinDash_cons_tail, List.append_assoc]
    rw [e, getLoop_segment h1 h2 h3]
    by_cases hu : us = []
    · subst hu
      simp only [List.nil_append, joinDash]
    · have hne2 : us ++ post ≠ [] := by simp [hu]
      rw [if_neg hne2]
      have e2 : pre ++ u ++ tail (us ++ post) = (pre ++ u ++ [dash]) ++ joinDash (us ++ post) := by
        rw [tail_eq_of_ne_nil hne2]; simp
      have e3 : pre.length + u.length + 1 = (pre ++ u ++ [dash]).length := by simp; omega
      rw [e2, e3, ih hu hus, joinDash_cons_of_ne_nil u hu]
      by_cases hp : post = []
      · rw [if_pos hp, if_pos hp]
      · rw [if_neg hp, if_neg hp]
        congr 1
        simp only [List.length_append, List.length_cons, List.length_nil]
        omega

/-- At the start of the extension looked for. -/
theorem getLoop_found {pre : Text} {g : Singleton} {us : List Text} {xs : List Text}
    (hne : us ≠ []) (hus : ∀ u ∈ us, Grammar.extensionSubtag.Matches u) (hxs : ∀ x ∈ xs, Grammar.extension.Matches x)
    (ha : Ascii (pre ++ joinDash ([g.byte] :: us) ++ tail xs)) :
    Extensions.getLoop (pre ++ joinDash ([g.byte] :: us) ++ tail xs) g pre.length true =
      .ok (some ⟨joinDash ([g.byte] :: us)⟩) := by
  have e : pre ++ joinDash ([g.byte] :: us) ++ tail xs = pre ++ g.byte :: dash :: (joinDash us ++ tail xs) := by
    rw [joinDash_cons_of_ne_nil _ hne]; simp
  have hidx : index (pre ++ joinDash ([g.byte] :: us) ++ tail xs) pre.length = .ok g.byte := by
    rw [e]; exact index_append
  have hidx2 : index (pre ++ joinDash ([g.byte] :: us) ++ tail xs) (pre.length + 1) = .ok dash := by
    rw [e]
    have := index_append (pre := pre ++ [g.byte]) (post := joinDash us ++ tail xs) (b := dash)
    simpa using this
  have hst : Extensions.startsHere (pre ++ joinDash ([g.byte] :: us) ++ tail xs) g pre.length = .ok true := by
    unfold Extensions.startsHere
    rw [hidx, hidx2]
    simp [bind, Except.bind, pure, Except.pure, dash]
  have hend := findListEnd_extension (f := fun _ segment => .ok (decide (segment.length > 1))) hne hus hxs ha
    (fun _ u hu => by have := ((matches_extensionSubtag u).mp hu).1; simp; omega)
    (fun _ u hu => by simp [hu])
  have hsl := sliceRange_append ha
  rw [Extensions.getLoop.eq_def, if_pos (by rw [e]; simp), if_pos rfl, hst]
  simp only [bind, Except.bind, if_true, hend, hsl]
  rfl

/-- The first extension with the singleton. -/
def findExt (g : UInt8) (es : List Text) : Option Text := es.find? fun e => e.head? == some g

theorem getLoop_eq (g : Singleton) (es : List Text) (hes : ∀ e ∈ es, Grammar.extension.Matches e) (pre : Text)
    (ha : Ascii (pre ++ joinDash es)) :
    Extensions.getLoop (pre ++ joinDash es) g pre.length true = .ok ((findExt g.byte es).map Extension.mk) := by
  induction es generalizing pre with
  | nil => rw [getLoop_end (by simp [joinDash])]; rfl
  | cons e es ih =>
    rw [List.forall_mem_cons] at hes
    obtain ⟨he, hes⟩ := hes
    obtain ⟨b, us, rfl, hne, hb, hus⟩ := (matches_extension e).mp he
    have hhead : (joinDash ([b] :: us)).head? = some b := by rw [joinDash_cons_tail]; rfl
    by_cases hg : b = g.byte
    · subst hg
      have e1 : pre ++ joinDash (joinDash ([g.byte] :: us) :: es) = pre ++ joinDash ([g.byte] :: us) ++ tail es := by
        rw [joinDash_cons_tail (joinDash ([g.byte] :: us))]; simp
      rw [e1] at ha ⊢
      rw [getLoop_found hne hus hes ha]
      simp [findExt, hhead]
    · have e1 : joinDash (joinDash ([b] :: us) :: es) = joinDash (([b] :: us) ++ es) := by
        rw [joinDash_cons_tail (joinDash ([b] :: us)), List.cons_append, joinDash_cons_tail, joinDash_cons_tail,
          tail_append, List.append_assoc]
      have hfind : findExt g.byte (joinDash ([b] :: us) :: es) = findExt g.byte es := by
        simp [findExt, hhead, hg]
      rw [hfind, e1]
      rw [e1] at ha
      rw [getLoop_segments ([b] :: us) es (by simp) ?_ pre]
      · by_cases hnil : es = []
        · rw [if_pos hnil, hnil]; rfl
        · rw [if_neg hnil]
          have e2 : pre ++ joinDash ([b] :: us ++ es) = (pre ++ joinDash ([b] :: us) ++ [dash]) ++ joinDash es := by
            rw [joinDash_append (by simp) hnil]; simp
          have e3 : pre.length + (joinDash ([b] :: us)).length + 1 = (pre ++ joinDash ([b] :: us) ++ [dash]).length := by
            simp; omega
          rw [e2] at ha
          rw [e2, e3, ih hes _ ha]
      · rw [List.forall_mem_cons]
        refine ⟨⟨by simp, by simpa using isAlphanum_ne_dash hb.1, by simpa using hg⟩, ?_⟩
        intro u hu
        obtain ⟨h2, _, hal⟩ := (matches_extensionSubtag u).mp (hus u hu)
        refine ⟨?_, dashFree_of_alphanum hal, ?_⟩
        · rintro rfl; simp at h2
        · rintro rfl; simp at h2

end Langtag.Proof
