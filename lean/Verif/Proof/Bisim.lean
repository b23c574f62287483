import Verif.Proof.Regex
import Verif.Model.Dfa

/-!
# Checking that an automaton and a regular expression have the same language

Proof machinery only.
-/

set_option autoImplicit false

namespace Langtag.Proof
open Langtag.Spec Langtag.Model

/-! ## Automata on byte codes -/

/-- `Arm.ranges` as codes. -/
def natRanges (rs : List (Char × Char)) : List (Nat × Nat) := rs.map fun (a, b) => (a.toNat, b.toNat)

/-- The arms of a state. -/
def rowOf (d : Dfa) (q : Nat) : List Arm :=
  match d.rows.find? (fun r => r.state == q) with
  | none => []
  | some r => r.arms

def stepRow (row : List (List (Nat × Nat) × Nat)) (n : Nat) : Option Nat :=
  match row with
  | [] => none
  | (rs, t) :: row => if inRanges rs n then some t else stepRow row n

def natRow (row : List Arm) : List (List (Nat × Nat) × Nat) := row.map fun a => (natRanges a.ranges, a.target)

def stepNat (d : Dfa) (q n : Nat) : Option Nat := stepRow (natRow (rowOf d q)) n

theorem accepts_eq (a : Arm) (c : Char) : a.accepts c = inRanges (natRanges a.ranges) c.toNat := by
  unfold Arm.accepts natRanges inRanges
  rw [List.any_map]
  congr 1
  funext ⟨x, y⟩
  simp only [Function.comp]
  congr 1 <;> rw [Bool.eq_iff_iff] <;> simp [Nat.ble_eq]

theorem push_eq (d : Dfa) (q : Nat) (c : Char) : d.push q c = stepNat d q c.toNat := by
  unfold Dfa.push stepNat rowOf
  cases d.rows.find? (fun r => r.state == q) with
  | none => rfl
  | some r =>
    simp only
    generalize r.arms = arms
    induction arms with
    | nil => rfl
    | cons a arms ih =>
      simp only [natRow, List.map_cons, stepRow, List.find?_cons, ← accepts_eq]
      cases h : a.accepts c
      · simpa [h, natRow] using ih
      · simp

/-- The automaton's run over bytes. -/
def run (d : Dfa) : Nat → Text → Bool
  | q, [] => d.isAccepting q
  | q, b :: w =>
    match stepNat d q b.toNat with
    | none => false
    | some q' => run d q' w

/-! ## The alphabet -/

/-- A range is `-`, the digits, or within the upper or lower case letters. -/
def okRange (r : Nat × Nat) : Bool :=
  (Nat.beq r.1 45 && Nat.beq r.2 45) || (Nat.beq r.1 48 && Nat.beq r.2 57) ||
    (Nat.ble 65 r.1 && Nat.ble r.2 90) || (Nat.ble 97 r.1 && Nat.ble r.2 122)

/-- `a`–`z`. -/
def letters : List Nat :=
  [97, 98, 99, 100, 101, 102, 103, 104, 105, 106, 107, 108, 109, 110, 111, 112, 113, 114, 115, 116, 117,
   118, 119, 120, 121, 122]

/-- Every range is fine and upper and lower case letters are not told apart. -/
def okRanges (rs : List (Nat × Nat)) : Bool :=
  rs.all okRange && letters.all fun n => inRanges rs n == inRanges rs (n - 32)

/-- The representative of a code among those the ranges can tell apart. -/
def repOf (n : Nat) : Option Nat :=
  if n = 45 then some n
  else if 48 ≤ n ∧ n ≤ 57 then some 48
  else if 65 ≤ n ∧ n ≤ 90 then some (n + 32)
  else if 97 ≤ n ∧ n ≤ 122 then some n
  else none

def reps : List Nat := 45 :: 48 :: letters

theorem mem_letters {n : Nat} : n ∈ letters ↔ 97 ≤ n ∧ n ≤ 122 := by
  simp only [letters, List.mem_cons, List.not_mem_nil, or_false]
  omega

theorem repOf_mem {n m : Nat} (h : repOf n = some m) : m ∈ reps := by
  unfold repOf at h
  have : m = 45 ∨ m = 48 ∨ (97 ≤ m ∧ m ≤ 122) := by grind
  simp only [reps, List.mem_cons, mem_letters]
  exact this

theorem inRanges_outside {rs : List (Nat × Nat)} (h : rs.all okRange = true) {n : Nat} (hn : repOf n = none) :
    inRanges rs n = false := by
  induction rs with
  | nil => rfl
  | cons r rs ih =>
    simp only [List.all_cons, Bool.and_eq_true] at h
    have hr := h.1
    have ih := ih h.2
    simp only [inRanges, List.any_cons, Bool.or_eq_false_iff] at ih ⊢
    refine ⟨?_, ih⟩
    simp only [okRange, Bool.or_eq_true, Bool.and_eq_true, Nat.ble_eq, Nat.beq_eq] at hr
    unfold repOf at hn
    rw [Bool.eq_false_iff]
    simp only [ne_eq, Bool.and_eq_true, Nat.ble_eq]
    grind

theorem inRanges_digit {rs : List (Nat × Nat)} (h : rs.all okRange = true) {n : Nat} (hn : 48 ≤ n ∧ n ≤ 57) :
    inRanges rs n = inRanges rs 48 := by
  induction rs with
  | nil => rfl
  | cons r rs ih =>
    simp only [List.all_cons, Bool.and_eq_true] at h
    have hr := h.1
    have ih := ih h.2
    simp only [inRanges, List.any_cons] at ih ⊢
    rw [ih]
    congr 1
    simp only [okRange, Bool.or_eq_true, Bool.and_eq_true, Nat.ble_eq, Nat.beq_eq] at hr
    rw [Bool.eq_iff_iff]
    simp only [Bool.and_eq_true, Nat.ble_eq]
    grind

theorem inRanges_rep {rs : List (Nat × Nat)} (h : okRanges rs = true) (n : Nat) :
    inRanges rs n = match repOf n with
      | none => false
      | some m => inRanges rs m := by
  simp only [okRanges, Bool.and_eq_true, List.all_eq_true, beq_iff_eq] at h
  have h1 : rs.all okRange = true := List.all_eq_true.mpr h.1
  cases hn : repOf n with
  | none => exact inRanges_outside h1 hn
  | some m =>
    simp only
    unfold repOf at hn
    split at hn
    · cases hn; rfl
    · split at hn <;> rename_i hd
      · cases hn; exact inRanges_digit h1 hd
      · split at hn <;> rename_i hu
        · cases hn
          have := h.2 (n + 32) (mem_letters.mpr (by omega))
          simpa using this.symm
        · split at hn <;> cases hn
          rfl

namespace Re

def okRe : Re → Bool
  | empty => true
  | eps => true
  | cls rs => okRanges rs
  | alt a b => okRe a && okRe b
  | cat a b => okRe a && okRe b
  | star a => okRe a

theorem deriv_rep {r : Re} (h : okRe r = true) {n m : Nat} (hm : repOf n = some m) : deriv n r = deriv m r := by
  induction r with
  | empty => rfl
  | eps => rfl
  | cls rs => simp only [deriv, inRanges_rep h n, hm]
  | alt a b ha hb =>
    simp only [okRe, Bool.and_eq_true] at h
    simp only [deriv, ha h.1, hb h.2]
  | cat a b ha hb =>
    simp only [okRe, Bool.and_eq_true] at h
    simp only [deriv, ha h.1, hb h.2]
  | star a ha => simp only [deriv, ha h]

theorem okRe_mkAlt {a b : Re} (ha : okRe a = true) (hb : okRe b = true) : okRe (mkAlt a b) = true := by
  fun_induction mkAlt a b with
  | case1 b => exact hb
  | case2 b a1 a2 ih1 ih2 =>
    simp only [okRe, Bool.and_eq_true] at ha
    exact ih2 ha.1 (ih1 ha.2 hb)
  | case3 a _ _ => exact ha
  | case4 => exact hb
  | case5 => simp [okRe, ha, hb]

theorem okRe_mkCat {a b : Re} (ha : okRe a = true) (hb : okRe b = true) : okRe (mkCat a b) = true := by
  fun_induction mkCat a b with
  | case1 b => rfl
  | case2 b => exact hb
  | case3 b a1 a2 ih1 ih2 =>
    simp only [okRe, Bool.and_eq_true] at ha
    exact ih2 ha.1 (ih1 ha.2 hb)
  | case4 => rfl
  | case5 => simp [okRe, ha, hb]

theorem okRe_deriv {r : Re} (h : okRe r = true) (n : Nat) : okRe (deriv n r) = true := by
  induction r with
  | empty => rfl
  | eps => rfl
  | cls rs => simp only [deriv]; split <;> rfl
  | alt a b ha hb =>
    simp only [okRe, Bool.and_eq_true] at h
    exact okRe_mkAlt (ha h.1) (hb h.2)
  | cat a b ha hb =>
    simp only [okRe, Bool.and_eq_true] at h
    simp only [deriv]
    split
    · exact okRe_mkAlt (okRe_mkCat (ha h.1) h.2) (hb h.2)
    · exact okRe_mkCat (ha h.1) h.2
  | star a ha => exact okRe_mkCat (ha h) h

theorem lang_alphabet {r : Re} (h : okRe r = true) {w : Text} (hw : Lang r w) :
    ∀ b ∈ w, (repOf b.toNat).isSome = true := by
  induction r generalizing w with
  | empty => exact hw.elim
  | eps => cases hw; simp
  | cls rs =>
    obtain ⟨b, rfl, hb⟩ := hw
    rw [inRanges_rep h] at hb
    intro c hc
    simp only [List.mem_singleton] at hc
    subst hc
    cases hr : repOf c.toNat
    · simp [hr] at hb
    · rfl
  | alt a b ha hb =>
    simp only [okRe, Bool.and_eq_true] at h
    exact hw.elim (ha h.1) (hb h.2)
  | cat a b ha hb =>
    simp only [okRe, Bool.and_eq_true] at h
    obtain ⟨u, v, rfl, hu, hv⟩ := hw
    intro c hc
    rcases List.mem_append.mp hc with hc | hc
    · exact ha h.1 hu c hc
    · exact hb h.2 hv c hc
  | star a ha =>
    obtain ⟨ws, rfl, hall⟩ := hw
    intro c hc
    obtain ⟨u, hu, hc⟩ := List.mem_flatten.mp hc
    exact ha h (hall u hu) c hc

end Re

def okRow (row : List (List (Nat × Nat) × Nat)) : Bool := row.all fun p => okRanges p.1

def okDfa (d : Dfa) : Bool := d.rows.all fun r => okRow (natRow r.arms)

theorem stepRow_rep {row} (h : okRow row = true) (n : Nat) :
    stepRow row n = match repOf n with
      | none => none
      | some m => stepRow row m := by
  induction row with
  | nil => cases repOf n <;> rfl
  | cons p row ih =>
    simp only [okRow, List.all_cons, Bool.and_eq_true] at h
    simp only [stepRow]
    rw [inRanges_rep h.1, ih h.2]
    cases repOf n <;> simp

theorem okRow_rowOf {d : Dfa} (h : okDfa d = true) (q : Nat) : okRow (natRow (rowOf d q)) = true := by
  unfold rowOf
  split
  · rfl
  · rename_i r hr
    exact List.all_eq_true.mp h r (List.mem_of_find?_eq_some hr)

theorem stepNat_rep {d : Dfa} (h : okDfa d = true) (q n : Nat) :
    stepNat d q n = match repOf n with
      | none => none
      | some m => stepNat d q m := stepRow_rep (okRow_rowOf h q) n

/-! ## The check -/

/-- Candidate relation between states and regular expressions: a search tree from states to lists of
regular expressions. -/
inductive Rel
  | leaf
  | node (l : Rel) (k : Nat) (rs : List Re) (r : Rel)

namespace Rel

def lookup : Rel → Nat → List Re
  | leaf, _ => []
  | node l k rs r, q => if Nat.beq q k then rs else if Nat.ble q k then lookup l q else lookup r q

/-- The check holds of every pair in the tree. -/
def all (f : Nat → Re → Bool) : Rel → Bool
  | leaf => true
  | node l k rs r => all f l && rs.all (f k) && all f r

theorem of_all {f : Nat → Re → Bool} {B : Rel} (h : all f B = true) {q : Nat} {r : Re} (hm : r ∈ B.lookup q) :
    f q r = true := by
  induction B with
  | leaf => simp [lookup] at hm
  | node l k rs r ihl ihr =>
    simp only [all, Bool.and_eq_true] at h
    simp only [lookup] at hm
    split at hm <;> rename_i hk
    · rw [Nat.beq_eq] at hk
      subst hk
      exact List.all_eq_true.mp h.1.2 _ hm
    · split at hm
      · exact ihl h.1.1 hm
      · exact ihr h.2 hm

end Rel

def memRe (r : Re) : List Re → Bool
  | [] => false
  | r' :: rs => Re.beq r r' || memRe r rs

theorem mem_of_memRe {r : Re} {rs : List Re} (h : memRe r rs = true) : r ∈ rs := by
  induction rs with
  | nil => simp [memRe] at h
  | cons p B ih =>
    simp only [memRe, Bool.or_eq_true] at h
    rcases h with h | h
    · rw [Re.eq_of_beq h]; simp
    · exact List.mem_cons_of_mem _ (ih h)

def checkRow (row : List (List (Nat × Nat) × Nat)) (B : Rel) (r : Re) (ns : List Nat) : Bool :=
  ns.all fun n =>
    match stepRow row n with
    | none => Re.beq (r.deriv n) .empty
    | some q' => memRe (r.deriv n) (B.lookup q')

def checkPair (d : Dfa) (B : Rel) (q : Nat) (r : Re) : Bool :=
  (d.isAccepting q == r.nullable) && checkRow (natRow (rowOf d q)) B r reps

def checkRel (d : Dfa) (r : Re) (B : Rel) : Bool :=
  okDfa d && r.okRe && memRe r (B.lookup d.init) && B.all (checkPair d B)

theorem run_iff_lang_of_mem {d : Dfa} {B : Rel} (hd : okDfa d = true) (hB : B.all (checkPair d B) = true)
    (w : Text) : ∀ {q r}, r.okRe = true → r ∈ B.lookup q → (run d q w = true ↔ r.Lang w) := by
  induction w with
  | nil =>
    intro q r _ h
    have := Rel.of_all hB h
    simp only [checkPair, Bool.and_eq_true, beq_iff_eq] at this
    rw [← Re.nullable_iff, ← this.1]; rfl
  | cons b w ih =>
    intro q r hok h
    have := Rel.of_all hB h
    simp only [checkPair, Bool.and_eq_true, beq_iff_eq] at this
    have hrow := this.2
    simp only [run]
    rw [stepNat_rep hd]
    cases hrep : repOf b.toNat with
    | none =>
      simp only [Bool.false_eq_true, false_iff]
      intro hl
      have := Re.lang_alphabet hok hl b (by simp)
      simp [hrep] at this
    | some m =>
      have hm := List.all_eq_true.mp hrow m (repOf_mem hrep)
      rw [← Re.lang_deriv, Re.deriv_rep hok hrep]
      simp only
      unfold stepNat
      split <;> rename_i hs
      · simp only [hs] at hm
        rw [Re.eq_of_beq hm]
        simp [Re.Lang]
      · simp only [hs] at hm
        exact ih (Re.okRe_deriv hok m) (mem_of_memRe hm)

theorem run_iff_lang {d : Dfa} {r : Re} {B : Rel} (h : checkRel d r B = true) (w : Text) :
    run d d.init w = true ↔ r.Lang w := by
  simp only [checkRel, Bool.and_eq_true] at h
  exact run_iff_lang_of_mem h.1.1.1 h.2 w h.1.1.2 (mem_of_memRe h.1.2)

/-! ## Building the relation -/

/-- A balanced tree with the keys `lo .. lo + 2^h - 2` and no regular expressions. -/
def Rel.build : Nat → Nat → Rel
  | 0, _ => .leaf
  | h + 1, lo => .node (build h lo) (lo + 2 ^ h - 1) [] (build h (lo + 2 ^ h))

def Rel.insert : Rel → Nat → Re → Rel
  | leaf, _, _ => leaf
  | node l k rs r, q, x =>
    if Nat.beq q k then node l k (x :: rs) r
    else if Nat.ble q k then node (insert l q x) k rs r else node l k rs (insert r q x)

def addNew (row : List (List (Nat × Nat) × Nat)) (r : Re) :
    List Nat → Rel → List (Nat × Re) → Rel × List (Nat × Re)
  | [], seen, todo => (seen, todo)
  | n :: ns, seen, todo =>
    match stepRow row n with
    | none => addNew row r ns seen todo
    | some q' =>
      let r' := r.deriv n
      if memRe r' (seen.lookup q') then addNew row r ns seen todo
      else addNew row r ns (seen.insert q' r') ((q', r') :: todo)

def explore (d : Dfa) : Nat → Rel → List (Nat × Re) → Rel
  | 0, seen, _ => seen
  | _ + 1, seen, [] => seen
  | f + 1, seen, (q, r) :: todo =>
    let (seen, todo) := addNew (natRow (rowOf d q)) r reps seen todo
    explore d f seen todo

def relOf (d : Dfa) (r : Re) : Rel :=
  explore d 1000 ((Rel.build 8 0).insert d.init r) [(d.init, r)]

end Langtag.Proof
