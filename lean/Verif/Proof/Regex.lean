import Verif.Spec.Abnf

/-!
# Regular expressions, derivatives, and their relation to ABNF

Proof machinery only: nothing here is part of a property's statement.
-/

set_option autoImplicit false

namespace Langtag.Proof
open Langtag.Spec

/-- Is the code in one of the ranges? -/
def inRanges (rs : List (Nat × Nat)) (n : Nat) : Bool :=
  rs.any fun r => Nat.ble r.1 n && Nat.ble n r.2

inductive Re
  | empty
  | eps
  | cls (rs : List (Nat × Nat))
  | alt (a b : Re)
  | cat (a b : Re)
  | star (a : Re)
  deriving DecidableEq

namespace Re

/-- The language of a regular expression. -/
def Lang : Re → Text → Prop
  | empty, _ => False
  | eps, w => w = []
  | cls rs, w => ∃ b : UInt8, w = [b] ∧ inRanges rs b.toNat = true
  | alt a b, w => Lang a w ∨ Lang b w
  | cat a b, w => ∃ u v, w = u ++ v ∧ Lang a u ∧ Lang b v
  | star a, w => ∃ ws : List Text, w = ws.flatten ∧ ∀ u ∈ ws, Lang a u

def nullable : Re → Bool
  | empty => false
  | eps => true
  | cls _ => false
  | alt a b => nullable a || nullable b
  | cat a b => nullable a && nullable b
  | star _ => true

/-- Structural equality, by kernel-friendly recursion. -/
def beqRanges : List (Nat × Nat) → List (Nat × Nat) → Bool
  | [], [] => true
  | (a, b) :: r, (c, d) :: s => Nat.beq a c && Nat.beq b d && beqRanges r s
  | _, _ => false

def beq : Re → Re → Bool
  | empty, empty => true
  | eps, eps => true
  | cls r, cls s => beqRanges r s
  | alt a b, alt c d => beq a c && beq b d
  | cat a b, cat c d => beq a c && beq b d
  | star a, star b => beq a b
  | _, _ => false

theorem eq_of_beqRanges : ∀ {r s}, beqRanges r s = true → r = s
  | [], [], _ => rfl
  | (a, b) :: r, (c, d) :: s, h => by
    simp only [beqRanges, Bool.and_eq_true, Nat.beq_eq] at h
    obtain ⟨⟨rfl, rfl⟩, h⟩ := h
    rw [eq_of_beqRanges h]
  | [], _ :: _, h => by simp [beqRanges] at h
  | _ :: _, [], h => by simp [beqRanges] at h

theorem eq_of_beq : ∀ {a b : Re}, beq a b = true → a = b := by
  intro a
  induction a with
  | empty => intro b h; cases b <;> simp_all [beq]
  | eps => intro b h; cases b <;> simp_all [beq]
  | cls r => intro b h; cases b <;> simp_all [beq]; exact eq_of_beqRanges h
  | alt x y hx hy =>
    intro b h; cases b <;> simp_all [beq]
    exact ⟨hx h.1, hy h.2⟩
  | cat x y hx hy =>
    intro b h; cases b <;> simp_all [beq]
    exact ⟨hx h.1, hy h.2⟩
  | star x hx =>
    intro b h; cases b <;> simp_all [beq]
    exact hx h

/-- Is `a` one of the alternatives of `b`? -/
def memAlt (a : Re) : Re → Bool
  | alt b c => beq a b || memAlt a c
  | b => beq a b

/-- Smart alternative: flattens to the right, drops `empty` and duplicates. -/
def mkAlt : Re → Re → Re
  | empty, b => b
  | alt a1 a2, b => mkAlt a1 (mkAlt a2 b)
  | a, empty => a
  | a, b => if memAlt a b then b else alt a b

/-- Smart concatenation: flattens to the right, simplifies `empty` and `eps`. -/
def mkCat : Re → Re → Re
  | empty, _ => empty
  | eps, b => b
  | cat a1 a2, b => mkCat a1 (mkCat a2 b)
  | _, empty => empty
  | a, b => cat a b

/-- Brzozowski derivative. -/
def deriv (n : Nat) : Re → Re
  | empty => empty
  | eps => empty
  | cls rs => if inRanges rs n then eps else empty
  | alt a b => mkAlt (deriv n a) (deriv n b)
  | cat a b =>
    let d := mkCat (deriv n a) b
    if nullable a then mkAlt d (deriv n b) else d
  | star a => mkCat (deriv n a) (star a)

theorem lang_memAlt {a b : Re} {w : Text} (h : memAlt a b = true) (ha : Lang a w) : Lang b w := by
  induction b with
  | alt b c _ ihc =>
    simp only [memAlt, Bool.or_eq_true] at h
    rcases h with h | h
    · exact Or.inl (eq_of_beq h ▸ ha)
    · exact Or.inr (ihc h)
  | _ => exact eq_of_beq h ▸ ha

theorem lang_mkAlt (a b : Re) (w : Text) : Lang (mkAlt a b) w ↔ Lang a w ∨ Lang b w := by
  fun_induction mkAlt a b with
  | case1 b => simp [Lang]
  | case2 b a1 a2 ih1 ih2 => rw [ih2, ih1]; simp [Lang, or_assoc]
  | case3 a _ _ => simp [Lang]
  | case4 a b _ _ _ h =>
    exact ⟨Or.inr, fun h' => h'.elim (lang_memAlt h) id⟩
  | case5 => simp [Lang]

theorem lang_cat_assoc (a b c : Re) (w : Text) :
    Lang (cat (cat a b) c) w ↔ Lang (cat a (cat b c)) w := by
  constructor
  · rintro ⟨_, v, rfl, ⟨u1, u2, rfl, h1, h2⟩, h3⟩
    exact ⟨u1, u2 ++ v, by simp, h1, u2, v, rfl, h2, h3⟩
  · rintro ⟨u, _, rfl, h1, v1, v2, rfl, h2, h3⟩
    exact ⟨u ++ v1, v2, by simp, ⟨u, v1, rfl, h1, h2⟩, h3⟩

theorem lang_cat_congr_right {a b b' : Re} (h : ∀ w, Lang b w ↔ Lang b' w) (w : Text) :
    Lang (cat a b) w ↔ Lang (cat a b') w := by
  simp [Lang, h]

theorem lang_mkCat (a b : Re) (w : Text) : Lang (mkCat a b) w ↔ Lang (cat a b) w := by
  fun_induction mkCat a b generalizing w with
  | case1 b => simp [Lang]
  | case2 b =>
    simp only [Lang]
    exact ⟨fun h => ⟨[], w, rfl, rfl, h⟩, by rintro ⟨_, v, rfl, rfl, h⟩; exact h⟩
  | case3 b a1 a2 ih1 ih2 =>
    rw [ih2, lang_cat_assoc]
    exact lang_cat_congr_right (fun w => ih1 w) w
  | case4 => simp [Lang]
  | case5 => rfl

theorem nullable_iff (r : Re) : nullable r = true ↔ Lang r [] := by
  induction r with
  | empty => simp [nullable, Lang]
  | eps => simp [nullable, Lang]
  | cls rs => simp [nullable, Lang]
  | alt a b ha hb => simp [nullable, Lang, ha, hb]
  | cat a b ha hb =>
    simp only [nullable, Bool.and_eq_true, ha, hb, Lang]
    constructor
    · rintro ⟨h1, h2⟩; exact ⟨[], [], rfl, h1, h2⟩
    · rintro ⟨u, v, h, h1, h2⟩
      obtain ⟨rfl, rfl⟩ := List.append_eq_nil_iff.mp h.symm
      exact ⟨h1, h2⟩
  | star a _ =>
    simp only [nullable, Lang, true_iff]
    exact ⟨[], rfl, by simp⟩

theorem lang_star_cons (a : Re) (b : UInt8) (w : Text) :
    Lang (star a) (b :: w) ↔ ∃ u v, w = u ++ v ∧ Lang a (b :: u) ∧ Lang (star a) v := by
  constructor
  · rintro ⟨ws, h, hall⟩
    induction ws with
    | nil => simp at h
    | cons x xs ih =>
      cases x with
      | nil => exact ih (by simpa using h) (fun u hu => hall u (by simp [hu]))
      | cons y ys =>
        simp only [List.flatten_cons, List.cons_append, List.cons.injEq] at h
        obtain ⟨rfl, rfl⟩ := h
        exact ⟨ys, xs.flatten, rfl, hall _ (by simp), xs, rfl, fun u hu => hall u (by simp [hu])⟩
  · rintro ⟨u, v, rfl, h, ws, rfl, hall⟩
    exact ⟨(b :: u) :: ws, by simp, by simpa using ⟨h, hall⟩⟩

theorem lang_deriv (r : Re) (b : UInt8) (w : Text) : Lang (deriv b.toNat r) w ↔ Lang r (b :: w) := by
  induction r generalizing w with
  | empty => simp [deriv, Lang]
  | eps => simp [deriv, Lang]
  | cls rs =>
    simp only [deriv]
    split <;> rename_i h
    · simp only [Lang]
      refine ⟨?_, ?_⟩
      · rintro rfl; exact ⟨b, rfl, h⟩
      · rintro ⟨_, h', _⟩; simp only [List.cons.injEq] at h'; exact h'.2
    · simp only [Lang, false_iff]
      rintro ⟨_, h', h''⟩
      simp only [List.cons.injEq] at h'
      exact h (h'.1 ▸ h'')
  | alt a b ha hb => simp only [deriv, lang_mkAlt, ha, hb, Lang]
  | star a ha =>
    simp only [deriv, lang_mkCat, lang_star_cons]
    simp [Lang, ha]
  | cat a c ha hc =>
    have key : Lang (cat a c) (b :: w) ↔
        Lang (mkCat (deriv b.toNat a) c) w ∨ (nullable a = true ∧ Lang (deriv b.toNat c) w) := by
      rw [lang_mkCat, hc, nullable_iff]
      constructor
      · rintro ⟨u, v, h, h1, h2⟩
        cases u with
        | nil => simp only [List.nil_append] at h; subst h; exact Or.inr ⟨h1, h2⟩
        | cons x u =>
          simp only [List.cons_append, List.cons.injEq] at h
          obtain ⟨rfl, rfl⟩ := h
          exact Or.inl ⟨u, v, rfl, (ha u).mpr h1, h2⟩
      · rintro (⟨u, v, rfl, h1, h2⟩ | ⟨h1, h2⟩)
        · exact ⟨b :: u, v, rfl, (ha u).mp h1, h2⟩
        · exact ⟨[], b :: w, rfl, h1, h2⟩
    rw [key]
    simp only [deriv]
    split <;> rename_i h
    · simp [lang_mkAlt, h]
    · simp [h]

/-! ## From ABNF -/

/-- All codes that differ from `k` (already lower-cased) only by case. -/
def caseRanges (k : Nat) : List (Nat × Nat) :=
  if 97 ≤ k ∧ k ≤ 122 then [(k - 32, k - 32), (k, k)] else [(k, k)]

def ofChars : List Char → Re
  | [] => eps
  | [c] => cls (caseRanges (lowerCode c.toNat))
  | c :: cs => cat (cls (caseRanges (lowerCode c.toNat))) (ofChars cs)

def pow (a : Re) : Nat → Re → Re
  | 0, k => k
  | n + 1, k => cat a (pow a n k)

def upTo (a : Re) : Nat → Re
  | 0 => eps
  | n + 1 => alt eps (cat a (upTo a n))

/-- Alternative, merging character classes. -/
def altCls : Re → Re → Re
  | cls r, cls s => cls (r ++ s)
  | a, b => alt a b

theorem lang_altCls (a b : Re) (w : Text) : Lang (altCls a b) w ↔ Lang a w ∨ Lang b w := by
  unfold altCls
  split
  · simp only [Lang, inRanges, List.any_append, Bool.or_eq_true]
    constructor
    · rintro ⟨b, rfl, h | h⟩
      · exact Or.inl ⟨b, rfl, h⟩
      · exact Or.inr ⟨b, rfl, h⟩
    · rintro (⟨b, rfl, h⟩ | ⟨b, rfl, h⟩)
      · exact ⟨b, rfl, Or.inl h⟩
      · exact ⟨b, rfl, Or.inr h⟩
  · rfl

def ofAbnf : Abnf → Re
  | .range lo hi => cls [(lo, hi)]
  | .str s => ofChars s.toList
  | .alt a b => altCls (ofAbnf a) (ofAbnf b)
  | .seq a b => cat (ofAbnf a) (ofAbnf b)
  | .rep m none a => pow (ofAbnf a) m (star (ofAbnf a))
  | .rep m (some n) a => if m ≤ n then pow (ofAbnf a) m (upTo (ofAbnf a) (n - m)) else empty

theorem inRanges_caseRanges (n m : Nat) :
    inRanges (caseRanges (lowerCode m)) n = true ↔ lowerCode n = lowerCode m := by
  unfold caseRanges
  split <;> rename_i h
  · simp only [inRanges, List.any_cons, List.any_nil, Bool.or_false, Bool.or_eq_true, Bool.and_eq_true,
      Nat.ble_eq]
    unfold lowerCode at *
    grind
  · simp only [inRanges, List.any_cons, List.any_nil, Bool.or_false, Bool.and_eq_true, Nat.ble_eq]
    unfold lowerCode at *
    grind

theorem lang_ofChars (cs : List Char) (w : Text) :
    Lang (ofChars cs) w ↔
      w.map (fun b => lowerCode b.toNat) = cs.map (fun c => lowerCode c.toNat) := by
  fun_induction ofChars cs generalizing w with
  | case1 => simp [Lang]
  | case2 c =>
    simp only [Lang, inRanges_caseRanges, List.map_cons, List.map_nil]
    constructor
    · rintro ⟨b, rfl, h⟩; simpa using h
    · intro h
      cases w with
      | nil => simp at h
      | cons b w =>
        simp only [List.map_cons, List.cons.injEq, List.map_eq_nil_iff] at h
        exact ⟨b, by rw [h.2], h.1⟩
  | case3 c cs _ ih =>
    simp only [Lang, inRanges_caseRanges, List.map_cons]
    constructor
    · rintro ⟨u, v, rfl, ⟨b, rfl, h⟩, hv⟩
      simp [h, (ih v).mp hv]
    · intro h
      cases w with
      | nil => simp at h
      | cons b w =>
        simp only [List.map_cons, List.cons.injEq] at h
        exact ⟨[b], w, rfl, ⟨b, rfl, h.1⟩, (ih w).mpr h.2⟩

theorem lang_pow (a k : Re) (n : Nat) (w : Text) :
    Lang (pow a n k) w ↔
      ∃ (ws : List Text) (v : Text), w = ws.flatten ++ v ∧ ws.length = n ∧ (∀ u ∈ ws, Lang a u) ∧ Lang k v := by
  induction n generalizing w with
  | zero =>
    simp only [pow]
    constructor
    · intro h; exact ⟨[], w, by simp, rfl, by simp, h⟩
    · rintro ⟨ws, v, rfl, h, _, hk⟩
      simp only [List.length_eq_zero_iff] at h
      subst h; simpa using hk
  | succ n ih =>
    simp only [pow, Lang]
    constructor
    · rintro ⟨u, v, rfl, hu, hv⟩
      obtain ⟨ws, v', rfl, hl, hall, hk⟩ := (ih v).mp hv
      exact ⟨u :: ws, v', by simp, by simp [hl], by simpa using ⟨hu, hall⟩, hk⟩
    · rintro ⟨ws, v, rfl, hl, hall, hk⟩
      match ws, hl with
      | x :: ws, hl =>
        exact ⟨x, ws.flatten ++ v, by simp, hall x (by simp),
          (ih _).mpr ⟨ws, v, rfl, by simpa using hl, fun u hu => hall u (by simp [hu]), hk⟩⟩

theorem lang_upTo (a : Re) (n : Nat) (w : Text) :
    Lang (upTo a n) w ↔
      ∃ ws : List Text, w = ws.flatten ∧ ws.length ≤ n ∧ ∀ u ∈ ws, Lang a u := by
  induction n generalizing w with
  | zero =>
    simp only [upTo, Lang]
    constructor
    · rintro rfl; exact ⟨[], rfl, by simp, by simp⟩
    · rintro ⟨ws, rfl, h, _⟩
      simp only [Nat.le_zero_eq, List.length_eq_zero_iff] at h
      subst h; rfl
  | succ n ih =>
    simp only [upTo, Lang]
    constructor
    · rintro (rfl | ⟨u, v, rfl, hu, hv⟩)
      · exact ⟨[], rfl, by simp, by simp⟩
      · obtain ⟨ws, rfl, hl, hall⟩ := (ih v).mp hv
        exact ⟨u :: ws, by simp, by simpa using hl, by simpa using ⟨hu, hall⟩⟩
    · rintro ⟨ws, rfl, hl, hall⟩
      cases ws with
      | nil => exact Or.inl rfl
      | cons x ws =>
        exact Or.inr ⟨x, ws.flatten, by simp, hall x (by simp),
          (ih _).mpr ⟨ws, rfl, by simpa using hl, fun u hu => hall u (by simp [hu])⟩⟩

theorem lang_ofAbnf (a : Abnf) (w : Text) : Lang (ofAbnf a) w ↔ a.Matches w := by
  induction a generalizing w with
  | range lo hi => simp [ofAbnf, Lang, Abnf.Matches, inRanges, Nat.ble_eq]
  | str s => simp only [ofAbnf, Abnf.Matches, lang_ofChars]
  | alt a b ha hb => simp only [ofAbnf, Abnf.Matches, lang_altCls, ha, hb]
  | seq a b ha hb => simp only [ofAbnf, Abnf.Matches, Lang, ha, hb]
  | rep m max a ha =>
    cases max with
    | none =>
      simp only [ofAbnf, Abnf.Matches, lang_pow, Lang]
      constructor
      · rintro ⟨ws, _, rfl, hl, hall, vs, rfl, hall'⟩
        refine ⟨ws ++ vs, by simp, by simp [hl], by simp, ?_⟩
        intro u hu
        rcases List.mem_append.mp hu with h | h
        · exact (ha u).mp (hall u h)
        · exact (ha u).mp (hall' u h)
      · rintro ⟨ws, rfl, hl, _, hall⟩
        refine ⟨ws.take m, (ws.drop m).flatten, ?_, by simp [hl], ?_, ws.drop m, rfl, ?_⟩
        · rw [← List.flatten_append, List.take_append_drop]
        · exact fun u hu => (ha u).mpr (hall u (List.mem_of_mem_take hu))
        · exact fun u hu => (ha u).mpr (hall u (List.mem_of_mem_drop hu))
    | some n =>
      simp only [ofAbnf, Abnf.Matches]
      split <;> rename_i hmn
      · simp only [lang_pow, lang_upTo]
        constructor
        · rintro ⟨ws, _, rfl, hl, hall, vs, rfl, hl', hall'⟩
          refine ⟨ws ++ vs, by simp, by simp [hl], by simp; omega, ?_⟩
          intro u hu
          rcases List.mem_append.mp hu with h | h
          · exact (ha u).mp (hall u h)
          · exact (ha u).mp (hall' u h)
        · rintro ⟨ws, rfl, hl, hle, hall⟩
          have hle := hle n rfl
          refine ⟨ws.take m, (ws.drop m).flatten, ?_, by simp [hl], ?_, ws.drop m, rfl, ?_, ?_⟩
          · rw [← List.flatten_append, List.take_append_drop]
          · exact fun u hu => (ha u).mpr (hall u (List.mem_of_mem_take hu))
          · simp; omega
          · exact fun u hu => (ha u).mpr (hall u (List.mem_of_mem_drop hu))
      · simp only [Lang, false_iff]
        rintro ⟨ws, rfl, hl, hle, _⟩
        have := hle n rfl
        omega

end Re

end Langtag.Proof
