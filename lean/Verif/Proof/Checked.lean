import Verif.Model.Checked
import Verif.Proof.Validate
import Verif.Spec.Api

/-! # Machine arithmetic gives the same results -/

set_option autoImplicit false

namespace Langtag.Proof
open Langtag.Spec Langtag.Model

variable {max : Nat}

theorem add_ok {a b : Nat} (h : a + b ≤ max) : Checked.add max a b = .ok () := if_pos h
theorem sub_ok {a b : Nat} (h : b ≤ a) : Checked.sub a b = .ok () := if_pos h

theorem ok_bind {α β : Type} (a : α) (f : α → Rust β) : ((Except.ok a : Rust α) >>= f) = f a := rfl

theorem bind_congr_ok {α β : Type} {x : Rust α} {f g : α → Rust β} (h : ∀ a, x = .ok a → f a = g a) :
    (x >>= f) = (x >>= g) := by
  cases x with
  | error e => rfl
  | ok a => exact h a rfl

theorem findListEndLoop_checked {s : Str} (hs : s.length ≤ max) (f : Nat → Str → Rust Bool) (offset i end_ : Nat) :
    Checked.findListEndLoop max s f offset i end_ = findListEndLoop s f offset i end_ := by
  induction h : s.length - i generalizing offset i end_ with
  | zero => rw [Checked.findListEndLoop.eq_def, findListEndLoop.eq_def, if_neg (by omega), if_neg (by omega)]
  | succ n ih =>
    have hi : i < s.length := by omega
    rw [Checked.findListEndLoop.eq_def, findListEndLoop.eq_def, if_pos hi, if_pos hi]
    simp only [add_ok (show i + 1 ≤ max by omega), ok_bind, ih _ (i + 1) _ (by omega)]

theorem findListEnd_checked {s : Str} (hs : s.length ≤ max) (offset : Nat) (f : Nat → Str → Rust Bool) :
    Checked.findListEnd max s offset f = findListEnd s offset f := findListEndLoop_checked hs f _ _ _

theorem sliceRange_ok_le {s r : Str} {a b : Nat} (h : sliceRange s a b = .ok r) : a ≤ b ∧ b ≤ s.length := by
  unfold sliceRange at h
  split at h <;> rename_i hc
  · exact ⟨hc.1, hc.2.1⟩
  · cases h

theorem findListEndLoop_le {s : Str} {f : Nat → Str → Rust Bool} {offset i end_ r : Nat}
    (hoi : offset ≤ i ∧ (end_ ≤ s.length ∨ s.length < offset)) (h : findListEndLoop s f offset i end_ = .ok r) : r ≤ s.length := by
  induction hn : s.length - i generalizing offset i end_ with
  | zero =>
    rw [findListEndLoop.eq_def, if_neg (by omega)] at h
    cases hsl : sliceFrom s offset with
    | error e => rw [hsl] at h; cases h
    | ok u =>
      have := (sliceRange_ok_le hsl).1
      rw [hsl, ok_bind] at h
      cases hf : f offset u with
      | error e => rw [hf] at h; cases h
      | ok b =>
        rw [hf, ok_bind] at h
        cases b with
        | false => have := Except.ok.inj h; omega
        | true => have := Except.ok.inj h; omega
  | succ n ih =>
    have hi : i < s.length := by omega
    rw [findListEndLoop.eq_def, if_pos hi] at h
    have hx : index s i = .ok s[i] := by simp [index, hi]
    rw [hx, ok_bind] at h
    split at h
    · cases hsl : sliceRange s offset i with
      | error e => rw [hsl] at h; cases h
      | ok u =>
        rw [hsl, ok_bind] at h
        cases hf : f offset u with
        | error e => rw [hf] at h; cases h
        | ok b =>
          rw [hf, ok_bind] at h
          cases b with
          | false => have := Except.ok.inj h; omega
          | true => exact ih (offset := i + 1) (i := i + 1) (end_ := i) ⟨by omega, by omega⟩ h (by omega)
    · exact ih (i := i + 1) ⟨by omega, by omega⟩ h (by omega)

theorem findListEnd_le {s : Str} {f : Nat → Str → Rust Bool} {offset r : Nat} (h : findListEnd s offset f = .ok r) :
    r ≤ s.length := findListEndLoop_le ⟨Nat.le_refl _, by omega⟩ h

theorem findSegmentEndLoop_checked {s : Str} (hs : s.length ≤ max) (i : Nat) :
    Checked.findSegmentEndLoop max s i = findSegmentEndLoop s i := by
  induction h : s.length - i generalizing i with
  | zero => rw [Checked.findSegmentEndLoop.eq_def, findSegmentEndLoop.eq_def, if_neg (by omega), if_neg (by omega)]
  | succ n ih =>
    have hi : i < s.length := by omega
    rw [Checked.findSegmentEndLoop.eq_def, findSegmentEndLoop.eq_def, if_pos hi, if_pos hi]
    simp only [add_ok (show i + 1 ≤ max by omega), ok_bind, ih (i + 1) (by omega)]

theorem findSegmentEnd_checked {s : Str} (hs : s.length ≤ max) (i : Nat) :
    Checked.findSegmentEnd max s i = findSegmentEnd s i := findSegmentEndLoop_checked hs i

theorem findSegmentEnd_le {s : Str} {i r : Nat} (hi : i ≤ s.length) (h : findSegmentEnd s i = .ok r) : r ≤ s.length := by
  unfold findSegmentEnd at h
  induction hn : s.length - i generalizing i with
  | zero =>
    rw [findSegmentEndLoop.eq_def, if_neg (by omega)] at h
    have := Except.ok.inj h; omega
  | succ n ih =>
    have hi : i < s.length := by omega
    rw [findSegmentEndLoop.eq_def, if_pos hi] at h
    have hx : index s i = .ok s[i] := by simp [index, hi]
    rw [hx, ok_bind] at h
    split at h
    · have := Except.ok.inj h; omega
    · exact ih (i := i + 1) (by omega) h (by omega)

theorem findSegmentStartLoop_checked {s : Str} (hs : s.length ≤ max) (i : Nat) :
    Checked.findSegmentStartLoop max s i = findSegmentStartLoop s i := by
  induction i with
  | zero =>
    rw [Checked.findSegmentStartLoop.eq_def, findSegmentStartLoop.eq_def]
    refine bind_congr_ok fun b hb => ?_
    have hl : 0 < s.length := by
      unfold index at hb
      split at hb
      · rename_i h; exact (List.getElem?_eq_some_iff.mp h).1
      · cases hb
    simp only [add_ok (show 0 + 1 ≤ max by omega)]
    rfl
  | succ i ih =>
    rw [Checked.findSegmentStartLoop.eq_def, findSegmentStartLoop.eq_def]
    refine bind_congr_ok fun b hb => ?_
    have hl : i + 1 < s.length := by
      unfold index at hb
      split at hb
      · rename_i h; exact (List.getElem?_eq_some_iff.mp h).1
      · cases hb
    simp only [add_ok (show (i + 1) + 1 ≤ max by omega), sub_ok (show 1 ≤ i + 1 by omega), ok_bind, gt_iff_lt,
      Nat.zero_lt_succ, dif_pos, Nat.add_sub_cancel, ih]

theorem findSegmentStart_checked {s : Str} (hs : s.length ≤ max) (e : Nat) :
    Checked.findSegmentStart max s e = findSegmentStart s e := by
  unfold Checked.findSegmentStart findSegmentStart
  split
  · rw [sub_ok (by omega), ok_bind, findSegmentStartLoop_checked hs]
  · rfl

theorem findSegmentStartLoop_le {s : Str} {i r : Nat} (h : findSegmentStartLoop s i = .ok r) : r ≤ i + 1 := by
  induction i with
  | zero =>
    rw [findSegmentStartLoop.eq_def] at h
    cases hx : index s 0 with
    | error e => rw [hx] at h; cases h
    | ok b =>
      rw [hx, ok_bind] at h
      split at h
      · have := Except.ok.inj h; omega
      · have := Except.ok.inj h; omega
  | succ i ih =>
    rw [findSegmentStartLoop.eq_def] at h
    cases hx : index s (i + 1) with
    | error e => rw [hx] at h; cases h
    | ok b =>
      rw [hx, ok_bind] at h
      split at h
      · have := Except.ok.inj h; omega
      · have := ih h; omega

theorem findSegmentStart_le {s : Str} {e r : Nat} (h : findSegmentStart s e = .ok r) : r ≤ e := by
  unfold findSegmentStart at h
  split at h
  · have := findSegmentStartLoop_le h; omega
  · have := Except.ok.inj h; omega

/-! ## Iterators -/

theorem collect_congr {σ α : Type} {next next' : σ → Rust (Option α × σ)} (Inv : σ → Prop)
    (h : ∀ it, Inv it → next it = next' it) (hInv : ∀ it x it', Inv it → next' it = .ok (x, it') → Inv it') (n : Nat) {it : σ}
    (hi : Inv it) : collect next n it = collect next' n it := by
  induction n generalizing it with
  | zero => rfl
  | succ n ih =>
    simp only [collect, h it hi]
    refine bind_congr_ok fun a ha => ?_
    obtain ⟨x, it'⟩ := a
    simp only [ih (hInv it x it' hi ha)]

theorem collectSides_congr {σ α : Type} {next next' back back' : σ → Rust (Option α × σ)} (Inv : σ → Prop)
    (h : ∀ it, Inv it → next it = next' it ∧ back it = back' it)
    (hInv : ∀ it x it', Inv it → (next' it = .ok (x, it') ∨ back' it = .ok (x, it')) → Inv it') (history : List Side) {it : σ}
    (hi : Inv it) : collectSides next back history it = collectSides next' back' history it := by
  induction history generalizing it with
  | nil => rfl
  | cons side history ih =>
    cases side with
    | front =>
      simp only [collectSides, (h it hi).1]
      refine bind_congr_ok fun a ha => ?_
      obtain ⟨x, it'⟩ := a
      simp only [ih (hInv it x it' hi (Or.inl ha))]
    | back =>
      simp only [collectSides, (h it hi).2]
      refine bind_congr_ok fun a ha => ?_
      obtain ⟨x, it'⟩ := a
      simp only [ih (hInv it x it' hi (Or.inr ha))]

theorem variantsNext_checked {it : VariantsIter} (hs : it.data.length + 1 ≤ max) (he : it.end_ ≤ it.data.length) :
    Checked.variantsNext max it = it.next := by
  unfold Checked.variantsNext VariantsIter.next
  split <;> rename_i h
  · rw [findSegmentEnd_checked (by omega)]
    refine bind_congr_ok fun e h1 => bind_congr_ok fun u _ => ?_
    have := findSegmentEnd_le (by omega) h1
    rw [add_ok (by omega), ok_bind]
  · rfl

theorem variantsNextBack_checked {it : VariantsIter} (hs : it.data.length + 1 ≤ max) :
    Checked.variantsNextBack max it = it.nextBack := by
  unfold Checked.variantsNextBack VariantsIter.nextBack
  split <;> rename_i h
  · rw [findSegmentStart_checked (by omega)]
    refine bind_congr_ok fun e h1 => bind_congr_ok fun u _ => ?_
    split <;> rename_i h2
    · rw [sub_ok (by omega), ok_bind]
    · rfl
  · rfl

theorem variants_inv {it it' : VariantsIter} {x : Option Variant} {data : Str} (hi : it.data = data ∧ it.end_ ≤ it.data.length)
    (h : it.next = .ok (x, it') ∨ it.nextBack = .ok (x, it')) : it'.data = data ∧ it'.end_ ≤ it'.data.length := by
  rcases h with h | h
  · unfold VariantsIter.next at h
    split at h
    · cases h1 : findSegmentEnd it.data it.offset with
      | error e => rw [h1] at h; cases h
      | ok e =>
        rw [h1, ok_bind] at h
        cases h2 : sliceRange it.data it.offset e with
        | error e => rw [h2] at h; cases h
        | ok u =>
          rw [h2, ok_bind] at h
          obtain ⟨_, rfl⟩ := Prod.mk.inj (Except.ok.inj h)
          exact hi
    · obtain ⟨_, rfl⟩ := Prod.mk.inj (Except.ok.inj h)
      exact hi
  · unfold VariantsIter.nextBack at h
    split at h
    · cases h1 : findSegmentStart it.data it.end_ with
      | error e => rw [h1] at h; cases h
      | ok e =>
        rw [h1, ok_bind] at h
        cases h2 : sliceRange it.data e it.end_ with
        | error e => rw [h2] at h; cases h
        | ok u =>
          rw [h2, ok_bind] at h
          obtain ⟨_, rfl⟩ := Prod.mk.inj (Except.ok.inj h)
          have := findSegmentStart_le h1
          refine ⟨hi.1, ?_⟩
          simp only
          split <;> omega
    · obtain ⟨_, rfl⟩ := Prod.mk.inj (Except.ok.inj h)
      exact hi

theorem extensionNext_checked {it : ExtensionIter} (hs : it.data.length + 1 ≤ max) :
    Checked.extensionNext max it = it.next := by
  unfold Checked.extensionNext ExtensionIter.next
  split <;> rename_i h
  · rw [findSegmentEnd_checked (by omega)]
    refine bind_congr_ok fun e h1 => bind_congr_ok fun u _ => ?_
    have := findSegmentEnd_le (by omega) h1
    rw [add_ok (by omega), ok_bind]
  · rfl

theorem privateUseNext_checked {it : PrivateUseIter} (hs : it.data.length + 1 ≤ max) :
    Checked.privateUseNext max it = it.next := by
  unfold Checked.privateUseNext PrivateUseIter.next
  split <;> rename_i h
  · rw [findSegmentEnd_checked (by omega)]
    refine bind_congr_ok fun e h1 => bind_congr_ok fun u _ => ?_
    have := findSegmentEnd_le (by omega) h1
    rw [add_ok (by omega), ok_bind]
  · rfl

theorem languageExtensionNext_checked {it : LanguageExtensionIter} (hs : it.data.length + 1 ≤ max) :
    Checked.languageExtensionNext max it = it.next := by
  unfold Checked.languageExtensionNext LanguageExtensionIter.next
  split <;> rename_i h
  · rw [findSegmentEnd_checked (by omega)]
    refine bind_congr_ok fun e h1 => bind_congr_ok fun u _ => ?_
    have := findSegmentEnd_le (by omega) h1
    rw [add_ok (by omega), ok_bind]
  · rfl

theorem extensionsNext_checked {it : ExtensionsIter} (hs : it.data.length + 1 ≤ max) :
    Checked.extensionsNext max it = it.next := by
  unfold Checked.extensionsNext ExtensionsIter.next
  split <;> rename_i h
  · simp only [add_ok (show it.offset + 2 ≤ max by omega), ok_bind]
    rw [findListEnd_checked (by omega)]
    refine bind_congr_ok fun e h1 => bind_congr_ok fun u _ => ?_
    have := findListEnd_le h1
    rw [add_ok (by omega), ok_bind]
  · rfl

theorem data_extension {it it' : ExtensionIter} {x : Option ExtensionSubtag} (h : it.next = .ok (x, it')) : it'.data = it.data := by
  unfold ExtensionIter.next at h
  split at h
  · cases h1 : findSegmentEnd it.data it.offset with
    | error e => rw [h1] at h; cases h
    | ok e =>
      rw [h1, ok_bind] at h
      cases h2 : sliceRange it.data it.offset e with
      | error e => rw [h2] at h; cases h
      | ok u => rw [h2, ok_bind] at h; obtain ⟨_, rfl⟩ := Prod.mk.inj (Except.ok.inj h); rfl
  · obtain ⟨_, rfl⟩ := Prod.mk.inj (Except.ok.inj h); rfl

theorem data_privateUse {it it' : PrivateUseIter} {x : Option PrivateUseSubtag} (h : it.next = .ok (x, it')) : it'.data = it.data := by
  unfold PrivateUseIter.next at h
  split at h
  · cases h1 : findSegmentEnd it.data it.offset with
    | error e => rw [h1] at h; cases h
    | ok e =>
      rw [h1, ok_bind] at h
      cases h2 : sliceRange it.data it.offset e with
      | error e => rw [h2] at h; cases h
      | ok u => rw [h2, ok_bind] at h; obtain ⟨_, rfl⟩ := Prod.mk.inj (Except.ok.inj h); rfl
  · obtain ⟨_, rfl⟩ := Prod.mk.inj (Except.ok.inj h); rfl

theorem data_languageExtension {it it' : LanguageExtensionIter} {x : Option ExtendedLangTag} (h : it.next = .ok (x, it')) :
    it'.data = it.data := by
  unfold LanguageExtensionIter.next at h
  split at h
  · cases h1 : findSegmentEnd it.data it.offset with
    | error e => rw [h1] at h; cases h
    | ok e =>
      rw [h1, ok_bind] at h
      cases h2 : sliceRange it.data it.offset e with
      | error e => rw [h2] at h; cases h
      | ok u => rw [h2, ok_bind] at h; obtain ⟨_, rfl⟩ := Prod.mk.inj (Except.ok.inj h); rfl
  · obtain ⟨_, rfl⟩ := Prod.mk.inj (Except.ok.inj h); rfl

theorem data_extensions {it it' : ExtensionsIter} {x : Option Extension} (h : it.next = .ok (x, it')) : it'.data = it.data := by
  unfold ExtensionsIter.next at h
  split at h
  · simp only at h
    cases h1 : findListEnd it.data (it.offset + 2) fun _ segment => .ok (StrNewtype.isOk ExtensionSubtag segment) with
    | error e => rw [h1] at h; cases h
    | ok e =>
      rw [h1, ok_bind] at h
      cases h2 : sliceRange it.data it.offset e with
      | error e => rw [h2] at h; cases h
      | ok u => rw [h2, ok_bind] at h; obtain ⟨_, rfl⟩ := Prod.mk.inj (Except.ok.inj h); rfl
  · obtain ⟨_, rfl⟩ := Prod.mk.inj (Except.ok.inj h); rfl

/-! ## `Extensions::get` -/

theorem startsHere_checked {s : Str} (g : Singleton) {i : Nat} (h : i + 1 ≤ max) :
    Checked.startsHere max s g i = Extensions.startsHere s g i := by
  unfold Checked.startsHere Extensions.startsHere
  simp only [add_ok h, ok_bind]

theorem getLoop_checked {s : Str} (hs : s.length + 1 ≤ max) (g : Singleton) (i : Nat) (st : Bool) (hi : i ≤ s.length) :
    Checked.getLoop max s g i st = Extensions.getLoop s g i st := by
  induction h : s.length - i generalizing i st with
  | zero =>
    rw [Checked.getLoop.eq_def, Extensions.getLoop.eq_def, add_ok (by omega), ok_bind, if_neg (by omega), if_neg (by omega)]
  | succ n ih =>
    rw [Checked.getLoop.eq_def, Extensions.getLoop.eq_def, add_ok (by omega), ok_bind]
    by_cases hc : i + 1 < s.length
    · rw [if_pos hc, if_pos hc, startsHere_checked g (by omega)]
      simp only [add_ok (show i + 2 ≤ max by omega), ok_bind,
        ih (i + 1) _ (by omega) (by omega), findListEnd_checked (show s.length ≤ max by omega)]
    · rw [if_neg hc, if_neg hc]

/-! ## Accessors -/

/-- The end of a range, or the place where it would be. -/
def rangeEnd : Except Nat (Nat × Nat) → Nat
  | .ok r => r.2
  | .error i => i

section
variable {t : NormalLangTag} (hs : t.str.length + 1 ≤ max)
include hs

theorem languageEnd_checked : Checked.languageEnd max t = t.languageEnd := findListEnd_checked (by omega) _ _

theorem language_checked : Checked.language max t = t.language := by
  unfold Checked.language NormalLangTag.language
  rw [languageEnd_checked hs]

theorem scriptRange_checked : Checked.scriptRange max t = t.scriptRange := by
  unfold Checked.scriptRange NormalLangTag.scriptRange
  rw [languageEnd_checked hs]
  refine bind_congr_ok fun e h => ?_
  have := findListEnd_le h
  simp only [add_ok (show e + 1 ≤ max by omega), ok_bind, findListEnd_checked (show t.str.length ≤ max by omega)]

omit hs in
theorem scriptRange_le {r : Except Nat (Nat × Nat)} (h : t.scriptRange = .ok r) :
    rangeEnd r ≤ t.str.length := by
  unfold NormalLangTag.scriptRange at h
  cases h1 : t.languageEnd with
  | error e => rw [h1] at h; cases h
  | ok e =>
    rw [h1, ok_bind] at h
    simp only at h
    cases h2 : findListEnd t.str (e + 1) fun i segment => .ok (i == e + 1 && StrNewtype.isOk Script segment) with
    | error e => rw [h2] at h; cases h
    | ok b =>
      rw [h2, ok_bind] at h
      split at h
      · obtain rfl := Except.ok.inj h
        exact findListEnd_le h2
      · obtain rfl := Except.ok.inj h
        exact findListEnd_le h1

theorem script_checked : Checked.script max t = t.script := by
  unfold Checked.script NormalLangTag.script
  rw [scriptRange_checked hs]
  rfl

theorem regionRange_checked : Checked.regionRange max t = t.regionRange := by
  unfold Checked.regionRange NormalLangTag.regionRange
  rw [scriptRange_checked hs]
  refine bind_congr_ok fun r h => ?_
  have := scriptRange_le h
  rcases r with e | ⟨a, e⟩ <;> simp only [rangeEnd] at this <;>
    simp only [add_ok (show e + 1 ≤ max by omega), ok_bind, findListEnd_checked (show t.str.length ≤ max by omega)]

omit hs in
theorem regionRange_le {r : Except Nat (Nat × Nat)} (h : t.regionRange = .ok r) :
    rangeEnd r ≤ t.str.length := by
  unfold NormalLangTag.regionRange at h
  cases h1 : t.scriptRange with
  | error e => rw [h1] at h; cases h
  | ok e =>
    have h0 := scriptRange_le h1
    rw [h1, ok_bind] at h
    rcases e with k | ⟨a, k⟩ <;> simp only [rangeEnd] at h0 h
    all_goals
      cases h2 : findListEnd t.str (k + 1) fun i segment => .ok (i == k + 1 && StrNewtype.isOk Region segment) with
      | error e => rw [h2] at h; cases h
      | ok b =>
        rw [h2, ok_bind] at h
        split at h
        · obtain rfl := Except.ok.inj h
          exact findListEnd_le h2
        · obtain rfl := Except.ok.inj h
          exact h0

theorem region_checked : Checked.region max t = t.region := by
  unfold Checked.region NormalLangTag.region
  rw [regionRange_checked hs]
  rfl

theorem variantsRange_checked : Checked.variantsRange max t = t.variantsRange := by
  unfold Checked.variantsRange NormalLangTag.variantsRange
  rw [regionRange_checked hs]
  refine bind_congr_ok fun r h => ?_
  have := regionRange_le h
  rcases r with e | ⟨a, e⟩ <;> simp only [rangeEnd] at this <;>
    simp only [add_ok (show e + 1 ≤ max by omega), ok_bind, findListEnd_checked (show t.str.length ≤ max by omega)]

omit hs in
theorem variantsRange_le {r : Nat × Nat} (h : t.variantsRange = .ok r) : r.2 ≤ t.str.length := by
  unfold NormalLangTag.variantsRange at h
  cases h1 : t.regionRange with
  | error e => rw [h1] at h; cases h
  | ok e =>
    have h0 := regionRange_le h1
    rw [h1, ok_bind] at h
    rcases e with k | ⟨a, k⟩ <;> simp only [rangeEnd] at h0 h
    all_goals
      cases h2 : findListEnd t.str (k + 1) fun _ segment => .ok (StrNewtype.isOk Variant segment) with
      | error e => rw [h2] at h; cases h
      | ok b =>
        rw [h2, ok_bind] at h
        split at h
        · obtain rfl := Except.ok.inj h
          exact h0
        · obtain rfl := Except.ok.inj h
          exact findListEnd_le h2

theorem variants_checked : Checked.variants max t = t.variants := by
  unfold Checked.variants NormalLangTag.variants
  rw [variantsRange_checked hs]

theorem extensionsRange_checked : Checked.extensionsRange max t = t.extensionsRange := by
  unfold Checked.extensionsRange NormalLangTag.extensionsRange
  rw [variantsRange_checked hs]
  refine bind_congr_ok fun r h => ?_
  have := variantsRange_le h
  simp only [add_ok (show r.2 + 1 ≤ max by omega), ok_bind, findListEnd_checked (show t.str.length ≤ max by omega)]

theorem extensions_checked : Checked.extensions max t = t.extensions := by
  unfold Checked.extensions NormalLangTag.extensions
  rw [extensionsRange_checked hs]

theorem privateUseOffset_checked : Checked.privateUseOffset max t = t.privateUseOffset := by
  unfold Checked.privateUseOffset NormalLangTag.privateUseOffset
  rw [variantsRange_checked hs]
  refine bind_congr_ok fun r h => ?_
  have := variantsRange_le h
  simp only [add_ok (show r.2 + 1 ≤ max by omega), ok_bind]

theorem privateUse_checked : Checked.privateUse max t = t.privateUse := by
  unfold Checked.privateUse NormalLangTag.privateUse
  rw [privateUseOffset_checked hs]
  rfl

end

/-! ## Comparison -/

theorem cmpLoop_checked {a b : Str} (ha : a.length ≤ max) (i : Nat) :
    Checked.caseInsensitiveCmpLoop max a b i = caseInsensitiveCmpLoop a b i := by
  induction h : a.length - i generalizing i with
  | zero =>
    rw [Checked.caseInsensitiveCmpLoop.eq_def, caseInsensitiveCmpLoop.eq_def]
    simp only [show a.length ≤ i by omega, if_true]
  | succ n ih =>
    rw [Checked.caseInsensitiveCmpLoop.eq_def, caseInsensitiveCmpLoop.eq_def]
    simp only [add_ok (show i + 1 ≤ max by omega), ok_bind, ih (i + 1) (by omega)]
    rfl

theorem caseInsensitiveCmp_checked {a b : Str} (ha : a.length ≤ max) :
    Checked.caseInsensitiveCmp max a b = caseInsensitiveCmp a b := cmpLoop_checked ha 0

/-! ## Validation -/

theorem validateLoop_checked {d : Dfa} (h : okDfa d = true) {dec : Decoder} (hdec : AsciiCompatible dec) {s : Str}
    (hs : s.length ≤ max) (fuel i q : Nat) :
    Checked.validateLoop max dec d s fuel i q = .ok (d.validateLoop dec s fuel i q) := by
  induction fuel generalizing i q with
  | zero => rfl
  | succ fuel ih =>
    unfold Dfa.validateLoop Checked.validateLoop
    split <;> rename_i hi
    · have hget : s[i]? = some s[i] := List.getElem?_eq_getElem hi
      by_cases hb : s[i].toNat < 0x80
      · obtain ⟨c, hc, hd⟩ := hdec.ascii s i _ hget hb
        rw [hd]
        simp only
        cases d.push q c with
        | none => rfl
        | some q' => simp only [add_ok (show i + 1 ≤ max by omega), ok_bind, ih]
      · cases hd : dec s i with
        | none => rfl
        | some p =>
          obtain ⟨c, len⟩ := p
          have := hdec.nonAscii s i _ c len hget (by omega) hd
          simp only [push_eq, stepNat_nonAscii h q this]
    · rfl

theorem validateBytesWith_checked {d : Dfa} (h : okDfa d = true) {dec : Decoder} (hdec : AsciiCompatible dec) {s : Str}
    (hs : s.length ≤ max) : Checked.validateBytesWith max dec d s = .ok (d.validateBytesWith dec s) :=
  validateLoop_checked h hdec hs _ _ _

end Langtag.Proof
