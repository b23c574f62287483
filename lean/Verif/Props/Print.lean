import Verif.Model.Print
import Verif.Spec.Print
import Verif.Props.Equal

/-! # C66: printing.  C53: the derived hashing. -/

set_option autoImplicit false

namespace Langtag.Props
open Langtag.Spec Langtag.Model Langtag.Proof

theorem pad_default (s : List Char) : Formatter.default.pad s = s := rfl

/-- What any text looks like when it is printed without precision. -/
theorem pad_noPrecision (f : Formatter) (hp : f.precision = none) (s : List Char) :
    ∃ a b, PaddedBy f.fill a b s (f.pad s) ∧ a + b = f.width.getD 0 - s.length ∧
      (f.align = none ∨ f.align = some .Left → a = 0) ∧ (f.align = some .Right → b = 0) ∧
      (f.align = some .Center → a ≤ b ∧ b ≤ a + 1) := by
  obtain ⟨fill, al, w, p⟩ := f
  cases hp
  have none_ : ∀ w, PaddedBy fill 0 0 s (Formatter.pad ⟨fill, al, w, none⟩ s) → w.getD 0 - s.length = 0 →
      ∃ a b, PaddedBy fill a b s (Formatter.pad ⟨fill, al, w, none⟩ s) ∧ a + b = w.getD 0 - s.length ∧
        (al = none ∨ al = some .Left → a = 0) ∧ (al = some .Right → b = 0) ∧ (al = some .Center → a ≤ b ∧ b ≤ a + 1) :=
    fun w h1 h2 => ⟨0, 0, h1, h2.symm, fun _ => rfl, fun _ => rfl, fun _ => ⟨Nat.le_refl _, Nat.zero_le _⟩⟩
  cases w with
  | none => exact none_ none (by simp [PaddedBy, Formatter.pad]) (by simp)
  | some w =>
    by_cases h : s.length < w
    · refine ⟨(Formatter.padding ⟨fill, al, some w, none⟩ (w - s.length)).1,
        (Formatter.padding ⟨fill, al, some w, none⟩ (w - s.length)).2, ?_, ?_, ?_, ?_, ?_⟩
      · simp [PaddedBy, Formatter.pad, h]
      · rcases al with _ | (_ | _ | _) <;> simp [Formatter.padding] <;> omega
      · rintro (h | h) <;> (dsimp only at h; subst h; rfl)
      · intro h; dsimp only at h; subst h; rfl
      · intro h; dsimp only at h; subst h; dsimp only [Formatter.padding]; omega
    · exact none_ (some w) (by simp [PaddedBy, Formatter.pad, h]) (by simp; omega)

theorem dropWhile_replicate (c : Char) (n : Nat) (s : List Char) :
    (List.replicate n c ++ s).dropWhile (· == c) = s.dropWhile (· == c) := by
  induction n with
  | zero => rfl
  | succ n ih => simp [List.replicate_succ]

theorem dropWhile_of_head {c : Char} : ∀ {s t : List Char}, s ≠ [] → c ∉ s → (s ++ t).dropWhile (· == c) = s ++ t
  | [], _, h, _ => absurd rfl h
  | d :: s, _, _, h => by
    have : d ≠ c := fun e => h (by simp [e])
    simp [this]

theorem trimMatches_padded {c : Char} {a b : Nat} {s out : List Char} (hne : s ≠ []) (hc : c ∉ s) (h : PaddedBy c a b s out) :
    trimMatches c out = s := by
  unfold PaddedBy at h
  unfold trimMatches
  rw [h, List.append_assoc, dropWhile_replicate, dropWhile_of_head hne hc, List.reverse_append, List.reverse_replicate,
    dropWhile_replicate]
  have := dropWhile_of_head (c := c) (s := s.reverse) (t := []) (by simpa using hne) (by simpa using hc)
  rw [List.append_nil] at this
  rw [this, List.reverse_reverse]

/-- C66: `format!("{}", g)` is the registered text; parsed as a grandfathered tag it gives `g` back, and it is a language tag.  So
different tags are printed differently. -/
theorem C66_grandfathered (g : GrandfatheredLangTag) :
    utf8 (g.fmt .default) = ascii (registered g) ∧ GrandfatheredLangTag.new (utf8 (g.fmt .default)) = .ok (.ok g) ∧
    Accepts LangTag (utf8 (g.fmt .default)) ∧ ∀ g' : GrandfatheredLangTag, g'.fmt .default = g.fmt .default → g' = g := by
  have h : ∀ g : GrandfatheredLangTag, utf8 (g.fmt .default) = ascii (registered g) := by
    intro g; cases g <;> decide +kernel
  have hn : ∀ g : GrandfatheredLangTag, GrandfatheredLangTag.new (utf8 (g.fmt .default)) = .ok (.ok g) :=
    fun g => (C12_new_ok _ g).mpr (h g ▸ rfl)
  refine ⟨h g, hn g, ?_, fun g' hg => ?_⟩
  · rw [h g]
    exact accepts_of_isOk (by cases g <;> decide +kernel)
  · have h1 := hn g'
    rw [hg, hn g] at h1
    exact (Except.ok.inj (Except.ok.inj h1)).symm

example : GrandfatheredLangTag.SgnBeFr.fmt .default = "sgn-BE-FR".toList := by decide +kernel

/-- C66: without a precision nothing is cut, whatever the width: the text is filled up to the width, on the side asked for.  Trimmed of
the fill character, if it is not one of those of the tags, it parses to the same tag. -/
theorem C66_width (g : GrandfatheredLangTag) (f : Formatter) (hp : f.precision = none) :
    (∃ a b, PaddedBy f.fill a b (g.fmt .default) (g.fmt f) ∧ a + b = f.width.getD 0 - (g.fmt .default).length ∧
      (f.align = none ∨ f.align = some .Left → a = 0) ∧ (f.align = some .Right → b = 0) ∧
      (f.align = some .Center → a ≤ b ∧ b ≤ a + 1)) ∧
    ((¬ Grammar.alphanum.Matches (encodeChar f.fill) ∧ f.fill ≠ '-') →
      GrandfatheredLangTag.new (utf8 (trimMatches f.fill (g.fmt f))) = .ok (.ok g)) := by
  obtain ⟨a, b, h, hrest⟩ := pad_noPrecision f hp (g.fmt .default)
  refine ⟨⟨a, b, h, hrest⟩, fun hf => ?_⟩
  have hin : ∀ g : GrandfatheredLangTag, ∀ c ∈ g.fmt .default, c = '-' ∨ ∃ b, encodeChar c = [b] ∧ isAsciiAlphanumeric b = true := by
    have hd : ∀ g : GrandfatheredLangTag, ∀ c ∈ g.fmt .default, c = '-' ∨
        (encodeChar c).length = 1 ∧ (encodeChar c).all isAsciiAlphanumeric = true := by
      intro g; cases g <;> decide +kernel
    intro g c hc
    rcases hd g c hc with h | ⟨h1, h2⟩
    · exact Or.inl h
    · match hh : encodeChar c, h1 with
      | [b], _ => rw [hh] at h2; exact Or.inr ⟨b, rfl, by simpa using h2⟩
  have hc : f.fill ∉ g.fmt .default := by
    intro hm
    rcases hin g _ hm with h | ⟨b, h1, h2⟩
    · exact hf.2 h
    · refine hf.1 ?_
      rw [h1]
      exact (isClass_alphanum _).mpr ⟨b, rfl, (isAsciiAlphanumeric_iff b).mp h2⟩
  rw [show g.fmt f = f.pad (g.fmt .default) from rfl, trimMatches_padded ?_ hc h]
  · exact (C66_grandfathered g).2.1
  · cases g <;> decide +kernel

-- `{:*^12}`
example : GrandfatheredLangTag.IHak.fmt ⟨'*', some .Center, some 12, none⟩ = "***i-hak****".toList := by decide +kernel
example : ¬ Grammar.alphanum.Matches (encodeChar '*') ∧ '*' ≠ '-' := by
  refine ⟨fun h => ?_, by decide⟩
  obtain ⟨b, h1, h2⟩ := (isClass_alphanum _).mp h
  rw [show encodeChar '*' = [42] from by decide +kernel] at h1
  obtain rfl := (List.cons.inj h1).1
  revert h2
  rw [← isAsciiAlphanumeric_iff]
  decide

/-- C66: with a precision and no width the text is cut to at most that many characters. -/
theorem C66_precision (g : GrandfatheredLangTag) (f : Formatter) (p : Nat) (hp : f.precision = some p) (hw : f.width = none) :
    g.fmt f = (g.fmt .default).take p := by
  unfold GrandfatheredLangTag.fmt Formatter.pad
  rw [hp, hw]
  rfl

example : GrandfatheredLangTag.IHak.fmt ⟨' ', none, none, some 3⟩ = "i-h".toList := by decide +kernel

/-- C66: a singleton made of a byte is printed as that byte, which read back gives the same singleton; with a width it is filled up like
any text, and `{:?}` puts it between single quotes. -/
theorem C66_singleton (b : UInt8) (s : Singleton) (h : Singleton.new b = .ok s) :
    utf8 (s.fmt .default) = [b] ∧ Singleton.fromString (utf8 (s.fmt .default)) = .ok (.ok s) ∧
    (∀ f, utf8 (s.fmtDebug f) = ascii "'" ++ [b] ++ ascii "'") ∧
    ∀ f : Formatter, f.precision = none →
      ∃ before after, PaddedBy f.fill before after (s.fmt .default) (s.fmt f) ∧ before + after = f.width.getD 0 - 1 ∧
        (f.align = none ∨ f.align = some .Left → before = 0) ∧ (f.align = some .Right → after = 0) ∧
        (f.align = some .Center → before ≤ after ∧ after ≤ before + 1) := by
  have hd := (C32_observers b s h).2.2.2
  have h1 : utf8 (s.fmt .default) = [b] := by
    simp only [Singleton.fmt, pad_default, utf8, List.flatMap_cons, List.flatMap_nil, List.append_nil]
    exact hd
  refine ⟨h1, ?_, fun f => ?_, fun f hf => pad_noPrecision f hf [s.display]⟩
  · rw [h1]
    have hu : IsUtf8 [b] := ⟨[s.display], by simp [hd]⟩
    have hb : Grammar.singleton.Matches [b] := by
      refine Classical.byContradiction fun hn => ?_
      rw [((C32_u8 b).2 hn).1] at h
      cases h
    obtain ⟨s', h2, _, h3⟩ := (C32_string [b] hu).1 hb
    rw [h2]
    obtain ⟨g, h4, _, h5⟩ := (C32_u8 b).1 hb
    rw [h] at h4
    obtain rfl := Except.ok.inj h4
    cases s; cases s'
    exact congrArg (fun x => Except.ok (Except.ok (Model.Singleton.mk x))) ((List.cons.inj h3).1.symm.trans h5.symm)
  · simp only [Singleton.fmtDebug, utf8, List.flatMap_cons, List.flatMap_nil, List.append_nil, hd]
    rfl

example : Singleton.new 85 = .ok ⟨85⟩ ∧ (Model.Singleton.mk 85).fmtDebug .default = ['\'', 'U', '\''] := by decide +kernel

/-- C66: `{:?}` of a kind is its name; different kinds are printed differently. -/
theorem C66_kind (f f' : Formatter) :
    utf8 (Kind.fmtDebug .Normal f) = ascii "Normal" ∧ utf8 (Kind.fmtDebug .PrivateUse f) = ascii "PrivateUse" ∧
    utf8 (Kind.fmtDebug .Grandfathered f) = ascii "Grandfathered" ∧
    ∀ k k' : Kind, k.fmtDebug f = k'.fmtDebug f' → k = k' := by
  have h : ∀ k k' : Kind, k.fmtDebug .default = k'.fmtDebug .default → k = k' := by
    intro k k'; cases k <;> cases k' <;> decide +kernel
  have hf : ∀ (k : Kind) (f : Formatter), k.fmtDebug f = k.fmtDebug .default := fun k _ => by cases k <;> rfl
  rw [hf .Normal, hf .PrivateUse, hf .Grandfathered]
  refine ⟨by decide +kernel, by decide +kernel, by decide +kernel, fun k k' hk => h k k' ?_⟩
  rwa [hf, hf k'] at hk

/-- C53: for the derived implementations too, `==` values hash to the same state and values that are not `==` do not for every hasher;
`partial_cmp` is `cmp`. -/
theorem C53_hash :
    (∀ g g' : GrandfatheredLangTag, g.eq g' = true ↔
      ∀ (State : Type) (write : State → Nat → State) (st : State), g.hash write st = g'.hash write st) ∧
    (∀ k k' : Kind, k.eq k' = true ↔
      ∀ (State : Type) (write : State → Nat → State) (st : State), k.hash write st = k'.hash write st) ∧
    (∀ s s' : Singleton, s.eq s' = true ↔ ∀ (H : Hasher) (st : H.State), s.hash H st = s'.hash H st) ∧
    (∀ g g' : GrandfatheredLangTag, g.partialCmp g' = some (g.cmp g')) ∧ (∀ k k' : Kind, k.partialCmp k' = some (k.cmp k')) ∧
    ∀ s s' : Singleton, s.partialCmp s' = some (s.cmp s') := by
  refine ⟨fun g g' => ?_, fun k k' => ?_, fun s s' => ?_, fun _ _ => rfl, fun _ _ => rfl, fun _ _ => rfl⟩
  · rw [C53_orders.1.1]
    refine ⟨fun h => h ▸ fun _ _ _ => rfl, fun h => ?_⟩
    have := h Nat (fun _ n => n) 0
    revert this
    cases g <;> cases g' <;> first | exact fun _ => rfl | exact fun h => absurd h (by decide)
  · rw [C53_orders.2.1.1]
    refine ⟨fun h => h ▸ fun _ _ _ => rfl, fun h => ?_⟩
    have := h Nat (fun _ n => n) 0
    revert this
    cases k <;> cases k' <;> first | exact fun _ => rfl | exact fun h => absurd h (by decide)
  · rw [C53_orders.2.2.1]
    refine ⟨fun h => h ▸ fun _ _ => rfl, fun h => ?_⟩
    have := h ⟨UInt8, fun _ b => b⟩ 0
    cases s; cases s'
    exact congrArg Model.Singleton.mk this

example : Kind.hash (fun st n => st ++ [n]) .PrivateUse [] = [1] := rfl

end Langtag.Props
