import Verif.Source.ParserSound

/-!
# The parser reads whatever the grammar allows

A phrase of the grammar of `Verif/Spec/Rust.lean`, before tokens that may follow it, is read by the parser of `Verif/Source/Parser.lean`
if it may descend deep enough.  Hence the grammar gives at most one meaning to a text (`Verif/Props/Grammar.lean`).
-/

set_option autoImplicit false

namespace Langtag.Source
open Langtag.Spec.Rust

/-- For all numbers that are large enough. -/
def Ev (q : Nat → Prop) : Prop := ∃ N, ∀ n, N ≤ n → q n

theorem Ev.of {q : Nat → Prop} (h : ∀ n, q n) : Ev q := ⟨0, fun n _ => h n⟩

theorem Ev.and {q q' : Nat → Prop} (h : Ev q) (h' : Ev q') : Ev fun n => q n ∧ q' n := by
  obtain ⟨N, h⟩ := h
  obtain ⟨M, h'⟩ := h'
  exact ⟨max N M, fun n hn => ⟨h n (by omega), h' n (by omega)⟩⟩

theorem Ev.mono {q q' : Nat → Prop} (h : Ev q) (hq : ∀ n, q n → q' n) : Ev q' := by
  obtain ⟨N, h⟩ := h
  exact ⟨N, fun n hn => hq n (h n hn)⟩

theorem Ev.step {q : Nat → Prop} (h : Ev fun n => q (n + 1)) : Ev q := by
  obtain ⟨N, h⟩ := h
  refine ⟨N + 1, fun n hn => ?_⟩
  obtain ⟨m, rfl⟩ : ∃ m, n = m + 1 := ⟨n - 1, by omega⟩
  exact h m (by omega)

/-! ## Beginnings -/

def startsPath : Tok → Bool
  | .ident _ | .punct .colonColon | .punct .dollar => true
  | _ => false

def startsTy : Tok → Bool
  | .punct .and | .punct .lbrack | .punct .lparen | .kw .«impl» => true
  | t => startsPath t

def startsLit : Tok → Bool
  | .int .. | .char _ | .byte _ | .str _ | .bstr _ | .kw .«true» | .kw .«false» => true
  | _ => false

def startsPat : Tok → Bool
  | .kw .«underscore» | .kw .«mut» | .punct .lparen => true
  | t => startsPath t || startsLit t

theorem segs_start {ts : List Tok} {ss : List String} (h : IsSegs ts ss) : ∃ s ts', ts = .ident s :: ts' := by
  cases h <;> exact ⟨_, _, rfl⟩

theorem path_start {ts : List Tok} {ss : List String} (h : IsPath ts ss) : ∃ t ts', ts = t :: ts' ∧ startsPath t = true := by
  cases h with
  | segs _ _ h => obtain ⟨s, ts', rfl⟩ := segs_start h; exact ⟨_, _, rfl, rfl⟩
  | «global» => exact ⟨_, _, rfl, rfl⟩
  | crate => exact ⟨_, _, rfl, rfl⟩
  | var => exact ⟨_, _, rfl, rfl⟩

theorem ty_start {ts : List Tok} {t : Ty} (h : IsTy ts t) : ∃ t ts', ts = t :: ts' ∧ startsTy t = true := by
  have hs : ∀ t, startsPath t = true → startsTy t = true := by
    intro t h
    unfold startsTy
    split <;> simp [h]
  cases h with
  | path _ _ h => obtain ⟨t, ts', rfl, k⟩ := path_start h; exact ⟨_, _, rfl, hs _ k⟩
  | generic _ _ _ _ h => obtain ⟨t, ts', rfl, k⟩ := path_start h; exact ⟨_, _, rfl, hs _ k⟩
  | _ => exact ⟨_, _, rfl, rfl⟩

theorem lit_start {t : Tok} {l : Lit} (h : IsLit t l) : startsLit t = true := by cases h <;> rfl

theorem simplePat_start {ts : List Tok} {p : Pat} (h : IsSimplePat ts p) : ∃ t ts', ts = t :: ts' ∧ startsPat t = true := by
  have hs : ∀ t, (startsPath t || startsLit t) = true → startsPat t = true := by
    intro t h
    unfold startsPat
    split <;> simp [h]
  cases h with
  | path _ _ h => obtain ⟨t, ts', rfl, k⟩ := path_start h; exact ⟨_, _, rfl, hs _ (by simp [k])⟩
  | ctor _ _ _ _ h => obtain ⟨t, ts', rfl, k⟩ := path_start h; exact ⟨_, _, rfl, hs _ (by simp [k])⟩
  | lit _ _ h => exact ⟨_, _, rfl, hs _ (by simp [lit_start h])⟩
  | range _ _ _ _ h => exact ⟨_, _, rfl, hs _ (by simp [lit_start h])⟩
  | _ => exact ⟨_, _, rfl, rfl⟩

theorem pat_start {ts : List Tok} {p : Pat} (h : IsPat ts p) : ∃ t ts', ts = t :: ts' ∧ startsPat t = true := by
  cases h with
  | simple _ _ h => exact simplePat_start h
  | or _ _ _ _ h => obtain ⟨t, ts', rfl, k⟩ := simplePat_start h; exact ⟨_, _, rfl, k⟩

/-! ## One level down -/

theorem parsers_ty (n : Nat) : (parsers (n + 1)).ty = stepTy (parsers n) := rfl

theorem parsers_pat (n : Nat) : (parsers (n + 1)).pat = stepPat (parsers n) := rfl

theorem parsers_orPats (n : Nat) : (parsers (n + 1)).orPats = stepOrPats (parsers n) := rfl

theorem parsers_expr (n : Nat) : (parsers (n + 1)).expr = stepExpr (parsers n) := rfl

theorem parsers_operators (n : Nat) : (parsers (n + 1)).operators = stepOperators (parsers n) := rfl

theorem parsers_operatorsAfter (n : Nat) : (parsers (n + 1)).operatorsAfter = stepOperatorsAfter (parsers n) := rfl

theorem parsers_casts (n : Nat) : (parsers (n + 1)).casts = stepCasts (parsers n) := rfl

theorem parsers_unary (n : Nat) : (parsers (n + 1)).unary = stepUnary (parsers n) := rfl

theorem parsers_trailing (n : Nat) : (parsers (n + 1)).trailing = stepTrailing (parsers n) := rfl

theorem parsers_blockLike (n : Nat) : (parsers (n + 1)).blockLike = stepBlockLike (parsers n) := rfl

theorem parsers_arms (n : Nat) : (parsers (n + 1)).arms = stepArms (parsers n) := rfl

theorem parsers_stmts (n : Nat) : (parsers (n + 1)).stmts = stepStmts (parsers n) := rfl

/-! ## Lists -/

theorem punct_self (p : Punct) (ts : List Tok) : punct p (.punct p :: ts) = some ts := by simp [punct, token]

theorem punct_ne {p : Punct} {t : Tok} (ts : List Tok) (h : t ≠ .punct p) : punct p (t :: ts) = none := by simp [punct, token, h]

theorem separated_complete {α : Type} {R : List Tok → α → Prop} {close : Punct} {K : Nat} {elem : Nat → P α} {list : Nat → P (List α)}
    (hc : close ≠ .comma) (hstep : ∀ n, list (n + 1) = commaList close (elem n) (list n))
    (hs : ∀ us a, R us a → ∃ t us', us = t :: us' ∧ t ≠ .punct close)
    (he : ∀ us a, us.length ≤ K → R us a → ∀ q rest, q = .comma ∨ q = close →
      Ev fun n => elem n (us ++ .punct q :: rest) = some (a, .punct q :: rest))
    {us : List Tok} {as : List α} (hl : us.length ≤ K) (h : Separated R us as) (rest : List Tok) :
    Ev fun n => list n (us ++ .punct close :: rest) = some (as, rest) := by
  induction h with
  | nil =>
    refine Ev.step (Ev.of fun n => ?_)
    rw [hstep]
    simp [commaList, punct_self]
  | one ts a h =>
    refine Ev.step ((he ts a hl h close rest (.inr rfl)).mono fun n e => ?_)
    obtain ⟨t, us', rfl, ht⟩ := hs ts a h
    rw [hstep]
    unfold commaList
    rw [List.cons_append, punct_ne _ ht]
    rw [List.cons_append] at e
    simp [e, afterElem, punct_self]
  | cons ts us a as h _ ih =>
    simp only [List.length_append, List.length_cons] at hl
    refine Ev.step (((he ts a (by omega) h .comma (us ++ .punct close :: rest) (.inl rfl)).and (ih (by omega))).mono fun n ⟨e, e'⟩ => ?_)
    obtain ⟨t, us', rfl, ht⟩ := hs ts a h
    rw [hstep]
    unfold commaList
    rw [List.append_assoc, List.cons_append, punct_ne _ ht]
    rw [List.cons_append] at e
    have hn : punct close (.punct .comma :: (us ++ .punct close :: rest)) = none := punct_ne _ (by simpa using Ne.symm hc)
    simp [e, e', afterElem, punct_self, hn]

/-! ## Paths and literals -/

theorem moreSegs_complete {ss : List String} {s : String} {ts us : List Tok} (h : IsSegs ts ss) (e : ts = .ident s :: us) (rest : List Tok)
    (hf : rest.head? ≠ some (.punct .colonColon)) : ∃ ss', ss = s :: ss' ∧ moreSegs (us ++ rest) = (ss', rest) := by
  induction h generalizing s us with
  | one s' =>
    cases e
    refine ⟨[], rfl, ?_⟩
    rw [List.nil_append]
    unfold moreSegs
    split
    · exact absurd rfl hf
    · rfl
  | cons s' ts ss h ih =>
    cases e
    obtain ⟨s'', ts', rfl⟩ := segs_start h
    obtain ⟨ss', rfl, e⟩ := ih rfl
    exact ⟨_, rfl, by simp [moreSegs, e]⟩

theorem pathSegs_complete {ts : List Tok} {ss : List String} (h : IsPath ts ss) (rest : List Tok)
    (hf : rest.head? ≠ some (.punct .colonColon)) : pathSegs (ts ++ rest) = some (ss, rest) := by
  cases h with
  | segs _ _ h =>
    obtain ⟨s, ts', rfl⟩ := segs_start h
    obtain ⟨ss', rfl, e⟩ := moreSegs_complete h rfl rest hf
    simp [pathSegs, e]
  | «global» _ _ h =>
    obtain ⟨s, ts', rfl⟩ := segs_start h
    obtain ⟨ss', rfl, e⟩ := moreSegs_complete h rfl rest hf
    simp [pathSegs, e]
  | crate _ _ h =>
    obtain ⟨ss', rfl, e⟩ := moreSegs_complete h rfl rest hf
    simp [pathSegs, e]
  | var s h => simp [pathSegs]

theorem literal_complete {t : Tok} {l : Lit} (h : IsLit t l) (rest : List Tok) : literal (t :: rest) = some (l, rest) := by
  cases h <;> rfl

theorem literal_none {t : Tok} (h : startsLit t = false) (rest : List Tok) : literal (t :: rest) = none := by
  unfold literal
  split <;> first | rfl | (rename_i e; cases e; done) | (rename_i e; cases e; cases h)

/-! ## What may follow -/

/-- Not one of these tokens is next. -/
def NotNext (l : List Tok) (rest : List Tok) : Prop := ∀ t ∈ l, rest.head? ≠ some t

theorem NotNext.cons {l : List Tok} {t : Tok} {ts : List Tok} (h : t ∉ l) : NotNext l (t :: ts) := by
  intro u hu e
  cases e
  exact h hu

/-- What may follow a type. -/
abbrev FollowTy (rest : List Tok) : Prop := NotNext [.punct .colonColon, .punct .lt] rest

/-- What may follow a pattern without `|`. -/
abbrev FollowSimplePat (rest : List Tok) : Prop := NotNext [.punct .colonColon, .punct .lparen, .punct .dotDotEq] rest

/-- What may follow a pattern. -/
abbrev FollowPat (rest : List Tok) : Prop := NotNext [.punct .colonColon, .punct .lparen, .punct .dotDotEq, .punct .or] rest

/-- What may follow an operand; with `false`, where a struct expression may be. -/
def FollowUnary (noStruct : Bool) (rest : List Tok) : Prop :=
  NotNext [.punct .colonColon, .punct .dot, .punct .lparen, .punct .lbrack, .kw .«else»] rest ∧
  (noStruct = false → rest.head? ≠ some (.punct .lbrace))

/-- What may follow an operand with its casts. -/
def FollowCast (noStruct endsCast : Bool) (rest : List Tok) : Prop :=
  FollowUnary noStruct rest ∧ rest.head? ≠ some (.kw .«as») ∧ (endsCast = true → rest.head? ≠ some (.punct .lt))

/-- What may follow operands joined by operators. -/
def FollowOperators (noStruct endsCast : Bool) (strength : Nat) (rest : List Tok) : Prop :=
  FollowCast noStruct endsCast rest ∧ ∀ op s ts', binOp rest = some (op, s, ts') → s < strength

/-- What follows an expression. -/
inductive FollowExpr : Bool → List Tok → Prop
  | comma (ts : List Tok) : FollowExpr false (.punct .comma :: ts)
  | semi (ts : List Tok) : FollowExpr false (.punct .semi :: ts)
  | rparen (ts : List Tok) : FollowExpr false (.punct .rparen :: ts)
  | rbrack (ts : List Tok) : FollowExpr false (.punct .rbrack :: ts)
  | rbrace (ts : List Tok) : FollowExpr false (.punct .rbrace :: ts)
  | lbrace (ts : List Tok) : FollowExpr true (.punct .lbrace :: ts)

/-- Phrases of fewer tokens than that are read. -/
structure Complete (L : Nat) : Prop where
  ty : ∀ us t, us.length < L → IsTy us t → ∀ rest, FollowTy rest → Ev fun n => (parsers n).ty (us ++ rest) = some (t, rest)
  pat : ∀ us p, us.length < L → IsPat us p → ∀ rest, FollowPat rest → Ev fun n => (parsers n).pat (us ++ rest) = some (p, rest)
  orPats : ∀ us p, us.length < L → IsAlternatives us p → ∀ rest, FollowPat rest → Ev fun n => (parsers n).orPats (us ++ rest) = some (p, rest)
  expr : ∀ b us e, us.length < L → IsExpr b us e → ∀ rest, FollowExpr b rest → Ev fun n => (parsers n).expr b (us ++ rest) = some (e, rest)
  operators : ∀ b g s us e, us.length < L → IsOperators b g s us e → ∀ rest, FollowOperators b g s rest →
    Ev fun n => (parsers n).operators b s (us ++ rest) = some (e, rest)
  unary : ∀ b us e, us.length < L → IsUnary b us e → ∀ rest, FollowUnary b rest → Ev fun n => (parsers n).unary b (us ++ rest) = some (e, rest)
  blockLike : ∀ us e, us.length < L → IsBlockLike us e → ∀ rest, rest.head? ≠ some (.kw .«else») →
    Ev fun n => (parsers n).blockLike (us ++ rest) = some (e, rest)
  stmts : ∀ us ss l, us.length < L → IsStmts us ss l → ∀ rest, Ev fun n => (parsers n).stmts (us ++ .punct .rbrace :: rest) = some ((ss, l), rest)
  arms : ∀ us as, us.length < L → IsArms us as → ∀ rest, Ev fun n => (parsers n).arms (us ++ .punct .rbrace :: rest) = some (as, rest)

/-! ## Types -/

theorem stepTy_path {r : Parsers} {t : Tok} (ht : startsPath t = true) (ts : List Tok) : stepTy r (t :: ts) = (do
    let (ss, ts) ← pathSegs (t :: ts)
    match ts with
    | .punct .lt :: ts => do
      let (l, ts) ← r.tyArgs ts
      return (.path ss (l.filterMap id), ts)
    | ts => return (.path ss [], ts)) := by
  unfold startsPath at ht
  split at ht
  · rfl
  · rfl
  · rfl
  · cases ht

theorem stepTy_ref {r : Parsers} {t : Tok} (ht : startsTy t = true) (ts : List Tok) : stepTy r (.punct .and :: t :: ts) = (do
    let (t, ts) ← r.ty (t :: ts)
    return (.ref false t, ts)) := by
  unfold startsTy startsPath at ht
  repeat' split at ht
  all_goals first | rfl | cases ht

theorem stepTy_refLifetime {r : Parsers} {t : Tok} (ht : startsTy t = true) (ts : List Tok) :
    stepTy r (.punct .and :: .lifetime :: t :: ts) = (do
    let (t, ts) ← r.ty (t :: ts)
    return (.ref false t, ts)) := by
  unfold startsTy startsPath at ht
  repeat' split at ht
  all_goals first | rfl | cases ht

theorem stepTy_paren {r : Parsers} {t : Tok} (ht : startsTy t = true) (ts : List Tok) : stepTy r (.punct .lparen :: t :: ts) = (do
    let (t, ts) ← r.ty (t :: ts)
    match ts with
    | .punct .rparen :: ts => return (t, ts)
    | .punct .comma :: ts => do
      let (l, ts) ← r.tys ts
      return (.tuple (t :: l), ts)
    | _ => none) := by
  unfold startsTy startsPath at ht
  repeat' split at ht
  all_goals first | rfl | cases ht

section
variable {L : Nat} (ih : Complete L)
include ih

theorem tys_complete {us : List Tok} {l : List Ty} (hl : us.length < L) (h : Separated IsTy us l) (rest : List Tok) :
    Ev fun n => (parsers n).tys (us ++ .punct .rparen :: rest) = some (l, rest) :=
  separated_complete (K := us.length) (elem := fun n => (parsers n).ty) (by decide) (fun _ => rfl)
    (fun us a h => by obtain ⟨t, us', rfl, ht⟩ := ty_start h; exact ⟨t, us', rfl, by rintro rfl; cases ht⟩)
    (fun vs a hv h q rest hq => ih.ty _ _ (by omega) h _ (.cons (by rcases hq with rfl | rfl <;> decide))) (Nat.le_refl _) h rest

theorem tyArgs_complete {us : List Tok} {l : List (Option Ty)} (hl : us.length < L) (h : Separated IsTyArg us l) (rest : List Tok) :
    Ev fun n => (parsers n).tyArgs (us ++ .punct .gt :: rest) = some (l, rest) := by
  refine separated_complete (K := us.length) (elem := fun n => tyArg (parsers n)) (by decide) (fun _ => rfl) (fun us a h => ?_)
    (fun vs a hv h q rest hq => ?_) (Nat.le_refl _) h rest
  · cases h with
    | lifetime => exact ⟨_, _, rfl, by simp⟩
    | ty _ _ h => obtain ⟨t, us', rfl, ht⟩ := ty_start h; exact ⟨t, us', rfl, by rintro rfl; cases ht⟩
  · cases h with
    | lifetime => exact Ev.of fun n => rfl
    | ty _ _ h =>
      refine (ih.ty _ _ (by omega) h (.punct q :: rest) (.cons (by rcases hq with rfl | rfl <;> decide))).mono fun n e => ?_
      obtain ⟨t, us', rfl, ht⟩ := ty_start h
      rw [List.cons_append] at e ⊢
      unfold tyArg
      split
      · rename_i e'
        cases e'
        cases ht
      · simp [e]

theorem ty_complete {us : List Tok} {t : Ty} (hl : us.length ≤ L) (h : IsTy us t) (rest : List Tok) (hf : FollowTy rest) :
    Ev fun n => (parsers n).ty (us ++ rest) = some (t, rest) := by
  have hf1 := hf (.punct .colonColon) (by simp)
  have hf2 := hf (.punct .lt) (by simp)
  cases h with
  | path _ ss h =>
    refine Ev.step (Ev.of fun n => ?_)
    rw [parsers_ty]
    have e := pathSegs_complete h rest hf1
    obtain ⟨t, us', rfl, ht⟩ := path_start h
    rw [List.cons_append] at e ⊢
    rw [stepTy_path ht, e]
    simp only [Option.bind_eq_bind, Option.bind_some]
    split
    · exact absurd rfl hf2
    · rfl
  | generic ts vs ss l h hl' =>
    simp only [List.length_append, List.length_cons, List.length_nil] at hl
    refine Ev.step ((tyArgs_complete ih (by omega) hl' rest).mono fun n e1 => ?_)
    rw [parsers_ty]
    have e := pathSegs_complete h (.punct .lt :: (vs ++ .punct .gt :: rest)) (by simp)
    rw [show ts ++ Tok.punct .lt :: vs ++ [Tok.punct .gt] ++ rest = ts ++ .punct .lt :: (vs ++ .punct .gt :: rest) by simp]
    obtain ⟨t, us', rfl, ht⟩ := path_start h
    rw [List.cons_append] at e ⊢
    rw [stepTy_path ht, e]
    simp [e1]
  | ref ts t h =>
    refine Ev.step ((ih.ty ts t (by simp at hl; omega) h rest hf).mono fun n e => ?_)
    rw [parsers_ty]
    obtain ⟨t, us', rfl, ht⟩ := ty_start h
    simp only [List.cons_append] at e ⊢
    rw [stepTy_ref ht, e]
    rfl
  | refMut ts t h =>
    refine Ev.step ((ih.ty ts t (by simp at hl; omega) h rest hf).mono fun n e => ?_)
    rw [parsers_ty]
    simp [stepTy, e]
  | refLifetime ts t h =>
    refine Ev.step ((ih.ty ts t (by simp at hl; omega) h rest hf).mono fun n e => ?_)
    rw [parsers_ty]
    obtain ⟨t, us', rfl, ht⟩ := ty_start h
    simp only [List.cons_append] at e ⊢
    rw [stepTy_refLifetime ht, e]
    rfl
  | refLifetimeMut ts t h =>
    refine Ev.step ((ih.ty ts t (by simp at hl; omega) h rest hf).mono fun n e => ?_)
    rw [parsers_ty]
    simp [stepTy, e]
  | slice ts t h =>
    refine Ev.step ((ih.ty ts t (by simp at hl; omega) h (.punct .rbrack :: rest) (.cons (by decide))).mono fun n e => ?_)
    rw [parsers_ty]
    simp [stepTy, e]
  | array ts t k s h =>
    refine Ev.step ((ih.ty ts t (by simp at hl; omega) h (.punct .semi :: .int k s :: .punct .rbrack :: rest) (.cons (by simp))).mono fun n e => ?_)
    rw [parsers_ty]
    simp [stepTy, e]
  | unit => exact Ev.step (Ev.of fun n => rfl)
  | paren ts t h =>
    refine Ev.step ((ih.ty ts t (by simp at hl; omega) h (.punct .rparen :: rest) (.cons (by decide))).mono fun n e => ?_)
    rw [parsers_ty]
    obtain ⟨u, us', rfl, ht⟩ := ty_start h
    simp only [List.cons_append, List.append_assoc, List.nil_append] at e ⊢
    rw [stepTy_paren ht, e]
    rfl
  | tuple ts vs t l h hl' =>
    simp only [List.length_append, List.length_cons, List.length_nil] at hl
    refine Ev.step (((ih.ty ts t (by omega) h (.punct .comma :: (vs ++ .punct .rparen :: rest)) (.cons (by decide))).and
      (tys_complete ih (by omega) hl' rest)).mono fun n ⟨e, e'⟩ => ?_)
    rw [parsers_ty]
    obtain ⟨u, us', rfl, ht⟩ := ty_start h
    simp only [List.cons_append, List.append_assoc, List.nil_append] at e ⊢
    rw [stepTy_paren ht, e]
    simp [e']
  | fnMut ts vs l t hl' h =>
    simp only [List.length_append, List.length_cons] at hl
    refine Ev.step (((ih.ty vs t (by omega) h rest hf).and (tys_complete ih (by omega) hl' (.punct .arrow :: (vs ++ rest)))).mono
      fun n ⟨e, e'⟩ => ?_)
    rw [parsers_ty]
    simp [stepTy, e, e', punct_self]

/-! ## Patterns -/

omit ih in
theorem simplePat_paren {r : Parsers} {t : Tok} (ht : startsPat t = true) (ts : List Tok) : simplePat r (.punct .lparen :: t :: ts) = (do
    let (p, ts) ← r.pat (t :: ts)
    match ts with
    | .punct .rparen :: ts => return (p, ts)
    | .punct .comma :: ts => do
      let (ps, ts) ← r.pats ts
      return (.tuple (p :: ps), ts)
    | _ => none) := by
  cases t with
  | punct q => cases q <;> first | rfl | cases ht
  | _ => rfl

omit ih in
theorem simplePat_path {r : Parsers} {t : Tok} (ht : startsPath t = true) (ts : List Tok) : simplePat r (t :: ts) = (do
    let (ss, ts) ← pathSegs (t :: ts)
    match ts with
    | .punct .lparen :: ts => do
      let (ps, ts) ← r.pats ts
      return (.ctor ss ps, ts)
    | ts => return (.path ss, ts)) := by
  unfold startsPath at ht
  split at ht
  · rfl
  · rfl
  · rfl
  · cases ht

theorem pats_complete {us : List Tok} {l : List Pat} (hl : us.length < L) (h : Separated IsPat us l) (rest : List Tok) :
    Ev fun n => (parsers n).pats (us ++ .punct .rparen :: rest) = some (l, rest) :=
  separated_complete (K := us.length) (elem := fun n => (parsers n).pat) (by decide) (fun _ => rfl)
    (fun us a h => by obtain ⟨t, us', rfl, ht⟩ := pat_start h; exact ⟨t, us', rfl, by rintro rfl; cases ht⟩)
    (fun vs a hv h q rest hq => ih.pat _ _ (by omega) h _ (.cons (by rcases hq with rfl | rfl <;> decide))) (Nat.le_refl _) h rest

theorem simplePat_complete {us : List Tok} {p : Pat} (hl : us.length ≤ L) (h : IsSimplePat us p) (rest : List Tok) (hf : FollowSimplePat rest) :
    Ev fun n => simplePat (parsers n) (us ++ rest) = some (p, rest) := by
  have hf1 := hf (.punct .colonColon) (by simp)
  have hf2 := hf (.punct .lparen) (by simp)
  have hf3 := hf (.punct .dotDotEq) (by simp)
  cases h with
  | wild => exact Ev.of fun n => rfl
  | lit t l h =>
    refine Ev.of fun n => ?_
    have e := literal_complete h rest
    rw [List.cons_append, List.nil_append]
    have : simplePat (parsers n) (t :: rest) = match literal (t :: rest) with
      | some (l, .punct .dotDotEq :: ts) => do
        let (h, ts) ← literal ts
        return (.range l h, ts)
      | some (l, ts) => some (.lit l, ts)
      | none => none := by cases h <;> rfl
    rw [this, e]
    split
    · rename_i e'
      cases e'
      exact absurd rfl hf3
    · rename_i e'
      cases e'
      rfl
    · rename_i e'
      cases e'
  | range t u l m h h' =>
    refine Ev.of fun n => ?_
    cases h <;> cases h' <;> rfl
  | path _ ss h =>
    refine Ev.of fun n => ?_
    have e := pathSegs_complete h rest hf1
    obtain ⟨t, us', rfl, ht⟩ := path_start h
    rw [List.cons_append] at e ⊢
    rw [simplePat_path ht, e]
    simp only [Option.bind_eq_bind, Option.bind_some]
    split
    · exact absurd rfl hf2
    · rfl
  | «mut» x => exact Ev.of fun n => rfl
  | ctor ts vs ss l h hl' =>
    simp only [List.length_append, List.length_cons, List.length_nil] at hl
    refine (pats_complete ih (by omega) hl' rest).mono fun n e1 => ?_
    have e := pathSegs_complete h (.punct .lparen :: (vs ++ .punct .rparen :: rest)) (by simp)
    rw [show ts ++ Tok.punct .lparen :: vs ++ [Tok.punct .rparen] ++ rest = ts ++ .punct .lparen :: (vs ++ .punct .rparen :: rest) by simp]
    obtain ⟨t, us', rfl, ht⟩ := path_start h
    rw [List.cons_append] at e ⊢
    rw [simplePat_path ht, e]
    simp [e1]
  | unit => exact Ev.of fun n => rfl
  | paren ts p h =>
    refine (ih.pat ts p (by simp at hl; omega) h (.punct .rparen :: rest) (.cons (by decide))).mono fun n e => ?_
    obtain ⟨u, us', rfl, ht⟩ := pat_start h
    simp only [List.cons_append, List.append_assoc, List.nil_append] at e ⊢
    rw [simplePat_paren ht, e]
    rfl
  | tuple ts vs p l h hl' =>
    simp only [List.length_append, List.length_cons, List.length_nil] at hl
    refine ((ih.pat ts p (by omega) h (.punct .comma :: (vs ++ .punct .rparen :: rest)) (.cons (by decide))).and
      (pats_complete ih (by omega) hl' rest)).mono fun n ⟨e, e'⟩ => ?_
    obtain ⟨u, us', rfl, ht⟩ := pat_start h
    simp only [List.cons_append, List.append_assoc, List.nil_append] at e ⊢
    rw [simplePat_paren ht, e]
    simp [e']

omit ih in
theorem followSimple {rest : List Tok} (h : FollowPat rest) : FollowSimplePat rest := fun t ht => h t (by
  simp only [List.mem_cons, List.not_mem_nil, or_false] at ht ⊢
  rcases ht with h | h | h <;> simp [h])

omit ih in
theorem alternatives_start {ts : List Tok} {ps : List Pat} (h : IsAlternatives ts ps) : ∃ ts', ts = .punct .or :: ts' := by
  cases h <;> exact ⟨_, rfl⟩

theorem pat_complete {us : List Tok} {p : Pat} (hl : us.length ≤ L) (h : IsPat us p) (rest : List Tok) (hf : FollowPat rest) :
    Ev fun n => (parsers n).pat (us ++ rest) = some (p, rest) := by
  have hf1 := hf (.punct .or) (by simp)
  cases h with
  | simple _ _ h =>
    refine Ev.step ((simplePat_complete ih hl h rest (followSimple hf)).mono fun n e => ?_)
    rw [parsers_pat]
    unfold stepPat
    rw [e]
    simp only [Option.bind_eq_bind, Option.bind_some]
    split
    · exact absurd rfl hf1
    · rfl
  | or ts vs p ps h h' =>
    obtain ⟨vs', rfl⟩ := alternatives_start h'
    obtain ⟨t, ts', e0, _⟩ := simplePat_start h
    have hlt := congrArg List.length e0
    simp only [List.length_append, List.length_cons] at hl hlt
    refine Ev.step (((simplePat_complete ih (by omega) h (.punct .or :: vs' ++ rest) (.cons (by decide))).and
      (ih.orPats _ _ (by simp only [List.length_cons]; omega) h' rest hf)).mono fun n ⟨e, e'⟩ => ?_)
    rw [parsers_pat]
    unfold stepPat
    rw [List.append_assoc, e]
    simp only [List.cons_append] at e' ⊢
    simp [e']

theorem orPats_complete {us : List Tok} {ps : List Pat} (hl : us.length ≤ L) (h : IsAlternatives us ps) (rest : List Tok) (hf : FollowPat rest) :
    Ev fun n => (parsers n).orPats (us ++ rest) = some (ps, rest) := by
  have hf1 := hf (.punct .or) (by simp)
  cases h with
  | one ts _ h =>
    refine Ev.step ((simplePat_complete ih (by simp at hl; omega) h rest (followSimple hf)).mono fun n e => ?_)
    rw [parsers_orPats]
    unfold stepOrPats
    rw [List.cons_append, punct_self]
    simp only [Option.bind_eq_bind, Option.bind_some, e]
    split
    · exact absurd rfl hf1
    · rfl
  | cons ts vs p ps h h' =>
    obtain ⟨vs', rfl⟩ := alternatives_start h'
    simp only [List.length_append, List.length_cons] at hl
    refine Ev.step (((simplePat_complete ih (by omega) h (.punct .or :: vs' ++ rest) (.cons (by decide))).and
      (ih.orPats _ _ (by simp only [List.length_cons]; omega) h' rest hf)).mono fun n ⟨e, e'⟩ => ?_)
    rw [parsers_orPats]
    unfold stepOrPats
    rw [List.append_assoc, List.cons_append, punct_self]
    simp only [List.cons_append] at e e' ⊢
    simp [e, e']

/-! ## How expressions begin -/

/-- Operands. -/
def startsPrimary : Tok → Bool
  | .ident _ | .int .. | .char _ | .byte _ | .str _ | .bstr _ => true
  | .kw .«true» | .kw .«false» | .kw .«unsafe» | .kw .«if» | .kw .«match» | .kw .«loop» | .kw .«while» | .kw .«for» | .kw .«matches»
  | .kw .«panic» => true
  | .punct .lparen | .punct .lbrack | .punct .lbrace | .punct .colonColon | .punct .dollar => true
  | _ => false

/-- Operands with prefixes. -/
def startsOperand : Tok → Bool
  | .punct .and | .punct .star | .punct .not => true
  | t => startsPrimary t

def startsExpr : Tok → Bool
  | .punct .dotDot | .punct .or | .kw .«return» | .kw .«break» => true
  | t => startsOperand t

omit ih in
theorem startsOperand_of {t : Tok} (h : startsPrimary t = true) : startsOperand t = true := by
  unfold startsOperand
  split <;> simp [h]

omit ih in
theorem startsExpr_of {t : Tok} (h : startsOperand t = true) : startsExpr t = true := by
  unfold startsExpr
  split <;> simp [h]

omit ih in
theorem startsPrimary_of {t : Tok} (h : startsPath t = true ∨ startsLit t = true) : startsPrimary t = true := by
  rcases h with h | h
  · unfold startsPath at h
    split at h <;> first | rfl | cases h
  · unfold startsLit at h
    split at h <;> first | rfl | cases h

omit ih in
theorem block_start {us : List Tok} {e : Expr} (h : IsBlock us e) : ∃ us', us = .punct .lbrace :: us' := by
  cases h; exact ⟨_, rfl⟩

omit ih in
theorem blockLike_start {us : List Tok} {e : Expr} (h : IsBlockLike us e) :
    ∃ t us', us = t :: us' ∧ BeginsBlock t := by
  cases h with
  | block _ _ h => obtain ⟨us', rfl⟩ := block_start h; exact ⟨_, _, rfl, by simp [BeginsBlock]⟩
  | _ => exact ⟨_, _, rfl, by simp [BeginsBlock]⟩

omit ih in
theorem startsPrimary_block {t : Tok} (h : BeginsBlock t) : startsPrimary t = true := by
  simp only [BeginsBlock, List.mem_cons, List.not_mem_nil, or_false] at h
  rcases h with rfl | rfl | rfl | rfl | rfl | rfl | rfl <;> rfl

omit ih in
theorem startsBlockLike_block {t : Tok} (h : BeginsBlock t) (ts : List Tok) : startsBlockLike (t :: ts) = true := by
  simp only [BeginsBlock, List.mem_cons, List.not_mem_nil, or_false] at h
  rcases h with rfl | rfl | rfl | rfl | rfl | rfl | rfl <;> rfl

omit ih in
theorem not_startsBlockLike {t : Tok} (h : ¬ BeginsBlock t) (ts : List Tok) : startsBlockLike (t :: ts) = false := by
  unfold startsBlockLike
  split <;> first | rfl | (rename_i e; cases e; exact absurd (by simp [BeginsBlock]) h)

omit ih in
theorem primary_start {b : Bool} {us : List Tok} {e : Expr} (h : IsPrimary b us e) : ∃ t us', us = t :: us' ∧ startsPrimary t = true := by
  cases h with
  | block _ _ _ h => obtain ⟨t, us', rfl, k⟩ := blockLike_start h; exact ⟨_, _, rfl, startsPrimary_block k⟩
  | lit _ _ _ h => exact ⟨_, _, rfl, startsPrimary_of (.inr (lit_start h))⟩
  | path _ _ _ h => obtain ⟨t, us', rfl, k⟩ := path_start h; exact ⟨_, _, rfl, startsPrimary_of (.inl k)⟩
  | struct _ _ _ _ h => obtain ⟨t, us', rfl, k⟩ := path_start h; exact ⟨_, _, rfl, startsPrimary_of (.inl k)⟩
  | _ => exact ⟨_, _, rfl, rfl⟩

omit ih in
theorem postfix_start {b : Bool} {us : List Tok} {e : Expr} (h : IsPostfix b us e) : ∃ t us', us = t :: us' ∧ startsPrimary t = true := by
  match h with
  | .primary _ _ _ h => exact primary_start h
  | .method _ _ _ _ _ _ h _ => obtain ⟨t, us', rfl, k⟩ := postfix_start h; exact ⟨_, _, rfl, k⟩
  | .field _ _ _ _ h => obtain ⟨t, us', rfl, k⟩ := postfix_start h; exact ⟨_, _, rfl, k⟩
  | .field0 _ _ _ _ h => obtain ⟨t, us', rfl, k⟩ := postfix_start h; exact ⟨_, _, rfl, k⟩
  | .call _ _ _ _ _ h _ _ => obtain ⟨t, us', rfl, k⟩ := postfix_start h; exact ⟨_, _, rfl, k⟩
  | .index _ _ _ _ _ h _ => obtain ⟨t, us', rfl, k⟩ := postfix_start h; exact ⟨_, _, rfl, k⟩

omit ih in
theorem unary_start {b : Bool} {us : List Tok} {e : Expr} (h : IsUnary b us e) : ∃ t us', us = t :: us' ∧ startsOperand t = true := by
  cases h with
  | «postfix» _ _ _ h => obtain ⟨t, us', rfl, k⟩ := postfix_start h; exact ⟨_, _, rfl, startsOperand_of k⟩
  | _ => exact ⟨_, _, rfl, rfl⟩

omit ih in
theorem cast_start {b g : Bool} {us : List Tok} {e : Expr} (h : IsCast b g us e) : ∃ t us', us = t :: us' ∧ startsOperand t = true := by
  match h with
  | .unary _ _ _ h => exact unary_start h
  | .cast _ _ _ _ _ _ h _ => obtain ⟨t, us', rfl, k⟩ := cast_start h; exact ⟨_, _, rfl, k⟩

omit ih in
theorem operators_start {b g : Bool} {s : Nat} {us : List Tok} {e : Expr} (h : IsOperators b g s us e) :
    ∃ t us', us = t :: us' ∧ startsOperand t = true := by
  match h with
  | .cast _ _ _ _ _ h => exact cast_start h
  | .bin _ _ _ _ _ _ _ _ _ _ _ _ _ _ h _ => obtain ⟨t, us', rfl, k⟩ := operators_start h; exact ⟨_, _, rfl, k⟩

omit ih in
theorem expr_start {b : Bool} {us : List Tok} {e : Expr} (h : IsExpr b us e) : ∃ t us', us = t :: us' ∧ startsExpr t = true := by
  cases h with
  | operators _ _ _ _ h => obtain ⟨t, us', rfl, k⟩ := operators_start h; exact ⟨_, _, rfl, startsExpr_of k⟩
  | range _ _ _ _ _ _ _ h => obtain ⟨t, us', rfl, k⟩ := operators_start h; exact ⟨_, _, rfl, startsExpr_of k⟩
  | rangeFrom _ _ _ _ h => obtain ⟨t, us', rfl, k⟩ := operators_start h; exact ⟨_, _, rfl, startsExpr_of k⟩
  | assign _ _ _ _ _ _ h => obtain ⟨t, us', rfl, k⟩ := operators_start h; exact ⟨_, _, rfl, startsExpr_of k⟩
  | addAssign _ _ _ _ _ _ h => obtain ⟨t, us', rfl, k⟩ := operators_start h; exact ⟨_, _, rfl, startsExpr_of k⟩
  | subAssign _ _ _ _ _ _ h => obtain ⟨t, us', rfl, k⟩ := operators_start h; exact ⟨_, _, rfl, startsExpr_of k⟩
  | _ => exact ⟨_, _, rfl, rfl⟩

omit ih in
theorem not_atEnd {t : Tok} (h : startsExpr t = true) (ts : List Tok) : atEnd (t :: ts) = false := by
  unfold atEnd
  split <;> first | rfl | (rename_i e; cases e; done) | (rename_i e; cases e; cases h)

/-! ## Lists of expressions -/

theorem args_complete {us : List Tok} {l : List Expr} (hl : us.length < L) (h : Separated (IsExpr false) us l) (rest : List Tok) :
    Ev fun n => (parsers n).args (us ++ .punct .rparen :: rest) = some (l, rest) :=
  separated_complete (K := us.length) (elem := fun n => (parsers n).expr false) (by decide) (fun _ => rfl)
    (fun us a h => by obtain ⟨t, us', rfl, ht⟩ := expr_start h; exact ⟨t, us', rfl, by rintro rfl; cases ht⟩)
    (fun vs a hv h q rest hq => ih.expr _ _ _ (by omega) h _ (by rcases hq with rfl | rfl <;> constructor)) (Nat.le_refl _) h rest

theorem elems_complete {us : List Tok} {l : List Expr} (hl : us.length < L) (h : Separated (IsExpr false) us l) (rest : List Tok) :
    Ev fun n => (parsers n).elems (us ++ .punct .rbrack :: rest) = some (l, rest) :=
  separated_complete (K := us.length) (elem := fun n => (parsers n).expr false) (by decide) (fun _ => rfl)
    (fun us a h => by obtain ⟨t, us', rfl, ht⟩ := expr_start h; exact ⟨t, us', rfl, by rintro rfl; cases ht⟩)
    (fun vs a hv h q rest hq => ih.expr _ _ _ (by omega) h _ (by rcases hq with rfl | rfl <;> constructor)) (Nat.le_refl _) h rest

theorem fields_complete {us : List Tok} {l : List Field} (hl : us.length < L) (h : Separated IsField us l) (rest : List Tok) :
    Ev fun n => (parsers n).fields (us ++ .punct .rbrace :: rest) = some (l, rest) := by
  refine separated_complete (K := us.length) (elem := fun n => fieldExpr (parsers n)) (by decide) (fun _ => rfl) (fun us a h => ?_)
    (fun vs a hv h q rest hq => ?_) (Nat.le_refl _) h rest
  · cases h <;> exact ⟨_, _, rfl, by simp⟩
  · cases h with
    | value f ts e h =>
      simp only [List.length_cons] at hv
      refine (ih.expr _ _ _ (by omega) h (.punct q :: rest) (by rcases hq with rfl | rfl <;> constructor)).mono fun n e => ?_
      simp [fieldExpr, e]
    | short f => exact Ev.of fun n => by rcases hq with rfl | rfl <;> rfl

theorem closureParams_complete {us : List Tok} {l : List Pat} (hl : us.length ≤ L) (h : Separated IsSimplePat us l) (rest : List Tok) :
    Ev fun n => (parsers n).closureParams (us ++ .punct .or :: rest) = some (l, rest) :=
  separated_complete (K := us.length) (elem := fun n => simplePat (parsers n)) (by decide) (fun _ => rfl)
    (fun us a h => by obtain ⟨t, us', rfl, ht⟩ := simplePat_start h; exact ⟨t, us', rfl, by rintro rfl; cases ht⟩)
    (fun vs a hv h q rest hq => simplePat_complete ih (by omega) h _ (.cons (by rcases hq with rfl | rfl <;> decide))) (Nat.le_refl _) h rest

/-! ## Blocks -/

theorem blockExpr_complete {us : List Tok} {e : Expr} (hl : us.length ≤ L) (h : IsBlock us e) (rest : List Tok) :
    Ev fun n => blockExpr (parsers n) (us ++ rest) = some (e, rest) := by
  cases h with
  | mk ts ss l h =>
    simp only [List.length_append, List.length_cons, List.length_nil] at hl
    refine (ih.stmts ts ss l (by omega) h rest).mono fun n e => ?_
    simp [blockExpr, blockAfter, punct_self, e]

theorem blockLike_complete {us : List Tok} {e : Expr} (hl : us.length ≤ L) (h : IsBlockLike us e) (rest : List Tok)
    (hf : rest.head? ≠ some (.kw .«else»)) : Ev fun n => (parsers n).blockLike (us ++ rest) = some (e, rest) := by
  cases h with
  | block _ _ h =>
    refine Ev.step ((blockExpr_complete ih hl h rest).mono fun n e => ?_)
    rw [parsers_blockLike]
    obtain ⟨us', rfl⟩ := block_start h
    rw [List.cons_append] at e ⊢
    unfold blockExpr at e
    rw [punct_self] at e
    exact e
  | «unsafe» ts _ h =>
    refine Ev.step ((blockExpr_complete ih (by simp at hl; omega) h rest).mono fun n e => ?_)
    rw [parsers_blockLike]
    exact e
  | «if» ts vs c t hc ht =>
    simp only [List.length_append, List.length_cons] at hl
    obtain ⟨vs', rfl⟩ := block_start ht
    refine Ev.step (((ih.expr _ _ _ (by omega) hc (.punct .lbrace :: vs' ++ rest) (.lbrace _)).and
      (blockExpr_complete ih (by omega) ht rest)).mono fun n ⟨e, e'⟩ => ?_)
    rw [parsers_blockLike]
    simp only [List.cons_append, List.append_assoc] at e e' ⊢
    unfold stepBlockLike
    simp only [e, e', Option.bind_eq_bind, Option.bind_some]
    split
    · exact absurd rfl hf
    · exact absurd rfl hf
    · rfl
  | ifElse ts vs ws c t e hc ht he =>
    simp only [List.length_append, List.length_cons] at hl
    obtain ⟨vs', rfl⟩ := block_start ht
    obtain ⟨ws', rfl⟩ := block_start he
    refine Ev.step (((ih.expr _ _ _ (by omega) hc (.punct .lbrace :: vs' ++ (.kw .«else» :: .punct .lbrace :: ws' ++ rest)) (.lbrace _)).and
      ((blockExpr_complete ih (by omega) ht (.kw .«else» :: .punct .lbrace :: ws' ++ rest)).and
      (blockExpr_complete ih (by omega) he rest))).mono fun n ⟨e, e', e''⟩ => ?_)
    rw [parsers_blockLike]
    simp only [List.cons_append, List.append_assoc] at e e' e'' ⊢
    unfold stepBlockLike
    simp [e, e', e'']
  | ifElseIf ts vs ws c t e hc ht he =>
    simp only [List.length_append, List.length_cons] at hl
    obtain ⟨vs', rfl⟩ := block_start ht
    refine Ev.step (((ih.expr _ _ _ (by omega) hc (.punct .lbrace :: vs' ++ (.kw .«else» :: .kw .«if» :: ws ++ rest)) (.lbrace _)).and
      ((blockExpr_complete ih (by omega) ht (.kw .«else» :: .kw .«if» :: ws ++ rest)).and
      (ih.blockLike (.kw .«if» :: ws) _ (by simp only [List.length_cons]; omega) he rest hf))).mono fun n ⟨e, e', e''⟩ => ?_)
    rw [parsers_blockLike]
    simp only [List.cons_append, List.append_assoc] at e e' e'' ⊢
    unfold stepBlockLike
    simp [e, e', e'']
  | «match» ts vs c as h ha =>
    simp only [List.length_append, List.length_cons, List.length_nil] at hl
    refine Ev.step (((ih.expr _ _ _ (by omega) h (.punct .lbrace :: (vs ++ .punct .rbrace :: rest)) (.lbrace _)).and
      (ih.arms _ _ (by omega) ha rest)).mono fun n ⟨e, e'⟩ => ?_)
    rw [parsers_blockLike]
    unfold stepBlockLike
    simp [e, e', punct_self]
  | loop ts _ h =>
    refine Ev.step ((blockExpr_complete ih (by simp at hl; omega) h rest).mono fun n e => ?_)
    rw [parsers_blockLike]
    unfold stepBlockLike
    simp [e]
  | «while» ts vs c t hc ht =>
    simp only [List.length_append, List.length_cons] at hl
    obtain ⟨vs', rfl⟩ := block_start ht
    refine Ev.step (((ih.expr _ _ _ (by omega) hc (.punct .lbrace :: vs' ++ rest) (.lbrace _)).and
      (blockExpr_complete ih (by omega) ht rest)).mono fun n ⟨e, e'⟩ => ?_)
    rw [parsers_blockLike]
    simp only [List.cons_append, List.append_assoc] at e e' ⊢
    unfold stepBlockLike
    simp [e, e']
  | «for» ts vs x c t hc ht =>
    simp only [List.length_append, List.length_cons] at hl
    obtain ⟨vs', rfl⟩ := block_start ht
    refine Ev.step (((ih.expr _ _ _ (by omega) hc (.punct .lbrace :: vs' ++ rest) (.lbrace _)).and
      (blockExpr_complete ih (by omega) ht rest)).mono fun n ⟨e, e'⟩ => ?_)
    rw [parsers_blockLike]
    simp only [List.cons_append, List.append_assoc] at e e' ⊢
    unfold stepBlockLike
    simp [e, e']

/-! ## Operands -/

/-- What may follow an operand to which calls, fields and indices may be added. -/
def FollowPostfix (noStruct : Bool) (rest : List Tok) : Prop :=
  NotNext [.punct .colonColon, .kw .«else»] rest ∧ (noStruct = false → rest.head? ≠ some (.punct .lbrace))

omit ih in
theorem primary_paren {r : Parsers} {b : Bool} {t : Tok} (ht : startsExpr t = true) (ts : List Tok) : primary r b (.punct .lparen :: t :: ts) = (do
    let (e, ts) ← r.expr false (t :: ts)
    match ts with
    | .punct .rparen :: ts => return (e, ts)
    | .punct .comma :: ts => do
      let (es, ts) ← r.args ts
      return (.tuple (e :: es), ts)
    | _ => none) := by
  cases t with
  | punct q => cases q <;> first | rfl | cases ht
  | _ => rfl

omit ih in
theorem primary_path {r : Parsers} {b : Bool} {t : Tok} (ht : startsPath t = true) (ts : List Tok) : primary r b (t :: ts) = (do
    let (ss, ts) ← pathSegs (t :: ts)
    match b, ts with
    | false, .punct .lbrace :: ts => do
      let (fs, ts) ← r.fields ts
      return (.struct ss fs, ts)
    | _, ts => return (.path ss, ts)) := by
  unfold startsPath at ht
  split at ht
  · rfl
  · rfl
  · rfl
  · cases ht

theorem primary_complete {b : Bool} {us : List Tok} {e : Expr} (hl : us.length ≤ L) (h : IsPrimary b us e) (rest : List Tok)
    (hf : FollowPostfix b rest) : Ev fun n => primary (parsers n) b (us ++ rest) = some (e, rest) := by
  have hf1 := hf.1 (.punct .colonColon) (by simp)
  have hf2 := hf.1 (.kw .«else») (by simp)
  cases h with
  | block _ _ _ h =>
    refine (blockLike_complete ih hl h rest hf2).mono fun n e => ?_
    obtain ⟨t, us', rfl, k⟩ := blockLike_start h
    rw [List.cons_append] at e ⊢
    unfold primary
    rw [if_pos (startsBlockLike_block k _), e]
  | lit _ t l h =>
    refine Ev.of fun n => ?_
    cases h <;> rfl
  | path _ _ ss h =>
    refine Ev.of fun n => ?_
    have e := pathSegs_complete h rest hf1
    obtain ⟨t, us', rfl, ht⟩ := path_start h
    rw [List.cons_append] at e ⊢
    rw [primary_path ht, e]
    simp only [Option.bind_eq_bind, Option.bind_some]
    split
    · exact absurd rfl (hf.2 rfl)
    · rfl
  | struct ts vs ss fs h hl' =>
    simp only [List.length_append, List.length_cons, List.length_nil] at hl
    refine (fields_complete ih (by omega) hl' rest).mono fun n e1 => ?_
    have e := pathSegs_complete h (.punct .lbrace :: (vs ++ .punct .rbrace :: rest)) (by simp)
    rw [show ts ++ Tok.punct .lbrace :: vs ++ [Tok.punct .rbrace] ++ rest = ts ++ .punct .lbrace :: (vs ++ .punct .rbrace :: rest) by simp]
    obtain ⟨t, us', rfl, ht⟩ := path_start h
    rw [List.cons_append] at e ⊢
    rw [primary_path ht, e]
    simp [e1]
  | unit => exact Ev.of fun n => rfl
  | paren _ ts e h =>
    refine (ih.expr _ _ _ (by simp at hl; omega) h (.punct .rparen :: rest) (.rparen _)).mono fun n e => ?_
    obtain ⟨u, us', rfl, ht⟩ := expr_start h
    simp only [List.cons_append, List.append_assoc, List.nil_append] at e ⊢
    rw [primary_paren ht, e]
    rfl
  | tuple _ ts vs e l h hl' =>
    simp only [List.length_append, List.length_cons, List.length_nil] at hl
    refine ((ih.expr _ _ _ (by omega) h (.punct .comma :: (vs ++ .punct .rparen :: rest)) (.comma _)).and
      (args_complete ih (by omega) hl' rest)).mono fun n ⟨e, e'⟩ => ?_
    obtain ⟨u, us', rfl, ht⟩ := expr_start h
    simp only [List.cons_append, List.append_assoc, List.nil_append] at e ⊢
    rw [primary_paren ht, e]
    simp [e']
  | array _ ts es h =>
    refine (elems_complete ih (by simp at hl; omega) h rest).mono fun n e => ?_
    simp [primary, startsBlockLike, e]
  | «matches» _ ts vs e p h hp =>
    simp only [List.length_append, List.length_cons, List.length_nil] at hl
    refine ((ih.expr _ _ _ (by omega) h (.punct .comma :: (vs ++ .punct .rparen :: rest)) (.comma _)).and
      (ih.pat _ _ (by omega) hp (.punct .rparen :: rest) (.cons (by decide)))).mono fun n ⟨e, e'⟩ => ?_
    simp [primary, startsBlockLike, e, e', punct_self]
  | panic => exact Ev.of fun n => rfl

omit ih in
theorem stepUnary_primary {r : Parsers} {b : Bool} {t : Tok} (ht : startsPrimary t = true) (ts : List Tok) : stepUnary r b (t :: ts) = (do
    let (e, ts) ← primary r b (t :: ts)
    r.trailing e ts) := by
  cases t with
  | punct q => cases q <;> first | rfl | cases ht
  | _ => rfl

omit ih in
theorem followPostfix_cons {b : Bool} {t : Tok} {ts : List Tok} (h : t ∉ [.punct .colonColon, .kw .«else», .punct .lbrace]) :
    FollowPostfix b (t :: ts) := by
  simp only [List.mem_cons, List.not_mem_nil, or_false, not_or] at h
  exact ⟨.cons (by simp [h]), fun _ e => h.2.2 (by simpa using e)⟩

omit ih in
theorem stepTrailing_field {r : Parsers} {a : Expr} {f : String} {rest : List Tok} (h : ∀ us, rest ≠ .punct .lparen :: us) :
    stepTrailing r a (.punct .dot :: .ident f :: rest) = r.trailing (.field a f) rest := by
  cases rest with
  | nil => rfl
  | cons t ts =>
    cases t with
    | punct q => cases q <;> first | rfl | exact absurd rfl (h _)
    | _ => rfl

theorem postfix_complete {b : Bool} {us : List Tok} {e : Expr} (hl : us.length ≤ L) (h : IsPostfix b us e) (rest : List Tok)
    (hf : FollowPostfix b rest) (hn : NotMethod us rest) :
    ∃ k, Ev fun n => (parsers (n + k)).unary b (us ++ rest) = (parsers n).trailing e rest := by
  match h with
  | .primary _ _ _ h =>
    refine ⟨1, (primary_complete ih hl h rest hf).mono fun n e => ?_⟩
    rw [parsers_unary]
    obtain ⟨t, us', rfl, ht⟩ := primary_start h
    rw [List.cons_append] at e ⊢
    rw [stepUnary_primary ht, e]
    rfl
  | .method _ ts vs a m es h ha =>
    simp only [List.length_append, List.length_cons, List.length_nil] at hl
    obtain ⟨k, hk⟩ := postfix_complete (by omega) h (.punct .dot :: .ident m :: .punct .lparen :: (vs ++ .punct .rparen :: rest))
      (followPostfix_cons (by simp)) (fun _ _ _ e => by cases e)
    refine ⟨k + 1, ?_⟩
    obtain ⟨N, hk⟩ := hk
    obtain ⟨M, hm⟩ := args_complete ih (by omega) ha rest
    refine ⟨max N M, fun n hle => ?_⟩
    have := hk (n + 1) (by omega)
    dsimp only at this ⊢
    rw [show n + (k + 1) = n + 1 + k by omega]
    simp only [List.cons_append, List.append_assoc, List.nil_append] at this ⊢
    rw [this, parsers_trailing]
    simp [stepTrailing, hm n (by omega)]
  | .field _ ts a f h =>
    simp only [List.length_append, List.length_cons, List.length_nil] at hl
    obtain ⟨k, hk⟩ := postfix_complete (by omega) h (.punct .dot :: .ident f :: rest)
      (followPostfix_cons (by simp)) (fun _ _ _ e => by cases e)
    refine ⟨k + 1, ?_⟩
    obtain ⟨N, hk⟩ := hk
    refine ⟨N, fun n hle => ?_⟩
    have := hk (n + 1) (by omega)
    dsimp only at this ⊢
    rw [show n + (k + 1) = n + 1 + k by omega]
    simp only [List.cons_append, List.append_assoc, List.nil_append] at this ⊢
    rw [this, parsers_trailing]
    have hne := hn f ⟨ts, rfl⟩
    exact stepTrailing_field hne
  | .field0 _ ts a s h =>
    simp only [List.length_append, List.length_cons, List.length_nil] at hl
    obtain ⟨k, hk⟩ := postfix_complete (by omega) h (.punct .dot :: .int 0 s :: rest)
      (followPostfix_cons (by simp)) (fun _ _ _ e => by cases e)
    refine ⟨k + 1, ?_⟩
    obtain ⟨N, hk⟩ := hk
    refine ⟨N, fun n hle => ?_⟩
    have := hk (n + 1) (by omega)
    dsimp only at this ⊢
    rw [show n + (k + 1) = n + 1 + k by omega]
    simp only [List.cons_append, List.append_assoc, List.nil_append] at this ⊢
    rw [this, parsers_trailing]
    rfl
  | .call _ ts vs a es h hc ha =>
    simp only [List.length_append, List.length_cons, List.length_nil] at hl
    obtain ⟨k, hk⟩ := postfix_complete (by omega) h (.punct .lparen :: (vs ++ .punct .rparen :: rest))
      (followPostfix_cons (by simp)) (fun f hs _ e => hc f hs)
    refine ⟨k + 1, ?_⟩
    obtain ⟨N, hk⟩ := hk
    obtain ⟨M, hm⟩ := args_complete ih (by omega) ha rest
    refine ⟨max N M, fun n hle => ?_⟩
    have := hk (n + 1) (by omega)
    dsimp only at this ⊢
    rw [show n + (k + 1) = n + 1 + k by omega]
    simp only [List.cons_append, List.append_assoc, List.nil_append] at this ⊢
    rw [this, parsers_trailing]
    simp [stepTrailing, hm n (by omega)]
  | .index _ ts vs a i h hi =>
    simp only [List.length_append, List.length_cons, List.length_nil] at hl
    obtain ⟨k, hk⟩ := postfix_complete (by omega) h (.punct .lbrack :: (vs ++ .punct .rbrack :: rest))
      (followPostfix_cons (by simp)) (fun _ _ _ e => by cases e)
    refine ⟨k + 1, ?_⟩
    obtain ⟨N, hk⟩ := hk
    obtain ⟨M, hm⟩ := ih.expr _ _ _ (by omega) hi (.punct .rbrack :: rest) (.rbrack _)
    refine ⟨max N M, fun n hle => ?_⟩
    have := hk (n + 1) (by omega)
    dsimp only at this ⊢
    rw [show n + (k + 1) = n + 1 + k by omega]
    simp only [List.cons_append, List.append_assoc, List.nil_append] at this ⊢
    rw [this, parsers_trailing]
    simp [stepTrailing, hm n (by omega), punct_self]

omit ih in
theorem followPostfix_of {b : Bool} {rest : List Tok} (h : FollowUnary b rest) : FollowPostfix b rest :=
  ⟨fun t ht => h.1 t (by
    simp only [List.mem_cons, List.not_mem_nil, or_false] at ht ⊢
    rcases ht with h | h <;> simp [h]), h.2⟩

omit ih in
theorem stepTrailing_end {r : Parsers} {e : Expr} {rest : List Tok} (h1 : rest.head? ≠ some (.punct .dot)) (h2 : rest.head? ≠ some (.punct .lparen))
    (h3 : rest.head? ≠ some (.punct .lbrack)) : stepTrailing r e rest = some (e, rest) := by
  cases rest with
  | nil => rfl
  | cons t ts =>
    cases t with
    | punct q => cases q <;> first | rfl | exact absurd rfl h1 | exact absurd rfl h2 | exact absurd rfl h3
    | _ => rfl

omit ih in
theorem stepUnary_ref {r : Parsers} {b : Bool} {t : Tok} (ht : startsOperand t = true) (ts : List Tok) :
    stepUnary r b (.punct .and :: t :: ts) = (do let (e, ts) ← r.unary b (t :: ts); return (.ref false e, ts)) := by
  cases t with
  | kw q => cases q <;> first | rfl | cases ht
  | _ => rfl

theorem unary_complete {b : Bool} {us : List Tok} {e : Expr} (hl : us.length ≤ L) (h : IsUnary b us e) (rest : List Tok)
    (hf : FollowUnary b rest) : Ev fun n => (parsers n).unary b (us ++ rest) = some (e, rest) := by
  cases h with
  | «postfix» _ _ _ h =>
    obtain ⟨k, N, hk⟩ := postfix_complete ih hl h rest (followPostfix_of hf)
      (fun _ _ _ e => hf.1 (.punct .lparen) (by simp) (by rw [e]; rfl))
    refine ⟨N + k + 1, fun n hn => ?_⟩
    have := hk (n - k - 1 + 1) (by omega)
    dsimp only at this ⊢
    rw [show n - k - 1 + 1 + k = n by omega] at this
    rw [this, parsers_trailing]
    exact stepTrailing_end (hf.1 _ (by simp)) (hf.1 _ (by simp)) (hf.1 _ (by simp))
  | ref _ ts e h =>
    refine Ev.step ((ih.unary _ _ _ (by simp at hl; omega) h rest hf).mono fun n e => ?_)
    rw [parsers_unary]
    obtain ⟨t, us', rfl, ht⟩ := unary_start h
    simp only [List.cons_append] at e ⊢
    rw [stepUnary_ref ht, e]
    rfl
  | refMut _ ts e h =>
    refine Ev.step ((ih.unary _ _ _ (by simp at hl; omega) h rest hf).mono fun n e => ?_)
    rw [parsers_unary]
    simp [stepUnary, e]
  | deref _ ts e h =>
    refine Ev.step ((ih.unary _ _ _ (by simp at hl; omega) h rest hf).mono fun n e => ?_)
    rw [parsers_unary]
    simp [stepUnary, e]
  | not _ ts e h =>
    refine Ev.step ((ih.unary _ _ _ (by simp at hl; omega) h rest hf).mono fun n e => ?_)
    rw [parsers_unary]
    simp [stepUnary, e]

/-! ## Casts and operators -/

omit ih in
theorem followUnary_cons {b : Bool} {t : Tok} {ts : List Tok}
    (h : t ∉ [.punct .colonColon, .punct .dot, .punct .lparen, .punct .lbrack, .kw .«else», .punct .lbrace]) : FollowUnary b (t :: ts) := by
  refine ⟨.cons fun hm => h ?_, fun _ e => h ?_⟩
  · simp only [List.mem_cons, List.not_mem_nil, or_false] at hm ⊢
    rcases hm with h | h | h | h | h <;> simp [h]
  · cases e
    simp

omit ih in
theorem stepCasts_as {r : Parsers} {a : Expr} {t : Ty} {ts rest : List Tok} (h : r.ty ts = some (t, rest)) (hf : rest.head? ≠ some (.punct .lt)) :
    stepCasts r a (.kw .«as» :: ts) = r.casts (.cast a t) rest := by
  unfold stepCasts
  simp only [h, Option.bind_eq_bind, Option.bind_some]
  split
  · exact absurd rfl hf
  · rfl

omit ih in
theorem stepCasts_end {r : Parsers} {a : Expr} {rest : List Tok} (hf : rest.head? ≠ some (.kw .«as»)) :
    stepCasts r a rest = some (a, rest) := by
  unfold stepCasts
  split
  · exact absurd rfl hf
  · rfl

theorem cast_complete {b g : Bool} {us : List Tok} {e : Expr} (hl : us.length ≤ L) (h : IsCast b g us e) (rest : List Tok)
    (hf : FollowUnary b rest) (hg : g = true → rest.head? ≠ some (.punct .lt)) :
    ∃ a vs, (Ev fun n => (parsers n).unary b (us ++ rest) = some (a, vs)) ∧
      ∃ k, Ev fun n => (parsers (n + k)).casts a vs = (parsers n).casts e rest := by
  match h with
  | .unary _ _ _ h => exact ⟨_, _, unary_complete ih hl h rest hf, 0, Ev.of fun n => rfl⟩
  | .cast _ f ts vs a t h ht =>
    simp only [List.length_append, List.length_cons] at hl
    obtain ⟨a', ws, h1, k, N, hk⟩ := cast_complete (by omega) h (.kw .«as» :: (vs ++ rest)) (followUnary_cons (by simp)) (fun _ => by simp)
    refine ⟨a', ws, by simpa using h1, k + 1, ?_⟩
    have hlt := hg rfl
    obtain ⟨M, hm⟩ := ih.ty _ _ (by omega) ht rest (fun t ht => by
      simp only [List.mem_cons, List.not_mem_nil, or_false] at ht
      rcases ht with rfl | rfl
      · exact hf.1 _ (by simp)
      · exact hlt)
    refine ⟨max N M, fun n hn => ?_⟩
    have e1 := hk (n + 1) (by omega)
    dsimp only at e1 ⊢
    rw [show n + (k + 1) = n + 1 + k by omega, e1, parsers_casts]
    exact stepCasts_as (hm n (by omega)) hlt

omit ih in
theorem binOp_of {p : Punct} {op : BinOp} {s : Nat} (h : (p, op, s) ∈ binaryOperators) {t : Tok} (ht : startsOperand t = true) (ts : List Tok) :
    binOp (.punct p :: t :: ts) = some (op, s, t :: ts) := by
  simp only [binaryOperators, List.mem_cons, List.not_mem_nil, or_false, Prod.mk.injEq] at h
  rcases h with ⟨rfl, rfl, rfl⟩ | ⟨rfl, rfl, rfl⟩ | ⟨rfl, rfl, rfl⟩ | ⟨rfl, rfl, rfl⟩ | ⟨rfl, rfl, rfl⟩ | ⟨rfl, rfl, rfl⟩ | ⟨rfl, rfl, rfl⟩ |
    ⟨rfl, rfl, rfl⟩ | ⟨rfl, rfl, rfl⟩
  all_goals first | rfl | skip
  cases t with
  | punct q => cases q <;> first | rfl | cases ht
  | _ => rfl

omit ih in
theorem followCast_op {b f : Bool} {p : Punct} {op : BinOp} {s : Nat} (h : (p, op, s) ∈ binaryOperators) (hc : f = true → p ≠ .lt) (ts : List Tok) :
    FollowCast b f (.punct p :: ts) := by
  refine ⟨followUnary_cons ?_, by simp, fun hf e => hc hf (by simpa using e)⟩
  simp only [binaryOperators, List.mem_cons, List.not_mem_nil, or_false, Prod.mk.injEq] at h
  rcases h with ⟨rfl, rfl, rfl⟩ | ⟨rfl, rfl, rfl⟩ | ⟨rfl, rfl, rfl⟩ | ⟨rfl, rfl, rfl⟩ | ⟨rfl, rfl, rfl⟩ | ⟨rfl, rfl, rfl⟩ | ⟨rfl, rfl, rfl⟩ |
    ⟨rfl, rfl, rfl⟩ | ⟨rfl, rfl, rfl⟩ <;> simp

theorem operators_continue {b g : Bool} {s : Nat} {us : List Tok} {e : Expr} (hl : us.length ≤ L) (h : IsOperators b g s us e) (s0 : Nat)
    (hs : s0 ≤ s) (rest : List Tok) (hf : FollowCast b g rest) (hb : ∀ op p ts', binOp rest = some (op, p, ts') → p ≤ s) :
    ∃ k, Ev fun n => (parsers (n + k)).operators b s0 (us ++ rest) = (parsers n).operatorsAfter b s0 e rest := by
  match h with
  | .cast _ _ _ _ _ h =>
    obtain ⟨a, vs, ⟨M, hm⟩, k, N, hk⟩ := cast_complete ih hl h rest hf.1 hf.2.2
    refine ⟨1, max M (N + k + 1), fun n hn => ?_⟩
    have e1 := hm n (by omega)
    have e2 := hk (n - k - 1 + 1) (by omega)
    dsimp only at e1 e2 ⊢
    rw [show n - k - 1 + 1 + k = n by omega, parsers_casts (n - k - 1), stepCasts_end hf.2.1] at e2
    rw [parsers_operators]
    simp [stepOperators, e1, e2]
  | .bin _ f _ _ s' p op ts vs a c hp hs' hc h h' =>
    simp only [List.length_append, List.length_cons] at hl
    obtain ⟨t, vs', rfl, ht⟩ := operators_start h'
    have eb := binOp_of hp ht (vs' ++ rest)
    obtain ⟨k, N, hk⟩ := operators_continue (by omega) h s0 (by omega) (.punct p :: (t :: vs' ++ rest)) (followCast_op hp hc _)
      (fun op' p' ts' e => by
        rw [List.cons_append, eb] at e
        cases e
        exact Nat.le_refl _)
    obtain ⟨M, hm⟩ := ih.operators _ _ _ _ _ (by simp only [List.length_cons] at hl ⊢; omega) h' rest
      ⟨hf, fun op p ts' e => by have := hb op p ts' e; omega⟩
    refine ⟨k + 1, max N M, fun n hn => ?_⟩
    have e1 := hk (n + 1) (by omega)
    have e2 := hm n (by omega)
    dsimp only at e1 e2 ⊢
    simp only [List.cons_append, List.append_assoc] at e1 e2 ⊢
    rw [show n + (k + 1) = n + 1 + k by omega, e1, parsers_operatorsAfter]
    unfold stepOperatorsAfter
    rw [eb]
    simp [show s0 ≤ s' by omega, e2]

theorem operators_complete {b g : Bool} {s : Nat} {us : List Tok} {e : Expr} (hl : us.length ≤ L) (h : IsOperators b g s us e)
    (rest : List Tok) (hf : FollowOperators b g s rest) : Ev fun n => (parsers n).operators b s (us ++ rest) = some (e, rest) := by
  obtain ⟨k, N, hk⟩ := operators_continue ih hl h s (Nat.le_refl _) rest hf.1 (fun op p ts' e => Nat.le_of_lt (hf.2 op p ts' e))
  refine ⟨N + k + 1, fun n hn => ?_⟩
  have e1 := hk (n - k - 1 + 1) (by omega)
  dsimp only at e1 ⊢
  rw [show n - k - 1 + 1 + k = n by omega] at e1
  rw [e1, parsers_operatorsAfter]
  unfold stepOperatorsAfter
  split
  · rename_i op p ts' eb
    rw [if_neg (by have := hf.2 op p ts' eb; omega)]
  · rfl

/-! ## Expressions -/

omit ih in
theorem followOperators_expr {b g : Bool} {s : Nat} {rest : List Tok} (h : FollowExpr b rest) : FollowOperators b g s rest := by
  cases h with
  | lbrace ts => exact ⟨⟨⟨.cons (by simp), by simp⟩, by simp, by simp⟩, fun _ _ _ e => by cases e⟩
  | _ => exact ⟨⟨followUnary_cons (by simp), by simp, by simp⟩, fun _ _ _ e => by cases e⟩

omit ih in
theorem stepExpr_operand {r : Parsers} {b : Bool} {t : Tok} (ht : startsOperand t = true) (ts : List Tok) : stepExpr r b (t :: ts) = (do
    let (e, ts) ← r.operators b 1 (t :: ts)
    match ts with
    | .punct .dotDot :: ts =>
      if endsRange b ts then return (.rangeFrom e, ts) else do
        let (h, ts) ← r.operators b 1 ts
        return (.range e h, ts)
    | .punct .eq :: ts => do
      let (v, ts) ← r.expr b ts
      return (.assign e v, ts)
    | .punct .plusEq :: ts => do
      let (v, ts) ← r.expr b ts
      return (.opAssign .add e v, ts)
    | .punct .minusEq :: ts => do
      let (v, ts) ← r.expr b ts
      return (.opAssign .sub e v, ts)
    | ts => return (e, ts)) := by
  cases t with
  | punct q => cases q <;> first | rfl | cases ht
  | kw q => cases q <;> first | rfl | cases ht
  | _ => rfl

omit ih in
theorem endsRange_follow {b : Bool} {rest : List Tok} (h : FollowExpr b rest) : endsRange b rest = true := by
  cases h <;> rfl

omit ih in
theorem atEnd_follow {rest : List Tok} (h : FollowExpr false rest) : atEnd rest = true := by
  cases h <;> rfl

omit ih in
theorem operand_not_endsRange {b : Bool} {t : Tok} (ht : startsOperand t = true) {ts : List Tok}
    (hb : b = true → (t :: ts).head? ≠ some (.punct .lbrace)) : endsRange b (t :: ts) = false := by
  unfold endsRange
  split
  · rename_i e; cases e; exact absurd rfl (hb rfl)
  · exact not_atEnd (startsExpr_of ht) _

theorem expr_complete {b : Bool} {us : List Tok} {e : Expr} (hl : us.length ≤ L) (h : IsExpr b us e) (rest : List Tok)
    (hf : FollowExpr b rest) : Ev fun n => (parsers n).expr b (us ++ rest) = some (e, rest) := by
  cases h with
  | operators _ g _ _ h =>
    refine Ev.step ((operators_complete ih hl h rest (followOperators_expr hf)).mono fun n e => ?_)
    rw [parsers_expr]
    obtain ⟨t, us', rfl, ht⟩ := operators_start h
    simp only [List.cons_append] at e ⊢
    rw [stepExpr_operand ht, e]
    cases hf <;> rfl
  | range _ f g ts vs a c h h' hb =>
    simp only [List.length_append, List.length_cons] at hl
    obtain ⟨u, vs', rfl, hu⟩ := operators_start h'
    refine Ev.step (((ih.operators _ _ _ _ _ (by omega) h (.punct .dotDot :: (u :: vs' ++ rest))
      ⟨⟨followUnary_cons (by simp), by simp, by simp⟩, fun _ _ _ e => by cases e⟩).and
      (ih.operators _ _ _ _ _ (by omega) h' rest (followOperators_expr hf))).mono fun n ⟨e, e'⟩ => ?_)
    rw [parsers_expr]
    obtain ⟨t, us', rfl, ht⟩ := operators_start h
    simp only [List.cons_append, List.append_assoc] at e e' ⊢
    rw [stepExpr_operand ht, e]
    simp [operand_not_endsRange hu (ts := vs' ++ rest) (fun h => by simpa using hb h), e']
  | rangeFrom _ f ts a h =>
    simp only [List.length_append, List.length_cons, List.length_nil] at hl
    refine Ev.step ((ih.operators _ _ _ _ _ (by omega) h (.punct .dotDot :: rest)
      ⟨⟨followUnary_cons (by simp), by simp, by simp⟩, fun _ _ _ e => by cases e⟩).mono fun n e => ?_)
    rw [parsers_expr]
    obtain ⟨t, us', rfl, ht⟩ := operators_start h
    simp only [List.cons_append, List.append_assoc, List.nil_append] at e ⊢
    rw [stepExpr_operand ht, e]
    simp [endsRange_follow hf]
  | rangeTo _ f ts a h hb =>
    simp only [List.length_cons] at hl
    refine Ev.step ((ih.operators _ _ _ _ _ (by omega) h rest (followOperators_expr hf)).mono fun n e => ?_)
    rw [parsers_expr]
    obtain ⟨t, us', rfl, ht⟩ := operators_start h
    simp only [List.cons_append] at e ⊢
    simp [stepExpr, operand_not_endsRange ht (ts := us' ++ rest) (fun h => by simpa using hb h), e]
  | assign _ f ts vs a c h h' =>
    simp only [List.length_append, List.length_cons] at hl
    refine Ev.step (((ih.operators _ _ _ _ _ (by omega) h (.punct .eq :: (vs ++ rest))
      ⟨⟨followUnary_cons (by simp), by simp, by simp⟩, fun _ _ _ e => by cases e⟩).and
      (ih.expr _ _ _ (by omega) h' rest hf)).mono fun n ⟨e, e'⟩ => ?_)
    rw [parsers_expr]
    obtain ⟨t, us', rfl, ht⟩ := operators_start h
    simp only [List.cons_append, List.append_assoc] at e e' ⊢
    rw [stepExpr_operand ht, e]
    simp [e']
  | addAssign _ f ts vs a c h h' =>
    simp only [List.length_append, List.length_cons] at hl
    refine Ev.step (((ih.operators _ _ _ _ _ (by omega) h (.punct .plusEq :: (vs ++ rest))
      ⟨⟨followUnary_cons (by simp), by simp, by simp⟩, fun _ _ _ e => by cases e⟩).and
      (ih.expr _ _ _ (by omega) h' rest hf)).mono fun n ⟨e, e'⟩ => ?_)
    rw [parsers_expr]
    obtain ⟨t, us', rfl, ht⟩ := operators_start h
    simp only [List.cons_append, List.append_assoc] at e e' ⊢
    rw [stepExpr_operand ht, e]
    simp [e']
  | subAssign _ f ts vs a c h h' =>
    simp only [List.length_append, List.length_cons] at hl
    refine Ev.step (((ih.operators _ _ _ _ _ (by omega) h (.punct .minusEq :: (vs ++ rest))
      ⟨⟨followUnary_cons (by simp), by simp, by simp⟩, fun _ _ _ e => by cases e⟩).and
      (ih.expr _ _ _ (by omega) h' rest hf)).mono fun n ⟨e, e'⟩ => ?_)
    rw [parsers_expr]
    obtain ⟨t, us', rfl, ht⟩ := operators_start h
    simp only [List.cons_append, List.append_assoc] at e e' ⊢
    rw [stepExpr_operand ht, e]
    simp [e']
  | closure _ ts vs ps c h h' =>
    simp only [List.length_append, List.length_cons] at hl
    refine Ev.step (((closureParams_complete ih (by omega) h (vs ++ rest)).and
      (ih.expr _ _ _ (by omega) h' rest hf)).mono fun n ⟨e, e'⟩ => ?_)
    rw [parsers_expr]
    simp [stepExpr, e, e']
  | «return» =>
    refine Ev.step (Ev.of fun n => ?_)
    rw [parsers_expr]
    simp [stepExpr, atEnd_follow hf]
    rfl
  | returnValue _ ts e h =>
    simp only [List.length_cons] at hl
    refine Ev.step ((ih.expr _ _ _ (by omega) h rest hf).mono fun n e => ?_)
    rw [parsers_expr]
    obtain ⟨t, us', rfl, ht⟩ := expr_start h
    simp only [List.cons_append] at e ⊢
    simp [stepExpr, not_atEnd ht, e]
  | «break» =>
    refine Ev.step (Ev.of fun n => ?_)
    rw [parsers_expr]
    simp [stepExpr, atEnd_follow hf]
    rfl
  | breakValue _ ts e h =>
    simp only [List.length_cons] at hl
    refine Ev.step ((ih.expr _ _ _ (by omega) h rest hf).mono fun n e => ?_)
    rw [parsers_expr]
    obtain ⟨t, us', rfl, ht⟩ := expr_start h
    simp only [List.cons_append] at e ⊢
    simp [stepExpr, not_atEnd ht, e]

/-! ## Statements and arms -/

omit ih in
theorem stmts_start {us : List Tok} {ss : List Stmt} {l : Expr} (h : IsStmts us ss l) :
    us = [] ∨ ∃ t us', us = t :: us' ∧ (startsExpr t = true ∨ t = .kw .«use» ∨ t = .kw .«let») := by
  cases h with
  | nil => exact .inl rfl
  | use ts us ss l h hs => cases h; exact .inr ⟨_, _, rfl, .inr (.inl rfl)⟩
  | «let» => exact .inr ⟨_, _, rfl, .inr (.inr rfl)⟩
  | block _ _ _ _ _ h => obtain ⟨t, us', rfl, k⟩ := blockLike_start h; exact .inr ⟨_, _, rfl, .inl (startsExpr_of (startsOperand_of (startsPrimary_block k)))⟩
  | blockSemi _ _ _ _ _ h => obtain ⟨t, us', rfl, k⟩ := blockLike_start h; exact .inr ⟨_, _, rfl, .inl (startsExpr_of (startsOperand_of (startsPrimary_block k)))⟩
  | blockLast _ _ h => obtain ⟨t, us', rfl, k⟩ := blockLike_start h; exact .inr ⟨_, _, rfl, .inl (startsExpr_of (startsOperand_of (startsPrimary_block k)))⟩
  | expr _ _ _ _ _ _ h => obtain ⟨t, us', rfl, k⟩ := expr_start h; exact .inr ⟨_, _, rfl, .inl k⟩
  | last _ _ _ h => obtain ⟨t, us', rfl, k⟩ := expr_start h; exact .inr ⟨_, _, rfl, .inl k⟩

omit ih in
theorem stepStmts_block {r : Parsers} {t : Tok} (ht : BeginsBlock t) (ts : List Tok) : stepStmts r (t :: ts) = (do
    let (e, ts) ← r.blockLike (t :: ts)
    match ts with
    | .punct .rbrace :: ts => return (([], e), ts)
    | .punct .semi :: ts => do
      let ((ss, l), ts) ← r.stmts ts
      return ((.expr e :: ss, l), ts)
    | ts => do
      let ((ss, l), ts) ← r.stmts ts
      return ((.expr e :: ss, l), ts)) := by
  simp only [BeginsBlock, List.mem_cons, List.not_mem_nil, or_false] at ht
  rcases ht with rfl | rfl | rfl | rfl | rfl | rfl | rfl <;> rfl

omit ih in
theorem stepStmts_expr {r : Parsers} {t : Tok} (ht : startsExpr t = true) (hb : ¬ BeginsBlock t) (ts : List Tok) : stepStmts r (t :: ts) = (do
    let (e, ts) ← r.expr false (t :: ts)
    match ts with
    | .punct .rbrace :: ts => return (([], e), ts)
    | .punct .semi :: ts => do
      let ((ss, l), ts) ← r.stmts ts
      return ((.expr e :: ss, l), ts)
    | _ => none) := by
  unfold stepStmts
  split
  · rename_i e; cases e; cases ht
  · rename_i e; cases e; cases ht
  · rename_i e; cases e; cases ht
  · rw [not_startsBlockLike hb]
    rfl

omit ih in
theorem skipSemi_complete {ts : List Tok} (h : .punct .semi ∉ ts) (rest : List Tok) : skipSemi (ts ++ .punct .semi :: rest) = some rest := by
  induction ts with
  | nil => rfl
  | cons t ts k =>
    simp only [List.mem_cons, not_or] at h
    rw [List.cons_append]
    unfold skipSemi
    split
    · rename_i e; cases e
    · rename_i e; cases e; exact absurd rfl h.1
    · rename_i e; cases e; exact k h.2

theorem stmts_complete {us : List Tok} {ss : List Stmt} {l : Expr} (hl : us.length ≤ L) (h : IsStmts us ss l) (rest : List Tok) :
    Ev fun n => (parsers n).stmts (us ++ .punct .rbrace :: rest) = some ((ss, l), rest) := by
  cases h with
  | nil => exact Ev.step (Ev.of fun n => rfl)
  | use ts vs ss l h hs =>
    cases h with
    | mk ts h =>
      simp only [List.length_append, List.length_cons, List.length_nil] at hl
      refine Ev.step ((ih.stmts _ _ _ (by omega) hs rest).mono fun n e => ?_)
      rw [parsers_stmts]
      simp only [List.cons_append, List.append_assoc, List.nil_append]
      simp [stepStmts, skipSemi_complete h, e]
  | «let» ts vs ws p e ss l hp he hs =>
    simp only [List.length_append, List.length_cons] at hl
    refine Ev.step (((ih.pat _ _ (by omega) hp (.punct .eq :: (vs ++ .punct .semi :: (ws ++ .punct .rbrace :: rest))) (.cons (by decide))).and
      ((ih.expr _ _ _ (by omega) he (.punct .semi :: (ws ++ .punct .rbrace :: rest)) (.semi _)).and
      (ih.stmts _ _ _ (by omega) hs rest))).mono fun n ⟨e1, e2, e3⟩ => ?_)
    rw [parsers_stmts]
    simp [stepStmts, e1, e2, e3, punct_self]
  | block ts vs e ss l h hn hs =>
    simp only [List.length_append] at hl
    have hv : 0 < vs.length := List.length_pos_iff.mpr hn
    obtain ⟨t, us', rfl, ht⟩ := blockLike_start h
    simp only [List.length_cons] at hl
    obtain hv' | ⟨u, vs', rfl, hu⟩ := stmts_start hs
    · exact absurd hv' hn
    refine Ev.step (((ih.blockLike _ _ (by simp only [List.length_cons]; omega) h (u :: vs' ++ .punct .rbrace :: rest) (by
        rintro e; cases e; rcases hu with h | h | h <;> cases h)).and
      (ih.stmts _ _ _ (by omega) hs rest)).mono fun n ⟨e1, e2⟩ => ?_)
    rw [parsers_stmts]
    simp only [List.cons_append, List.append_assoc] at e1 e2 ⊢
    rw [stepStmts_block ht, e1]
    simp only [Option.bind_eq_bind, Option.bind_some]
    split
    · rename_i e; cases e; rcases hu with h | h | h <;> cases h
    · rename_i e; cases e; rcases hu with h | h | h <;> cases h
    · simp [e2]
  | blockSemi ts vs e ss l h hs =>
    simp only [List.length_append, List.length_cons] at hl
    refine Ev.step (((ih.blockLike _ _ (by omega) h (.punct .semi :: (vs ++ .punct .rbrace :: rest)) (by simp)).and
      (ih.stmts _ _ _ (by omega) hs rest)).mono fun n ⟨e1, e2⟩ => ?_)
    obtain ⟨t, us', rfl, ht⟩ := blockLike_start h
    rw [parsers_stmts]
    simp only [List.cons_append, List.append_assoc] at e1 e2 ⊢
    rw [stepStmts_block ht, e1]
    simp [e2]
  | blockLast _ _ h =>
    refine Ev.step ((blockLike_complete ih hl h (.punct .rbrace :: rest) (by simp)).mono fun n e1 => ?_)
    obtain ⟨t, us', rfl, ht⟩ := blockLike_start h
    rw [parsers_stmts]
    simp only [List.cons_append] at e1 ⊢
    rw [stepStmts_block ht, e1]
    rfl
  | expr ts vs e ss l hb h hs =>
    simp only [List.length_append, List.length_cons] at hl
    refine Ev.step (((ih.expr _ _ _ (by omega) h (.punct .semi :: (vs ++ .punct .rbrace :: rest)) (.semi _)).and
      (ih.stmts _ _ _ (by omega) hs rest)).mono fun n ⟨e1, e2⟩ => ?_)
    obtain ⟨t, us', rfl, ht⟩ := expr_start h
    rw [parsers_stmts]
    simp only [List.cons_append, List.append_assoc] at e1 e2 ⊢
    rw [stepStmts_expr ht (hb t rfl), e1]
    simp [e2]
  | last _ _ hb h =>
    refine Ev.step ((expr_complete ih hl h (.punct .rbrace :: rest) (.rbrace _)).mono fun n e1 => ?_)
    obtain ⟨t, us', rfl, ht⟩ := expr_start h
    rw [parsers_stmts]
    simp only [List.cons_append] at e1 ⊢
    rw [stepStmts_expr ht (hb t rfl), e1]
    rfl

omit ih in
theorem arms_start {us : List Tok} {as : List Arm} (h : IsArms us as) : us = [] ∨ ∃ t us', us = t :: us' ∧ startsPat t = true := by
  cases h with
  | nil => exact .inl rfl
  | last _ _ _ _ h => obtain ⟨t, us', rfl, k⟩ := pat_start h; exact .inr ⟨_, _, rfl, k⟩
  | comma _ _ _ _ _ _ h => obtain ⟨t, us', rfl, k⟩ := pat_start h; exact .inr ⟨_, _, rfl, k⟩
  | block _ _ _ _ _ _ h => obtain ⟨t, us', rfl, k⟩ := pat_start h; exact .inr ⟨_, _, rfl, k⟩
  | blockComma _ _ _ _ _ _ h => obtain ⟨t, us', rfl, k⟩ := pat_start h; exact .inr ⟨_, _, rfl, k⟩

omit ih in
theorem stepArms_pat {r : Parsers} {us ts : List Tok} {p : Pat} (hp : IsPat us p) (h : r.pat (us ++ .punct .fatArrow :: ts) = some (p, .punct .fatArrow :: ts)) :
    stepArms r (us ++ .punct .fatArrow :: ts) = (
    if startsBlockLike ts then do
      let (e, ts) ← r.blockLike ts
      match ts with
      | .punct .comma :: ts => do
        let (as, ts) ← r.arms ts
        return (.mk p e :: as, ts)
      | ts => do
        let (as, ts) ← r.arms ts
        return (.mk p e :: as, ts)
    else do
      let (e, ts) ← r.expr false ts
      let (as, ts) ← afterElem .rbrace r.arms ts
      return (.mk p e :: as, ts)) := by
  unfold stepArms
  split
  · rename_i e
    obtain ⟨t, us', rfl, ht⟩ := pat_start hp
    cases e
    cases ht
  · rw [h]
    simp only [Option.bind_eq_bind, Option.bind_some, punct_self]
    rfl

theorem arms_complete {us : List Tok} {as : List Arm} (hl : us.length ≤ L) (h : IsArms us as) (rest : List Tok) :
    Ev fun n => (parsers n).arms (us ++ .punct .rbrace :: rest) = some (as, rest) := by
  cases h with
  | nil => exact Ev.step (Ev.of fun n => rfl)
  | last ts vs p e hp hb he =>
    simp only [List.length_append, List.length_cons] at hl
    refine Ev.step (((ih.pat _ _ (by omega) hp (.punct .fatArrow :: (vs ++ .punct .rbrace :: rest)) (.cons (by decide))).and
      (ih.expr _ _ _ (by omega) he (.punct .rbrace :: rest) (.rbrace _))).mono fun n ⟨e1, e2⟩ => ?_)
    rw [parsers_arms]
    simp only [List.cons_append, List.append_assoc]
    rw [stepArms_pat hp e1]
    obtain ⟨t, us', rfl, ht⟩ := expr_start he
    simp only [List.cons_append] at e2 ⊢
    rw [not_startsBlockLike (hb t rfl)]
    simp [e2, afterElem, punct_self]
  | comma ts vs ws p e as hp hb he ha =>
    simp only [List.length_append, List.length_cons] at hl
    refine Ev.step (((ih.pat _ _ (by omega) hp (.punct .fatArrow :: (vs ++ .punct .comma :: (ws ++ .punct .rbrace :: rest))) (.cons (by decide))).and
      ((ih.expr _ _ _ (by omega) he (.punct .comma :: (ws ++ .punct .rbrace :: rest)) (.comma _)).and
      (ih.arms _ _ (by omega) ha rest))).mono fun n ⟨e1, e2, e3⟩ => ?_)
    rw [parsers_arms]
    simp only [List.cons_append, List.append_assoc]
    rw [stepArms_pat hp e1]
    obtain ⟨t, us', rfl, ht⟩ := expr_start he
    simp only [List.cons_append] at e2 ⊢
    rw [not_startsBlockLike (hb t rfl)]
    simp [e2, e3, afterElem, punct_self, punct_ne]
  | block ts vs ws p e as hp he ha =>
    simp only [List.length_append, List.length_cons] at hl
    have hc : ∀ q, q ∈ [Tok.kw .«else», .punct .comma] → (ws ++ .punct .rbrace :: rest).head? ≠ some q := by
      intro q hq
      obtain rfl | ⟨u, ws', rfl, hu⟩ := arms_start ha
      · simp only [List.mem_cons, List.not_mem_nil, or_false] at hq
        rcases hq with rfl | rfl <;> simp
      · simp only [List.mem_cons, List.not_mem_nil, or_false] at hq
        rintro e
        cases e
        rcases hq with rfl | rfl <;> cases hu
    refine Ev.step (((ih.pat _ _ (by omega) hp (.punct .fatArrow :: (vs ++ (ws ++ .punct .rbrace :: rest))) (.cons (by decide))).and
      ((ih.blockLike _ _ (by omega) he (ws ++ .punct .rbrace :: rest) (hc _ (by simp))).and
      (ih.arms _ _ (by omega) ha rest))).mono fun n ⟨e1, e2, e3⟩ => ?_)
    rw [parsers_arms]
    simp only [List.cons_append, List.append_assoc]
    rw [stepArms_pat hp e1]
    obtain ⟨t, us', rfl, ht⟩ := blockLike_start he
    simp only [List.cons_append] at e2 ⊢
    rw [if_pos (startsBlockLike_block ht _), e2]
    simp only [Option.bind_eq_bind, Option.bind_some]
    split
    · rename_i e
      exact absurd (by rw [e]; rfl) (hc (.punct .comma) (by simp))
    · simp [e3]
  | blockComma ts vs ws p e as hp he ha =>
    simp only [List.length_append, List.length_cons] at hl
    refine Ev.step (((ih.pat _ _ (by omega) hp (.punct .fatArrow :: (vs ++ .punct .comma :: (ws ++ .punct .rbrace :: rest))) (.cons (by decide))).and
      ((ih.blockLike _ _ (by omega) he (.punct .comma :: (ws ++ .punct .rbrace :: rest)) (by simp)).and
      (ih.arms _ _ (by omega) ha rest))).mono fun n ⟨e1, e2, e3⟩ => ?_)
    rw [parsers_arms]
    simp only [List.cons_append, List.append_assoc]
    rw [stepArms_pat hp e1]
    obtain ⟨t, us', rfl, ht⟩ := blockLike_start he
    simp only [List.cons_append] at e2 ⊢
    rw [if_pos (startsBlockLike_block ht _), e2]
    simp [e3]

theorem complete_succ : Complete (L + 1) where
  ty us t hl h rest hf := ty_complete ih (by omega) h rest hf
  pat us t hl h rest hf := pat_complete ih (by omega) h rest hf
  orPats us t hl h rest hf := orPats_complete ih (by omega) h rest hf
  expr b us t hl h rest hf := expr_complete ih (by omega) h rest hf
  operators b g s us t hl h rest hf := operators_complete ih (by omega) h rest hf
  unary b us t hl h rest hf := unary_complete ih (by omega) h rest hf
  blockLike us t hl h rest hf := blockLike_complete ih (by omega) h rest hf
  stmts us ss l hl h rest := stmts_complete ih (by omega) h rest
  arms us as hl h rest := arms_complete ih (by omega) h rest

end

theorem complete (L : Nat) : Complete L := by
  induction L with
  | zero => constructor <;> (intros; simp_all)
  | succ L ih => exact complete_succ ih

end Langtag.Source
