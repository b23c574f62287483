import Verif.Source.Parser
import Verif.Spec.Rust

/-!
# The parser reads by the grammar

What the parser of `Verif/Source/Parser.lean` reads is a phrase of the grammar of `Verif/Spec/Rust.lean`.
-/

set_option autoImplicit false

namespace Langtag.Source
open Langtag.Spec.Rust

/-- What the parser reads is a phrase of that kind. -/
def Reads {α : Type} (R : List Tok → α → Prop) (p : P α) : Prop :=
  ∀ ts a rest, p ts = some (a, rest) → ∃ us, ts = us ++ rest ∧ R us a

/-- What the parser reads is a phrase of that kind and a delimiter. -/
def ReadsUpTo {α : Type} (R : List Tok → α → Prop) (close : Punct) (p : P α) : Prop :=
  ∀ ts a rest, p ts = some (a, rest) → ∃ us, ts = us ++ .punct close :: rest ∧ R us a

/-- No operator that binds at least that strongly follows. -/
def Below (strength : Nat) (ts : List Tok) : Prop := ∀ op s ts', binOp ts = some (op, s, ts') → s < strength

/-- Not `<` after a cast. -/
def AfterCast (endsCast : Bool) (ts : List Tok) : Prop := endsCast = true → ∀ ts', ts ≠ .punct .lt :: ts'

/-- Not `e.f` before `(`. -/
def NotMethod (pre ts : List Tok) : Prop := ∀ f, [.punct .dot, .ident f] <:+ pre → ∀ ts', ts ≠ .punct .lparen :: ts'

theorem NotMethod.of_last {us pre ts : List Tok} {t : Tok} (e : pre = us ++ [t]) (h : ∀ f, t ≠ .ident f) : NotMethod pre ts := by
  intro f hf
  obtain ⟨vs, hv⟩ := hf
  rw [e, show vs ++ [Tok.punct .dot, .ident f] = (vs ++ [.punct .dot]) ++ [.ident f] by simp] at hv
  have := List.append_inj_right' hv rfl
  simp only [List.cons.injEq, and_true] at this
  exact absurd this.symm (h f)

/-- What each of the parsers reads. -/
structure Parsers.Sound (r : Parsers) : Prop where
  ty : Reads IsTy r.ty
  tyArgs : ReadsUpTo (Separated IsTyArg) .gt r.tyArgs
  tys : ReadsUpTo (Separated IsTy) .rparen r.tys
  pat : Reads IsPat r.pat
  orPats : Reads IsAlternatives r.orPats
  pats : ReadsUpTo (Separated IsPat) .rparen r.pats
  closureParams : ReadsUpTo (Separated IsSimplePat) .or r.closureParams
  expr : ∀ b, Reads (IsExpr b) (r.expr b)
  operators : ∀ b s ts e rest, r.operators b s ts = some (e, rest) →
    ∃ g us, ts = us ++ rest ∧ IsOperators b g s us e ∧ Below s rest ∧ AfterCast g rest
  operatorsAfter : ∀ b f s a pre ts e rest, IsOperators b f s pre a → AfterCast f ts →
    (∀ op s' ts', binOp ts = some (op, s', ts') → s ≤ s' → IsOperators b f s' pre a) → r.operatorsAfter b s a ts = some (e, rest) →
    ∃ g us, ts = us ++ rest ∧ IsOperators b g s (pre ++ us) e ∧ Below s rest ∧ AfterCast g rest
  casts : ∀ b f a pre ts e rest, IsCast b f pre a → AfterCast f ts → r.casts a ts = some (e, rest) →
    ∃ g us, ts = us ++ rest ∧ IsCast b g (pre ++ us) e ∧ AfterCast g rest
  unary : ∀ b, Reads (IsUnary b) (r.unary b)
  trailing : ∀ b a pre ts e rest, IsPostfix b pre a → NotMethod pre ts → r.trailing a ts = some (e, rest) → ∃ us, ts = us ++ rest ∧ IsPostfix b (pre ++ us) e
  blockLike : Reads IsBlockLike r.blockLike
  args : ReadsUpTo (Separated (IsExpr false)) .rparen r.args
  elems : ReadsUpTo (Separated (IsExpr false)) .rbrack r.elems
  arms : ReadsUpTo IsArms .rbrace r.arms
  fields : ReadsUpTo (Separated IsField) .rbrace r.fields
  stmts : ReadsUpTo (fun ts (a : List Stmt × Expr) => IsStmts ts a.1 a.2) .rbrace r.stmts

theorem punct_some {p : Punct} {ts rest : List Tok} (h : punct p ts = some rest) : ts = .punct p :: rest := by
  unfold punct token at h
  split at h
  · cases h
  · split at h
    · rename_i e
      cases h
      rw [e]
    · cases h

theorem afterElem_some {α : Type} {R : List Tok → α → Prop} {close : Punct} {p : P (List α)} (hp : ReadsUpTo (Separated R) close p) {as : List α}
    {ts rest : List Tok} (h : afterElem close p ts = some (as, rest)) :
    (as = [] ∧ ts = .punct close :: rest) ∨ ∃ us, ts = .punct .comma :: us ++ .punct close :: rest ∧ Separated R us as := by
  unfold afterElem at h
  split at h
  · rename_i ts' e
    cases h
    exact .inl ⟨rfl, punct_some e⟩
  · simp only [Option.bind_eq_bind, Option.bind_eq_some_iff] at h
    obtain ⟨ts', e, h⟩ := h
    obtain ⟨us, rfl, k⟩ := hp _ _ _ h
    exact .inr ⟨us, by rw [punct_some e, List.cons_append], k⟩

theorem commaList_sound {α : Type} {R : List Tok → α → Prop} {close : Punct} {e : P α} {p : P (List α)} (he : Reads R e)
    (hp : ReadsUpTo (Separated R) close p) : ReadsUpTo (Separated R) close (commaList close e p) := by
  intro ts as rest h
  unfold commaList at h
  split at h
  · rename_i ts' e
    cases h
    exact ⟨[], punct_some e, .nil⟩
  · simp only [Option.bind_eq_bind, Option.bind_eq_some_iff, Option.pure_def, Option.some.injEq, Prod.mk.injEq, Prod.exists] at h
    obtain ⟨a, ts1, h1, as, ts2, h2, rfl, rfl⟩ := h
    obtain ⟨us, rfl, k1⟩ := he _ _ _ h1
    rcases afterElem_some hp h2 with ⟨rfl, rfl⟩ | ⟨vs, rfl, k2⟩
    · exact ⟨us, rfl, .one _ _ k1⟩
    · exact ⟨_, by simp, .cons _ _ _ _ k1 k2⟩

theorem moreSegs_eq (s : String) (ts : List Tok) : ∃ us, ts = us ++ (moreSegs ts).2 ∧ IsSegs (.ident s :: us) (s :: (moreSegs ts).1) := by
  fun_induction moreSegs ts generalizing s with
  | case1 s' ts ss rest e ih =>
    obtain ⟨us, h1, h2⟩ := ih s'
    rw [e] at h1 h2
    exact ⟨.punct .colonColon :: .ident s' :: us, by rw [h1]; rfl, .cons _ _ _ h2⟩
  | case2 ts => exact ⟨[], rfl, .one _⟩

theorem pathSegs_sound : Reads IsPath pathSegs := by
  intro ts ss rest h
  unfold pathSegs at h
  split at h
  · rename_i s ts
    obtain ⟨us, h1, h2⟩ := moreSegs_eq s ts
    cases h
    exact ⟨.ident s :: us, by rw [List.cons_append, ← h1], .segs _ _ h2⟩
  · rename_i s ts
    obtain ⟨us, h1, h2⟩ := moreSegs_eq s ts
    cases h
    exact ⟨.punct .colonColon :: .ident s :: us, by rw [List.cons_append, List.cons_append, ← h1], .global _ _ h2⟩
  · rename_i ts
    obtain ⟨us, h1, h2⟩ := moreSegs_eq "crate" ts
    cases h
    exact ⟨.punct .dollar :: .ident "crate" :: us, by rw [List.cons_append, List.cons_append, ← h1], .crate _ _ h2⟩
  · rename_i s ts hs
    cases h
    exact ⟨[.punct .dollar, .ident s], rfl, .var _ fun e => hs (by rw [e])⟩
  · cases h

theorem literal_sound : Reads (fun ts l => ∃ t, ts = [t] ∧ IsLit t l) literal := by
  intro ts l rest h
  unfold literal at h
  split at h <;> first | (cases h; done) | (cases h; exact ⟨[_], rfl, _, rfl, by constructor⟩)

/-- Takes a computation apart that ends with a result. -/
local macro "steps" h:ident : tactic =>
  `(tactic| simp only [Option.bind_eq_bind, Option.bind_eq_some_iff, Option.pure_def, Option.some.injEq, Prod.mk.injEq, Prod.exists] at $h:ident)

variable {r : Parsers} (hr : r.Sound)
include hr

theorem stepTy_sound : Reads IsTy (stepTy r) := by
  intro ts t rest h
  unfold stepTy at h
  split at h
  · steps h
    obtain ⟨t, ts1, h1, rfl, rfl⟩ := h
    obtain ⟨us, rfl, k1⟩ := hr.ty _ _ _ h1
    exact ⟨_, rfl, .refLifetimeMut _ _ k1⟩
  · steps h
    obtain ⟨t, ts1, h1, rfl, rfl⟩ := h
    obtain ⟨us, rfl, k1⟩ := hr.ty _ _ _ h1
    exact ⟨_, rfl, .refLifetime _ _ k1⟩
  · steps h
    obtain ⟨t, ts1, h1, rfl, rfl⟩ := h
    obtain ⟨us, rfl, k1⟩ := hr.ty _ _ _ h1
    exact ⟨_, rfl, .refMut _ _ k1⟩
  · steps h
    obtain ⟨t, ts1, h1, rfl, rfl⟩ := h
    obtain ⟨us, rfl, k1⟩ := hr.ty _ _ _ h1
    exact ⟨_, rfl, .ref _ _ k1⟩
  · steps h
    obtain ⟨t, ts1, h1, h⟩ := h
    obtain ⟨us, rfl, k1⟩ := hr.ty _ _ _ h1
    split at h
    · cases h; exact ⟨_, by simp, .slice _ _ k1⟩
    · rename_i n s _
      cases h; exact ⟨_, by simp, .array _ _ n s k1⟩
    · cases h
  · cases h; exact ⟨_, rfl, .unit⟩
  · steps h
    obtain ⟨t, ts1, h1, h⟩ := h
    obtain ⟨us, rfl, k1⟩ := hr.ty _ _ _ h1
    split at h
    · cases h; exact ⟨_, by simp, .paren _ _ k1⟩
    · steps h
      obtain ⟨l, ts2, h2, rfl, rfl⟩ := h
      obtain ⟨vs, rfl, k2⟩ := hr.tys _ _ _ h2
      exact ⟨_, by simp, .tuple _ _ _ _ k1 k2⟩
    · cases h
  · steps h
    obtain ⟨l, ts1, h1, ts2, h2, t, ts3, h3, rfl, rfl⟩ := h
    obtain ⟨us, rfl, k1⟩ := hr.tys _ _ _ h1
    obtain rfl := punct_some h2
    obtain ⟨vs, rfl, k3⟩ := hr.ty _ _ _ h3
    exact ⟨_, by simp, .fnMut _ _ _ _ k1 k3⟩
  · steps h
    obtain ⟨ss, ts1, h1, h⟩ := h
    obtain ⟨us, rfl, k1⟩ := pathSegs_sound _ _ _ h1
    split at h
    · steps h
      obtain ⟨l, ts2, h2, rfl, rfl⟩ := h
      obtain ⟨vs, rfl, k2⟩ := hr.tyArgs _ _ _ h2
      exact ⟨_, by simp, .generic _ _ _ _ k1 k2⟩
    · cases h; exact ⟨_, rfl, .path _ _ k1⟩

theorem tyArg_sound : Reads IsTyArg (tyArg r) := by
  intro ts t rest h
  unfold tyArg at h
  split at h
  · cases h; exact ⟨_, rfl, .lifetime⟩
  · steps h
    obtain ⟨t, ts1, h1, rfl, rfl⟩ := h
    obtain ⟨us, rfl, k1⟩ := hr.ty _ _ _ h1
    exact ⟨_, rfl, .ty _ _ k1⟩

/-! ## Patterns -/

theorem simplePat_sound : Reads IsSimplePat (simplePat r) := by
  intro ts p rest h
  unfold simplePat at h
  split at h
  · cases h; exact ⟨_, rfl, .wild⟩
  · cases h; exact ⟨_, rfl, .unit⟩
  · steps h
    obtain ⟨p, ts1, h1, h⟩ := h
    obtain ⟨us, rfl, k1⟩ := hr.pat _ _ _ h1
    split at h
    · cases h; exact ⟨_, by simp, .paren _ _ k1⟩
    · steps h
      obtain ⟨ps, ts2, h2, rfl, rfl⟩ := h
      obtain ⟨vs, rfl, k2⟩ := hr.pats _ _ _ h2
      exact ⟨_, by simp, .tuple _ _ _ _ k1 k2⟩
    · cases h
  · cases h; exact ⟨_, rfl, .mut _⟩
  · split at h
    · rename_i l ts1 h1
      obtain ⟨us, e, t, rfl, k1⟩ := literal_sound _ _ _ h1
      steps h
      obtain ⟨m, ts2, h2, rfl, rfl⟩ := h
      obtain ⟨vs, rfl, u, rfl, k2⟩ := literal_sound _ _ _ h2
      exact ⟨_, by rw [e]; simp, .range _ _ _ _ k1 k2⟩
    · rename_i l ts1 _ h1
      obtain ⟨us, e, t, rfl, k1⟩ := literal_sound _ _ _ h1
      cases h
      exact ⟨_, e, .lit _ _ k1⟩
    · steps h
      obtain ⟨ss, ts1, h1, h⟩ := h
      obtain ⟨us, rfl, k1⟩ := pathSegs_sound _ _ _ h1
      split at h
      · steps h
        obtain ⟨ps, ts2, h2, rfl, rfl⟩ := h
        obtain ⟨vs, rfl, k2⟩ := hr.pats _ _ _ h2
        exact ⟨_, by simp, .ctor _ _ _ _ k1 k2⟩
      · cases h; exact ⟨_, rfl, .path _ _ k1⟩

theorem stepPat_sound : Reads IsPat (stepPat r) := by
  intro ts p rest h
  unfold stepPat at h
  steps h
  obtain ⟨p, ts1, h1, h⟩ := h
  obtain ⟨us, rfl, k1⟩ := simplePat_sound hr _ _ _ h1
  split at h
  · steps h
    obtain ⟨ps, ts2, h2, rfl, rfl⟩ := h
    obtain ⟨vs, e, k2⟩ := hr.orPats _ _ _ h2
    exact ⟨_, by rw [e, List.append_assoc], .or _ _ _ _ k1 k2⟩
  · cases h; exact ⟨_, rfl, .simple _ _ k1⟩

theorem stepOrPats_sound : Reads IsAlternatives (stepOrPats r) := by
  intro ts ps rest h
  unfold stepOrPats at h
  steps h
  obtain ⟨ts1, h1, p, ts2, h2, h⟩ := h
  obtain rfl := punct_some h1
  obtain ⟨us, rfl, k2⟩ := simplePat_sound hr _ _ _ h2
  split at h
  · steps h
    obtain ⟨ps, ts3, h3, rfl, rfl⟩ := h
    obtain ⟨vs, e, k3⟩ := hr.orPats _ _ _ h3
    exact ⟨_, by rw [e]; simp, .cons _ _ _ _ k2 k3⟩
  · cases h; exact ⟨_, rfl, .one _ _ k2⟩

/-! ## Expressions -/

omit hr in
theorem block_last {ts : List Tok} {e : Expr} : IsBlock ts e → ∃ us, ts = us ++ [.punct .rbrace]
  | .mk us _ _ _ => ⟨.punct .lbrace :: us, rfl⟩

omit hr in
theorem blockLike_last {ts : List Tok} {e : Expr} (h : IsBlockLike ts e) : ∃ us, ts = us ++ [.punct .rbrace] := by
  match h with
  | .block _ _ h => exact block_last h
  | .unsafe _ _ h =>
    obtain ⟨us, rfl⟩ := block_last h
    exact ⟨.kw .«unsafe» :: us, rfl⟩
  | .if ts _ _ _ _ h =>
    obtain ⟨us, rfl⟩ := block_last h
    exact ⟨.kw .«if» :: ts ++ us, by simp⟩
  | .ifElse ts us _ _ _ _ _ _ h =>
    obtain ⟨vs, rfl⟩ := block_last h
    exact ⟨.kw .«if» :: ts ++ us ++ .kw .«else» :: vs, by simp⟩
  | .ifElseIf ts us vs _ _ _ _ _ h =>
    obtain ⟨ws, e⟩ := blockLike_last h
    exact ⟨.kw .«if» :: ts ++ us ++ .kw .«else» :: ws, by rw [e]; simp⟩
  | .match ts us _ _ _ _ => exact ⟨.kw .«match» :: ts ++ .punct .lbrace :: us, rfl⟩
  | .loop _ _ h =>
    obtain ⟨us, rfl⟩ := block_last h
    exact ⟨.kw .«loop» :: us, rfl⟩
  | .while ts _ _ _ _ h =>
    obtain ⟨us, rfl⟩ := block_last h
    exact ⟨.kw .«while» :: ts ++ us, by simp⟩
  | .for ts _ x _ _ _ h =>
    obtain ⟨us, rfl⟩ := block_last h
    exact ⟨.kw .«for» :: .ident x :: .kw .«in» :: ts ++ us, by simp⟩

omit hr in
theorem segs_not_field {ts : List Tok} {ss : List String} (h : IsSegs ts ss) (f : String) : ¬ [.punct .dot, .ident f] <:+ ts := by
  induction h with
  | one s => intro h; have := h.length_le; simp at this
  | cons s ts ss h ih => simpa [List.suffix_cons_iff] using ih

omit hr in
theorem path_not_field {ts : List Tok} {ss : List String} (h : IsPath ts ss) (f : String) : ¬ [.punct .dot, .ident f] <:+ ts := by
  cases h with
  | segs _ _ h => exact segs_not_field h f
  | «global» _ _ h => simpa [List.suffix_cons_iff] using segs_not_field h f
  | crate ts _ h =>
    have := segs_not_field h f
    simpa [List.suffix_cons_iff] using this
  | var s _ => simp [List.suffix_cons_iff]

omit hr in
theorem primary_notMethod {b : Bool} {ts rest : List Tok} {e : Expr} (h : IsPrimary b ts e) : NotMethod ts rest := by
  cases h with
  | block _ _ _ h =>
    obtain ⟨us, rfl⟩ := blockLike_last h
    exact .of_last rfl (by simp)
  | lit _ t l h => exact .of_last (us := []) rfl (by cases h <;> simp)
  | path _ _ _ h => exact fun f hf => absurd hf (path_not_field h f)
  | struct => exact .of_last rfl (by simp)
  | unit => exact .of_last (us := [.punct .lparen]) rfl (by simp)
  | paren => exact .of_last rfl (by simp)
  | tuple => exact .of_last rfl (by simp)
  | array => exact .of_last rfl (by simp)
  | «matches» => exact .of_last rfl (by simp)
  | panic _ s => exact .of_last (us := [.kw .«panic», .punct .not, .punct .lparen, .str s]) rfl (by simp)

omit hr in
theorem startsBlockLike_iff {ts us rest : List Tok} (h : ¬ startsBlockLike ts = true) (e : ts = us ++ rest) : ∀ t ∈ us.head?, ¬ BeginsBlock t := by
  intro t ht hb
  cases us with
  | nil => cases ht
  | cons u us =>
    cases ht
    subst e
    apply h
    unfold BeginsBlock at hb
    simp only [List.mem_cons, List.not_mem_nil, or_false] at hb
    rcases hb with rfl | rfl | rfl | rfl | rfl | rfl | rfl <;> rfl

omit hr in
theorem binOp_some {ts rest : List Tok} {op : BinOp} {s : Nat} (h : binOp ts = some (op, s, rest)) :
    ∃ p, ts = .punct p :: rest ∧ (p, op, s) ∈ binaryOperators := by
  unfold binOp at h
  split at h <;> cases h <;> exact ⟨_, rfl, by decide⟩

theorem blockAfter_sound {ts rest : List Tok} {e : Expr} (h : blockAfter r ts = some (e, rest)) :
    ∃ us, .punct .lbrace :: ts = us ++ rest ∧ IsBlock us e := by
  unfold blockAfter at h
  steps h
  obtain ⟨ss, l, ts1, h1, rfl, rfl⟩ := h
  obtain ⟨us, rfl, k1⟩ := hr.stmts _ _ _ h1
  exact ⟨_, by simp, .mk _ _ _ k1⟩

theorem blockExpr_sound : Reads IsBlock (blockExpr r) := by
  intro ts e rest h
  unfold blockExpr at h
  steps h
  obtain ⟨ts1, h1, h⟩ := h
  obtain rfl := punct_some h1
  exact blockAfter_sound hr h

theorem stepBlockLike_sound : Reads IsBlockLike (stepBlockLike r) := by
  intro ts e rest h
  unfold stepBlockLike at h
  split at h
  · obtain ⟨us, e, k⟩ := blockAfter_sound hr h
    exact ⟨us, e, .block _ _ k⟩
  · obtain ⟨us, rfl, k⟩ := blockExpr_sound hr _ _ _ h
    exact ⟨_, rfl, .unsafe _ _ k⟩
  · steps h
    obtain ⟨c, ts1, h1, t, ts2, h2, h⟩ := h
    obtain ⟨us, rfl, k1⟩ := hr.expr _ _ _ _ h1
    obtain ⟨vs, rfl, k2⟩ := blockExpr_sound hr _ _ _ h2
    split at h
    · steps h
      obtain ⟨e, ts3, h3, rfl, rfl⟩ := h
      obtain ⟨ws, e, k3⟩ := hr.blockLike _ _ _ h3
      cases ws with
      | nil => obtain ⟨us, e⟩ := blockLike_last k3; simp at e
      | cons w ws =>
        cases e
        exact ⟨_, by simp, .ifElseIf _ _ _ _ _ _ k1 k2 k3⟩
    · steps h
      obtain ⟨e, ts3, h3, rfl, rfl⟩ := h
      obtain ⟨ws, rfl, k3⟩ := blockExpr_sound hr _ _ _ h3
      exact ⟨_, by simp, .ifElse _ _ _ _ _ _ k1 k2 k3⟩
    · cases h; exact ⟨_, by simp, .if _ _ _ _ k1 k2⟩
  · steps h
    obtain ⟨e, ts1, h1, ts2, h2, as, ts3, h3, rfl, rfl⟩ := h
    obtain ⟨us, rfl, k1⟩ := hr.expr _ _ _ _ h1
    obtain rfl := punct_some h2
    obtain ⟨vs, rfl, k3⟩ := hr.arms _ _ _ h3
    exact ⟨_, by simp, .match _ _ _ _ k1 k3⟩
  · steps h
    obtain ⟨b, ts1, h1, rfl, rfl⟩ := h
    obtain ⟨us, rfl, k1⟩ := blockExpr_sound hr _ _ _ h1
    exact ⟨_, rfl, .loop _ _ k1⟩
  · steps h
    obtain ⟨c, ts1, h1, b, ts2, h2, rfl, rfl⟩ := h
    obtain ⟨us, rfl, k1⟩ := hr.expr _ _ _ _ h1
    obtain ⟨vs, rfl, k2⟩ := blockExpr_sound hr _ _ _ h2
    exact ⟨_, by simp, .while _ _ _ _ k1 k2⟩
  · steps h
    obtain ⟨c, ts1, h1, b, ts2, h2, rfl, rfl⟩ := h
    obtain ⟨us, rfl, k1⟩ := hr.expr _ _ _ _ h1
    obtain ⟨vs, rfl, k2⟩ := blockExpr_sound hr _ _ _ h2
    exact ⟨_, by simp, .for _ _ _ _ _ k1 k2⟩
  · cases h

theorem primary_sound (b : Bool) : Reads (IsPrimary b) (primary r b) := by
  intro ts e rest h
  unfold primary at h
  split at h
  · obtain ⟨us, rfl, k⟩ := hr.blockLike _ _ _ h
    exact ⟨_, rfl, .block _ _ _ k⟩
  split at h
  · cases h; exact ⟨_, rfl, .unit _⟩
  · steps h
    obtain ⟨e, ts1, h1, h⟩ := h
    obtain ⟨us, rfl, k1⟩ := hr.expr _ _ _ _ h1
    split at h
    · cases h; exact ⟨_, by simp, .paren _ _ _ k1⟩
    · steps h
      obtain ⟨es, ts2, h2, rfl, rfl⟩ := h
      obtain ⟨vs, rfl, k2⟩ := hr.args _ _ _ h2
      exact ⟨_, by simp, .tuple _ _ _ _ _ k1 k2⟩
    · cases h
  · steps h
    obtain ⟨es, ts1, h1, rfl, rfl⟩ := h
    obtain ⟨us, rfl, k1⟩ := hr.elems _ _ _ h1
    exact ⟨_, by simp, .array _ _ _ k1⟩
  · steps h
    obtain ⟨e, ts1, h1, ts2, h2, p, ts3, h3, ts4, h4, rfl, rfl⟩ := h
    obtain ⟨us, rfl, k1⟩ := hr.expr _ _ _ _ h1
    obtain rfl := punct_some h2
    obtain ⟨vs, rfl, k3⟩ := hr.pat _ _ _ h3
    obtain rfl := punct_some h4
    exact ⟨_, by simp, .matches _ _ _ _ _ k1 k3⟩
  · cases h; exact ⟨_, rfl, .panic _ _⟩
  · split at h
    · rename_i l ts1 h1
      obtain ⟨us, rfl, t, rfl, k1⟩ := literal_sound _ _ _ h1
      cases h
      exact ⟨_, rfl, .lit _ _ _ k1⟩
    · steps h
      obtain ⟨ss, ts1, h1, h⟩ := h
      obtain ⟨us, rfl, k1⟩ := pathSegs_sound _ _ _ h1
      split at h
      · steps h
        obtain ⟨fs, ts2, h2, rfl, rfl⟩ := h
        obtain ⟨vs, rfl, k2⟩ := hr.fields _ _ _ h2
        exact ⟨_, by simp, .struct _ _ _ _ k1 k2⟩
      · cases h; exact ⟨_, rfl, .path _ _ _ k1⟩

theorem stepUnary_sound (b : Bool) : Reads (IsUnary b) (stepUnary r b) := by
  intro ts e rest h
  unfold stepUnary at h
  split at h
  · steps h
    obtain ⟨e, ts1, h1, rfl, rfl⟩ := h
    obtain ⟨us, rfl, k1⟩ := hr.unary _ _ _ _ h1
    exact ⟨_, rfl, .refMut _ _ _ k1⟩
  · steps h
    obtain ⟨e, ts1, h1, rfl, rfl⟩ := h
    obtain ⟨us, rfl, k1⟩ := hr.unary _ _ _ _ h1
    exact ⟨_, rfl, .ref _ _ _ k1⟩
  · steps h
    obtain ⟨e, ts1, h1, rfl, rfl⟩ := h
    obtain ⟨us, rfl, k1⟩ := hr.unary _ _ _ _ h1
    exact ⟨_, rfl, .deref _ _ _ k1⟩
  · steps h
    obtain ⟨e, ts1, h1, rfl, rfl⟩ := h
    obtain ⟨us, rfl, k1⟩ := hr.unary _ _ _ _ h1
    exact ⟨_, rfl, .not _ _ _ k1⟩
  · steps h
    obtain ⟨e, ts1, h1, h⟩ := h
    obtain ⟨us, rfl, k1⟩ := primary_sound hr _ _ _ _ h1
    obtain ⟨vs, rfl, k2⟩ := hr.trailing b _ _ _ _ _ (.primary _ _ _ k1) (primary_notMethod k1) h
    exact ⟨_, by simp, .postfix _ _ _ k2⟩

theorem stepTrailing_sound (b : Bool) (a : Expr) (pre ts : List Tok) (e : Expr) (rest : List Tok) (hp : IsPostfix b pre a)
    (hn : NotMethod pre ts) (h : stepTrailing r a ts = some (e, rest)) : ∃ us, ts = us ++ rest ∧ IsPostfix b (pre ++ us) e := by
  unfold stepTrailing at h
  split at h
  · rename_i m ts0
    steps h
    obtain ⟨es, ts1, h1, h⟩ := h
    obtain ⟨us, rfl, k1⟩ := hr.args _ _ _ h1
    obtain ⟨vs, rfl, k2⟩ := hr.trailing b _ _ _ _ _ (.method _ _ _ _ m _ hp k1) (.of_last rfl (by simp)) h
    exact ⟨.punct .dot :: .ident m :: .punct .lparen :: us ++ .punct .rparen :: vs, by simp, by simpa using k2⟩
  · rename_i f ts1 hne
    obtain ⟨vs, e, k2⟩ := hr.trailing b _ _ _ _ _ (.field _ _ _ f hp) (fun g _ ts' e => hne ts' (by rw [e])) h
    exact ⟨.punct .dot :: .ident f :: vs, by simp [e], by simpa using k2⟩
  · rename_i s ts1
    obtain ⟨vs, rfl, k2⟩ := hr.trailing b _ (pre ++ [.punct .dot, .int 0 s]) _ _ _ (.field0 _ _ _ _ hp)
      (.of_last (us := pre ++ [.punct .dot]) (t := .int 0 s) (by simp) (by simp)) h
    exact ⟨.punct .dot :: .int 0 s :: vs, by simp, by simpa using k2⟩
  · rename_i ts0
    steps h
    obtain ⟨es, ts1, h1, h⟩ := h
    obtain ⟨us, rfl, k1⟩ := hr.args _ _ _ h1
    obtain ⟨vs, rfl, k2⟩ := hr.trailing b _ _ _ _ _ (.call _ _ _ _ _ hp (fun f hf => hn f hf _ rfl) k1) (.of_last rfl (by simp)) h
    exact ⟨.punct .lparen :: us ++ .punct .rparen :: vs, by simp, by simpa using k2⟩
  · steps h
    obtain ⟨i, ts1, h1, ts2, h2, h⟩ := h
    obtain ⟨us, rfl, k1⟩ := hr.expr _ _ _ _ h1
    obtain rfl := punct_some h2
    obtain ⟨vs, rfl, k2⟩ := hr.trailing b _ _ _ _ _ (.index _ _ _ _ _ hp k1) (.of_last rfl (by simp)) h
    exact ⟨.punct .lbrack :: us ++ .punct .rbrack :: vs, by simp, by simpa using k2⟩
  · cases h
    exact ⟨[], rfl, by simpa using hp⟩

theorem stepCasts_sound (b f : Bool) (a : Expr) (pre ts : List Tok) (e : Expr) (rest : List Tok) (hp : IsCast b f pre a) (hf : AfterCast f ts)
    (h : stepCasts r a ts = some (e, rest)) : ∃ g us, ts = us ++ rest ∧ IsCast b g (pre ++ us) e ∧ AfterCast g rest := by
  unfold stepCasts at h
  split at h
  · steps h
    obtain ⟨t, ts1, h1, h⟩ := h
    obtain ⟨us, rfl, k1⟩ := hr.ty _ _ _ h1
    split at h
    · cases h
    · rename_i hne
      obtain ⟨g, vs, rfl, k2, k3⟩ := hr.casts b true _ _ _ _ _ (.cast _ _ _ _ _ _ hp k1) (fun _ ts' e => hne ts' e) h
      exact ⟨g, .kw .«as» :: us ++ vs, by simp, by simpa using k2, k3⟩
  · cases h
    exact ⟨f, [], rfl, by simpa using hp, hf⟩

theorem stepOperators_sound (b : Bool) (s : Nat) (ts : List Tok) (e : Expr) (rest : List Tok)
    (h : stepOperators r b s ts = some (e, rest)) : ∃ g us, ts = us ++ rest ∧ IsOperators b g s us e ∧ Below s rest ∧ AfterCast g rest := by
  unfold stepOperators at h
  steps h
  obtain ⟨a, ts1, h1, c, ts2, h2, h⟩ := h
  obtain ⟨us, rfl, k1⟩ := hr.unary _ _ _ _ h1
  obtain ⟨f, vs, rfl, k2, kf⟩ := hr.casts b false _ _ _ _ _ (.unary _ _ _ k1) (fun h => by cases h) h2
  obtain ⟨g, ws, rfl, k3, hb⟩ := hr.operatorsAfter b f s _ _ _ _ _ (.cast _ _ _ _ _ k2) kf (fun _ _ _ _ _ => .cast _ _ _ _ _ k2) h
  exact ⟨g, _, by simp, k3, hb⟩

theorem stepOperatorsAfter_sound (b f : Bool) (s : Nat) (a : Expr) (pre ts : List Tok) (e : Expr) (rest : List Tok)
    (hp : IsOperators b f s pre a) (hf : AfterCast f ts) (hn : ∀ op s' ts', binOp ts = some (op, s', ts') → s ≤ s' → IsOperators b f s' pre a)
    (h : stepOperatorsAfter r b s a ts = some (e, rest)) :
    ∃ g us, ts = us ++ rest ∧ IsOperators b g s (pre ++ us) e ∧ Below s rest ∧ AfterCast g rest := by
  unfold stepOperatorsAfter at h
  split at h
  · rename_i op p ts' e1
    split at h
    · rename_i hs
      steps h
      obtain ⟨c, ts1, h1, h⟩ := h
      obtain ⟨q, rfl, hq⟩ := binOp_some e1
      obtain ⟨g, us, rfl, k1, hb, kg⟩ := hr.operators b _ _ _ _ h1
      have k0 := hn _ _ _ e1 hs
      have hc : f = true → q ≠ .lt := fun h e => hf h _ (by rw [e])
      have k2 : ∀ s', s' ≤ p → IsOperators b g s' (pre ++ .punct q :: us) (.bin op a c) :=
        fun s' hs' => .bin _ _ _ _ _ _ _ _ _ _ _ hq hs' hc k0 k1
      obtain ⟨g', vs, rfl, k3, hb'⟩ := hr.operatorsAfter b g s _ _ _ _ _ (k2 s hs) kg
        (fun op' s' ts' e2 _ => k2 s' (Nat.le_of_lt_succ (hb op' s' ts' e2))) h
      exact ⟨g', .punct q :: us ++ vs, by simp, by simpa using k3, hb'⟩
    · rename_i hs
      cases h
      refine ⟨f, [], rfl, by simpa using hp, ?_, hf⟩
      intro op' s' ts'' e2
      rw [e1] at e2
      cases e2
      omega
  · rename_i e1
    cases h
    refine ⟨f, [], rfl, by simpa using hp, ?_, hf⟩
    intro op' s' ts'' e2
    rw [e1] at e2
    cases e2

omit hr in
theorem not_endsRange {b : Bool} {ts us rest : List Tok} (h : ¬ endsRange b ts = true) (e : ts = us ++ rest) :
    b = true → us.head? ≠ some (.punct .lbrace) := by
  intro hb he
  cases us with
  | nil => cases he
  | cons u us =>
    cases he
    subst e hb
    exact h rfl

theorem stepExpr_sound (b : Bool) : Reads (IsExpr b) (stepExpr r b) := by
  intro ts e rest h
  unfold stepExpr at h
  split at h
  · split at h
    · cases h
    · rename_i hb
      steps h
      obtain ⟨a, ts1, h1, rfl, rfl⟩ := h
      obtain ⟨_, us, rfl, k1, _⟩ := hr.operators _ _ _ _ _ h1
      exact ⟨_, rfl, .rangeTo _ _ _ _ k1 (not_endsRange hb rfl)⟩
  · steps h
    obtain ⟨ps, ts1, h1, a, ts2, h2, rfl, rfl⟩ := h
    obtain ⟨us, rfl, k1⟩ := hr.closureParams _ _ _ h1
    obtain ⟨vs, rfl, k2⟩ := hr.expr _ _ _ _ h2
    exact ⟨_, by simp, .closure _ _ _ _ _ k1 k2⟩
  · split at h
    · rename_i hb
      simp only [Bool.and_eq_true, Bool.not_eq_eq_eq_not, Bool.not_true] at hb
      obtain ⟨rfl, _⟩ := hb
      cases h; exact ⟨_, rfl, .return⟩
    · steps h
      obtain ⟨a, ts1, h1, rfl, rfl⟩ := h
      obtain ⟨us, rfl, k1⟩ := hr.expr _ _ _ _ h1
      exact ⟨_, rfl, .returnValue _ _ _ k1⟩
  · split at h
    · rename_i hb
      simp only [Bool.and_eq_true, Bool.not_eq_eq_eq_not, Bool.not_true] at hb
      obtain ⟨rfl, _⟩ := hb
      cases h; exact ⟨_, rfl, .break⟩
    · steps h
      obtain ⟨a, ts1, h1, rfl, rfl⟩ := h
      obtain ⟨us, rfl, k1⟩ := hr.expr _ _ _ _ h1
      exact ⟨_, rfl, .breakValue _ _ _ k1⟩
  · steps h
    obtain ⟨a, ts1, h1, h⟩ := h
    obtain ⟨_, us, rfl, k1, _⟩ := hr.operators _ _ _ _ _ h1
    split at h
    · split at h
      · cases h; exact ⟨_, by simp, .rangeFrom _ _ _ _ k1⟩
      · rename_i hb
        steps h
        obtain ⟨c, ts2, h2, rfl, rfl⟩ := h
        obtain ⟨_, vs, rfl, k2, _⟩ := hr.operators _ _ _ _ _ h2
        exact ⟨_, by simp, .range _ _ _ _ _ _ _ k1 k2 (not_endsRange hb rfl)⟩
    · steps h
      obtain ⟨c, ts2, h2, rfl, rfl⟩ := h
      obtain ⟨vs, rfl, k2⟩ := hr.expr _ _ _ _ h2
      exact ⟨_, by simp, .assign _ _ _ _ _ _ k1 k2⟩
    · steps h
      obtain ⟨c, ts2, h2, rfl, rfl⟩ := h
      obtain ⟨vs, rfl, k2⟩ := hr.expr _ _ _ _ h2
      exact ⟨_, by simp, .addAssign _ _ _ _ _ _ k1 k2⟩
    · steps h
      obtain ⟨c, ts2, h2, rfl, rfl⟩ := h
      obtain ⟨vs, rfl, k2⟩ := hr.expr _ _ _ _ h2
      exact ⟨_, by simp, .subAssign _ _ _ _ _ _ k1 k2⟩
    · cases h; exact ⟨_, rfl, .operators _ _ _ _ k1⟩

theorem fieldExpr_sound : Reads IsField (fieldExpr r) := by
  intro ts e rest h
  unfold fieldExpr at h
  split at h
  · steps h
    obtain ⟨a, ts1, h1, rfl, rfl⟩ := h
    obtain ⟨us, rfl, k1⟩ := hr.expr _ _ _ _ h1
    exact ⟨_, rfl, .value _ _ _ k1⟩
  · cases h; exact ⟨_, rfl, .short _⟩
  · cases h

theorem stepArms_sound : ReadsUpTo IsArms .rbrace (stepArms r) := by
  intro ts as rest h
  unfold stepArms at h
  split at h
  · cases h; exact ⟨[], rfl, .nil⟩
  · steps h
    obtain ⟨p, ts1, h1, ts2, h2, h⟩ := h
    obtain ⟨us, rfl, k1⟩ := hr.pat _ _ _ h1
    obtain rfl := punct_some h2
    split at h
    · steps h
      obtain ⟨e, ts3, h3, h⟩ := h
      obtain ⟨vs, rfl, k3⟩ := hr.blockLike _ _ _ h3
      split at h
      · steps h
        obtain ⟨as, ts4, h4, rfl, rfl⟩ := h
        obtain ⟨ws, rfl, k4⟩ := hr.arms _ _ _ h4
        exact ⟨_, by simp, .blockComma _ _ _ _ _ _ k1 k3 k4⟩
      · steps h
        obtain ⟨as, ts4, h4, rfl, rfl⟩ := h
        obtain ⟨ws, rfl, k4⟩ := hr.arms _ _ _ h4
        exact ⟨_, by simp, .block _ _ _ _ _ _ k1 k3 k4⟩
    · rename_i hb
      steps h
      obtain ⟨e, ts3, h3, as, ts4, h4, rfl, rfl⟩ := h
      obtain ⟨vs, rfl, k3⟩ := hr.expr _ _ _ _ h3
      have k := startsBlockLike_iff hb rfl
      unfold afterElem at h4
      split at h4
      · rename_i e4
        obtain rfl := punct_some e4
        cases h4
        exact ⟨_, by simp, .last _ _ _ _ k1 k k3⟩
      · steps h4
        obtain ⟨ts5, h5, h4⟩ := h4
        obtain rfl := punct_some h5
        obtain ⟨ws, rfl, k4⟩ := hr.arms _ _ _ h4
        exact ⟨_, by simp, .comma _ _ _ _ _ _ k1 k k3 k4⟩

omit hr in
theorem skipSemi_some {ts rest : List Tok} (h : skipSemi ts = some rest) : ∃ us, ts = us ++ .punct .semi :: rest ∧ .punct .semi ∉ us := by
  fun_induction skipSemi ts with
  | case1 => cases h
  | case2 ts => cases h; exact ⟨[], rfl, by simp⟩
  | case3 t ts hne ih =>
    obtain ⟨us, rfl, k⟩ := ih h
    exact ⟨t :: us, rfl, by simp only [List.mem_cons, not_or]; exact ⟨fun e => hne e.symm, k⟩⟩

theorem stepStmts_sound : ReadsUpTo (fun ts (a : List Stmt × Expr) => IsStmts ts a.1 a.2) .rbrace (stepStmts r) := by
  intro ts a rest h
  unfold stepStmts at h
  split at h
  · cases h; exact ⟨[], rfl, .nil⟩
  · steps h
    obtain ⟨ts1, h1, h⟩ := h
    obtain ⟨us, rfl, k1⟩ := skipSemi_some h1
    obtain ⟨vs, rfl, k2⟩ := hr.stmts _ _ _ h
    exact ⟨_, by simp, .use _ _ _ _ (.mk _ k1) k2⟩
  · steps h
    obtain ⟨p, ts1, h1, ts2, h2, e, ts3, h3, ts4, h4, ss, l, ts5, h5, rfl, rfl⟩ := h
    obtain ⟨us, rfl, k1⟩ := hr.pat _ _ _ h1
    obtain rfl := punct_some h2
    obtain ⟨vs, rfl, k3⟩ := hr.expr _ _ _ _ h3
    obtain rfl := punct_some h4
    obtain ⟨ws, rfl, k5⟩ := hr.stmts _ _ _ h5
    exact ⟨_, by simp, .let _ _ _ _ _ _ _ k1 k3 k5⟩
  · split at h
    · steps h
      obtain ⟨e, ts3, h3, h⟩ := h
      obtain ⟨vs, rfl, k3⟩ := hr.blockLike _ _ _ h3
      split at h
      · cases h
        exact ⟨_, rfl, .blockLast _ _ k3⟩
      · steps h
        obtain ⟨ss, l, ts4, h4, rfl, rfl⟩ := h
        obtain ⟨ws, rfl, k4⟩ := hr.stmts _ _ _ h4
        exact ⟨_, by simp, .blockSemi _ _ _ _ _ k3 k4⟩
      · rename_i hne _
        steps h
        obtain ⟨ss, l, ts4, h4, rfl, rfl⟩ := h
        obtain ⟨ws, rfl, k4⟩ := hr.stmts _ _ _ h4
        refine ⟨_, by simp, .block _ _ _ _ _ k3 ?_ k4⟩
        rintro rfl
        exact hne _ rfl
    · rename_i hb
      steps h
      obtain ⟨e, ts3, h3, h⟩ := h
      obtain ⟨vs, rfl, k3⟩ := hr.expr _ _ _ _ h3
      have k := startsBlockLike_iff hb rfl
      split at h
      · cases h
        exact ⟨_, rfl, .last _ _ k k3⟩
      · steps h
        obtain ⟨ss, l, ts4, h4, rfl, rfl⟩ := h
        obtain ⟨ws, rfl, k4⟩ := hr.stmts _ _ _ h4
        exact ⟨_, by simp, .expr _ _ _ _ _ k k3 k4⟩
      · cases h

omit hr in
theorem Parsers.fail_sound : Parsers.fail.Sound := by
  constructor <;> intros <;> simp_all [Parsers.fail, Reads, ReadsUpTo]

theorem Parsers.step_sound : r.step.Sound where
  ty := stepTy_sound hr
  tyArgs := commaList_sound (tyArg_sound hr) hr.tyArgs
  tys := commaList_sound hr.ty hr.tys
  pat := stepPat_sound hr
  orPats := stepOrPats_sound hr
  pats := commaList_sound hr.pat hr.pats
  closureParams := commaList_sound (simplePat_sound hr) hr.closureParams
  expr := stepExpr_sound hr
  operators := stepOperators_sound hr
  operatorsAfter := stepOperatorsAfter_sound hr
  casts := stepCasts_sound hr
  unary := stepUnary_sound hr
  trailing := stepTrailing_sound hr
  blockLike := stepBlockLike_sound hr
  args := commaList_sound (hr.expr false) hr.args
  elems := commaList_sound (hr.expr false) hr.elems
  arms := stepArms_sound hr
  fields := commaList_sound (fieldExpr_sound hr) hr.fields
  stmts := stepStmts_sound hr

omit hr in
theorem parsers_sound : (n : Nat) → (parsers n).Sound
  | 0 => Parsers.fail_sound
  | n + 1 => Parsers.step_sound (parsers_sound n)

/-! ## What is skipped -/

/-- So many closing delimiters in tokens that are balanced otherwise. -/
def Closes (l r : Punct) : Nat → List Tok → Prop
  | 0, ts => Balanced l r ts
  | n + 1, ts => ∃ us vs, ts = us ++ .punct r :: vs ∧ Balanced l r us ∧ Closes l r n vs

omit hr in
theorem Closes.other {l r : Punct} {n : Nat} {t : Tok} {ts : List Tok} (hl : t ≠ .punct l) (hr : t ≠ .punct r) (h : Closes l r n ts) :
    Closes l r n (t :: ts) := by
  cases n with
  | zero => exact Balanced.other _ _ hl hr h
  | succ n =>
    obtain ⟨us, vs, rfl, h1, h2⟩ := h
    exact ⟨t :: us, vs, rfl, .other _ _ hl hr h1, h2⟩

omit hr in
theorem Closes.open {l r : Punct} {n : Nat} {ts : List Tok} (h : Closes l r (n + 1) ts) : Closes l r n (.punct l :: ts) := by
  obtain ⟨us, vs, rfl, h1, h2⟩ := h
  cases n with
  | zero => exact .nested _ _ h1 h2
  | succ n =>
    obtain ⟨us', vs', rfl, h3, h4⟩ := h2
    exact ⟨.punct l :: us ++ .punct r :: us', vs', by simp, .nested _ _ h1 h3, h4⟩

omit hr in
theorem skipGenerics_some {n : Nat} {ts rest : List Tok} (h : skipGenerics n ts = some rest) :
    ∃ us, ts = us ++ .punct .gt :: rest ∧ Closes .lt .gt n us := by
  fun_induction skipGenerics n ts with
  | case1 => cases h
  | case2 n ts ih =>
    obtain ⟨us, rfl, k⟩ := ih h
    exact ⟨.punct .lt :: us, rfl, k.open⟩
  | case3 ts => cases h; exact ⟨[], rfl, .nil⟩
  | case4 n ts ih =>
    obtain ⟨us, rfl, k⟩ := ih h
    exact ⟨.punct .gt :: us, rfl, [], us, rfl, .nil, k⟩
  | case5 n t ts h1 h2 h3 ih =>
    obtain ⟨us, rfl, k⟩ := ih h
    refine ⟨t :: us, rfl, k.other h1 ?_⟩
    cases n with
    | zero => exact h2 rfl
    | succ n => exact h3 n rfl

omit hr in
theorem skipBrackets_some {n : Nat} {ts rest : List Tok} (h : skipBrackets n ts = some rest) :
    ∃ us, ts = us ++ .punct .rbrack :: rest ∧ Closes .lbrack .rbrack n us := by
  fun_induction skipBrackets n ts with
  | case1 => cases h
  | case2 n ts ih =>
    obtain ⟨us, rfl, k⟩ := ih h
    exact ⟨.punct .lbrack :: us, rfl, k.open⟩
  | case3 ts => cases h; exact ⟨[], rfl, .nil⟩
  | case4 n ts ih =>
    obtain ⟨us, rfl, k⟩ := ih h
    exact ⟨.punct .rbrack :: us, rfl, [], us, rfl, .nil, k⟩
  | case5 n t ts h1 h2 h3 ih =>
    obtain ⟨us, rfl, k⟩ := ih h
    refine ⟨t :: us, rfl, k.other h1 ?_⟩
    cases n with
    | zero => exact h2 rfl
    | succ n => exact h3 n rfl

omit hr in
theorem skipBraces_some {n : Nat} {ts rest : List Tok} (h : skipBraces n ts = some rest) :
    ∃ us, ts = us ++ .punct .rbrace :: rest ∧ Closes .lbrace .rbrace n us := by
  fun_induction skipBraces n ts with
  | case1 => cases h
  | case2 n ts ih =>
    obtain ⟨us, rfl, k⟩ := ih h
    exact ⟨.punct .lbrace :: us, rfl, k.open⟩
  | case3 ts => cases h; exact ⟨[], rfl, .nil⟩
  | case4 n ts ih =>
    obtain ⟨us, rfl, k⟩ := ih h
    exact ⟨.punct .rbrace :: us, rfl, [], us, rfl, .nil, k⟩
  | case5 n t ts h1 h2 h3 ih =>
    obtain ⟨us, rfl, k⟩ := ih h
    refine ⟨t :: us, rfl, k.other h1 ?_⟩
    cases n with
    | zero => exact h2 rfl
    | succ n => exact h3 n rfl

omit hr in
theorem optGenerics_some {ts rest : List Tok} (h : optGenerics ts = some rest) : ∃ us, ts = us ++ rest ∧ Generics us := by
  unfold optGenerics at h
  split at h
  · obtain ⟨us, rfl, k⟩ := skipGenerics_some h
    exact ⟨_, by simp, .some _ k⟩
  · cases h; exact ⟨[], rfl, .none⟩

omit hr in
theorem visibility_eq (ts : List Tok) : ∃ us, ts = us ++ visibility ts ∧ Visibility us ∧
    (us = [.kw .«pub»] → ∀ ts', visibility ts ≠ .punct .lparen :: .ident "crate" :: .punct .rparen :: ts') := by
  unfold visibility
  split
  · exact ⟨_, rfl, .pubCrate, by simp⟩
  · rename_i hne
    exact ⟨_, rfl, .pub, fun _ ts' e => hne ts' (by rw [e])⟩
  · exact ⟨[], rfl, .none, by simp⟩

/-! ## Attributes -/

omit hr in
theorem separated_map {α β : Type} {R : List Tok → α → Prop} {f : α → β} {ts : List Tok} {bs : List β}
    (h : Separated (fun ts b => ∃ a, R ts a ∧ b = f a) ts bs) : ∃ as, Separated R ts as ∧ bs = as.map f := by
  induction h with
  | nil => exact ⟨[], .nil, rfl⟩
  | one ts b h =>
    obtain ⟨a, ha, rfl⟩ := h
    exact ⟨[a], .one _ _ ha, rfl⟩
  | cons ts us b bs h _ ih =>
    obtain ⟨a, ha, rfl⟩ := h
    obtain ⟨as, has, rfl⟩ := ih
    exact ⟨a :: as, .cons _ _ _ _ ha has, rfl⟩

omit hr in
theorem deriveNames_sound : (n : Nat) →
    ReadsUpTo (Separated fun ts (d : String) => ∃ ss : List String, IsPath ts ss ∧ d = ss.getLast?.getD "") .rparen (deriveNames n)
  | 0 => fun _ _ _ h => by cases h
  | n + 1 => commaList_sound (fun ts d rest h => by
      steps h
      obtain ⟨ss, ts1, h1, rfl, rfl⟩ := h
      obtain ⟨us, rfl, k1⟩ := pathSegs_sound _ _ _ h1
      exact ⟨us, rfl, ss, k1, rfl⟩) (deriveNames_sound n)

omit hr in
theorem attrs_sound : (n : Nat) → Reads (fun ts a => IsAttrs ts a.derives a.automaton) (attrs n)
  | 0, _, _, _, h => by cases h
  | n + 1, ts, a, rest, h => by
    unfold attrs at h
    split at h
    · steps h
      obtain ⟨ts1, h1, h⟩ := h
      obtain ⟨us, rfl, k1⟩ := skipBrackets_some h1
      obtain ⟨vs, rfl, k2⟩ := attrs_sound n _ _ _ h
      exact ⟨_, by simp, .inner _ _ _ _ k1 k2⟩
    · steps h
      obtain ⟨ds, ts1, h1, ts2, h2, a', ts3, h3, rfl, rfl⟩ := h
      obtain ⟨us, rfl, k1⟩ := deriveNames_sound _ _ _ _ h1
      obtain rfl := punct_some h2
      obtain ⟨vs, rfl, k3⟩ := attrs_sound n _ _ _ h3
      obtain ⟨ps, k, rfl⟩ := separated_map k1
      exact ⟨_, by simp, .derive _ _ _ _ _ k k3⟩
    · steps h
      obtain ⟨ss, ts1, h1, ts2, h2, ts3, h3, a', ts4, h4, h⟩ := h
      obtain ⟨us, rfl, k1⟩ := pathSegs_sound _ _ _ h1
      obtain rfl := punct_some h2
      obtain rfl := punct_some h3
      obtain ⟨vs, rfl, k4⟩ := attrs_sound n _ _ _ h4
      split at h
      · rename_i e
        cases h
        exact ⟨_, by simp, .automaton _ _ _ _ k1 (e ▸ k4)⟩
      · cases h
    · rename_i hd ha
      steps h
      obtain ⟨ts1, h1, h⟩ := h
      obtain ⟨us, rfl, k1⟩ := skipBrackets_some h1
      obtain ⟨vs, rfl, k2⟩ := attrs_sound n _ _ _ h
      refine ⟨_, by simp, .other us vs _ _ k1 ?_ ?_ k2⟩
      · rintro ⟨ws, rfl⟩
        exact hd _ rfl
      · rintro ⟨ws, rfl⟩
        exact ha _ rfl
    · cases h
      exact ⟨[], rfl, .nil⟩

/-! ## Items -/

theorem param_sound : Reads IsParam (param r) := by
  intro ts a rest h
  unfold param at h
  split at h
  · cases h; exact ⟨_, rfl, .refSelf⟩
  · cases h; exact ⟨_, rfl, .refMutSelf⟩
  · steps h
    obtain ⟨t, ts1, h1, rfl, rfl⟩ := h
    obtain ⟨us, rfl, k1⟩ := hr.ty _ _ _ h1
    exact ⟨_, rfl, .mutTyped _ _ _ k1⟩
  · steps h
    obtain ⟨t, ts1, h1, rfl, rfl⟩ := h
    obtain ⟨us, rfl, k1⟩ := hr.ty _ _ _ h1
    exact ⟨_, rfl, .typed _ _ _ k1⟩
  · cases h; exact ⟨_, rfl, .self⟩
  · cases h

theorem params_sound : (n : Nat) → ReadsUpTo (Separated IsParam) .rparen (params r n)
  | 0 => fun _ _ _ h => by cases h
  | n + 1 => commaList_sound (param_sound hr) (params_sound n)

theorem function_sound (m : Nat) : Reads IsFn (function r m) := by
  intro ts a rest h
  unfold function at h
  split at h
  · steps h
    obtain ⟨ts1, h1, ts2, h2, ps, ts3, h3, h⟩ := h
    obtain ⟨gs, rfl, k1⟩ := optGenerics_some h1
    obtain rfl := punct_some h2
    obtain ⟨us, rfl, k3⟩ := params_sound hr _ _ _ _ h3
    split at h
    · steps h
      obtain ⟨t, ts4, h4, b, ts5, h5, rfl, rfl⟩ := h
      obtain ⟨vs, rfl, k4⟩ := hr.ty _ _ _ h4
      obtain ⟨ws, rfl, k5⟩ := blockExpr_sound hr _ _ _ h5
      exact ⟨_, by simp, .ret _ _ _ _ _ _ _ _ k1 k3 k4 k5⟩
    · steps h
      obtain ⟨b, ts5, h5, rfl, rfl⟩ := h
      obtain ⟨ws, rfl, k5⟩ := blockExpr_sound hr _ _ _ h5
      exact ⟨_, by simp, .mk _ _ _ _ _ _ k1 k3 k5⟩
  · cases h

theorem constant_sound : Reads IsConst (constant r) := by
  intro ts a rest h
  unfold constant at h
  split at h
  · steps h
    obtain ⟨t, ts1, h1, ts2, h2, e, ts3, h3, ts4, h4, rfl, rfl⟩ := h
    obtain ⟨us, rfl, k1⟩ := hr.ty _ _ _ h1
    obtain rfl := punct_some h2
    obtain ⟨vs, rfl, k3⟩ := hr.expr _ _ _ _ h3
    obtain rfl := punct_some h4
    exact ⟨_, by simp, .mk _ _ _ _ _ k1 k3⟩
  · cases h

theorem implItems_sound (m : Nat) : (n : Nat) →
    ReadsUpTo (fun ts (a : List (String × Expr) × List FnDef) => IsImplItems ts a.1 a.2) .rbrace (implItems r m n)
  | 0, _, _, _, h => by cases h
  | n + 1, ts, a, rest, h => by
    unfold implItems at h
    split at h
    · rename_i e
      cases h
      exact ⟨[], punct_some e, .nil⟩
    · steps h
      obtain ⟨at', ts1, h1, h⟩ := h
      obtain ⟨as, rfl, k1⟩ := attrs_sound _ _ _ _ h1
      obtain ⟨vs, e, kv, kc⟩ := visibility_eq ts1
      split at h
      · rename_i e'
        rw [e'] at e
        subst e
        steps h
        obtain ⟨ts2, h2, h⟩ := h
        obtain ⟨us, rfl, k2⟩ := skipSemi_some h2
        obtain ⟨ws, rfl, k3⟩ := implItems_sound m n _ _ _ h
        exact ⟨_, by simp, .type _ _ _ _ _ _ _ _ k1 kv k2 k3⟩
      · rename_i e'
        rw [e'] at e
        subst e
        steps h
        obtain ⟨f, ts2, h2, cs, fs, ts3, h3, rfl, rfl⟩ := h
        obtain ⟨us, rfl, k2⟩ := function_sound hr _ _ _ _ h2
        obtain ⟨ws, rfl, k3⟩ := implItems_sound m n _ _ _ h3
        exact ⟨_, by simp, .fn _ _ _ _ _ _ _ _ _ k1 kv (.constFn _ _ k2) k3⟩
      · rename_i e'
        rw [e'] at e
        subst e
        steps h
        obtain ⟨x, e, ts2, h2, cs, fs, ts3, h3, rfl, rfl⟩ := h
        obtain ⟨us, rfl, k2⟩ := constant_sound hr _ _ _ h2
        obtain ⟨ws, rfl, k3⟩ := implItems_sound m n _ _ _ h3
        exact ⟨_, by simp, .const _ _ _ _ _ _ _ _ _ k1 kv k2 k3⟩
      · rename_i e'
        rw [e'] at e
        subst e
        steps h
        obtain ⟨f, ts2, h2, cs, fs, ts3, h3, rfl, rfl⟩ := h
        obtain ⟨us, rfl, k2⟩ := function_sound hr _ _ _ _ h2
        obtain ⟨ws, rfl, k3⟩ := implItems_sound m n _ _ _ h3
        exact ⟨_, by simp, .fn _ _ _ _ _ _ _ _ _ k1 kv (.fn _ _ k2) k3⟩
      · cases h

theorem tupleField_sound : Reads IsTupleField (tupleField r) := by
  intro ts a rest h
  obtain ⟨vs, e, kv, kc⟩ := visibility_eq ts
  obtain ⟨us, e', k⟩ := hr.ty _ _ _ h
  refine ⟨vs ++ us, by rw [List.append_assoc, ← e', ← e], .mk _ _ _ kv k fun h hp => ?_⟩
  obtain ⟨ws, rfl⟩ := hp
  exact kc h _ e'

theorem tupleFields_sound : (n : Nat) → ReadsUpTo (Separated IsTupleField) .rparen (tupleFields r n)
  | 0 => fun _ _ _ h => by cases h
  | n + 1 => commaList_sound (tupleField_sound hr) (tupleFields_sound n)

theorem namedField_sound : Reads IsNamedField (namedField r) := by
  intro ts a rest h
  obtain ⟨vs, e, kv, kc⟩ := visibility_eq ts
  unfold namedField at h
  split at h
  · rename_i e'
    rw [e'] at e
    subst e
    steps h
    obtain ⟨t, ts1, h1, rfl, rfl⟩ := h
    obtain ⟨us, rfl, k1⟩ := hr.ty _ _ _ h1
    exact ⟨_, by simp, .mk _ _ _ _ kv k1⟩
  · cases h

theorem namedFields_sound : (n : Nat) → ReadsUpTo (Separated IsNamedField) .rbrace (namedFields r n)
  | 0 => fun _ _ _ h => by cases h
  | n + 1 => commaList_sound (namedField_sound hr) (namedFields_sound n)

theorem variant_sound : Reads IsVariant (variant r) := by
  intro ts a rest h
  unfold variant at h
  split at h
  · steps h
    obtain ⟨l, ts1, h1, rfl, rfl⟩ := h
    obtain ⟨us, rfl, k1⟩ := hr.tys _ _ _ h1
    exact ⟨_, by simp, .tuple _ _ _ k1⟩
  · cases h; exact ⟨_, rfl, .unit _⟩
  · cases h

theorem variants_sound : (n : Nat) → ReadsUpTo (Separated IsVariant) .rbrace (variants r n)
  | 0 => fun _ _ _ h => by cases h
  | n + 1 => commaList_sound (variant_sound hr) (variants_sound n)

theorem item_sound (m : Nat) (a : Attrs) (ts : List Tok) (i : Option Item) (rest : List Tok) (h : item r m a ts = some (i, rest)) :
    ∃ vs us, ts = vs ++ us ++ rest ∧ Visibility vs ∧ IsItem a.derives a.automaton us i := by
  obtain ⟨vs, e, kv, kc⟩ := visibility_eq ts
  refine ⟨vs, ?_⟩
  suffices ∃ us, visibility ts = us ++ rest ∧ IsItem a.derives a.automaton us i by
    obtain ⟨us, e', k⟩ := this
    exact ⟨us, by rw [List.append_assoc, ← e', ← e], kv, k⟩
  unfold item at h
  revert h
  generalize visibility ts = ts
  intro h
  split at h
  · cases h; exact ⟨_, rfl, .glob _⟩
  · rename_i hg
    steps h
    obtain ⟨ts1, h1, rfl, rfl⟩ := h
    obtain ⟨us, rfl, k1⟩ := skipSemi_some h1
    refine ⟨_, by simp, .use _ (.mk _ k1) ?_⟩
    intro x e
    simp only [List.cons_append, List.cons.injEq, true_and] at e
    exact hg x ts1 (by rw [show us ++ Tok.punct .semi :: ts1 = (us ++ [.punct .semi]) ++ ts1 by simp, e]; rfl)
  · cases h; exact ⟨_, rfl, .modFile _⟩
  · rename_i x _
    steps h
    obtain ⟨ts1, h1, rfl, rfl⟩ := h
    obtain ⟨us, rfl, k1⟩ := skipBraces_some h1
    exact ⟨_, by simp, .mod x _ k1⟩
  · steps h
    obtain ⟨f, ts1, h1, rfl, rfl⟩ := h
    obtain ⟨us, rfl, k1⟩ := function_sound hr _ _ _ _ h1
    exact ⟨_, by simp, .fn _ _ (.fn _ _ k1)⟩
  · steps h
    obtain ⟨f, ts1, h1, rfl, rfl⟩ := h
    obtain ⟨us, rfl, k1⟩ := function_sound hr _ _ _ _ h1
    exact ⟨_, by simp, .fn _ _ (.constFn _ _ k1)⟩
  · steps h
    obtain ⟨x, e, ts1, h1, rfl, rfl⟩ := h
    obtain ⟨us, rfl, k1⟩ := constant_sound hr _ _ _ h1
    exact ⟨_, by simp, .static _ _ _ k1⟩
  · steps h
    obtain ⟨x, e, ts1, h1, rfl, rfl⟩ := h
    obtain ⟨us, rfl, k1⟩ := constant_sound hr _ _ _ h1
    exact ⟨_, by simp, .const _ _ _ k1⟩
  · steps h
    obtain ⟨t, ts1, h1, ts2, h2, rfl, rfl⟩ := h
    obtain ⟨us, rfl, k1⟩ := hr.ty _ _ _ h1
    obtain rfl := punct_some h2
    exact ⟨_, by simp, .alias _ _ _ k1⟩
  · steps h
    obtain ⟨ts1, h1, h⟩ := h
    obtain ⟨gs, rfl, k1⟩ := optGenerics_some h1
    split at h
    · steps h
      obtain ⟨l, ts2, h2, ts3, h3, rfl, rfl⟩ := h
      obtain ⟨us, rfl, k2⟩ := tupleFields_sound hr _ _ _ _ h2
      obtain rfl := punct_some h3
      exact ⟨_, by simp, .tupleStruct _ _ _ _ k1 k2⟩
    · steps h
      obtain ⟨l, ts2, h2, rfl, rfl⟩ := h
      obtain ⟨us, rfl, k2⟩ := namedFields_sound hr _ _ _ _ h2
      exact ⟨_, by simp, .struct _ _ _ _ k1 k2⟩
    · cases h
  · steps h
    obtain ⟨ts1, h1, ts2, h2, l, ts3, h3, rfl, rfl⟩ := h
    obtain ⟨gs, rfl, k1⟩ := optGenerics_some h1
    obtain rfl := punct_some h2
    obtain ⟨us, rfl, k3⟩ := variants_sound hr _ _ _ _ h3
    exact ⟨_, by simp, .enum _ _ _ _ k1 k3⟩
  · steps h
    obtain ⟨ts1, h1, t, ts2, h2, h⟩ := h
    obtain ⟨gs, rfl, k1⟩ := optGenerics_some h1
    obtain ⟨us, rfl, k2⟩ := hr.ty _ _ _ h2
    split at h
    · steps h
      obtain ⟨t', ts3, h3, ts4, h4, cs, fs, ts5, h5, rfl, rfl⟩ := h
      obtain ⟨vs, rfl, k3⟩ := hr.ty _ _ _ h3
      obtain rfl := punct_some h4
      obtain ⟨ws, rfl, k5⟩ := implItems_sound hr _ _ _ _ _ h5
      exact ⟨_, by simp, .implFor _ _ _ _ _ _ _ _ k1 k2 k3 k5⟩
    · steps h
      obtain ⟨ts4, h4, cs, fs, ts5, h5, rfl, rfl⟩ := h
      obtain rfl := punct_some h4
      obtain ⟨ws, rfl, k5⟩ := implItems_sound hr _ _ _ _ _ h5
      exact ⟨_, by simp, .impl _ _ _ _ _ _ k1 k2 k5⟩
  · steps h
    obtain ⟨b, ts1, h1, ts2, h2, ts3, h3, rfl, rfl⟩ := h
    obtain ⟨us, rfl, k1⟩ := blockExpr_sound hr _ _ _ h1
    obtain rfl := punct_some h2
    obtain rfl := punct_some h3
    exact ⟨_, by simp, .macroRules _ _ _ _ k1⟩
  · cases h

theorem items_sound (m : Nat) : (n : Nat) → (ts : List Tok) → (is : List Item) → items r m n ts = some is → IsItems ts is
  | _, [], is, h => by
    unfold items at h
    cases h
    exact .nil _ _ _ .nil
  | 0, t :: ts, is, h => by cases h
  | n + 1, t :: ts, is, h => by
    unfold items at h
    split at h
    · rename_i a e
      cases h
      obtain ⟨us, e', k⟩ := attrs_sound _ _ _ _ e
      rw [List.append_nil] at e'
      exact .nil _ _ _ (e' ▸ k)
    · rename_i a ts1 _ e
      obtain ⟨us, e', k⟩ := attrs_sound _ _ _ _ e
      rw [e']
      split at h
      · rename_i i ts2 e2
        obtain ⟨vs, ws, rfl, kv, ki⟩ := item_sound hr _ _ _ _ _ e2
        rw [Option.map_eq_some_iff] at h
        obtain ⟨is', h, rfl⟩ := h
        have := items_sound m n _ _ h
        simpa using IsItems.cons _ _ _ _ _ _ _ _ k kv ki this
      · rename_i ts2 e2
        obtain ⟨vs, ws, rfl, kv, ki⟩ := item_sound hr _ _ _ _ _ e2
        have := items_sound m n _ _ h
        simpa using IsItems.cons _ _ _ _ _ _ _ _ k kv ki this
      · cases h
    · cases h

end Langtag.Source
