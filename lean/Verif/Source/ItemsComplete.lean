import Verif.Source.ParserComplete

/-!
Every sequence of tokens that `Spec/Rust.lean` says is the items of a file is read by the parser, given enough fuel, as those items: so the
grammar gives each sequence of tokens at most one meaning.
-/

set_option autoImplicit false

namespace Langtag.Source

open Langtag.Spec.Rust

theorem separated_fuel {α : Type} {R : List Tok → α → Prop} {close : Punct} {elem : Nat → P α} {list : Nat → Nat → P (List α)}
    (hc : close ≠ .comma) (hstep : ∀ n f, list n (f + 1) = commaList close (elem n) (list n f))
    (hs : ∀ us a, R us a → ∃ t us', us = t :: us' ∧ t ≠ .punct close)
    (he : ∀ us a, R us a → ∀ q rest, q = .comma ∨ q = close → Ev fun n => elem n (us ++ .punct q :: rest) = some (a, .punct q :: rest))
    {us : List Tok} {as : List α} (h : Separated R us as) (rest : List Tok) :
    Ev fun n => ∀ f, us.length < f → list n f (us ++ .punct close :: rest) = some (as, rest) := by
  induction h with
  | nil =>
    refine Ev.of fun n f hf => ?_
    obtain ⟨f, rfl⟩ : ∃ g, f = g + 1 := ⟨f - 1, by simp at hf; omega⟩
    rw [hstep]
    simp [commaList, punct_self]
  | one ts a h =>
    refine (he ts a h close rest (.inr rfl)).mono fun n e f hf => ?_
    obtain ⟨f, rfl⟩ : ∃ g, f = g + 1 := ⟨f - 1, by omega⟩
    obtain ⟨t, us', rfl, ht⟩ := hs ts a h
    rw [hstep]
    unfold commaList
    rw [List.cons_append, punct_ne _ ht]
    rw [List.cons_append] at e
    simp [e, afterElem, punct_self]
  | cons ts us a as h _ ih =>
    refine ((he ts a h .comma (us ++ .punct close :: rest) (.inl rfl)).and ih).mono fun n ⟨e, e'⟩ f hf => ?_
    obtain ⟨f, rfl⟩ : ∃ g, f = g + 1 := ⟨f - 1, by omega⟩
    simp only [List.length_append, List.length_cons] at hf
    obtain ⟨t, us', rfl, ht⟩ := hs ts a h
    rw [hstep]
    unfold commaList
    rw [List.append_assoc, List.cons_append, punct_ne _ ht]
    rw [List.cons_append] at e
    have hn : punct close (.punct .comma :: (us ++ .punct close :: rest)) = none := punct_ne _ (by simpa using Ne.symm hc)
    simp [e, e' f (by omega), afterElem, punct_self, hn]

theorem separated_fuel' {α : Type} {R : List Tok → α → Prop} {close : Punct} {elem : Nat → P α} {list : Nat → Nat → P (List α)}
    (hc : close ≠ .comma) (hstep : ∀ n f, list n (f + 1) = commaList close (elem n) (list n f))
    (hs : ∀ us a, R us a → ∃ t us', us = t :: us' ∧ t ≠ .punct close)
    (he : ∀ us a, R us a → ∀ q rest, q = .comma ∨ q = close → Ev fun n => elem n (us ++ .punct q :: rest) = some (a, .punct q :: rest))
    {us : List Tok} {as : List α} (h : Separated R us as) (rest : List Tok) :
    Ev fun n => list n n (us ++ .punct close :: rest) = some (as, rest) := by
  obtain ⟨N, k⟩ := separated_fuel hc hstep hs he h rest
  exact ⟨max N (us.length + 1), fun n hn => k n (by omega) n (by omega)⟩

/-! ## What is skipped -/

theorem skipBrackets_complete {ts : List Tok} (h : Balanced .lbrack .rbrack ts) (d : Nat) (rest : List Tok) :
    skipBrackets d (ts ++ rest) = skipBrackets d rest := by
  induction h generalizing d rest with
  | nil => rfl
  | other t ts hl hr _ ih =>
    rw [List.cons_append, ← ih d rest]
    cases t with
    | punct q => cases q <;> first | rfl | exact absurd rfl hl | exact absurd rfl hr
    | _ => rfl
  | nested ts us _ _ ih ih' =>
    simp only [List.cons_append, List.append_assoc, skipBrackets]
    rw [ih, skipBrackets, ih']

theorem skipBraces_complete {ts : List Tok} (h : Balanced .lbrace .rbrace ts) (d : Nat) (rest : List Tok) :
    skipBraces d (ts ++ rest) = skipBraces d rest := by
  induction h generalizing d rest with
  | nil => rfl
  | other t ts hl hr _ ih =>
    rw [List.cons_append, ← ih d rest]
    cases t with
    | punct q => cases q <;> first | rfl | exact absurd rfl hl | exact absurd rfl hr
    | _ => rfl
  | nested ts us _ _ ih ih' =>
    simp only [List.cons_append, List.append_assoc, skipBraces]
    rw [ih, skipBraces, ih']

theorem skipGenerics_complete {ts : List Tok} (h : Balanced .lt .gt ts) (d : Nat) (rest : List Tok) :
    skipGenerics d (ts ++ rest) = skipGenerics d rest := by
  induction h generalizing d rest with
  | nil => rfl
  | other t ts hl hr _ ih =>
    rw [List.cons_append, ← ih d rest]
    cases t with
    | punct q => cases q <;> first | rfl | exact absurd rfl hl | exact absurd rfl hr
    | _ => rfl
  | nested ts us _ _ ih ih' =>
    simp only [List.cons_append, List.append_assoc, skipGenerics]
    rw [ih, skipGenerics, ih']

theorem optGenerics_complete {ts : List Tok} (h : Generics ts) (rest : List Tok) (hf : rest.head? ≠ some (.punct .lt)) :
    optGenerics (ts ++ rest) = some rest := by
  cases h with
  | none =>
    rw [List.nil_append]
    unfold optGenerics
    split
    · exact absurd rfl hf
    · rfl
  | some ts h =>
    simp only [List.cons_append, List.append_assoc, List.nil_append, optGenerics, skipGenerics_complete h]
    rfl

theorem visibility_complete {vs : List Tok} (h : Visibility vs) {t : Tok} (ht : t ≠ .kw .«pub») (ht' : t ≠ .punct .lparen) (ts : List Tok) :
    visibility (vs ++ t :: ts) = t :: ts := by
  cases h with
  | none =>
    rw [List.nil_append]
    unfold visibility
    split <;> first | (rename_i e; cases e; exact absurd rfl ht) | rfl
  | pub =>
    rw [List.cons_append, List.nil_append]
    unfold visibility
    split
    · rename_i e; cases e; exact absurd rfl ht'
    · rename_i e; cases e; rfl
    · rename_i h; exact absurd rfl (h _)
  | pubCrate => rfl

/-! ## Attributes -/

theorem deriveNames_complete {us : List Tok} {ps : List (List String)} (h : Separated IsPath us ps) (rest : List Tok) :
    ∀ f, us.length < f → deriveNames f (us ++ .punct .rparen :: rest) = some (ps.map (fun ss => ss.getLast?.getD ""), rest) := by
  induction h with
  | nil =>
    intro f hf
    obtain ⟨f, rfl⟩ : ∃ g, f = g + 1 := ⟨f - 1, by simp at hf; omega⟩
    simp [deriveNames, commaList, punct_self]
  | one ts a h =>
    intro f hf
    obtain ⟨f, rfl⟩ : ∃ g, f = g + 1 := ⟨f - 1, by omega⟩
    have e := pathSegs_complete h (.punct .rparen :: rest) (by simp)
    obtain ⟨t, us', rfl, ht⟩ := path_start h
    rw [deriveNames]
    unfold commaList
    rw [List.cons_append, punct_ne _ (by rintro rfl; cases ht)]
    rw [List.cons_append] at e
    simp [e, afterElem, punct_self]
  | cons ts us a as h _ ih =>
    intro f hf
    obtain ⟨f, rfl⟩ : ∃ g, f = g + 1 := ⟨f - 1, by omega⟩
    simp only [List.length_append, List.length_cons] at hf
    have e := pathSegs_complete h (.punct .comma :: (us ++ .punct .rparen :: rest)) (by simp)
    obtain ⟨t, us', rfl, ht⟩ := path_start h
    rw [deriveNames]
    unfold commaList
    rw [List.append_assoc, List.cons_append, punct_ne _ (by rintro rfl; cases ht)]
    rw [List.cons_append] at e
    simp [e, ih f (by omega), afterElem, punct_self, punct_ne]

theorem prefix_of_append {b ts us : List Tok} {x : Tok} (h : b ++ .punct .rbrack :: ts = x :: .punct .lparen :: us) : x = .punct .rbrack ∨ [x, .punct .lparen] <+: b := by
  match b, h with
  | [], h => cases h; exact .inl rfl
  | [_], h => cases h
  | _ :: _ :: b, h => cases h; exact .inr ⟨b, rfl⟩

theorem attrs_other {n : Nat} {b ts : List Tok} (hd : ¬ [.kw .«derive», .punct .lparen] <+: b) (ha : ¬ [.ident "automaton", .punct .lparen] <+: b) :
    attrs (n + 1) (.punct .hash :: .punct .lbrack :: (b ++ .punct .rbrack :: ts)) = (do
      let ts ← skipBrackets 0 (b ++ .punct .rbrack :: ts)
      attrs n ts) := by
  rw [attrs]
  · intro us e
    rcases prefix_of_append e with h | h
    · cases h
    · exact absurd h hd
  · intro us e
    rcases prefix_of_append e with h | h
    · cases h
    · exact absurd h ha

theorem attrs_complete {us : List Tok} {ds as : List String} (h : IsAttrs us ds as) (rest : List Tok) (hf : rest.head? ≠ some (.punct .hash)) :
    ∀ n, us.length < n → attrs n (us ++ rest) = some (⟨ds, as⟩, rest) := by
  induction h with
  | nil =>
    intro n hn
    obtain ⟨n, rfl⟩ : ∃ g, n = g + 1 := ⟨n - 1, by simp at hn; omega⟩
    rw [List.nil_append, attrs]
    all_goals (rintro us rfl; exact absurd rfl hf)
  | inner b ts ds as hb _ ih =>
    intro n hn
    obtain ⟨n, rfl⟩ : ∃ g, n = g + 1 := ⟨n - 1, by omega⟩
    simp only [List.length_append, List.length_cons] at hn
    simp [attrs, skipBrackets_complete hb, skipBrackets, ih n (by omega)]
  | derive us ts ps ds as hp _ ih =>
    intro n hn
    obtain ⟨n, rfl⟩ : ∃ g, n = g + 1 := ⟨n - 1, by omega⟩
    simp only [List.length_append, List.length_cons] at hn
    simp [attrs, deriveNames_complete hp _ n (by omega), punct_self, ih n (by omega)]
  | automaton us ts ss ds hp _ ih =>
    intro n hn
    obtain ⟨n, rfl⟩ : ∃ g, n = g + 1 := ⟨n - 1, by omega⟩
    simp only [List.length_append, List.length_cons] at hn
    have e := pathSegs_complete hp (.punct .rparen :: .punct .rbrack :: (ts ++ rest)) (by simp)
    simp [attrs, e, punct_self, ih n (by omega)]
  | other b ts ds as hb hd ha _ ih =>
    intro n hn
    obtain ⟨n, rfl⟩ : ∃ g, n = g + 1 := ⟨n - 1, by omega⟩
    simp only [List.length_append, List.length_cons] at hn
    simp only [List.cons_append, List.append_assoc]
    rw [attrs_other hd ha]
    simp [skipBrackets_complete hb, skipBrackets, ih n (by omega)]

/-! ## Functions and constants -/

theorem ty_reads {us : List Tok} {t : Ty} (h : IsTy us t) (rest : List Tok) (hf : FollowTy rest) :
    Ev fun n => (parsers n).ty (us ++ rest) = some (t, rest) := (complete (us.length + 1)).ty us t (by omega) h rest hf

theorem expr_reads {us : List Tok} {e : Expr} (h : IsExpr false us e) (rest : List Tok) (hf : FollowExpr false rest) :
    Ev fun n => (parsers n).expr false (us ++ rest) = some (e, rest) := (complete (us.length + 1)).expr _ us e (by omega) h rest hf

theorem block_reads {us : List Tok} {e : Expr} (h : IsBlock us e) (rest : List Tok) :
    Ev fun n => blockExpr (parsers n) (us ++ rest) = some (e, rest) := blockExpr_complete (complete us.length) (Nat.le_refl _) h rest

theorem param_start {us : List Tok} {p : String × Ty} (h : IsParam us p) : ∃ t us', us = t :: us' ∧ t ≠ .punct .rparen := by
  cases h <;> exact ⟨_, _, rfl, by simp⟩

theorem param_reads {us : List Tok} {p : String × Ty} (h : IsParam us p) (q : Punct) (rest : List Tok) (hq : q = .comma ∨ q = .rparen) :
    Ev fun n => param (parsers n) (us ++ .punct q :: rest) = some (p, .punct q :: rest) := by
  cases h with
  | self => exact Ev.of fun n => by rcases hq with rfl | rfl <;> rfl
  | refSelf => exact Ev.of fun n => rfl
  | refMutSelf => exact Ev.of fun n => rfl
  | typed x ts t h =>
    refine (ty_reads h (.punct q :: rest) (.cons (by rcases hq with rfl | rfl <;> decide))).mono fun n e => ?_
    simp [param, e]
  | mutTyped x ts t h =>
    refine (ty_reads h (.punct q :: rest) (.cons (by rcases hq with rfl | rfl <;> decide))).mono fun n e => ?_
    simp [param, e]

theorem params_reads {us : List Tok} {ps : List (String × Ty)} (h : Separated IsParam us ps) (rest : List Tok) :
    Ev fun n => params (parsers n) n (us ++ .punct .rparen :: rest) = some (ps, rest) :=
  separated_fuel' (elem := fun n => param (parsers n)) (list := fun n => params (parsers n)) (by decide) (fun _ _ => rfl)
    (fun _ _ => param_start) (fun _ _ h q rest hq => param_reads h q rest hq) h rest

theorem fn_reads {us : List Tok} {f : FnDef} (h : IsFn us f) (rest : List Tok) :
    Ev fun n => function (parsers n) n (us ++ rest) = some (f, rest) := by
  cases h with
  | mk x gs ts vs ps b hg hp hb =>
    refine ((params_reads hp (vs ++ rest)).and (block_reads hb rest)).mono fun n ⟨e1, e2⟩ => ?_
    simp only [List.cons_append, List.append_assoc]
    unfold function
    simp only [optGenerics_complete hg (.punct .lparen :: (ts ++ .punct .rparen :: (vs ++ rest))) (by simp), Option.bind_eq_bind,
      Option.bind_some, punct_self, e1]
    obtain ⟨vs', rfl⟩ := block_start hb
    simp only [List.cons_append] at e2 ⊢
    simp [e2]
  | ret x gs ts rs vs ps t b hg hp ht hb =>
    obtain ⟨vs', rfl⟩ := block_start hb
    refine ((params_reads hp (.punct .arrow :: (rs ++ (.punct .lbrace :: vs' ++ rest)))).and
      ((ty_reads ht (.punct .lbrace :: vs' ++ rest) (.cons (by decide))).and (block_reads hb rest))).mono fun n ⟨e1, e2, e3⟩ => ?_
    simp only [List.cons_append, List.append_assoc] at e1 e2 e3 ⊢
    unfold function
    simp only [optGenerics_complete hg (.punct .lparen :: (ts ++ .punct .rparen :: .punct .arrow :: (rs ++ .punct .lbrace :: (vs' ++ rest)))) (by simp),
      Option.bind_eq_bind, Option.bind_some, punct_self, e1, e2, e3]
    rfl

theorem const_reads {us : List Tok} {c : String × Expr} (h : IsConst us c) (rest : List Tok) :
    Ev fun n => constant (parsers n) (us ++ rest) = some (c, rest) := by
  cases h with
  | mk x ts vs t e ht h =>
    refine ((ty_reads ht (.punct .eq :: (vs ++ .punct .semi :: rest)) (.cons (by decide))).and
      (expr_reads h (.punct .semi :: rest) (.semi _))).mono fun n ⟨e1, e2⟩ => ?_
    simp [constant, e1, e2, punct_self]

/-! ## Items of an `impl` -/

theorem attrs_start {us : List Tok} {ds as : List String} (h : IsAttrs us ds as) : us = [] ∨ ∃ us', us = .punct .hash :: us' := by
  cases h with
  | nil => exact .inl rfl
  | _ => exact .inr ⟨_, rfl⟩

theorem visibility_start {us : List Tok} (h : Visibility us) : us = [] ∨ ∃ us', us = .kw .«pub» :: us' := by
  cases h with
  | none => exact .inl rfl
  | _ => exact .inr ⟨_, rfl⟩

/-- After attributes and a visibility, the first token is not one of those that do not begin them. -/
theorem head_ne {as vs : List Tok} {d m : List String} (ha : IsAttrs as d m) (hv : Visibility vs) {t u : Tok} {ts : List Tok}
    (h1 : u ≠ .punct .hash) (h2 : u ≠ .kw .«pub») (h3 : u ≠ t) : ∃ w ws, as ++ vs ++ t :: ts = w :: ws ∧ w ≠ u := by
  rcases attrs_start ha with rfl | ⟨us', rfl⟩
  · rcases visibility_start hv with rfl | ⟨us', rfl⟩
    · exact ⟨t, ts, rfl, h3.symm⟩
    · exact ⟨_, _, rfl, h2.symm⟩
  · exact ⟨_, _, rfl, h1.symm⟩

theorem visibility_head {vs : List Tok} (hv : Visibility vs) {t : Tok} {ts : List Tok} (ht : t ≠ .punct .hash) :
    (vs ++ t :: ts).head? ≠ some (.punct .hash) := by
  cases hv <;> simp [ht]

theorem function_start {us : List Tok} {f : FnDef} (h : IsFunction us f) :
    ∃ t us', us = t :: us' ∧ (t = .kw .«fn» ∨ t = .kw .«const») := by
  cases h <;> exact ⟨_, _, rfl, by simp⟩

/-- What an `impl` has after attributes and a visibility. -/
theorem implItems_step {r : Parsers} {m f : Nat} {as vs ts : List Tok} {t : Tok} {ds ms : List String} (ha : IsAttrs as ds ms) (hv : Visibility vs)
    (hm : as.length < m) (h1 : t ≠ .punct .rbrace) (h2 : t ≠ .kw .«pub») (h3 : t ≠ .punct .lparen) (h4 : t ≠ .punct .hash) :
    implItems r m (f + 1) (as ++ vs ++ t :: ts) =
      (match t :: ts with
      | .kw .«type» :: ts => do
        let ts ← skipSemi ts
        implItems r m f ts
      | .kw .«const» :: .kw .«fn» :: ts => do
        let (g, ts) ← function r m ts
        let ((cs, fs), ts) ← implItems r m f ts
        return ((cs, g :: fs), ts)
      | .kw .«const» :: ts => do
        let (c, ts) ← constant r ts
        let ((cs, fs), ts) ← implItems r m f ts
        return ((c :: cs, fs), ts)
      | .kw .«fn» :: ts => do
        let (g, ts) ← function r m ts
        let ((cs, fs), ts) ← implItems r m f ts
        return ((cs, g :: fs), ts)
      | _ => none) := by
  obtain ⟨w, ws, e, hw⟩ := head_ne (u := .punct .rbrace) (t := t) (ts := ts) ha hv (by simp) (by simp) h1.symm
  rw [implItems, e, punct_ne _ hw, ← e, List.append_assoc, attrs_complete ha _ (visibility_head hv h4) m hm]
  simp only [Option.bind_eq_bind, Option.bind_some]
  rw [visibility_complete hv h2 h3]
  rfl

theorem implItems_reads {us : List Tok} {cs : List (String × Expr)} {fs : List FnDef} (h : IsImplItems us cs fs) (rest : List Tok) :
    Ev fun n => ∀ f, us.length < f → implItems (parsers n) n f (us ++ .punct .rbrace :: rest) = some ((cs, fs), rest) := by
  induction h with
  | nil =>
    refine Ev.of fun n f hf => ?_
    obtain ⟨f, rfl⟩ : ∃ g, f = g + 1 := ⟨f - 1, by simp at hf; omega⟩
    rw [List.nil_append, implItems, punct_self]
  | type as vs ts us d m cs fs ha hv ht _ ih =>
    obtain ⟨N, ih⟩ := ih
    refine ⟨max N (as.length + 1), fun n hn f hf => ?_⟩
    obtain ⟨f, rfl⟩ : ∃ g, f = g + 1 := ⟨f - 1, by omega⟩
    simp only [List.length_append, List.length_cons] at hf
    have e : as ++ vs ++ .kw .«type» :: ts ++ .punct .semi :: us ++ .punct .rbrace :: rest =
      as ++ vs ++ .kw .«type» :: (ts ++ .punct .semi :: (us ++ .punct .rbrace :: rest)) := by simp
    rw [e, implItems_step ha hv (by omega) (by simp) (by simp) (by simp) (by simp)]
    simp [skipSemi_complete ht, ih n (by omega) f (by omega)]
  | const as vs ts us d m c cs fs ha hv hc _ ih =>
    obtain ⟨N, ih⟩ := ih
    obtain ⟨M, hM⟩ := const_reads hc (us ++ .punct .rbrace :: rest)
    refine ⟨max (max N M) (as.length + 1), fun n hn f hf => ?_⟩
    obtain ⟨f, rfl⟩ : ∃ g, f = g + 1 := ⟨f - 1, by omega⟩
    simp only [List.length_append, List.length_cons] at hf
    have e : as ++ vs ++ .kw .«const» :: ts ++ us ++ .punct .rbrace :: rest =
      as ++ vs ++ .kw .«const» :: (ts ++ (us ++ .punct .rbrace :: rest)) := by simp
    have e1 := hM n (by omega)
    dsimp only at e1
    rw [e, implItems_step ha hv (by omega) (by simp) (by simp) (by simp) (by simp)]
    cases hc with
    | mk =>
      simp only [List.cons_append, List.append_assoc, List.nil_append] at e1 ⊢
      simp [e1, ih n (by omega) f (by omega)]
  | fn as vs ts us d m g cs fs ha hv hf _ ih =>
    obtain ⟨N, ih⟩ := ih
    cases hf with
    | fn ts _ hf =>
      obtain ⟨M, hM⟩ := fn_reads hf (us ++ .punct .rbrace :: rest)
      refine ⟨max (max N M) (as.length + 1), fun n hn f hf => ?_⟩
      obtain ⟨f, rfl⟩ : ∃ g, f = g + 1 := ⟨f - 1, by omega⟩
      simp only [List.length_append, List.length_cons] at hf
      have e : as ++ vs ++ .kw .«fn» :: ts ++ us ++ .punct .rbrace :: rest =
        as ++ vs ++ .kw .«fn» :: (ts ++ (us ++ .punct .rbrace :: rest)) := by simp
      have e1 := hM n (by omega)
      dsimp only at e1
      rw [e, implItems_step ha hv (by omega) (by simp) (by simp) (by simp) (by simp)]
      simp [e1, ih n (by omega) f (by omega)]
    | constFn ts _ hf =>
      obtain ⟨M, hM⟩ := fn_reads hf (us ++ .punct .rbrace :: rest)
      refine ⟨max (max N M) (as.length + 1), fun n hn f hf => ?_⟩
      obtain ⟨f, rfl⟩ : ∃ g, f = g + 1 := ⟨f - 1, by omega⟩
      simp only [List.length_append, List.length_cons] at hf
      have e : as ++ vs ++ .kw .«const» :: .kw .«fn» :: ts ++ us ++ .punct .rbrace :: rest =
        as ++ vs ++ .kw .«const» :: (.kw .«fn» :: (ts ++ (us ++ .punct .rbrace :: rest))) := by simp
      have e1 := hM n (by omega)
      dsimp only at e1
      rw [e, implItems_step ha hv (by omega) (by simp) (by simp) (by simp) (by simp)]
      simp [e1, ih n (by omega) f (by omega)]

/-! ## Structs and enums -/

theorem ty_long {us : List Tok} {t : Ty} (h : IsTy us t) {ts rest : List Tok} {q : Punct}
    (e : us ++ .punct q :: rest = .punct .lparen :: .ident "crate" :: .punct .rparen :: ts) :
    [.punct .lparen, .ident "crate", .punct .rparen] <+: us := by
  match us, e with
  | [], e => cases ty_start h with | intro _ h => obtain ⟨_, h, _⟩ := h; cases h
  | [_], e => cases e
  | [_, _], e =>
    cases e
    generalize hu : [Tok.punct .lparen, Tok.ident "crate"] = us at h
    cases h with
    | path _ _ h => cases h <;> first | (rename_i h; cases h <;> cases hu) | cases hu
    | _ => first | (simp at hu; done) | (have := congrArg List.reverse hu; simp at this)
  | _ :: _ :: _ :: us, e => cases e; exact ⟨us, rfl⟩

theorem tupleField_reads {us : List Tok} {t : Ty} (h : IsTupleField us t) (q : Punct) (rest : List Tok) (hq : q = .comma ∨ q = .rparen) :
    Ev fun n => tupleField (parsers n) (us ++ .punct q :: rest) = some (t, .punct q :: rest) := by
  cases h with
  | mk vs ts t hv h hc =>
    refine (ty_reads h (.punct q :: rest) (.cons (by rcases hq with rfl | rfl <;> decide))).mono fun n e => ?_
    unfold tupleField
    have ev : visibility (vs ++ ts ++ .punct q :: rest) = ts ++ .punct q :: rest := by
      cases hv with
      | none =>
        obtain ⟨u, us', rfl, hu⟩ := ty_start h
        rw [List.nil_append, List.cons_append]
        unfold visibility
        split <;> first | (rename_i e; simp only [List.cons.injEq] at e; obtain ⟨rfl, _⟩ := e; cases hu) | rfl
      | pub =>
        rw [List.append_assoc, List.cons_append, List.nil_append]
        unfold visibility
        split
        · rename_i e
          simp only [List.cons.injEq, true_and] at e
          exact absurd (ty_long h e) (hc rfl)
        · rename_i e; cases e; rfl
        · rename_i h; exact absurd rfl (h _)
      | pubCrate => rfl
    rw [ev, e]

theorem tupleFields_reads {us : List Tok} {l : List Ty} (h : Separated IsTupleField us l) (rest : List Tok) :
    Ev fun n => tupleFields (parsers n) n (us ++ .punct .rparen :: rest) = some (l, rest) :=
  separated_fuel' (elem := fun n => tupleField (parsers n)) (list := fun n => tupleFields (parsers n)) (by decide) (fun _ _ => rfl)
    (fun us a h => by
      cases h with
      | mk vs ts t hv h hc =>
        obtain ⟨u, us', rfl, hu⟩ := ty_start h
        cases hv <;> first | exact ⟨_, _, rfl, by rintro rfl; cases hu⟩ | exact ⟨_, _, rfl, by simp⟩)
    (fun _ _ h q rest hq => tupleField_reads h q rest hq) h rest

theorem namedField_reads {us : List Tok} {p : String × Ty} (h : IsNamedField us p) (q : Punct) (rest : List Tok) (hq : q = .comma ∨ q = .rbrace) :
    Ev fun n => namedField (parsers n) (us ++ .punct q :: rest) = some (p, .punct q :: rest) := by
  cases h with
  | mk vs ts x t hv h =>
    refine (ty_reads h (.punct q :: rest) (.cons (by rcases hq with rfl | rfl <;> decide))).mono fun n e => ?_
    unfold namedField
    rw [List.append_assoc, List.cons_append, visibility_complete hv (by simp) (by simp)]
    simp [e]

theorem namedFields_reads {us : List Tok} {l : List (String × Ty)} (h : Separated IsNamedField us l) (rest : List Tok) :
    Ev fun n => namedFields (parsers n) n (us ++ .punct .rbrace :: rest) = some (l, rest) :=
  separated_fuel' (elem := fun n => namedField (parsers n)) (list := fun n => namedFields (parsers n)) (by decide) (fun _ _ => rfl)
    (fun us a h => by
      cases h with
      | mk vs ts x t hv h => cases hv <;> exact ⟨_, _, rfl, by simp⟩)
    (fun _ _ h q rest hq => namedField_reads h q rest hq) h rest

theorem tys_reads {us : List Tok} {l : List Ty} (h : Separated IsTy us l) (rest : List Tok) :
    Ev fun n => (parsers n).tys (us ++ .punct .rparen :: rest) = some (l, rest) := tys_complete (complete (us.length + 1)) (by omega) h rest

theorem variant_reads {us : List Tok} {p : String × Shape} (h : IsVariant us p) (q : Punct) (rest : List Tok) (hq : q = .comma ∨ q = .rbrace) :
    Ev fun n => variant (parsers n) (us ++ .punct q :: rest) = some (p, .punct q :: rest) := by
  cases h with
  | unit x => exact Ev.of fun n => by rcases hq with rfl | rfl <;> rfl
  | tuple x ts l h =>
    refine (tys_reads h (.punct q :: rest)).mono fun n e => ?_
    simp [variant, e]

theorem variants_reads {us : List Tok} {l : List (String × Shape)} (h : Separated IsVariant us l) (rest : List Tok) :
    Ev fun n => variants (parsers n) n (us ++ .punct .rbrace :: rest) = some (l, rest) :=
  separated_fuel' (elem := fun n => variant (parsers n)) (list := fun n => variants (parsers n)) (by decide) (fun _ _ => rfl)
    (fun us a h => by cases h <;> exact ⟨_, _, rfl, by simp⟩)
    (fun _ _ h q rest hq => variant_reads h q rest hq) h rest

/-! ## Items -/

/-- The first tokens of items. -/
def startsItem : Tok → Bool
  | .kw .«use» | .kw .«mod» | .kw .«fn» | .kw .«const» | .kw .«static» | .kw .«type» | .kw .«struct» | .kw .«enum» | .kw .«impl»
  | .kw .«macro_rules» => true
  | _ => false

theorem item_start {ds as : List String} {us : List Tok} {i : Option Item} (h : IsItem ds as us i) : ∃ t us', us = t :: us' ∧ startsItem t = true := by
  cases h with
  | use _ h => cases h; exact ⟨_, _, rfl, rfl⟩
  | fn _ _ h => cases h <;> exact ⟨_, _, rfl, rfl⟩
  | _ => exact ⟨_, _, rfl, rfl⟩

theorem item_reads {ds as : List String} {us : List Tok} {i : Option Item} (h : IsItem ds as us i) {vs : List Tok} (hv : Visibility vs)
    (rest : List Tok) : Ev fun n => item (parsers n) n ⟨ds, as⟩ (vs ++ us ++ rest) = some (i, rest) := by
  have ev : visibility (vs ++ us ++ rest) = us ++ rest := by
    obtain ⟨t, us', rfl, ht⟩ := item_start h
    rw [List.append_assoc, List.cons_append, visibility_complete hv (by rintro rfl; cases ht) (by rintro rfl; cases ht)]
  cases h with
  | glob x => exact Ev.of fun n => by unfold item; rw [ev]; rfl
  | use _ h hg =>
    refine Ev.of fun n => ?_
    unfold item
    rw [ev]
    cases h with
    | mk ts h =>
      simp only [List.cons_append, List.append_assoc, List.nil_append]
      split
      · rename_i e
        exfalso
        match ts, e with
        | [], e => cases e
        | [_], e => cases e
        | [_, _], e => cases e
        | [_, _, _], e => cases e; exact hg _ rfl
        | _ :: _ :: _ :: _ :: ts, e => cases e; simp at h
      · rename_i e
        cases e
        simp [skipSemi_complete h]
      all_goals first | (rename_i e; cases e; done) | skip
      rename_i h _ _ _ _ _ _ _ _ _ _ _
      exact absurd rfl (h _)
  | modFile x => exact Ev.of fun n => by unfold item; rw [ev]; rfl
  | mod x ts h =>
    refine Ev.of fun n => ?_
    unfold item
    rw [ev]
    simp [skipBraces_complete h, skipBraces]
  | fn _ f h =>
    cases h with
    | fn ts _ h =>
      refine (fn_reads h rest).mono fun n e => ?_
      unfold item
      rw [ev]
      simp [e]
    | constFn ts _ h =>
      refine (fn_reads h rest).mono fun n e => ?_
      unfold item
      rw [ev]
      simp [e]
  | static ts x e h =>
    refine (const_reads h rest).mono fun n e => ?_
    unfold item
    rw [ev]
    simp [e]
  | const ts x e h =>
    refine (const_reads h rest).mono fun n e => ?_
    unfold item
    rw [ev]
    cases h with
    | mk =>
      simp only [List.cons_append, List.append_assoc, List.nil_append] at e ⊢
      simp [e]
  | alias x ts t h =>
    refine (ty_reads h (.punct .semi :: rest) (.cons (by decide))).mono fun n e => ?_
    unfold item
    rw [ev]
    simp [e, punct_self]
  | tupleStruct x gs ts l hg h =>
    refine (tupleFields_reads h (.punct .semi :: rest)).mono fun n e => ?_
    unfold item
    rw [ev]
    have eg := optGenerics_complete hg (.punct .lparen :: (ts ++ .punct .rparen :: .punct .semi :: rest)) (by simp)
    simp [eg, e, punct_self]
  | struct x gs ts l hg h =>
    refine (namedFields_reads h rest).mono fun n e => ?_
    unfold item
    rw [ev]
    have eg := optGenerics_complete hg (.punct .lbrace :: (ts ++ .punct .rbrace :: rest)) (by simp)
    simp [eg, e]
  | enum x gs ts l hg h =>
    refine (variants_reads h rest).mono fun n e => ?_
    unfold item
    rw [ev]
    have eg := optGenerics_complete hg (.punct .lbrace :: (ts ++ .punct .rbrace :: rest)) (by simp)
    simp [eg, e, punct_self]
  | impl gs ts ws t cs fs hg ht h =>
    obtain ⟨N, hN⟩ := implItems_reads h rest
    obtain ⟨M, hM⟩ := ty_reads ht (.punct .lbrace :: (ws ++ .punct .rbrace :: rest)) (.cons (by decide))
    refine ⟨max (max N M) (ws.length + 1), fun n hn => ?_⟩
    have e1 := hM n (by omega)
    have e2 := hN n (by omega) n (by omega)
    dsimp only at e1 e2
    unfold item
    rw [ev]
    have eg := optGenerics_complete hg (ts ++ .punct .lbrace :: (ws ++ .punct .rbrace :: rest)) (by
      obtain ⟨u, us', rfl, hu⟩ := ty_start ht
      rintro e
      cases e
      cases hu)
    simp [eg, e1, e2, punct_self]
  | implFor gs rs ts ws r t cs fs hg hr ht h =>
    obtain ⟨N, hN⟩ := implItems_reads h rest
    obtain ⟨M, hM⟩ := ty_reads ht (.punct .lbrace :: (ws ++ .punct .rbrace :: rest)) (.cons (by decide))
    obtain ⟨K, hK⟩ := ty_reads hr (.kw .«for» :: (ts ++ .punct .lbrace :: (ws ++ .punct .rbrace :: rest))) (.cons (by decide))
    refine ⟨max (max N M) (max K (ws.length + 1)), fun n hn => ?_⟩
    have e0 := hK n (by omega)
    have e1 := hM n (by omega)
    have e2 := hN n (by omega) n (by omega)
    dsimp only at e0 e1 e2
    unfold item
    rw [ev]
    have eg := optGenerics_complete hg (rs ++ .kw .«for» :: (ts ++ .punct .lbrace :: (ws ++ .punct .rbrace :: rest))) (by
      obtain ⟨u, us', rfl, hu⟩ := ty_start hr
      rintro e
      cases e
      cases hu)
    simp [eg, e0, e1, e2, punct_self]
  | macroRules x p ts b h =>
    refine (block_reads h (.punct .semi :: .punct .rbrace :: rest)).mono fun n e => ?_
    unfold item
    rw [ev]
    simp [e, punct_self]

theorem items_reads {ts : List Tok} {is : List Item} (h : IsItems ts is) :
    Ev fun n => ∀ f, ts.length ≤ f → items (parsers n) n f ts = some is := by
  induction h with
  | nil ts ds as h =>
    refine ⟨ts.length + 1, fun n hn f hf => ?_⟩
    have e := attrs_complete h [] (by simp) n (by omega)
    rw [List.append_nil] at e
    cases ts with
    | nil => unfold items; rfl
    | cons t ts =>
      obtain ⟨f, rfl⟩ : ∃ g, f = g + 1 := ⟨f - 1, by simp at hf; omega⟩
      rw [items, e]
      simp
  | cons ats vs ts us ds as i is ha hv hi _ ih =>
    obtain ⟨N, ih⟩ := ih
    obtain ⟨M, hM⟩ := item_reads hi hv us
    refine ⟨max (max N M) (ats.length + 1), fun n hn f hf => ?_⟩
    have e1 := hM n (by omega)
    dsimp only at e1
    obtain ⟨t, ts', rfl, ht⟩ := item_start hi
    have e := attrs_complete ha (vs ++ t :: (ts' ++ us)) (visibility_head hv (by rintro rfl; cases ht)) n (by omega)
    simp only [List.length_append, List.length_cons] at hf
    obtain ⟨f, rfl⟩ : ∃ g, f = g + 1 := ⟨f - 1, by omega⟩
    have e2 := ih n (by omega) f (by omega)
    obtain ⟨w, ws, ew⟩ : ∃ w ws, vs ++ t :: (ts' ++ us) = w :: ws := by cases vs <;> exact ⟨_, _, rfl⟩
    obtain ⟨x, xs, ex⟩ : ∃ x xs, ats ++ (vs ++ t :: (ts' ++ us)) = x :: xs := by rw [ew]; cases ats <;> exact ⟨_, _, rfl⟩
    simp only [List.cons_append, List.append_assoc] at e1 ⊢
    rw [ex] at e ⊢
    rw [ew] at e e1
    rw [items, e]
    dsimp only
    rw [e1]
    · cases i <;> simp [e2]
    · simp

/-- The grammar gives a sequence of tokens at most one meaning. -/
theorem items_unique {ts : List Tok} {is is' : List Item} (h : IsItems ts is) (h' : IsItems ts is') : is = is' := by
  obtain ⟨N, k⟩ := items_reads h
  obtain ⟨M, k'⟩ := items_reads h'
  have e := k (max N M) (by omega) _ (Nat.le_refl _)
  have e' := k' (max N M) (by omega) _ (Nat.le_refl _)
  rw [e] at e'
  cases e'
  rfl

end Langtag.Source
