import Verif.Source.Langtag

/-!
# Programs with the same items

What a program does depends on the items a name stands for, not on the order they are in.
-/

set_option autoImplicit false

namespace Langtag.Source

/-- Names stand for the same items in the two programs. -/
structure Same (P Q : Program) : Prop where
  usizeMax : Q.usizeMax = P.usizeMax
  wraps : Q.wraps = P.wraps
  fns : ∀ o f vs, Q.lookup o f vs = P.lookup o f vs
  consts : ∀ o x, (Q.consts.find? fun (o', x', _) => o' = o && x' = x) = P.consts.find? fun (o', x', _) => o' = o && x' = x
  types : ∀ t, Q.types.lookup t = P.types.lookup t
  aliases : ∀ x, Q.aliases.lookup x = P.aliases.lookup x
  globs : ∀ x, (Q.globs.find? fun e => hasVariant P [e] x) = P.globs.find? fun e => hasVariant P [e] x

namespace Same

variable {α β : Type}

/-- If the first computation ends, the second one ends in the same way. -/
def Agrees (x y : M α) : Prop := ∀ σ r, x σ = some r → y σ = some r

theorem agrees_refl (x : M α) : Agrees x x := fun _ _ h => h
theorem agrees_bind {x y : M α} {f g : α → M β} (h : Agrees x y) (h' : ∀ a, Agrees (f a) (g a)) : Agrees (x >>= f) (y >>= g) := by
  intro σ r he
  obtain ⟨r', e, e'⟩ := Option.bind_eq_some_iff.mp he
  clear he
  show (y σ).bind _ = _
  rw [h _ _ e]
  rcases r' with a | ⟨c, τ⟩
  · exact h' _ _ _ e'
  · exact e'
theorem agrees_inScope {x y : M α} (new : Env) (h : Agrees x y) : Agrees (inScope new x) (inScope new y) := by
  intro σ r he
  obtain ⟨r', e, e'⟩ := Option.bind_eq_some_iff.mp he
  show (y _).bind _ = _
  rw [h _ _ e]
  exact e'
theorem agrees_called {x y : M Val} (ps : List (String × Ty)) (vs : List Val) (h : Agrees x y) : Agrees (called ps vs x) (called ps vs y) := by
  intro σ r he
  obtain ⟨r', e, e'⟩ := Option.bind_eq_some_iff.mp he
  show (y _).bind _ = _
  rw [h _ _ e]
  exact e'
theorem agrees_calledIn {x y : M Val} (new : Env) (h : Agrees x y) : Agrees (calledIn new x) (calledIn new y) := by
  intro σ r he
  obtain ⟨r', e, e'⟩ := Option.bind_eq_some_iff.mp he
  show (y _).bind _ = _
  rw [h _ _ e]
  exact e'
theorem agrees_afterBody {x x' y y' : M Val} (h : Agrees x y) (h' : Agrees x' y') : Agrees (afterBody x x') (afterBody y y') := by
  intro σ r he
  obtain ⟨r', e, e'⟩ := Option.bind_eq_some_iff.mp he
  clear he
  show (y' _).bind _ = _
  rw [h' _ _ e]
  rcases r' with a | ⟨c, τ⟩
  · exact h _ _ e'
  · cases c <;> exact e'

open Lean.Order in
theorem admissible_agrees (y : M α) : admissible fun x : M α => Agrees x y := by
  refine admissible_pi_apply (fun σ (o : Option (Res α)) => ∀ r, o = some r → y σ = some r) fun σ => ?_
  refine admissible_pi _ fun r => ?_
  exact Option.admissible_eq_some _ _
open Lean.Order in
theorem admissible1 {ι : Type} (y : ι → M α) : admissible fun x : ι → M α => ∀ i, Agrees (x i) (y i) :=
  admissible_pi_apply (fun i (x : M α) => Agrees x (y i)) fun _ => admissible_agrees _
open Lean.Order in
theorem admissible2 {ι κ : Type} (y : ι → κ → M α) : admissible fun x : ι → κ → M α => ∀ i j, Agrees (x i j) (y i j) :=
  admissible_pi_apply (fun i (x : κ → M α) => ∀ j, Agrees (x j) (y i j)) fun _ => admissible1 _
open Lean.Order in
theorem admissible3 {ι κ τ : Type} (y : ι → κ → τ → M α) :
    admissible fun x : ι → κ → τ → M α => ∀ i j k, Agrees (x i j k) (y i j k) :=
  admissible_pi_apply (fun i (x : κ → τ → M α) => ∀ j k, Agrees (x j k) (y i j k)) fun _ => admissible2 _
open Lean.Order in
theorem admissible4 {ι κ τ υ : Type} (y : ι → κ → τ → υ → M α) :
    admissible fun x : ι → κ → τ → υ → M α => ∀ i j k l, Agrees (x i j k l) (y i j k l) :=
  admissible_pi_apply (fun i (x : κ → τ → υ → M α) => ∀ j k l, Agrees (x j k l) (y i j k l)) fun _ => admissible3 _

attribute [irreducible] Agrees

/-! ## What names stand for -/

variable (P Q : Program) (C : Ctx)
variable {P Q} in
theorem typePath_same (S : Same P Q) (segs : List String) : typePath Q C segs = typePath P C segs := by
  unfold typePath
  cases segs.getLast? with
  | none => rfl
  | some x =>
    dsimp only
    rw [S.aliases]
variable {P Q} in
theorem isType_same (S : Same P Q) (segs : List String) : isType Q C segs = isType P C segs := by
  unfold isType
  rw [typePath_same C S, S.types]
variable {P Q} in
theorem hasVariant_same (S : Same P Q) (t : List String) (x : String) : hasVariant Q t x = hasVariant P t x := by
  unfold hasVariant
  rw [S.types]
variable {P Q} in
theorem isTupleStruct_same (S : Same P Q) (t : List String) : isTupleStruct Q t = isTupleStruct P t := by
  unfold isTupleStruct
  rw [S.types]
variable {P Q} in
theorem ctorOf_same (S : Same P Q) (segs : List String) : ctorOf Q C segs = ctorOf P C segs := by
  unfold ctorOf
  simp only [typePath_same C S, hasVariant_same S, isTupleStruct_same S, S.globs]
variable {P Q} in
theorem memberOf_same (S : Same P Q) (segs : List String) : memberOf Q C segs = memberOf P C segs := by
  unfold memberOf
  simp only [typePath_same C S, isType_same C S]
variable {P Q} in
theorem automatonOf_same (S : Same P Q) (t : List String) : automatonOf Q t = automatonOf P t := by
  unfold automatonOf
  simp only [typePath_same _ S, S.types]
variable {P Q} in
theorem newOf_same (S : Same P Q) (o : List String) (f : String) (vs : List Val) : newOf Q o f vs = newOf P o f vs := by
  unfold newOf
  simp only [automatonOf_same S]
variable {P Q} in
theorem okType_same (S : Same P Q) : okType Q C = okType P C := by
  unfold okType
  simp only [typePath_same C S]
variable {P Q} in
theorem methodOf_same (S : Same P Q) (v : Val) (m : String) (vs : List Val) : methodOf Q v m vs = methodOf P v m vs := by
  unfold methodOf
  simp only [S.fns]
variable {P Q} in
theorem derivedDefault_same (S : Same P Q) (t : List String) : derivedDefault Q t = derivedDefault P t := by
  unfold derivedDefault
  rw [S.types]
variable {P Q} in
theorem corePath_same (S : Same P Q) (o : List String) (f : String) (vs : List Val) : corePath Q o f vs = corePath P o f vs := by
  unfold corePath
  simp only [automatonOf_same S, derivedDefault_same S]
variable {P Q} in
theorem coreMethod_same (S : Same P Q) (v : Val) (m : String) (vs : List Val) : coreMethod Q C v m vs = coreMethod P C v m vs := by
  unfold coreMethod
  simp only [automatonOf_same S, derivedDefault_same S, typePath_same C S]
variable {P Q} in
theorem binVal_same (S : Same P Q) (op : BinOp) (a b : Val) : binVal Q op a b = binVal P op a b := by
  unfold binVal arith overflow
  simp only [S.usizeMax, S.wraps]

mutual
theorem matchPat_same {P Q : Program} (C : Ctx) (S : Same P Q) : ∀ (p : Pat) (v : Val), matchPat Q C p v = matchPat P C p v
  | .wild, _ => by rw [matchPat, matchPat]
  | .lit l, v => by rw [matchPat, matchPat]
  | .range lo hi, v => by rw [matchPat, matchPat]
  | .path segs, v => by rw [matchPat.eq_def, matchPat.eq_def]; dsimp only; rw [ctorOf_same C S]
  | .ctor segs ps, v => by
    rw [matchPat.eq_def, matchPat.eq_def]
    dsimp only
    rw [ctorOf_same C S]
    split
    · rw [matchPats_same C S ps]
    · rfl
  | .tuple ps, v => by
    rw [matchPat.eq_def, matchPat.eq_def]
    dsimp only
    split
    · rw [matchPats_same C S ps]
    · rfl
  | .or ps, v => by rw [matchPat, matchPat, matchAny_same C S ps]
theorem matchPats_same {P Q : Program} (C : Ctx) (S : Same P Q) : ∀ (ps : List Pat) (vs : List Val), matchPats Q C ps vs = matchPats P C ps vs
  | [], vs => by cases vs <;> rw [matchPats.eq_def, matchPats.eq_def]
  | p :: ps, [] => by rw [matchPats.eq_def, matchPats.eq_def]
  | p :: ps, v :: vs => by rw [matchPats, matchPats, matchPat_same C S p, matchPats_same C S ps]
theorem matchAny_same {P Q : Program} (C : Ctx) (S : Same P Q) : ∀ (ps : List Pat) (v : Val), matchAny Q C ps v = matchAny P C ps v
  | [], v => by rw [matchAny, matchAny]
  | p :: ps, v => by rw [matchAny, matchAny, matchPat_same C S p, matchAny_same C S ps]
end

/-- Goes through the two computations side by side. -/
syntax "agrees " ident : tactic
macro_rules
  | `(tactic| agrees $S) => `(tactic| repeat first
  | exact agrees_refl _
  | solve_by_elim only [*] | refine agrees_bind ?_ ?_ | refine agrees_inScope _ ?_ | refine agrees_called _ _ ?_ | refine agrees_calledIn _ ?_
  | refine agrees_afterBody ?_ ?_ | intro _ | dsimp only
  | simp only [typePath_same _ $S, ctorOf_same _ $S, memberOf_same _ $S, ($S).fns, newOf_same $S, okType_same _ $S, methodOf_same $S,
      corePath_same $S, coreMethod_same _ $S, matchPat_same _ $S, matchPats_same _ $S, binVal_same $S]
  | (split <;> rename_i h <;> simp only [h]) | split)

/-- A path that is not a variable. -/
theorem agrees_item (S : Same P Q) {eval' : Ctx → Expr → M Val} (h : ∀ C e, Agrees (eval' C e) (eval Q C e)) (segs : List String) :
    Agrees
      (match ctorOf P C segs with
       | some (ty, x) => pure (.ctor ty x [])
       | none =>
         if segs = ["u8", "MAX"] then pure (.u8 255)
         else
           match P.consts.find? fun (o, x, _) => o = (memberOf P C segs).1 && x = (memberOf P C segs).2 with
           | some (o, _, e) => calledIn [] (eval' ⟨o, "", .tuple []⟩ e)
           | none => pure (.fn (memberOf P C segs).1 (memberOf P C segs).2) : M Val)
      (match ctorOf Q C segs with
       | some (ty, x) => pure (.ctor ty x [])
       | none =>
         if segs = ["u8", "MAX"] then pure (.u8 255)
         else
           match Q.consts.find? fun (o, x, _) => o = (memberOf Q C segs).1 && x = (memberOf Q C segs).2 with
           | some (o, _, e) => calledIn [] (eval Q ⟨o, "", .tuple []⟩ e)
           | none => pure (.fn (memberOf Q C segs).1 (memberOf Q C segs).2) : M Val) := by
  rw [ctorOf_same C S, memberOf_same C S, S.consts]
  cases ctorOf P C segs with
  | some c => exact agrees_refl _
  | none =>
    dsimp only
    split
    · exact agrees_refl _
    · generalize P.consts.find? _ = r
      rcases r with _ | ⟨o, x, e⟩
      · exact agrees_refl _
      · exact agrees_calledIn _ (h _ _)

/-- A computation of the first program that ends, ends in the same way in the second. -/
theorem agrees_all (S : Same P Q) :
    (∀ C e, Agrees (eval P C e) (eval Q C e)) ∧ (∀ C fs, Agrees (evalFields P C fs) (evalFields Q C fs)) ∧
    (∀ C ss e, Agrees (evalBlock P C ss e) (evalBlock Q C ss e)) ∧
    (∀ C x vs e, Agrees (evalFor P C x vs e) (evalFor Q C x vs e)) ∧
    (∀ C c e, Agrees (evalWhile P C c e) (evalWhile Q C c e)) ∧ (∀ C e, Agrees (evalLoop P C e) (evalLoop Q C e)) ∧
    (∀ C v arms, Agrees (evalArms P C v arms) (evalArms Q C v arms)) ∧
    (∀ C v m vs, Agrees (callMethod P C v m vs) (callMethod Q C v m vs)) ∧
    (∀ C o f vs, Agrees (callPath P C o f vs) (callPath Q C o f vs)) ∧ (∀ f vs, Agrees (callFn P f vs) (callFn Q f vs)) ∧
    (∀ C f vs, Agrees (applyVal P C f vs) (applyVal Q C f vs)) ∧ (∀ C es, Agrees (evalList P C es) (evalList Q C es)) ∧
    (∀ C segs, Agrees (evalPath P C segs) (evalPath Q C segs)) := by
  refine eval.mutual_fixpoint_induct P (fun f => ∀ C e, Agrees (f C e) (eval Q C e))
    (fun f => ∀ C fs, Agrees (f C fs) (evalFields Q C fs)) (fun f => ∀ C ss e, Agrees (f C ss e) (evalBlock Q C ss e))
    (fun f => ∀ C x vs e, Agrees (f C x vs e) (evalFor Q C x vs e)) (fun f => ∀ C c e, Agrees (f C c e) (evalWhile Q C c e))
    (fun f => ∀ C e, Agrees (f C e) (evalLoop Q C e)) (fun f => ∀ C v arms, Agrees (f C v arms) (evalArms Q C v arms))
    (fun f => ∀ C v m vs, Agrees (f C v m vs) (callMethod Q C v m vs)) (fun f => ∀ C o x vs, Agrees (f C o x vs) (callPath Q C o x vs))
    (fun f => ∀ g vs, Agrees (f g vs) (callFn Q g vs)) (fun f => ∀ C g vs, Agrees (f C g vs) (applyVal Q C g vs))
    (fun f => ∀ C es, Agrees (f C es) (evalList Q C es)) (fun f => ∀ C segs, Agrees (f C segs) (evalPath Q C segs))
    (admissible2 _) (admissible2 _) (admissible3 _) (admissible4 _) (admissible3 _) (admissible2 _)
    (admissible3 _) (admissible4 _) (admissible4 _) (admissible2 _) (admissible3 _) (admissible2 _)
    (admissible2 _) ?_ ?_ ?_ ?_ ?_ ?_ ?_ ?_ ?_ ?_ ?_ ?_ ?_
  · intro eval evalFields evalBlock evalFor evalWhile evalLoop evalArms callMethod callPath applyVal evalList evalPath h1 h2 h3 h4 h5 h6 h7 h8 h9 h11 h12 h13 C e
    cases e with
    | call f args =>
      rw [Source.eval.eq_def]
      cases f with
      | path segs =>
        dsimp only
        refine agrees_bind (h12 _ _) fun vs => agrees_bind (agrees_refl _) fun σ => ?_
        rcases segs with _ | ⟨x, _ | ⟨y, segs⟩⟩
        · agrees S
        · cases List.lookup ([x].getLast?.getD "") σ <;> agrees S
        · agrees S
      | _ => agrees S
    | bin op a b => rw [Source.eval.eq_def]; dsimp only; cases op <;> dsimp only <;> agrees S
    | _ => rw [Source.eval.eq_def]; dsimp only; agrees S
  · intro eval evalFields h1 h2 C fs
    rw [Source.evalFields.eq_def]
    agrees S
  · intro eval evalBlock h1 h2 C ss e
    rw [Source.evalBlock.eq_def]
    agrees S
  · intro eval evalFor h1 h2 C x vs e
    rw [Source.evalFor.eq_def]
    agrees S
  · intro eval evalWhile h1 h2 C c e
    rw [Source.evalWhile.eq_def]
    agrees S
  · intro eval evalLoop h1 h2 C e
    rw [Source.evalLoop.eq_def]
    agrees S
  · intro eval evalArms h1 h2 C v arms
    rw [Source.evalArms.eq_def]
    agrees S
  · intro callPath callFn applyVal h1 h2 h3 C v m vs
    rw [Source.callMethod.eq_def]
    dsimp only
    rw [methodOf_same S]
    cases methodOf P v m vs with
    | some f => exact h2 _ _
    | none =>
      dsimp only
      rcases higherOrder v m with _ | _ | ⟨w, k⟩
      · agrees S
      · rcases vs with _ | ⟨f, _ | ⟨g, vs⟩⟩ <;> agrees S
      · rcases vs with _ | ⟨f, _ | ⟨g, vs⟩⟩ <;> agrees S
  · intro callPath callFn h1 h2 C o x vs
    rw [Source.callPath.eq_def]
    agrees S
  · intro eval h1 f vs
    rw [Source.callFn.eq_def]
    agrees S
  · intro eval callPath h1 h2 C f vs
    rw [Source.applyVal.eq_def]
    agrees S
  · intro eval evalList h1 h2 C es
    rw [Source.evalList.eq_def]
    agrees S
  · intro eval h1 C segs
    rw [Source.evalPath.eq_def]
    refine agrees_bind (agrees_refl _) fun σ => ?_
    rcases segs with _ | ⟨x, _ | ⟨y, segs⟩⟩
    · exact agrees_item P Q C S h1 []
    · cases List.lookup ([x].getLast?.getD "") σ
      · exact agrees_item P Q C S h1 [x]
      · exact agrees_refl _
    · exact agrees_item P Q C S h1 (x :: y :: segs)

theorem symm {P Q : Program} (S : Same P Q) : Same Q P where
  usizeMax := S.usizeMax.symm
  wraps := S.wraps.symm
  fns o f vs := (S.fns o f vs).symm
  consts o x := (S.consts o x).symm
  types t := (S.types t).symm
  aliases x := (S.aliases x).symm
  globs x := by simp only [hasVariant_same S]; exact (S.globs x).symm

theorem eq_of_agrees {x y : M α} (h : Agrees x y) (h' : Agrees y x) : x = y := by
  unfold Agrees at h h'
  funext σ
  cases e : x σ with
  | some r => exact (h σ r e).symm
  | none =>
    cases e' : y σ with
    | none => rfl
    | some r => rw [h' σ r e'] at e; cases e

theorem callPath_eq {P Q : Program} (S : Same P Q) (C : Ctx) (o : List String) (f : String) (vs : List Val) : callPath Q C o f vs = callPath P C o f vs :=
  eq_of_agrees ((agrees_all Q P S.symm).2.2.2.2.2.2.2.2.1 C o f vs) ((agrees_all P Q S).2.2.2.2.2.2.2.2.1 C o f vs)

theorem callFn_eq {P Q : Program} (S : Same P Q) (f : Fn) (vs : List Val) : callFn Q f vs = callFn P f vs :=
  eq_of_agrees ((agrees_all Q P S.symm).2.2.2.2.2.2.2.2.2.1 f vs) ((agrees_all P Q S).2.2.2.2.2.2.2.2.2.1 f vs)

end Same
end Langtag.Source
