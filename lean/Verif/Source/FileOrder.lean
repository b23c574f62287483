import Verif.Source.Same
import Verif.Source.Crate

/-!
# The order of the files

In which order the files of the crate are read makes no difference: no two of them give the same name to something.
-/

set_option autoImplicit false

namespace Langtag.Source

theorem allSome_iff {α : Type} (l : List (Option α)) (b : List α) : allSome l = some b ↔ l = b.map some := by
  induction l generalizing b with
  | nil => cases b <;> simp [allSome]
  | cons a l ih =>
    cases a with
    | none => cases b <;> simp [allSome]
    | some a =>
      cases b with
      | nil => simp [allSome]
      | cons c b => simp [allSome, ih]; exact and_comm

theorem allSome_perm {α : Type} {l l' : List (Option α)} {b : List α} (p : l'.Perm l) (h : allSome l = some b) :
    ∃ b', allSome l' = some b' ∧ b'.Perm b := by
  rw [allSome_iff] at h
  subst h
  refine ⟨l'.filterMap id, ?_, ?_⟩
  · rw [allSome_iff]
    have : ∀ x ∈ l', x.isSome = true := by
      intro x hx
      obtain ⟨y, _, rfl⟩ := List.mem_map.mp (p.mem_iff.mp hx)
      rfl
    clear p
    induction l' with
    | nil => rfl
    | cons x l' ih =>
      have hx := this x (by simp)
      cases x with
      | none => cases hx
      | some x =>
        rw [List.filterMap_cons]
        dsimp only [id]
        rw [List.map_cons, ← ih fun y hy => this y (by simp [hy])]
  · have := p.filterMap id
    rwa [List.filterMap_map, show (id ∘ some : α → Option α) = some from rfl, List.filterMap_some] at this

theorem lookup_eq {α β : Type} [BEq α] [LawfulBEq α] (a : α) (l : List (α × β)) : l.lookup a = (l.find? fun e => e.1 == a).map (·.2) := by
  induction l with
  | nil => rfl
  | cons e l ih =>
    obtain ⟨x, y⟩ := e
    rw [List.lookup_cons, List.find?_cons]
    by_cases h : x = a
    · subst h; simp
    · have h1 : (a == x) = false := by simpa using fun e => h e.symm
      have h2 : (x == a) = false := by simpa using h
      simp [h1, h2, ih]

/-- No two of the lists have an element of the class. -/
def Apart {α β : Type} (F : α → List β) (p : β → Bool) (x y : α) : Prop := ∀ a ∈ F x, ∀ b ∈ F y, ¬ (p a = true ∧ p b = true)

theorem find_append_comm {β : Type} (p : β → Bool) (l m n : List β) (h : ∀ a ∈ l, ∀ b ∈ m, ¬ (p a = true ∧ p b = true)) :
    (l ++ (m ++ n)).find? p = (m ++ (l ++ n)).find? p := by
  simp only [List.find?_append]
  cases e : l.find? p with
  | none => simp
  | some a =>
    have : m.find? p = none := by
      rw [List.find?_eq_none]
      intro b hb hpb
      exact h a (List.mem_of_find?_eq_some e) b hb ⟨List.find?_some e, hpb⟩
    simp [this]

theorem find_perm {α β : Type} (F : α → List β) (p : β → Bool) {l l' : List α} (h : l.Perm l') (hd : l.Pairwise (Apart F p)) :
    (l.flatMap F).find? p = (l'.flatMap F).find? p := by
  induction h with
  | nil => rfl
  | cons x _ ih =>
    simp only [List.flatMap_cons, List.find?_append]
    rw [ih (List.pairwise_cons.mp hd).2]
  | swap x y l =>
    simp only [List.flatMap_cons]
    apply find_append_comm
    exact (List.pairwise_cons.mp hd).1 x (by simp)
  | trans h1 _ ih1 ih2 =>
    rw [ih1 hd]
    exact ih2 (h1.pairwise hd fun h a ha b hb hp => h b hb a ha hp.symm)

/-- No two files have functions, constants, types, aliases or glob imports of the same name. -/
structure FilesApart (P : Program) (fs : List (List Item)) : Prop where
  fns : fs.Pairwise fun x y => ∀ a ∈ x.flatMap (itemFns []), ∀ b ∈ y.flatMap (itemFns []), ¬ (a.owner = b.owner ∧ a.fn.name = b.fn.name)
  consts : fs.Pairwise fun x y => ∀ a ∈ x.flatMap (itemConsts []), ∀ b ∈ y.flatMap (itemConsts []), ¬ (a.1 = b.1 ∧ a.2.1 = b.2.1)
  types : fs.Pairwise fun x y => ∀ a ∈ x.flatMap (itemTypes []), ∀ b ∈ y.flatMap (itemTypes []), a.1 ≠ b.1
  aliases : fs.Pairwise fun x y => ∀ a ∈ x.flatMap itemAliases, ∀ b ∈ y.flatMap itemAliases, a.1 ≠ b.1
  globs : fs.Pairwise fun x y => ∀ a ∈ x.flatMap itemGlobs, ∀ b ∈ y.flatMap itemGlobs,
    (match P.types.lookup [a] with | some (.enum ..) => true | _ => false) = true →
    (match P.types.lookup [b] with | some (.enum ..) => true | _ => false) = true → False

theorem same_of_perm {usizeMax : Nat} {g : List Item} {fs fs' : List (List Item)} (h : fs'.Perm fs) (hd : FilesApart (program usizeMax g fs) fs) :
    Same (program usizeMax g fs) (program usizeMax g fs') where
  usizeMax := rfl
  wraps := rfl
  fns o f vs := by
    show List.find? _ (_ ++ _) = List.find? _ (_ ++ _)
    rw [List.find?_append, List.find?_append]
    congr 1
    refine (find_perm _ _ h.symm (hd.fns.imp ?_)).symm
    intro x y hxy a ha b hb hp
    simp only [Bool.and_eq_true, decide_eq_true_eq] at hp
    exact hxy a ha b hb ⟨hp.1.1.1.trans hp.2.1.1.symm, hp.1.1.2.trans hp.2.1.2.symm⟩
  consts o f := by
    show List.find? _ (_ ++ _) = List.find? _ (_ ++ _)
    rw [List.find?_append, List.find?_append]
    congr 1
    refine (find_perm _ _ h.symm (hd.consts.imp ?_)).symm
    intro x y hxy a ha b hb hp
    simp only [Bool.and_eq_true, decide_eq_true_eq] at hp
    exact hxy a ha b hb ⟨hp.1.1.trans hp.2.1.symm, hp.1.2.trans hp.2.2.symm⟩
  types t := by
    rw [lookup_eq, lookup_eq]
    congr 1
    show List.find? _ (_ ++ _) = List.find? _ (_ ++ _)
    rw [List.find?_append, List.find?_append]
    congr 1
    refine (find_perm _ _ h.symm (hd.types.imp ?_)).symm
    intro x y hxy a ha b hb hp
    simp only [beq_iff_eq] at hp
    exact hxy a ha b hb (hp.1.trans hp.2.symm)
  aliases t := by
    rw [lookup_eq, lookup_eq]
    congr 1
    refine (find_perm _ _ h.symm (hd.aliases.imp ?_)).symm
    intro x y hxy a ha b hb hp
    simp only [beq_iff_eq] at hp
    exact hxy a ha b hb (hp.1.trans hp.2.symm)
  globs t := by
    refine (find_perm _ _ h.symm (hd.globs.imp ?_)).symm
    intro x y hxy a ha b hb hp
    refine hxy a ha b hb ?_ ?_
    · have := hp.1
      dsimp only [hasVariant] at this
      split at this <;> simp_all
    · have := hp.2
      dsimp only [hasVariant] at this
      split at this <;> simp_all

theorem files_apart (max : Nat) : FilesApart (crate max) files where
  fns := by decide +kernel
  consts := by decide +kernel
  types := by decide +kernel
  aliases := by decide +kernel
  globs := show files.Pairwise fun x y => ∀ a ∈ x.flatMap itemGlobs, ∀ b ∈ y.flatMap itemGlobs,
    (match (crate 0).types.lookup [a] with | some (.enum ..) => true | _ => false) = true →
    (match (crate 0).types.lookup [b] with | some (.enum ..) => true | _ => false) = true → False by decide +kernel

/-- Files in another order: names stand for the same functions of a trait, too. -/
theorem find_fns_perm {usizeMax : Nat} {g : List Item} {fs fs' : List (List Item)} (h : fs'.Perm fs) (hd : FilesApart (program usizeMax g fs) fs) (tr T f : String) :
    ((program usizeMax g fs').fns.find? fun F => F.owner = [T] && F.trait = tr && F.fn.name = f)
      = (program usizeMax g fs).fns.find? fun F => F.owner = [T] && F.trait = tr && F.fn.name = f := by
  show List.find? _ (_ ++ _) = List.find? _ (_ ++ _)
  rw [List.find?_append, List.find?_append]
  congr 1
  refine (find_perm _ _ h.symm (hd.fns.imp ?_)).symm
  intro x y hxy a ha b hb hp
  simp only [Bool.and_eq_true, decide_eq_true_eq] at hp
  exact hxy a ha b hb ⟨hp.1.1.1.trans hp.2.1.1.symm, hp.1.2.trans hp.2.2.symm⟩

/-- Every file of the crate is read, to its end. -/
theorem read_files : allSome (texts.map parseCodes) = some files := by
  have h := allSome_cons Parsed.utilsRs <| allSome_cons Parsed.privateUseAliasRs <| allSome_cons Parsed.grandfatheredRs <|
    allSome_cons Parsed.libRs <| allSome_cons Parsed.normalRs <| allSome_cons Parsed.extensionRs <| allSome_cons Parsed.privateUseRs <|
    allSome_cons Parsed.regionRs <| allSome_cons Parsed.scriptRs <| allSome_cons Parsed.variantRs <| allSome_cons Parsed.languageRs <|
    allSome_cons Parsed.extlangRs <| allSome_cons Parsed.primaryRs (as := []) (bs := []) rfl
  kernel_exact h

end Langtag.Source
