import Verif.Source.Crate
import Verif.Source.Automata
import Verif.Source.KernelRfl
import Verif.Source.Parsed.Extension
import Verif.Source.Parsed.Extlang
import Verif.Source.Parsed.Grammar
import Verif.Source.Parsed.Grandfathered
import Verif.Source.Parsed.Language
import Verif.Source.Parsed.Lib
import Verif.Source.Parsed.Normal
import Verif.Source.Parsed.Primary
import Verif.Source.Parsed.PrivateUse
import Verif.Source.Parsed.PrivateUseAlias
import Verif.Source.Parsed.Region
import Verif.Source.Parsed.Script
import Verif.Source.Parsed.Utils
import Verif.Source.Parsed.Variant

/-!
# The crate as a program

`readCrate` reads the texts of the files of `/repo/src`; `crate` is what it gives.
-/

set_option autoImplicit false

namespace Langtag.Source

/-- The texts of the files of `/repo/src`, other than `grammar.rs`. -/
def texts : List (List (List Nat)) :=
  [Text.utilsRs, Text.privateUseAliasRs, Text.grandfatheredRs, Text.libRs, Text.normalRs, Text.extensionRs, Text.privateUseRs,
    Text.regionRs, Text.scriptRs, Text.variantRs, Text.languageRs, Text.extlangRs, Text.primaryRs]

/-- All of a list, if none is missing. -/
def allSome {α : Type} : List (Option α) → Option (List α)
  | [] => some []
  | none :: _ => none
  | some a :: as => (allSome as).map (a :: ·)

/-- The program of the files that were read, if all of them were. -/
def programOf (usizeMax : Nat) (grammar : Option (List Item)) (files : Option (List (List Item))) : Option Program :=
  match grammar, files with
  | some grammar, some files => some (program usizeMax grammar files)
  | _, _ => none

/-- The program written in the files of `/repo/src`, on a machine with this largest `usize`. -/
def readCrate (usizeMax : Nat) : Option Program :=
  programOf usizeMax (parseCodes Text.grammarRs) (allSome (texts.map parseCodes))

/-- The abstract syntax of the files of `/repo/src`, other than `grammar.rs`. -/
def files : List (List Item) :=
  [Ast.utilsRs, Ast.privateUseAliasRs, Ast.grandfatheredRs, Ast.libRs, Ast.normalRs, Ast.extensionRs, Ast.privateUseRs,
    Ast.regionRs, Ast.scriptRs, Ast.variantRs, Ast.languageRs, Ast.extlangRs, Ast.primaryRs]

/-- The program, from the abstract syntax. -/
def crate (usizeMax : Nat) : Program := program usizeMax Automata.grammarRs files

theorem allSome_cons {α β : Type} {f : α → Option β} {a : α} {b : β} {as : List α} {bs : List β} (h : f a = some b)
    (h' : allSome (as.map f) = some bs) : allSome ((a :: as).map f) = some (b :: bs) := by
  rw [List.map_cons, h, allSome, h']
  rfl

theorem programOf_eq {usizeMax : Nat} {g : Option (List Item)} {fs : Option (List (List Item))} {grammar : List Item}
    {files : List (List Item)} (h : g = some grammar) (h' : fs = some files) :
    programOf usizeMax g fs = some (program usizeMax grammar files) := by
  rw [h, h']
  rfl

/-- Reading gives this program: every file of the crate is read, to its end. -/
theorem readCrate_eq (usizeMax : Nat) : readCrate usizeMax = some (crate usizeMax) := by
  have h := allSome_cons Parsed.utilsRs <| allSome_cons Parsed.privateUseAliasRs <| allSome_cons Parsed.grandfatheredRs <|
    allSome_cons Parsed.libRs <| allSome_cons Parsed.normalRs <| allSome_cons Parsed.extensionRs <| allSome_cons Parsed.privateUseRs <|
    allSome_cons Parsed.regionRs <| allSome_cons Parsed.scriptRs <| allSome_cons Parsed.variantRs <| allSome_cons Parsed.languageRs <|
    allSome_cons Parsed.extlangRs <| allSome_cons Parsed.primaryRs (as := []) (bs := []) rfl
  kernel_exact programOf_eq (usizeMax := usizeMax) Parsed.grammarRs h

end Langtag.Source
