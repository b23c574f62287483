import Verif.Source.FileOrder
import Verif.Source.Run

/-!
# C69: the files of the crate may come in any order
-/

set_option autoImplicit false

namespace Langtag.Props
open Langtag.Source

/-- The program written in these files and in `grammar.rs`. -/
def readFiles (max : Nat) (ts : List (List (List Nat))) : Option Program :=
  programOf max (parseCodes Text.grammarRs) (allSome (ts.map parseCodes))

/-- C69.  The model reads the files of the crate in one order, and takes the first item of a name.  The order does not
matter: whatever order the files are read in, every call of every function ends in the same way. -/
theorem C69_file_order (max : Nat) (ts : List (List (List Nat))) (h : ts.Perm texts) :
    (∀ T f args, runIn T f args (readFiles max ts) = run max T f args) ∧
    (∀ tr T f args, runAsIn tr T f args (readFiles max ts) = runAs max tr T f args) := by
  obtain ⟨fs, e, p⟩ := allSome_perm (h.map parseCodes) read_files
  have er : readFiles max ts = some (program max Automata.grammarRs fs) := by
    unfold readFiles
    rw [e, Parsed.grammarRs]
    rfl
  have S : Same (crate max) (program max Automata.grammarRs fs) := same_of_perm p (files_apart max)
  rw [er]
  unfold run runAs
  rw [readCrate_eq]
  constructor
  · intro T f args
    unfold runIn
    dsimp only
    rw [S.callPath_eq]
  · intro tr T f args
    unfold runAsIn
    dsimp only
    rw [find_fns_perm p (files_apart max)]
    simp only [S.callFn_eq]
    rfl

/-- Reading the files in the order the model reads them gives the program of the model. -/
example (max : Nat) : readFiles max texts = readCrate max := rfl

/-- There are many other orders: the thirteen files backwards. -/
example : texts.reverse.Perm texts ∧ texts.length = 13 := ⟨List.reverse_perm _, by decide +kernel⟩

/-- The order would matter if two files gave a function the same name: the program that has one `f` before another one is
not the same as the one with the two the other way round. -/
example :
    let f : Nat → List Item := fun n => [.fn ⟨"f", [], .path ["u8"] [], .lit (.int n "u8")⟩]
    (program 0 [] [f 1, f 2]).lookup [] "f" [] ≠ (program 0 [] [f 2, f 1]).lookup [] "f" [] := by
  intro f h
  have := congrArg (fun o : Option Fn => o.map fun F => match F.fn.body with | .lit (.int n _) => n | _ => 0) h
  revert this
  decide +kernel

end Langtag.Props
