#!/usr/bin/env python3
"""Writes Verif/Source/Ast/*.lean: the abstract syntax of the Rust files of /repo/src other than grammar.rs, as the parser of
Verif/Source/Parser.lean reads them from Verif/Source/Text/*.lean, one definition for each function.  Nothing rests on this program:
Verif/Source/Parsed/*.lean proves that the parser gives these."""
import os, subprocess, sys, tempfile
import gen_source

ROOT = os.path.dirname(os.path.dirname(os.path.abspath(__file__)))
OUT = os.path.join(ROOT, "lean/Verif/Source/Ast")
OUTP = os.path.join(ROOT, "lean/Verif/Source/Parsed")

LEAN = r'''
open Langtag.Source Langtag.Source.Text

def q (s : String) : String := "\"" ++ s ++ "\""
def lst (xs : List String) : String := "[" ++ ", ".intercalate xs ++ "]"
def nl (ind : Nat) : String := "\n" ++ "".pushn ' ' ind
def lstNl (ind : Nat) (xs : List String) : String :=
  if xs.isEmpty then "[]" else "[" ++ ",".intercalate (xs.map fun x => nl ind ++ x) ++ "]"

partial def ty : Ty → String
  | .path s a => s!"(.path {lst (s.map q)} {lst (a.map ty)})"
  | .ref m t => s!"(.ref {m} {ty t})"
  | .slice t => s!"(.slice {ty t})"
  | .array t n => s!"(.array {ty t} {n})"
  | .tuple ts => s!"(.tuple {lst (ts.map ty)})"
  | .fnMut a r => s!"(.fnMut {lst (a.map ty)} {ty r})"

def lit : Lit → String
  | .int n s => s!"(.int {n} {q s})"
  | .char c => s!"(.char {c})"
  | .byte c => s!"(.byte {c})"
  | .str s => s!"(.str {lst (s.map toString)})"
  | .bstr s => s!"(.bstr {lst (s.map toString)})"
  | .bool b => s!"(.bool {b})"

partial def pat : Pat → String
  | .wild => ".wild"
  | .lit l => s!"(.lit {lit l})"
  | .range a b => s!"(.range {lit a} {lit b})"
  | .path s => s!"(.path {lst (s.map q)})"
  | .ctor s ps => s!"(.ctor {lst (s.map q)} {lst (ps.map pat)})"
  | .tuple ps => s!"(.tuple {lst (ps.map pat)})"
  | .or ps => s!"(.or {lst (ps.map pat)})"

def op : BinOp → String
  | .add => ".add" | .sub => ".sub" | .eq => ".eq" | .ne => ".ne" | .lt => ".lt" | .le => ".le" | .gt => ".gt" | .ge => ".ge"
  | .and => ".and" | .or => ".or"

mutual
partial def expr (i : Nat) : Expr → String
  | .lit l => s!"(.lit {lit l})"
  | .path s => s!"(.path {lst (s.map q)})"
  | .call f a => s!"(.call {expr i f} {lst (a.map (expr i))})"
  | .method r n a => s!"(.method {expr i r} {q n} {lst (a.map (expr i))})"
  | .field e f => s!"(.field {expr i e} {q f})"
  | .index e k => s!"(.index {expr i e} {expr i k})"
  | .range a b => s!"(.range {expr i a} {expr i b})"
  | .rangeFrom a => s!"(.rangeFrom {expr i a})"
  | .rangeTo a => s!"(.rangeTo {expr i a})"
  | .ref m e => s!"(.ref {m} {expr i e})"
  | .deref e => s!"(.deref {expr i e})"
  | .not e => s!"(.not {expr i e})"
  | .bin o a b => s!"(.bin {op o} {expr i a} {expr i b})"
  | .cast e t => s!"(.cast {expr i e} {ty t})"
  | .ite c t e => s!"(.ite {expr i c}{nl (i+2)}{expr (i+2) t}{nl (i+2)}{expr (i+2) e})"
  | .match e arms => s!"(.match {expr i e} {lstNl (i+2) (arms.map (arm (i+2)))})"
  | .loop b => s!"(.loop{nl (i+2)}{expr (i+2) b})"
  | .while c b => s!"(.while {expr i c}{nl (i+2)}{expr (i+2) b})"
  | .for x e b => s!"(.for {q x} {expr i e}{nl (i+2)}{expr (i+2) b})"
  | .break e => s!"(.break {expr i e})"
  | .return e => s!"(.return {expr i e})"
  | .block ss e => s!"(.block {lstNl (i+2) (ss.map (stmt (i+2)))}{nl (i+2)}{expr (i+2) e})"
  | .closure ps b => s!"(.closure {lst (ps.map pat)}{nl (i+2)}{expr (i+2) b})"
  | .struct s fs => s!"(.struct {lst (s.map q)} {lst (fs.map fun | .mk f e => s!".mk {q f} {expr i e}")})"
  | .assign p e => s!"(.assign {expr i p} {expr i e})"
  | .opAssign o p e => s!"(.opAssign {op o} {expr i p} {expr i e})"
  | .tuple es => s!"(.tuple {lst (es.map (expr i))})"
  | .array es => s!"(.array {lst (es.map (expr i))})"
  | .matches e p => s!"(.matches {expr i e} {pat p})"
  | .panic => ".panic"
partial def arm (i : Nat) : Arm → String
  | .mk p e => s!".mk {pat p} {expr i e}"
partial def stmt (i : Nat) : Stmt → String
  | .let p e => s!".let {pat p} {expr i e}"
  | .expr e => s!".expr {expr i e}"
end

def params (ps : List (String × Ty)) : String := lst (ps.map fun (x, t) => s!"({q x}, {ty t})")

def fnDef (f : FnDef) : String := s!"⟨{q f.name}, {params f.params}, {ty f.ret},{nl 2}{expr 2 f.body}⟩"

def shape : Shape → String
  | .tuple ts => s!"(.tuple {lst (ts.map ty)})"
  | .named fs => s!"(.named {params fs})"

def traitName : Option Ty → String
  | some (.path s _) => s.getLast?.getD "" ++ "_"
  | _ => ""
def tyName : Ty → String
  | .path s _ => s.getLast?.getD ""
  | _ => "x"
def implName (t : Option Ty) (y : Ty) (f : FnDef) : String := tyName y ++ "_" ++ traitName t ++ f.name

/-- Definitions, and the list of items. -/
def module (is : List Item) : IO (List String × List String × List String) := do
  let mut defs : List String := []
  let mut items : List String := []
  let mut used : List String := []
  for it in is do
    match it with
    | .glob x => items := s!".glob {q x}" :: items
    | .fn f =>
      defs := s!"/-- `fn {f.name}` -/\ndef {f.name} : FnDef := {fnDef f}" :: defs
      used := f.name :: used
      items := s!".fn {f.name}" :: items
    | .const x e => items := s!".const {q x} {expr 2 e}" :: items
    | .struct x ds a s => items := s!".struct {q x} {lst (ds.map q)} {lst (a.map q)} {shape s}" :: items
    | .enum x ds vs => items := s!".enum {q x} {lst (ds.map q)} {lst (vs.map fun (v, s) => s!"({q v}, {shape s})")}" :: items
    | .alias x t => items := s!".alias {q x} {ty t}" :: items
    | .impl tr y cs fs =>
      let mut names := []
      for f in fs do
        let mut n := implName tr y f
        if used.contains n then n := n ++ "_2"
        used := n :: used
        let head := match tr with
          | some t => s!"`<{tyName y} as {(traitName (some t)).dropEnd 1}>::{f.name}`"
          | none => s!"`{tyName y}::{f.name}`"
        defs := s!"/-- {head} -/\ndef {n} : FnDef := {fnDef f}" :: defs
        names := n :: names
      let t := match tr with | some t => s!"(some {ty t})" | none => "none"
      items := s!".impl {t} {ty y} {lst (cs.map fun (x, e) => s!"({q x}, {expr 2 e})")}{nl 4}{lst names.reverse}" :: items
    | .macroRules n p b => items := s!".macroRules {q n} {q p}{nl 4}{expr 4 b}" :: items
  return (defs.reverse, items.reverse, used.reverse)

def write (dir path mod name : String) (lines : List (List Nat)) : IO Unit := do
  match parseCodes lines with
  | none => throw (IO.userError s!"{path} does not parse")
  | some is =>
    let (defs, items, _) ← module is
    let text := s!"import Verif.Source.Syntax\n\n/-! The abstract syntax of `/repo/src/{path}` (written by `tools/gen_ast.py`; `Verif/Source/Parsed/{mod}.lean` proves that it is that). -/\n\nset_option autoImplicit false\nset_option maxRecDepth 10000\n\nnamespace Langtag.Source.Ast\n\n"
      ++ "\n\n".intercalate defs ++ (if defs.isEmpty then "" else "\n\n")
      ++ s!"/-- The items of `/repo/src/{path}`. -/\ndef {name} : List Item := {lstNl 2 items}\n\nend Langtag.Source.Ast\n"
    IO.FS.writeFile (dir ++ "/" ++ mod ++ ".lean") text

'''

def main():
    os.makedirs(OUT, exist_ok=True)
    os.makedirs(OUTP, exist_ok=True)
    files = [f for f in gen_source.FILES if f[1] != "Grammar"]
    src = "import Verif.Source.Parser\n" + "".join(f"import Verif.Source.Text.{m}\n" for _, m, _ in files) + LEAN
    src += "def main (args : List String) : IO Unit := do\n"
    for path, mod, name in files:
        src += f'  write args[0]! "{path}" "{mod}" "{name}" {name}\n'
    with tempfile.TemporaryDirectory() as d:
        p = os.path.join(d, "GenAst.lean")
        open(p, "w").write(src)
        subprocess.run(["lake", "env", "lean", "--run", p, OUT], cwd=os.path.join(ROOT, "lean"), check=True)
    for path, mod, name in files:
        with open(os.path.join(OUTP, mod + ".lean"), "w") as f:
            f.write(f"import Verif.Source.Parser\nimport Verif.Source.KernelRfl\nimport Verif.Source.Text.{mod}\nimport Verif.Source.Ast.{mod}\n\n"
                    f"/-! `/repo/src/{path}` reads as the abstract syntax of `Verif/Source/Ast/{mod}.lean`. -/\n\nset_option autoImplicit false\n\n"
                    f"namespace Langtag.Source.Parsed\n\n"
                    f"theorem {name} : parseCodes Text.{name} = some Ast.{name} := by kernel_rfl\n\nend Langtag.Source.Parsed\n")

if __name__ == "__main__":
    main()
