#!/usr/bin/env python3
"""Writes Verif/Source/Text/*.lean: the Rust files of /repo/src, line by line and verbatim.

With --check, compares what is in the Lean files with /repo instead (reading the Lean string literals back)."""
import os, re, sys

SRC = "/repo/src"
OUT = os.path.join(os.path.dirname(os.path.dirname(os.path.abspath(__file__))), "lean/Verif/Source/Text")
FILES = [
    ("utils.rs", "Utils", "utilsRs"),
    ("private_use.rs", "PrivateUseAlias", "privateUseAliasRs"),
    ("grandfathered.rs", "Grandfathered", "grandfatheredRs"),
    ("lib.rs", "Lib", "libRs"),
    ("normal/mod.rs", "Normal", "normalRs"),
    ("normal/extension.rs", "Extension", "extensionRs"),
    ("normal/private_use.rs", "PrivateUse", "privateUseRs"),
    ("normal/region.rs", "Region", "regionRs"),
    ("normal/script.rs", "Script", "scriptRs"),
    ("normal/variant.rs", "Variant", "variantRs"),
    ("normal/language/mod.rs", "Language", "languageRs"),
    ("normal/language/extlang.rs", "Extlang", "extlangRs"),
    ("normal/language/primary.rs", "Primary", "primaryRs"),
    ("grammar.rs", "Grammar", "grammarRs"),
]

CHUNK = 100

def quote(line):
    return '"' + line.replace("\\", "\\\\").replace('"', '\\"').replace("\t", "\\t") + '"'

def unquote(s):
    return re.sub(r"\\(.)", lambda m: {"t": "\t"}.get(m.group(1), m.group(1)), s[1:-1])

def lines_of(path):
    text = open(os.path.join(SRC, path), encoding="utf-8").read()
    assert text.endswith("\n")
    return text[:-1].split("\n")

def generate():
    os.makedirs(OUT, exist_ok=True)
    for path, module, name in FILES:
        ls = lines_of(path)
        with open(os.path.join(OUT, module + ".lean"), "w", encoding="utf-8") as f:
            f.write(f"import Verif.Source.Codes\n\n/-! The text of `/repo/src/{path}`, line by line and verbatim (written and compared by `tools/gen_source.py`). -/\n\n")
            f.write("set_option autoImplicit false\nset_option maxRecDepth 10000\n\nnamespace Langtag.Source.Text\n\n")
            chunks = [ls[i : i + CHUNK] for i in range(0, len(ls), CHUNK)]
            for k, c in enumerate(chunks):
                f.write(f"/-- Lines {k * CHUNK + 1} to {k * CHUNK + len(c)}. -/\ndef {name}{k} : List (List Nat) := [\n")
                f.write(",\n".join("  codes% " + quote(l) for l in c))
                f.write("]\n\n")
            f.write(f"/-- The lines of `/repo/src/{path}`. -/\ndef {name} : List (List Nat) :=\n  ")
            f.write(" ++\n  ".join(f"{name}{k}" for k in range(len(chunks))))
            f.write("\n\nend Langtag.Source.Text\n")

def check():
    ok = True
    for path, module, name in FILES:
        text = open(os.path.join(OUT, module + ".lean"), encoding="utf-8").read()
        found = [unquote(m.group(1)) for m in re.finditer(r'^  codes% ("(?:[^"\\]|\\.)*"),?\]?$', text, re.M)]
        same = found == lines_of(path)
        ok = ok and same
        print(path, "same" if same else "DIFFERENT")
    sys.exit(0 if ok else 1)

if __name__ == "__main__":
    check() if "--check" in sys.argv else generate()
