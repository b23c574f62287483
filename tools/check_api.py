#!/usr/bin/env python3
"""Compare the table `api` of lean/Verif/Spec/Client.lean with the functions declared `pub`, or in trait implementations, in /repo/src."""
import re, sys, pathlib
root = pathlib.Path(__file__).resolve().parent.parent
repo = pathlib.Path("/repo/src")

public, private = set(), set()
for f in sorted(repo.rglob("*.rs")):
    if f.name == "grammar.rs":
        continue
    owner, trait, depth = None, None, 0
    for line in f.read_text().splitlines():
        if line.strip().startswith("//"):
            continue
        m = re.match(r"impl(?:<[^>]*>)?\s+(?:(.+?)\s+for\s+)?([A-Za-z]+)", line)
        if m:
            trait, owner = m.group(1), m.group(2)
        elif line.startswith("}"):
            owner, trait = None, None
        m = re.match(r"\s*(pub(?:\(crate\))? )?(?:const )?(unsafe )?fn (\w+)", line)
        if m and not m.group(2):
            name = (owner or "", m.group(3))
            is_pub = trait is not None or (m.group(1) == "pub " and f.name != "utils.rs")
            (public if is_pub else private).add(name)
    for m in re.finditer(r"#\[macro_export\]\s*macro_rules! (\w+)", f.read_text()):
        public.add(("", m.group(1)))

spec = (root / "lean/Verif/Spec/Client.lean").read_text()
table = spec[spec.index("def api"):spec.index("/-- The types whose fields are public")]
types = re.findall(r'"(\w+)"', re.search(r"def stringTypes[^\n]*\n?([^\]]*)\]", (root / "lean/Verif/Spec/Run.lean").read_text()).group(0))
api = set()
for f in re.findall(r'⟨\[T\], "(\w+)"', table):
    api |= {(t, f) for t in types}
for t, f in re.findall(r'⟨\["(\w+)"\], "(\w+)"', table):
    api.add((t, f))
for f in re.findall(r'⟨\[\], "(\w+)"', table):
    api.add(("", f))
for t, fs in re.findall(r'methods "(\w+)" \[([^\]]*)\]', table):
    api |= {(t, f) for f in re.findall(r'"(\w+)"', fs)}

derived = {(t, "new") for t in types}  # generated by the derive of str_newtype
missing, extra = public - api, api - public - derived
wrong = api & private
print(f"{len(public)} public functions, {len(api)} in the table; missing {sorted(missing)}, not in the text {sorted(extra)}, private {sorted(wrong)}")
sys.exit(bool(missing or extra or wrong))
