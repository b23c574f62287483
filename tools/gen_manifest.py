#!/usr/bin/env python3
"""Writes MANIFEST.json and lean/Verif/Audit.lean from the theorems in lean/Verif/Props and tools/notes.json."""
import json, re, pathlib
root = pathlib.Path(__file__).resolve().parent.parent
notes = json.loads((root / "tools/notes.json").read_text())
ids = [json.loads(l)["id"] for l in (root / "properties.jsonl").read_text().splitlines() if l.strip()]
thms, mods = {}, []
for f in sorted((root / "lean/Verif/Props").glob("*.lean")):
    mods.append("Verif.Props." + f.stem)
    for m in re.finditer(r"^theorem (C(\d\d)_\w+)", f.read_text(), re.M):
        thms.setdefault("C" + m.group(2), []).append("Langtag.Props." + m.group(1))
assert set(thms) <= set(ids), set(thms) - set(ids)
claims = []
for i in ids:
    ts = thms.get(i, [])
    extra = notes.get(i, {})
    ts = ts + extra.get("also", [])
    if not ts:
        assert extra.get("not_applicable"), f"{i} has no theorem"
        status = "not_applicable"
    elif any(t.endswith("_partial") for t in ts):
        status = "partial"
    else:
        status = "proved"
    claims.append({"property": i, "status": status, "theorems": ts, "note": extra.get("note", "")})
(root / "MANIFEST.json").write_text(json.dumps({"claims": claims}, indent=1, ensure_ascii=False) + "\n")
out = ["".join(f"import {m}\n" for m in mods)]
out.append("\n/-!\n# The axioms each property theorem depends on\n\nGenerated by tools/gen_manifest.py.\n-/\n\n")
out.append("set_option autoImplicit false\n\n")
out += [f"#print axioms {t}\n" for c in claims for t in c["theorems"]]
(root / "lean/Verif/Audit.lean").write_text("".join(out))
(root / "lean/Verif.lean").write_text("".join(f"import {m}\n" for m in mods) +
    "import Verif.Conformance.Api\nimport Verif.Conformance.Tags\nimport Verif.Repair.Components\nimport Verif.Repair.Compare\nimport Verif.Tight.Determined\nimport Verif.Tight.Decoder\nimport Verif.Tight.Slices\nimport Verif.Tight.Derives\nimport Verif.Source.Langtag\n" +
    "".join(f"import Verif.Source.{d}.{f.stem}\n" for d in ("Parsed", "Refine") for f in sorted((root / "lean/Verif/Source" / d).glob("*.lean"))) +
    "import Verif.Audit\n")
for c in claims: print(c["property"], c["status"], len(c["theorems"]))
