#!/usr/bin/env python3
"""Translate the automata of /repo/src/grammar.rs into Lean tables (lean/Verif/Model/Automata.lean).

Purely syntactic: each `Nu32 => match token { PATS => Mu32, ... _ => return false }` arm becomes one row.
usage: gen_dfa.py [/repo/src/grammar.rs] > lean/Verif/Model/Automata.lean
"""
import re, sys

def parse(path):
    lines = open(path).read().split("\n")
    autos, i = [], 0
    while i < len(lines):
        m = re.match(r"impl (\w+) \{", lines[i])
        if not m:
            i += 1
            continue
        name, start = m[1], i + 1
        j = i
        while lines[j] != "}":
            j += 1
        body = lines[i : j + 1]
        end = j + 1
        text = "\n".join(body)
        init = re.search(r"Self \{ state: (\d+)u32 \}", text)[1]
        p0 = next(k for k, l in enumerate(body) if "fn push" in l)
        a0 = next(k for k, l in enumerate(body) if "fn is_accepting" in l)
        v0 = next(k for k, l in enumerate(body) if "fn validate_str" in l)
        rows, k = [], p0
        while k < a0:
            m = re.match(r"\t\t\t(\d+)u32 => match token \{$", body[k])
            if m:
                q, ln = int(m[1]), start + k
                k += 1
                arm = ""
                while body[k] != "\t\t\t},":
                    arm += " " + body[k].strip()
                    k += 1
                arms = [x.strip() for x in arm.split(",") if x.strip()]
                assert arms[-1] == "_ => return false", arms
                out = []
                for a in arms[:-1]:
                    pats, tgt = a.split(" => ")
                    t = int(re.fullmatch(r"(\d+)u32", tgt)[1])
                    rs = []
                    for p in pats.split("|"):
                        p = p.strip()
                        r = re.fullmatch(r"'(.)'(?:\.\.='(.)')?", p)
                        assert r, p
                        rs.append((r[1], r[2] or r[1]))
                    out.append((rs, t))
                rows.append((q, ln, out))
            k += 1
        acc = [int(x) for x in re.findall(r"(\d+)u32", "\n".join(body[a0:v0]))]
        autos.append(dict(name=name, init=int(init), rows=rows, acc=acc,
                          lines=(start, end), push=(start + p0, start + a0 - 1), accl=(start + a0, start + v0 - 1)))
        i = j
    return autos

def chunks(l, n):
    return [l[i:i+n] for i in range(0, len(l), n)]

def lean(autos):
    o = []
    o.append("import Verif.Model.Dfa\n")
    o.append("/-! Generated by tools/gen_dfa.py from /repo/src/grammar.rs, do not edit by hand.")
    o.append("Each automaton of `grammar.rs` is a table: one row per arm `Nu32 => match token {..}` of `push`,")
    o.append("each row a list of (character ranges, next state) in source order.  The `_ => return false`")
    o.append("arms are the absence of a match.  States without an arm (only `_ => return false`) have no row.")
    o.append("A `'c'` pattern is the range `('c', 'c')`. -/\n")
    o.append("set_option autoImplicit false\n\nnamespace Langtag.Model.Automata\nopen Langtag.Model\n")
    for a in autos:
        n = a["name"]; n = n[0].lower() + n[1:]
        o.append(f"/-- `push` of `{a['name']}`: src/grammar.rs:{a['push'][0]}-{a['push'][1]}. -/")
        o.append(f"def {n}Rows : List Row := [")
        rs = []
        for q, ln, arms in a["rows"]:
            s = ", ".join("⟨[" + ", ".join(f"('{x}', '{y}')" for x, y in r) + f"], {t}⟩" for r, t in arms)
            rs.append(f"  ⟨{q}, [{s}]⟩")
        o.append(",\n".join(rs) + "]\n")
        o.append(f"/-- Automaton `{a['name']}`: `new` and `is_accepting`, src/grammar.rs:{a['lines'][0]}-{a['accl'][1]}. -/")
        acc = ",\n    ".join(", ".join(map(str, c)) for c in chunks(a["acc"], 20))
        o.append(f"def {n} : Dfa where\n  init := {a['init']}\n  rows := {n}Rows\n  accepting := [{acc}]\n")
    o.append("end Langtag.Model.Automata")
    return "\n".join(o)

if __name__ == "__main__":
    print(lean(parse(sys.argv[1] if len(sys.argv) > 1 else "/repo/src/grammar.rs")))
