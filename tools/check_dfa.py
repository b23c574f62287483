#!/usr/bin/env python3
"""Round trip: print Rust from the tables of lean/Verif/Model/Automata.lean and compare it, token by token, with
/repo/src/grammar.rs.  Shares no code with gen_dfa.py; it reads the Lean file, not the output of the generator.
usage: check_dfa.py [grammar.rs] [Automata.lean]
"""
import re, sys

rs = sys.argv[1] if len(sys.argv) > 1 else "/repo/src/grammar.rs"
ln = sys.argv[2] if len(sys.argv) > 2 else __file__.rsplit("/", 2)[0] + "/lean/Verif/Model/Automata.lean"

TOK = re.compile(r"'.'|\.\.=|=>|::|[A-Za-z0-9_]+|\S")

def tokens(text):
    return TOK.findall(re.sub(r"///[^\n]*", "", text))

VALIDATE = """
pub const fn validate_str(s: &str) -> bool { Self::validate_bytes(s.as_bytes()) }
pub const fn validate_bytes(bytes: &[u8]) -> bool {
  let mut i = 0; let mut automaton = Self::new();
  while i < bytes.len() {
    match ::static_automata::decode_utf8_char(bytes, i) {
      Ok((c, len)) => { if !automaton.push(c) { return false; } i += len; }
      Err(_) => return false,
    }
  }
  automaton.is_accepting()
}
"""

lean = open(ln).read()
out = ""
defs = re.findall(r"def (\w+) : Dfa where\n  init := (\d+)\n  rows := (\w+)\n  accepting := \[([^\]]*)\]", lean)
for name, init, rows, acc in defs:
    assert rows == name + "Rows"
    body = re.search(r"def %s : List Row := \[\n(.*?)\]\n\n" % rows, lean, re.S)[1]
    ty = name[0].upper() + name[1:]
    push = ""
    for row in body.split(",\n"):
        q, arms = re.fullmatch(r"\s*⟨(\d+), \[(.*)\]⟩", row).groups()
        push += f"{q}u32 => match token {{ "
        n = 0
        for pats, tgt in re.findall(r"⟨\[((?:\('.', '.'\)(?:, )?)+)\], (\d+)⟩", arms):
            ps = re.findall(r"\('(.)', '(.)'\)", pats)
            push += " | ".join(f"'{a}'" if a == b else f"'{a}'..='{b}'" for a, b in ps) + f" => {tgt}u32, "
            n += len(ps)
        assert n == arms.count("('"), row
        push += "_ => return false, },\n"
    accepting = " | ".join(a.strip() + "u32" for a in acc.split(","))
    out += f"""pub struct {ty} {{ state: u32, }}
impl {ty} {{
pub const fn new() -> Self {{ Self {{ state: {init}u32 }} }}
pub const fn push(&mut self, token: char) -> bool {{
self.state = match self.state {{ {push} _ => return false, }}; true }}
pub const fn is_accepting(&self) -> bool {{ matches!(self.state, {accepting}) }}
{VALIDATE} }}
"""

def norm(t):
    # trailing commas are the formatter's
    return [x for i, x in enumerate(t) if not (x == "," and i + 1 < len(t) and t[i + 1] in ")}")]

a, b = norm(tokens(out)), norm(tokens(open(rs).read()))
for i, (x, y) in enumerate(zip(a, b)):
    if x != y:
        sys.exit(f"differ at token {i}:\n  lean {' '.join(a[i-8:i+8])}\n  rust {' '.join(b[i-8:i+8])}")
if len(a) != len(b):
    sys.exit(f"lengths differ: {len(a)} {len(b)}; {a[len(b):len(b)+8]} {b[len(a):len(a)+8]}")
print(f"{len(defs)} automata, {len(a)} tokens: identical")
