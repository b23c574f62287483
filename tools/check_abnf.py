#!/usr/bin/env python3
"""Compare the lines of `grammarAbnf` in lean/Verif/Spec/AbnfText.lean with /repo/src/grammar.abnf."""
import re, sys

lean = open(__file__.rsplit("/", 2)[0] + "/lean/Verif/Spec/AbnfText.lean").read()
body = re.search(r"def grammarAbnf : List String := \[\n(.*?)\]\n\n", lean, re.S)[1]
a = [re.sub(r"\\(.)", r"\1", re.fullmatch(r'  "((?:[^"\\]|\\.)*)",?', l)[1]) for l in body.split("\n")]
b = open(sys.argv[1] if len(sys.argv) > 1 else "/repo/src/grammar.abnf").read().split("\n")
if b[-1] == "":
    b.pop()
if a != b:
    sys.exit("differ")
print(f"{len(a)} lines: identical")
