#!/usr/bin/env python3
"""Generate lean/Verif/Conformance/Tags.lean from the tables of tags in /repo/tests/lib.rs."""
import re
src = open('/repo/tests/lib.rs').read()
def table(fn):
    body = re.search(r'fn ' + fn + r'\(\) \{.*?vec!\[(.*?)\n\t\];', src, re.S).group(1)
    body = re.sub(r'//[^\n]*', '', body)
    body = re.sub(r'\\\n\s*', '', body)
    return re.findall(r'"([^"]*)"', body)
out = ['''import Verif.Model.Types
import Verif.Spec.Text

/-! Generated by tools/gen_tests.py from /repo/tests/lib.rs, do not edit by hand.
The tables of well-formed and ill-formed tags of the test suite, checked on the model.  These are tests of the model, not proofs of
properties. -/

set_option autoImplicit false

namespace Langtag.Conformance
open Langtag.Model Langtag.Spec
''']
import math
for fn, ok in [('test_wellformed_tags', 'true'), ('test_broken_tags', 'false'), ('test_random_good_tags', 'true'), ('test_random_bad_tags', 'false')]:
    tags = table(fn)
    line = src[:src.index('fn ' + fn)].count('\n') + 1
    out.append(f'-- `{fn}`, tests/lib.rs:{line}\n')
    for k in range(0, len(tags), 20):
        items = ',\n  '.join('"%s"' % t for t in tags[k:k+20])
        out.append(f'example : ∀ s ∈ [\n  {items}], StrNewtype.isOk LangTag (ascii s) = {ok} := by decide +kernel\n')
out.append('end Langtag.Conformance\n')
open('/verif/lean/Verif/Conformance/Tags.lean', 'w').write('\n'.join(out))
