#!/usr/bin/env python3
"""Generates lean/Verif/LicenseTable.lean from license_map in /repo/src/licenses.c and the names in licenses.h."""
import os, re
root = os.path.dirname(os.path.dirname(os.path.abspath(__file__)))
src = open('/repo/src/licenses.c').read()
names = dict(re.findall(r'#define (LIC_\w+)(?:\s|\\)+("[^"]*")', open('/repo/src/licenses.h').read()))
start = src.index('license_map[] = {')
body = src[start:src.index('int license_map_length')]
S = r'"(?:[^"\\]|\\.)*"'
pat = re.compile(r'\{\s*(LIC_\w+),\s*(' + S + r'),\s*(' + S + r'),\s*(' + S + r'),\s*([\w |]+),\s*(NULL|' + S + r'),\s*([\w |]+),\s*NULL, NULL\s*\}')
out = []
for m in pat.finditer(body):
    name, _, nice, re_, fl, ex, exfl = m.groups()
    line = src.count('\n', 0, start + m.start()) + 1
    end = src.count('\n', 0, start + m.end()) + 1
    f = lambda s, k: 'true' if k in s else 'false'
    excl = 'none' if ex == 'NULL' else '(some ⟨chars!%s, %s, %s⟩)' % (ex, f(exfl, 'CASELESS'), f(exfl, 'MULTILINE'))
    out.append('  -- %d-%d\n  ⟨%s, chars!%s,\n    ⟨chars!%s, %s, %s⟩, %s⟩' % (line, end, names[name], nice, re_, f(fl, 'CASELESS'), f(fl, 'MULTILINE'), excl))
assert len(out) == len(re.findall(r'\bLIC_', body))
open(os.path.join(root, 'lean/Verif/LicenseTable.lean'), 'w').write('''import Verif.Pcre

/-!
`license_map` of `src/licenses.c:12-734` with the expressions, verbatim (generated by
`tools/gen_licenses.py`; the numbers are lines of `src/licenses.c`).  Simplified: URLs are
left out.
-/

namespace Ohcount.Licenses

open Ohcount.Pcre

/-- An expression of the table with its flags: `PCRE_CASELESS`, `PCRE_MULTILINE`,
src/licenses.c:12-734. -/
structure Source where
  /-- the expression -/
  re : List Char
  /-- `PCRE_CASELESS` -/
  caseless : Bool
  /-- `PCRE_MULTILINE` -/
  multiline : Bool

/-- A `License`, src/structs.h: `name`, `nice_name`, `re` with `re_flags`, `exclude_re` with
`exclude_re_flags`. -/
structure Entry where
  /-- `name` -/
  name : String
  /-- `nice_name` -/
  nice : List Char
  /-- `re`, `re_flags` -/
  re : Source
  /-- `exclude_re`, `exclude_re_flags` -/
  exclude : Option Source

/-- `license_map`, src/licenses.c:12-734. -/
def entries : List Entry := [
''' + ',\n'.join(out) + '''
]

end Ohcount.Licenses
''')
print(len(out))
