#!/usr/bin/env python3
"""Writes lean/Verif/Cert/Total.lean: the scanners in which every byte but the vertical tab is matched by a pattern.
The literals of the scanners are those of Cert/All.lean (tools/gen_certs.py)."""
import re
s = open('/verif/lean/Verif/Cert/All.lean').read()
i = s.index('theorem noTab')
names = []
for l in s[i:].split('\n')[1:]:
    m = re.search(r'⟨(\w+)_M_eq', l)
    if not m:
        break
    names.append(m.group(1))
out = ['import Verif.ReadAll', '', '/-! Generated by tools/gen_total.py. -/', '', 'namespace Ohcount.Cert', 'open Ohcount.Ragel Ohcount.Gram', '',
       'set_option maxRecDepth 100000', '',
       '/-- In all line scanners but that of vim every byte other than a vertical tab is matched by a pattern. -/',
       'theorem parsersTotal : ∀ P ∈ parsers, P ≠ parse_vim → P.line.machine.nfa.total = true :=']
for n in names:
    if n == 'vim_line':
        out.append('  (List.forall_mem_cons.mpr ⟨fun h => absurd rfl h,')
    else:
        out.append(f'  (List.forall_mem_cons.mpr ⟨fun _ => {n}_M_eq ▸ (by decide +kernel : {n}_M.nfa.total = true),')
out.append('  (fun _ h => nomatch h)' + '⟩)' * len(names))
out += ['', 'end Ohcount.Cert', '']
open('/verif/lean/Verif/Cert/Total.lean', 'w').write('\n'.join(out))
