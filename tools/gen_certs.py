"""Writes lean/Verif/Cert/: literal automata of the line scanners and the tables of the static
analyses (see RagelCheck.lean).  The data is computed by the Lean definitions themselves, run by
the interpreter; the generated modules have the kernel check it.  Usage: python3 tools/gen_certs.py [Q]"""
import os, re, subprocess, tempfile, sys
LEAN = os.path.join(os.path.dirname(os.path.abspath(__file__)), '..', 'lean')
OUT = LEAN + '/Verif/Cert/'
GROUPS = 12
alltext = open(LEAN + '/Verif/Gram/All.lean').read()
scan = []
for m in re.finditer(r'def (parse_\w+) : Parser := ⟨"\w+", "\w+", (\w+)\.(\w+)⟩', alltext):
    if (m.group(2), m.group(3)) not in scan: scan.append((m.group(2), m.group(3)))
ent = [tuple(x.strip().split('.')) for x in re.search(r'def entityScanners : List Scanner := \[(.*?)\]', alltext, re.S).group(1).split(',')]
LEX = re.findall(r'^def (\w+) : Lexis', open(LEAN + '/Verif/LexisTable.lean').read(), re.M)
def base(x):
    """The scanner that the constructs `x` are for."""
    return x[:x.index('_line') + 5]
PROG = open(os.path.join(os.path.dirname(os.path.abspath(__file__)), 'explore.txt')).read()
def run(main):
    tmp = tempfile.mkdtemp()
    open(tmp + '/Gen.lean', 'w').write(PROG.replace('--SCANNERS--', ', '.join('("%s", %s.%s)' % (n, f, n) for f, n in scan)).replace('--ENTITIES--', ', '.join('("%s", %s.%s)' % (n, f, n) for f, n in ent)).replace('--LEXES--', ', '.join('("%s", %s.%s, LexisTable.%s)' % (x, f, n, x) for f, n in scan for x in LEX if base(x) == n)) + main)
    r = subprocess.run(['lake', 'env', 'lean', '--run', tmp + '/Gen.lean'], cwd=LEAN, capture_output=True, text=True)
    if r.returncode: sys.exit(r.stdout[-2000:] + r.stderr[-2000:])
    out = {}
    for l in r.stdout.splitlines():
        if l.startswith('@@'):
            k, v = l[2:].split('\t', 1); out[k] = v
        else: print(l)
    return out
def group(sz):
    """Scanners split into GROUPS modules of about equal size."""
    gs = [[0, []] for _ in range(GROUPS)]
    for s in sorted(scan, key=lambda s: -sz[s[1]]):
        g = min(gs, key=lambda g: g[0]); g[0] += sz[s[1]]; g[1].append(s)
    return [sorted(g[1]) for g in gs]
def queued():
    """Cert/Q.lean: the scanners with a queue."""
    data = run('def main : IO Unit := genQ')
    qs = [(f, n) for f, n in scan if 'q ' + n in data]
    parse = [(m[0], m[1]) for m in re.findall(r'def (parse_\w+) : Parser := ⟨"\w+", "\w+", \w+\.(\w+)⟩', alltext)]
    idx = [m.strip() for m in re.search(r'def parsers : List Parser := \[(.*?)\]', alltext, re.S).group(1).split(',')]
    o = ''.join(f'import Verif.Cert.N{i}\n' for i in range(1, GROUPS + 1)) + 'import Verif.RagelQueue\n\n' + HEAD
    for f, n in qs:
        st = data['qst ' + n]
        o += f'''
def {n}_qTab : List (List QA) := {data['q ' + n]}
theorem {n}_qClosed : closed {n}_rows {n}_qTab QA.init (QA.succ {st} {n}_M) (QA.eofOk {st} {n}_M) = true := by
  decide +kernel
def {n}_Q : QCert {st} {n}_M := ⟨{n}_D, {n}_qTab, {n}_qClosed⟩
'''
    ps = [(p, n) for p, n in parse if 'q ' + n in data]
    o += '\n/-- Parsers that queue what may be given up and pass the check of RagelQueue.lean. -/\ndef queued : List Parser := [\n  ' + ', '.join(p for p, n in ps) + ']\n'
    o += '\ntheorem queued_cert : ∀ P ∈ queued, ∃ st, Nonempty (QCert st P.line.machine) :=\n'
    o += nest([f'⟨_, ⟨{n}_M_eq ▸ {n}_Q⟩⟩' for p, n in ps])
    o += '\ntheorem queued_sub : ∀ P ∈ queued, P ∈ parsers :=\n'
    o += nest([f'List.mem_of_getElem? (i := {idx.index(p)}) rfl' for p, n in ps])
    open(OUT + 'Q.lean', 'w').write(o + '\nend Ohcount.Cert\n')
def nest(items, tail='(fun _ h => nomatch h)'):
    """A proof of a statement about every member of a list, one line each."""
    return ''.join(f'  (List.forall_mem_cons.mpr ⟨{i},\n' for i in items) + '  ' + tail + '⟩)' * len(items) + '\n'
HEAD = '/-! Generated by tools/gen_certs.py. -/\n\nnamespace Ohcount.Cert\nopen Ohcount.Ragel Ohcount.Gram\n\nset_option maxRecDepth 100000\n'
queued()
if sys.argv[1:] == ['Q']: sys.exit()
data = run('def main : IO Unit := genNfa *> genS *> genB *> genL *> genE')
gs = group({n: len(data['nfa ' + n]) for _, n in scan})
for i, g in enumerate(gs, 1):
    o = 'import Verif.Gram.All\nimport Verif.RagelCheck\n\n' + HEAD
    for f, n in g:
        o += f'''
def {n}_nfa : Nfa := {data['nfa ' + n]}
theorem {n}_nfa_eq : {f}.{n}.nfa = {n}_nfa := by decide +kernel
/-- The machine of `{f}.{n}`, with its automaton as a literal. -/
def {n}_M : Machine := ⟨{n}_nfa, {f}.{n}.ends, {f}.{n}.sw⟩
theorem {n}_M_eq : {f}.{n}.machine = {n}_M := by
  unfold Scanner.machine {n}_M; rw [{n}_nfa_eq]
def {n}_masks : List Nat := {data['masks ' + n]}
def {n}_cs : List (Nat × Nat) := {data['cs ' + n]}
theorem {n}_masksIn : masksIn {n}_nfa {n}_masks = true := by decide +kernel
theorem {n}_repOk : repOk {n}_masks {n}_cs = true := by decide +kernel
def {n}_rows : List Row := {data['rows ' + n]}
theorem {n}_rowsOk : rowsOk {n}_nfa [] ({n}_cs.map (·.1)) {n}_rows = true := by decide +kernel
def {n}_D : Dfa {n}_M.nfa := ⟨{n}_masks, [], {n}_cs, {n}_rows, {n}_masksIn, {n}_repOk, {n}_rowsOk⟩
'''
    open(OUT + f'N{i}.lean', 'w').write(o + '\nend Ohcount.Cert\n')
    o = f'import Verif.Cert.N{i}\nimport Verif.RagelSafe\n\n' + HEAD
    for f, n in g:
        o += f'''
def {n}_sTab : List (List SA) := {data['s ' + n]}
theorem {n}_sClosed : closed {n}_rows {n}_sTab SA.init (SA.succ {n}_M) (SA.eofOk {n}_M) = true := by
  decide +kernel
def {n}_S : SCert {n}_M := ⟨{n}_D, {n}_sTab, {n}_sClosed⟩
'''
    open(OUT + f'S{i}.lean', 'w').write(o + '\nend Ohcount.Cert\n')
    o = f'import Verif.Cert.N{i}\nimport Verif.RagelExact\n\n' + HEAD
    for f, n in g:
        if 'b ' + n in data:
            o += f'''
def {n}_bTab : List (List BA) := {data['b ' + n]}
theorem {n}_bClosed : closed {n}_rows {n}_bTab BA.init (BA.succ {data['lvl ' + n]} {n}_M) (BA.eofOk {data['lvl ' + n]} {n}_M) = true := by
  decide +kernel
def {n}_B : BCert {data['lvl ' + n]} {n}_M := ⟨{n}_D, {n}_bTab, {n}_bClosed⟩
'''
    open(OUT + f'B{i}.lean', 'w').write(o + '\nend Ohcount.Cert\n')
# Cert/L*.lean: the kinds of lines; scanners with the same automaton and constructs share a table
lex = [x for f, n in scan for x in LEX if base(x) == n and 'ltab ' + x in data]
first = {}
def key(x): return data['nfa ' + base(x)], data['lex ' + x]
for x in lex: first.setdefault(key(x), x)
own = [x for x in lex if first[key(x)] == x]
mod = {n: i for i, g in enumerate(gs, 1) for f, n in g}
lgs = [[0, []] for _ in range(GROUPS)]
for n in sorted(own, key=lambda n: -len(data['ltab ' + n])):
    g = min(lgs, key=lambda g: g[0]); g[0] += len(data['ltab ' + n]); g[1].append(n)
for i, (_, g) in enumerate(lgs, 1):
    o = ''.join(f'import Verif.Cert.N{k}\n' for k in sorted({mod[base(n)] for n in g})) + 'import Verif.RagelLexFast\nimport Verif.LexisTable\n\n' + HEAD + 'set_option maxHeartbeats 0\n'
    for n in sorted(g):
        b = base(n)
        chk, hold = data['lchk ' + n], data['lhold ' + n]
        o += f'''
def {n}_lex : Lexis := {data['lex ' + n]}
theorem {n}_lex_eq : LexisTable.{n} = {n}_lex := by decide +kernel
def {n}_lmasks : List Nat := {data['lmasks ' + n]}
def {n}_lcs : List (Nat × Nat) := {data['lcs ' + n]}
theorem {n}_lmasksIn : masksIn {b}_nfa {n}_lmasks = true := by decide +kernel
theorem {n}_lrepOk : repOk {n}_lmasks {n}_lcs = true := by decide +kernel
def {n}_lrows : List Row := {data['lrows ' + n]}
theorem {n}_lrowsOk : rowsOk {b}_nfa {n}_lex.rel ({n}_lcs.map (·.1)) {n}_lrows = true := by decide +kernel
def {n}_lfr : List CA.FRow := {data['lfr ' + n]}
theorem {n}_lfrOk : {n}_lrows.map (CA.prep {n}_lex) = {n}_lfr := by decide +kernel
def {n}_lTab : List CT := {data['ltab ' + n]}
theorem {n}_lClosed : CA.closedF {b}_M {n}_lex {chk} {hold} {n}_lfr {n}_lTab = true := by decide +kernel
def {n}_L : LCert LexisTable.{n} {b}_M := {n}_lex_eq ▸ ⟨⟨{n}_lmasks, {n}_lex.rel, {n}_lcs, {n}_lrows, {n}_lmasksIn, {n}_lrepOk, {n}_lrowsOk⟩,
  _, rfl, by decide +kernel, by decide +kernel, {chk}, {hold}, CA.closed_of {n}_lfrOk {n}_lClosed⟩
theorem {n}_L_chk : {n}_L.chk = {chk} := by
  have : ∀ (l : Lexis) (h : LexisTable.{n} = l) (C : LCert l {b}_M), (h ▸ C : LCert LexisTable.{n} {b}_M).chk = C.chk := by rintro _ rfl _; rfl
  exact this _ {n}_lex_eq _
'''
    open(OUT + f'L{i}.lean', 'w').write(o + '\nend Ohcount.Cert\n')
NOHOLD = [n for f, n in ent if data['ehold ' + n] == 'false']
ECB = [n for f, n in ent if data['eecb ' + n] == 'true']
# Cert/All.lean: one statement for all parsers
parse = re.findall(r'def (parse_\w+) : Parser := ⟨"\w+", "(\w+)", (\w+)\.(\w+)⟩', alltext)
LV = {n: data['lvl ' + n] for _, n in scan if 'lvl ' + n in data}
o = ''.join(f'import Verif.Cert.S{i}\nimport Verif.Cert.B{i}\n' for i in range(1, GROUPS + 1)) + ''.join(f'import Verif.Cert.L{i}\n' for i in range(1, GROUPS + 1)) + 'import Verif.RagelStop\n' + '\n' + HEAD
o += '\ntheorem safeAll : ∀ P ∈ parsers, Nonempty (SCert P.line.machine) :=\n'
o += nest([f'⟨{n}_M_eq ▸ {n}_S⟩' for p, l, f, n in parse])
o += '\n/-- No pattern of a line scanner starts with a vertical tab. -/\ntheorem noTab : ∀ P ∈ parsers, NoStart P.line.machine 11 :=\n'
o += nest([f'{n}_M_eq ▸ (by unfold NoStart; decide +kernel : NoStart {n}_M 11)' for p, l, f, n in parse])
o += '''
/-- The level at which the lines of a parser are checked, by scanner (see RagelExact.lean): no level for
lua, rebol and vim. -/
def levels : List (Parser × Lvl) := [
''' + ',\n'.join(f'  ({p}, {LV[n]})' for p, l, f, n in parse if n in LV) + ']\n'
o += '\ntheorem linesAll : ∀ x ∈ levels, Nonempty (BCert x.2 x.1.line.machine) :=\n'
o += nest([f'⟨{n}_M_eq ▸ {n}_B⟩' for p, l, f, n in parse if n in LV])
idx = [m.strip() for m in re.search(r'def parsers : List Parser := \[(.*?)\]', alltext, re.S).group(1).split(',')]
MEM = lambda p: f'List.mem_of_getElem? (i := {idx.index(p)}) rfl'
o += '\ntheorem levels_sub : ∀ x ∈ levels, x.1 ∈ parsers :=\n'
o += nest([MEM(p) for p, l, f, n in parse if n in LV])
def family(name, doc, lv):
    ps = [(p, n) for p, l, f, n in parse if LV.get(n) == lv]
    return f'''
/-- {doc} -/
def {name} : List Parser := [
  {', '.join(p for p, n in ps)}]

theorem {name}_cert : ∀ P ∈ {name}, Nonempty (BCert {lv} P.line.machine) :=
{nest([f'⟨{n}_M_eq ▸ {n}_B⟩' for p, n in ps])}
theorem {name}_sub : ∀ P ∈ {name}, P ∈ parsers :=
{nest([MEM(p) for p, n in ps])}'''
o += family('lineOriented', 'Parsers whose scanners never go back over a line end and report every line end they pass.', '⟨true, true, false, false⟩')
o += family('closable', 'Parsers for which that can only fail by going back over a line end, when a construct is not closed.', '⟨true, true, true, false⟩')
LP = [(p, n) for p, l, f, n in parse if 'ltab ' + n in data]
o += '''
/-- Parsers and the comments and strings of their language. -/
def classified : List (Parser × Lexis) := [
''' + ',\n'.join(f'  ({p}, LexisTable.{n})' for p, n in LP) + ']\n'
for n in lex:
    k = first[key(n)]
    chk = '(fun h => nomatch h)' if data['lvl ' + base(n)].endswith('false⟩') else f'(fun _ => {k}_L_chk)'
    o += f'theorem {n}_classified : Classified LexisTable.{n} {base(n)}_M := ⟨_, {base(n)}_S, {base(n)}_B, {k}_L, {chk}⟩\n'
o += '\ntheorem classifiedAll : ∀ x ∈ classified, Classified x.2 x.1.line.machine :=\n'
o += nest([f'{n}_M_eq ▸ {n}_classified' for p, n in LP])
o += '\ntheorem classified_sub : ∀ x ∈ classified, x.1 ∈ parsers :=\n'
o += nest([MEM(p) for p, n in LP])
open(OUT + 'All.lean', 'w').write(o + '\nend Ohcount.Cert\n')

# Cert/Entities.lean: the entity scanners
o = 'import Verif.RagelEnts\n\n' + HEAD
for f, n in ent:
    o += f'\ntheorem {n}_any : anyByte {f}.{n}.machine.nfa = true := by decide +kernel\n'
    if n in NOHOLD: o += f'theorem {n}_noHold : noHold {f}.{n}.machine.nfa = true := noHold_of_frags (by decide +kernel)\n'
    else: o += f'theorem {n}_hold : holdOk {f}.{n}.machine.nfa = true := by decide +kernel\n'
    if n in ECB: o += f"theorem {n}_allEcb : allEcb {f}.{n}.machine = true := allEcb_of (n := {data['eends ' + n].count('ecb')}) (by decide +kernel)\n"
o += '\ntheorem entityHold : ∀ S ∈ entityScanners, holdOk S.machine.nfa = true ∧ anyByte S.machine.nfa = true :=\n'
o += nest([f'⟨holdOk_of_noHold {n}_noHold, {n}_any⟩' if n in NOHOLD else f'⟨{n}_hold, {n}_any⟩' for f, n in ent])
o += '\n/-- The entity scanners that never step back. -/\ndef forwardEntities : List Scanner := [\n  ' + ', '.join(f'{f}.{n}' for f, n in ent if n in NOHOLD) + ']\n'
o += '\ntheorem forward_noHold : ∀ S ∈ forwardEntities, noHold S.machine.nfa = true ∧ anyByte S.machine.nfa = true :=\n'
o += nest([f'⟨{n}_noHold, {n}_any⟩' for f, n in ent if n in NOHOLD])
o += '\n/-- The entity scanners all of whose patterns report their token. -/\ndef tilingEntities : List Scanner := [\n  ' + ', '.join(f'{f}.{n}' for f, n in ent if n in ECB and n in NOHOLD) + ']\n'
o += '\ntheorem tiling_ecb : ∀ S ∈ tilingEntities, noHold S.machine.nfa = true ∧ anyByte S.machine.nfa = true ∧ allEcb S.machine = true :=\n'
o += nest([f'⟨{n}_noHold, {n}_any, {n}_allEcb⟩' for f, n in ent if n in ECB and n in NOHOLD])
open(OUT + 'Entities.lean', 'w').write(o + '\nend Ohcount.Cert\n')
