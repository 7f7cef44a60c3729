"""Writes lean/Verif/Cert/ER1.lean to ER3.lean: the tables that relate the parser of a language to the machine with which a page reads a region in that
language (EmbedRegion.lean).  As in gen_embcerts.py the tables are computed by the Lean definitions, run by the interpreter, and checked by
the kernel.  Usage: python3 tools/gen_regions.py"""
import os, re, subprocess, tempfile, sys, glob
HERE = os.path.dirname(os.path.abspath(__file__))
LEAN = HERE + '/../lean'
OUT = LEAN + '/Verif/Cert/'
# parser, machine, language, scanner of the language, what ends the region
PAGES = ['Html', 'Mxml', 'Jsp', 'Phphtml', 'Clearsilverhtml', 'CsAspx', 'Rhtml', 'VbAspx']
REGIONS = []
for p in PAGES:
    k = 0 if p in ('Html', 'Mxml') else 3
    REGIONS += [(p, k, 1, 'Css.css_line', [], [(60, 47)]),
                (p, k + 1, 2, 'Actionscript.as_line' if p == 'Mxml' else 'Javascript.js_line', [], [(60, 47)])]
REGIONS += [('Jsp', 5, 3, 'Java.java_line', [], [(37, 62)]), ('Clearsilverhtml', 5, 3, 'Clearsilver.cs_line', [], [(63, 62)]), ('CsAspx', 5, 3, 'C.c_line', [], [(37, 62), (60, 47)]),
            ('VbAspx', 5, 3, 'VisualBasic.vb_line', [], [(37, 62), (60, 47)]), ('Phphtml', 5, 3, 'Php.php_line', [63], []),
            ('Nix', 0, 1, 'Shell.shell_line', [34], []), ('Nix', 1, 1, 'Shell.shell_line', [], [(39, 39)])]
pre = open(HERE + '/explore.txt').read()
pre = pre[pre.index('open Ohcount'):pre.index('def genNfa')].replace('def scanners : List (String × Scanner) := [--SCANNERS--]\n', '')
PROG = 'import Verif.Gram.Emb\nimport Verif.Gram.All\nimport Verif.EmbedRegion\n' + pre + '''
instance : Show RPair := ⟨fun r => s!"⟨{sh r.qs},{sh r.qe},{sh r.a},{r.f}⟩"⟩
deriving instance Inhabited for Ohcount.Ragel.RPair
/-- The pairs that are reached from the start. -/
partial def regTab (S : Machine) (K : EMach) (l : Nat) (X : Exits) (reps : List Nat) : Except String (List RPair) := Id.run do
  let mut tab : Array RPair := #[⟨[], [], none, 256⟩]
  let mut i := 0
  while i < tab.size do
    let r := tab[i]!
    i := i + 1
    for b in reps do
      if !X.hit r.f b then
        for t in subs (bothConds S.nfa K.nfa r.qs r.qe b) do
          let cv := cvOf t
          match S.nfa.delta r.qs b cv, K.nfa.delta r.qe b cv with
          | some (qs, as), some (qe, ae) =>
            match regActs S l r.a as ae with
            | none => return .error s!"acts {b} {reprStr r} {reprStr as} {reprStr ae}"
            | some a =>
              if !S.nfa.isLast qs && !K.nfa.isLast qe then
                let r' : RPair := ⟨qs, qe, a, X.keep b⟩
                if !tab.contains r' then tab := tab.push r'
          | _, _ => pure ()
          if !regTr S K l X reps tab.toList r b cv then return .error s!"fail {b} {reprStr r}"
  return .ok tab.toList

def main : IO Unit := do
  for (n, P, e, l, S, X) in ([--REGIONS--] : List (String × EParser × Nat × Nat × Machine × Exits)) do
    let M := P.multi
    let K := M.mach e
    let ms := (masksOf S.nfa ++ masksOf K.nfa ++ X.marks.map Cls.chr).eraseDups
    let (rep, reps) := repsOf ms
    let cs := reps.map fun r => (r, ((List.range 256).filter fun b => rep.getD b 0 == r).foldl (fun a b => a ||| (1 <<< b)) 0)
    match regTab S K l X reps with
    | .error m => IO.println s!"{n}: {m}"
    | .ok t =>
      if opsOk S M l && K.scanner && crOnly S.nfa && crOnly K.nfa && regOk S K l X reps t then
        IO.println s!"@@ms {n}\\t{sh ms}"
        IO.println s!"@@cs {n}\\t{sh cs}"
        IO.println s!"@@tab {n}\\t{sh t}"
      else IO.println s!"{n}: check fails"
'''
def exits(b, p): return '⟨[%s], [%s]⟩' % (', '.join(map(str, b)), ', '.join(f'({x}, {y})' for x, y in p))
def run():
    tmp = tempfile.mkdtemp()
    l = ', '.join(f'("{p} {e}", Emb.{p}.parser, {e}, {l}, {s}.machine, {exits(b, q)})' for p, e, l, s, b, q in REGIONS)
    open(tmp + '/Gen.lean', 'w').write(PROG.replace('--REGIONS--', l))
    r = subprocess.run(['lake', 'env', 'lean', '--run', tmp + '/Gen.lean'], cwd=LEAN, capture_output=True, text=True)
    if r.returncode: sys.exit(r.stdout[-2000:] + r.stderr[-2000:])
    out = {}
    for x in r.stdout.splitlines():
        if x.startswith('@@'):
            k, v = x[2:].split('\t', 1); out[tuple(k.split(' '))] = v
        else: print(x)
    return out
data = run()
def low(n): return n[0].lower() + n[1:]
where = {}
for f in glob.glob(OUT + 'N*.lean') + glob.glob(OUT + 'E[1-9].lean'):
    for m in re.finditer(r'^def (\w+_M) :', open(f).read(), re.M): where[m[1]] = os.path.basename(f)[:-5]
names = {}
for f in glob.glob(OUT + 'N*.lean'):
    for m in re.finditer(r'The machine of `([\w.]+)`, with its automaton as a literal. -/\ndef (\w+)_M :', open(f).read()): names[m[1]] = m[2]
src = ''.join(open(f).read() for f in sorted(glob.glob(OUT + 'E[1-9].lean')))
lits = {m[1]: re.findall(r'⟨emb\d+_nfa, .*?, (?:true|false)⟩', m[2]) for m in re.finditer(r'def (\w+)_M : Multi := ⟨[^\n]*\n(.*?)\]⟩\n', src, re.S)}
reg = [r for r in REGIONS if ('tab', r[0], str(r[1])) in data]
chunk = lambda p, e: 1 if e != 5 and p not in ('Mxml', 'Nix') else 2 if p in ('Mxml', 'Nix') else 3
outs = {}
def head(k):
    rs = [r for r in reg if chunk(r[0], r[1]) == k]
    mods = sorted({where[names[r[3]] + '_M'] for r in rs} | {where[low(r[0]) + '_M'] for r in rs})
    return ''.join(f'import Verif.Cert.{m}\n' for m in mods) + 'import Verif.EmbedRegion\n\n/-! Generated by tools/gen_regions.py. -/\n\nnamespace Ohcount.Cert\nopen Ohcount.Ragel Ohcount.Gram\n\nset_option maxRecDepth 100000\n'
done = {}
for p, e, l, s, b, q in reg:
    K = lits[low(p)][e]; S = names[s]; X = exits(b, q); d = [data[k, p, str(e)] for k in ('ms', 'cs', 'tab')]
    key = (K, S, X, l)
    o = outs.get(chunk(p, e), None) or head(chunk(p, e))
    if key not in done:
        i = done[key] = len(done)
        o += f'''
/-- `{s}` in machine {e} of `Emb.{p}.parser`. -/
def reg{i}_ms : List Nat := {d[0]}
def reg{i}_cs : List (Nat × Nat) := {d[1]}
def reg{i}_tab : List RPair := {d[2]}
theorem reg{i}_masksS : masksIn {S}_M.nfa reg{i}_ms = true := by decide +kernel
theorem reg{i}_masksK : masksIn ({K} : EMach).nfa reg{i}_ms = true := by decide +kernel
theorem reg{i}_repOk : repOk reg{i}_ms reg{i}_cs = true := by decide +kernel
theorem reg{i}_crS : crOnly {S}_M.nfa = true := by decide +kernel
theorem reg{i}_crK : crOnly ({K} : EMach).nfa = true := by decide +kernel
theorem reg{i}_ok : regOk {S}_M {K} {l} {X} (reg{i}_cs.map (·.1)) reg{i}_tab = true := by decide +kernel
'''
    i = done[key]
    o += f'''
def {low(p)}_reg{e} : RegCert {s}.machine Emb.{p}.parser.multi {e} {l} {X} := by
  rw [{S}_M_eq, {low(p)}_M_eq]
  exact ⟨reg{i}_ms, reg{i}_cs, reg{i}_tab, by decide +kernel, rfl, reg{i}_masksS, reg{i}_masksK, by decide +kernel, reg{i}_repOk, by decide +kernel, reg{i}_crS, reg{i}_crK, reg{i}_ok⟩
'''
    outs[chunk(p, e)] = o
for k in outs: open(OUT + f'ER{k}.lean', 'w').write(outs[k] + '\nend Ohcount.Cert\n')
print(len(reg), 'regions,', len(done), 'tables')
