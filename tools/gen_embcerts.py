"""Writes lean/Verif/Cert/EN*.lean, E*.lean and EAll.lean: literal automata of the machines of the parsers with embedded
languages, and the tables of the static analysis of EmbedSafe.lean.  As in gen_certs.py the data is computed by the Lean
definitions, run by the interpreter, and checked by the kernel.  Usage: python3 tools/gen_embcerts.py"""
import os, re, subprocess, tempfile, sys
HERE = os.path.dirname(os.path.abspath(__file__))
LEAN = HERE + '/../lean'
OUT = LEAN + '/Verif/Cert/'
GROUPS = 4
names = re.findall(r'Emb\.(\w+)\.parser', open(LEAN + '/Verif/Gram/Emb.lean').read())
gram = ''.join(open(LEAN + f'/Verif/Gram/Emb{i}.lean').read() for i in (1, 2, 3, 4))
machs = {n: re.search(r'namespace Ohcount\.Gram\.Emb\.%s\b.*?machs := \[(.*?)\]' % n, gram, re.S).group(1).replace('\n', ' ').split(',') for n in names}
machs = {n: [x.strip() for x in v] for n, v in machs.items()}
pre = open(HERE + '/explore.txt').read()
pre = pre[pre.index('open Ohcount'):pre.index('def genNfa')].replace('def scanners : List (String × Scanner) := [--SCANNERS--]\n', '')
PROG = 'import Verif.Gram.Emb\nimport Verif.EmbedShift\n' + pre + '''
instance : Show EA := ⟨fun a => s!"⟨{a.adv},{a.fh},{a.touched},{sh a.ent},{sh a.acc},{sh a.held},{a.lcc},{a.inqF},{a.tag}⟩"⟩
instance : Show EEnd := ⟨fun | .none => ".none" | .cb l => s!".cb {l}" | .ecb l => s!".ecb {l}" | .call m => s!".call {m}" | .goto m => s!".goto {m}"⟩

/-- The machines in use, from those in `todo` on. -/
partial def useOf (M : Multi) (todo done : List (Nat × Bool)) : List (Nat × Bool) :=
  match todo with
  | [] => done.reverse
  | u :: r =>
    if done.contains u then useOf M r done else
    let N := (M.mach u.1).nfa
    let acts := (N.start ++ N.follow.flatten).flatMap fun e => e.acts.map (·.2)
    let l1 := acts.filterMap fun a => match a with | .emb (.sawCall _ m) => some (m, true) | .emb (.goto m) => some (m, false) | _ => none
    let l2 := (M.mach u.1).ends.filterMap fun a => match a with | .call m => some (m, true) | .goto m => some (m, false) | _ => none
    useOf M (r ++ l1 ++ l2) (u :: done)

def main : IO Unit := do
  for (n, P) in [--PARSERS--] do
    let M := P.multi
    for (m, i) in M.machs.zipIdx do
      IO.println s!"@@nfa {n} {i}\\t{sh m.nfa}"
      IO.println s!"@@ends {n} {i}\\t{sh m.ends}"
      IO.println s!"@@scanner {n} {i}\\t{m.scanner}"
      for (k, rel) in [("", []), ("t", [47, 60, 62])] do
        let ms := (masksOf m.nfa ++ rel.map Cls.chr).eraseDups
        let (rep, reps) := repsOf ms
        let cs := reps.map fun r => (r, ((List.range 256).filter fun b => rep.getD b 0 == r).foldl (fun a b => a ||| (1 <<< b)) 0)
        IO.println s!"@@masks{k} {n} {i}\\t{sh ms}"
        IO.println s!"@@cs{k} {n} {i}\\t{sh cs}"
        IO.println s!"@@rows{k} {n} {i}\\t{sh (rowsOf m.nfa reps rel)}"
    for (what, m) in [("line", P.line), ("entity", P.entity)] do
      let use := useOf M [(m, false)] []
      IO.println s!"@@use {n} {what}\\t{sh use}"
      if what == "line" then
       let us := (use.map (·.1)).eraseDups
       let mut tabs0 : List (Nat × String) := []
       let mut ok0 := true
       for u in us do
         let N := (M.mach u).nfa
         let (_, reps) := repsOf (masksOf N).eraseDups
         match explore (rowsOf N reps []) false (entSucc us (M.mach u)) (entEof us (M.mach u)) with
         | .error _ => ok0 := false
         | .ok tab => tabs0 := tabs0 ++ [(u, sh tab)]
       if ok0 then
         IO.println s!"@@euse {n} {what}\\t{sh us}"
         for (u, t) in tabs0 do IO.println s!"@@etab {n} {what} {u}\\t{t}"
       else IO.println s!"no entity table: {n} {what}"
      let mut full := false
      for (strict, tag, inq) in [(true, false, false), (true, false, true), (false, false, false), (true, true, false)] do
        -- what follows from a table already found is left out
        if !full then
          let o : EOpt := ⟨strict, tag, inq, use, P.langs.length⟩
          let mut ok := true
          let mut tabs : List ((Nat × Bool) × String) := []
          for u in use do
            let N := (M.mach u.1).nfa
            let rel := if tag then [47, 60, 62] else []
            let (_, reps) := repsOf (masksOf N ++ rel.map Cls.chr).eraseDups
            match explore (rowsOf N reps rel) (EA.start M o u.1) (EA.succ M o u) (EA.eofOk M o u) with
            | .error _ => ok := false
            | .ok tab => tabs := tabs ++ [(u, sh tab)]
          if ok then
            if strict && !tag then full := true
            IO.println s!"@@opt {n} {what} {if tag then "t" else ""}\\t⟨{strict}, {tag}, {inq}, {sh use}, {P.langs.length}⟩"
            for (u, t) in tabs do
              IO.println s!"@@tab {n} {what} {if tag then "t" else ""} {u.1} {u.2}\\t{t}"
'''
def run():
    tmp = tempfile.mkdtemp()
    open(tmp + '/Gen.lean', 'w').write(PROG.replace('--PARSERS--', ', '.join(f'("{n}", Emb.{n}.parser)' for n in names)))
    r = subprocess.run(['lake', 'env', 'lean', '--run', tmp + '/Gen.lean'], cwd=LEAN, capture_output=True, text=True)
    if r.returncode: sys.exit(r.stdout[-2000:] + r.stderr[-2000:])
    out = {}
    for l in r.stdout.splitlines():
        if l.startswith('@@'):
            k, v = l[2:].split('\t', 1); out[tuple(k.split(' '))] = v
        else: print(l)
    return out
data = run()
HEAD = '/-! Generated by tools/gen_embcerts.py. -/\n\nnamespace Ohcount.Cert\nopen Ohcount.Ragel Ohcount.Gram\n\nset_option maxRecDepth 100000\n'
def nest(items, tail='(fun _ h => nomatch h)'):
    return ''.join(f'  (List.forall_mem_cons.mpr ⟨{i},\n' for i in items) + '  ' + tail + '⟩)' * len(items) + '\n'
def low(n): return n[0].lower() + n[1:]
# automata, each once, and the analyses that need them
auto, ids = [], {}
for n in names:
    for i, m in enumerate(machs[n]):
        k = data['nfa', n, str(i)]
        if k not in ids: ids[k] = len(auto); auto.append((n, i))
def aid(n, i): return ids[data['nfa', n, str(i)]]
opts = [(k[1], k[2], k[3]) for k in data if k[0] == 'opt']
def use(n, w): return re.findall(r'\((\d+),(\w+)\)', data['use', n, w])
needT = {aid(n, int(m)) for n, w, t in opts if t == 't' for m, c in use(n, w)}
needP = {aid(n, int(m)) for n, w, t in opts if t == '' for m, c in use(n, w)}
ags = [[0, []] for _ in range(GROUPS)]
for a in sorted(range(len(auto)), key=lambda a: -len(data['rows', auto[a][0], str(auto[a][1])])):
    g = min(ags, key=lambda g: g[0]); g[0] += len(data['rows', auto[a][0], str(auto[a][1])]); g[1].append(a)
amod = {a: i for i, (_, g) in enumerate(ags, 1) for a in g}
for i, (_, g) in enumerate(ags, 1):
    o = 'import Verif.Gram.Emb\nimport Verif.RagelCheck\n\n' + HEAD
    for a in sorted(g):
        n, k = auto[a]
        o += f'\n/-- The automaton of `Emb.{n}.{machs[n][k]}`. -/\ndef emb{a}_nfa : Nfa := {data["nfa", n, str(k)]}\n'
        for t, rel in ([('', '[]')] if a in needP else []) + ([('t', '[47, 60, 62]')] if a in needT else []):
            o += f'''def emb{a}_masks{t} : List Nat := {data['masks' + t, n, str(k)]}
def emb{a}_cs{t} : List (Nat × Nat) := {data['cs' + t, n, str(k)]}
theorem emb{a}_masksIn{t} : masksIn emb{a}_nfa emb{a}_masks{t} = true := by decide +kernel
theorem emb{a}_repOk{t} : repOk emb{a}_masks{t} emb{a}_cs{t} = true := by decide +kernel
def emb{a}_rows{t} : List Row := {data['rows' + t, n, str(k)]}
theorem emb{a}_rowsOk{t} : rowsOk emb{a}_nfa {rel} (emb{a}_cs{t}.map (·.1)) emb{a}_rows{t} = true := by decide +kernel
def emb{a}_D{t} : Dfa emb{a}_nfa := ⟨emb{a}_masks{t}, {rel}, emb{a}_cs{t}, emb{a}_rows{t}, emb{a}_masksIn{t}, emb{a}_repOk{t}, emb{a}_rowsOk{t}⟩
'''
    open(OUT + f'EN{i}.lean', 'w').write(o + '\nend Ohcount.Cert\n')
def size(n): return sum(len(v) for k, v in data.items() if k[0] == 'tab' and k[1] == n) + sum(len(data['rows', n, str(i)]) for i in range(len(machs[n])))
pgs = [[0, []] for _ in range(GROUPS)]
for n in sorted(names, key=lambda n: -size(n)):
    g = min(pgs, key=lambda g: g[0]); g[0] += size(n); g[1].append(n)
for i, (_, g) in enumerate(pgs, 1):
    mods = sorted({amod[aid(n, k)] for n in g for k in range(len(machs[n]))})
    o = ''.join(f'import Verif.Cert.EN{k}\n' for k in mods) + 'import Verif.EmbedSafe\n\n' + HEAD
    for n in sorted(g):
        l = low(n)
        for k, m in enumerate(machs[n]):
            lit = f'⟨emb{aid(n, k)}_nfa, {data["ends", n, str(k)]}, {data["scanner", n, str(k)]}⟩'
            o += f'\ntheorem {l}_m{k} : Emb.{n}.{m}.mach = {lit} := by decide +kernel'
        o += f'\n\n/-- The machines of `Emb.{n}.parser`, with their automata as literals. -/\ndef {l}_M : Multi := ⟨Emb.{n}.parser.sws, [\n  ' + ',\n  '.join(f'⟨emb{aid(n, k)}_nfa, {data["ends", n, str(k)]}, {data["scanner", n, str(k)]}⟩' for k in range(len(machs[n]))) + ']⟩\n'
        o += f'theorem {l}_M_eq : Emb.{n}.parser.multi = {l}_M := by\n  show Multi.mk _ [' + ', '.join(f'Emb.{n}.{m}.mach' for m in machs[n]) + '] = _\n  rw [' + ', '.join(f'{l}_m{k}' for k in range(len(machs[n]))) + ']; rfl\n'
        for _, w, t in [x for x in opts if x[0] == n]:
            q = f'{l}_{w}{t}'
            o += f'\ndef {q} : EOpt := {data["opt", n, w, t]}\n'
            for m, c in use(n, w):
                a = aid(n, int(m))
                tags = '⟨by decide +kernel, by decide +kernel, by decide +kernel⟩' if t else '(fun h => nomatch h)'
                if t: tags = f'(fun _ => ⟨by decide +kernel, by decide +kernel, by decide +kernel⟩)'
                o += f'''def {q}_tab{m}{c} : List (List EA) := {data['tab', n, w, t, m, c]}
theorem {q}_closed{m}{c} : closed emb{a}_rows{t} {q}_tab{m}{c} (EA.start {l}_M {q} {m}) (EA.succ {l}_M {q} ({m}, {c})) (EA.eofOk {l}_M {q} ({m}, {c})) = true := by
  decide +kernel
def {q}_C{m}{c} : MCert {l}_M {q} ({m}, {c}) := ⟨emb{a}_D{t}, {q}_tab{m}{c}, {q}_closed{m}{c}, {tags}⟩
'''
            o += f'theorem {q}_certs : ∀ u ∈ {q}.use, Nonempty (MCert {l}_M {q} u) :=\n' + nest([f'⟨{q}_C{m}{c}⟩' for m, c in use(n, w)])
    open(OUT + f'E{i}.lean', 'w').write(o + '\nend Ohcount.Cert\n')
strict = {(n, w, t): data['opt', n, w, t].startswith('⟨true') for n, w, t in opts}
o = ''.join(f'import Verif.Cert.E{i}\n' for i in range(1, GROUPS + 1)) + '\n' + HEAD
for w in ('line', 'entity'):
    W = w.capitalize()
    o += f'\n/-- The machines that `parse_<lang>` uses for {"lines" if w == "line" else "entities"} pass the check. -/\ntheorem emb{W}All : ∀ P ∈ embParsers, Checked P P.{w} false false :=\n'
    o += nest([f'{low(n)}_M_eq ▸ ⟨{low(n)}_{w}, rfl, by decide, rfl, rfl, by decide, {low(n)}_{w}_certs⟩' for n in names]) if False else nest([f'Checked.of {low(n)}_M_eq rfl (by decide) rfl (by decide) (by decide) {low(n)}_{w}_certs' for n in names])
    S = [n for n in names if strict[n, w, '']]
    T = [n for n in names if (n, w, 't') in strict]
    o += f'\n/-- Those for which it shows that no callback is computed from a NULL pointer. -/\ndef embStrict{W} : List EParser := [{", ".join(f"Emb.{n}.parser" for n in S)}]\n'
    o += f'theorem embStrict{W}All : ∀ P ∈ embStrict{W}, Checked P P.{w} true false :=\n'
    o += nest([f'Checked.of {low(n)}_M_eq rfl (by decide) rfl (by decide) (by decide) {low(n)}_{w}_certs' for n in S])
    o += f'\n/-- Those for which it does if no end tag contains a line end. -/\ndef embTagged{W} : List EParser := [{", ".join(f"Emb.{n}.parser" for n in T)}]\n'
    o += f'theorem embTagged{W}All : ∀ P ∈ embTagged{W}, Checked P P.{w} true true :=\n'
    o += nest([f'Checked.of {low(n)}_M_eq rfl (by decide) rfl (by decide) (by decide) {low(n)}_{w}t_certs' for n in T])
open(OUT + 'EAll.lean', 'w').write(o + '\nend Ohcount.Cert\n')

# the tables of EmbedShift.lean
o = 'import Verif.Cert.EAll\nimport Verif.EmbedWhole\n\n' + HEAD
for w in ('line',):
    W = w.capitalize()
    ns = [n for n in names if ('euse', n, w) in data]
    for n in ns:
        l = low(n); us = re.findall(r'\d+', data['euse', n, w]); q = f'{l}_{w}E'
        o += f'\ndef {q} : List Nat := {data["euse", n, w]}\n'
        for m in us:
            a = aid(n, int(m))
            o += f'''def {q}_tab{m} : List (List Bool) := {data['etab', n, w, m]}
theorem {q}_closed{m} : closed emb{a}_rows {q}_tab{m} false (entSucc {q} ({l}_M.mach {m})) (entEof {q} ({l}_M.mach {m})) = true := by
  decide +kernel
'''
        o += f'theorem {q}_certs : ∀ m ∈ {q}, Nonempty (EntCert {q} ({l}_M.mach m)) :=\n' + nest([f'⟨⟨emb{aid(n, int(m))}_D, {q}_tab{m}, {q}_closed{m}⟩⟩' for m in us])
    o += f'\n/-- The parsers that read lines in the same way anywhere in a buffer. -/\ndef embShift{W} : List EParser := [{", ".join(f"Emb.{n}.parser" for n in ns)}]\n'
    o += f'theorem embShift{W}All : ∀ P ∈ embShift{W}, Shiftable P P.{w} :=\n' + nest([f'Shiftable.of {low(n)}_M_eq {low(n)}_{w}E_certs (by decide) (by decide +kernel)' for n in ns])
open(OUT + 'EC.lean', 'w').write(o + '\nend Ohcount.Cert\n')
