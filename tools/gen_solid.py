#!/usr/bin/env python3
"""Write lean/Verif/Cert/W*.lean and WAll.lean: for every machine of Cert/S*.lean the table that
shows where its callbacks end (Verif/RagelSolid.lean).  The tables are computed by the Lean
definitions themselves; only the checks in the generated files count."""
import os
import re
import subprocess
import tempfile

ROOT = os.path.join(os.path.dirname(os.path.abspath(__file__)), '..', 'lean')
CERT = os.path.join(ROOT, 'Verif', 'Cert')

PROG = '''import Verif.Cert.All
import Verif.RagelSolid
namespace Ohcount.Cert
open Ohcount.Ragel
deriving instance Inhabited for Row
def addV (tab : Array (List WA)) (j : Nat) (y : WA) : Array (List WA) × Bool :=
  let l := tab.getD j []
  if l.contains y then (tab, false) else (tab.setIfInBounds j (l ++ [y]), true)
partial def fix (M : Machine) (rows : Array Row) (tab : Array (List WA)) : List (Nat × WA) → Except String (Array (List WA))
  | [] => .ok tab
  | (i, a) :: ws =>
    let r : Row := rows[i]!
    if !(WA.eofOk M r.q.isEmpty r.acc r.leave a) then .error s!"eof at {i} {repr a} {repr r.acc} {repr r.leave}" else
    let res := r.trs.foldl (init := (Except.ok (tab, ws) : Except String _)) fun st e =>
      match st with
      | .error x => .error x
      | .ok (tab, ws) =>
        match WA.succ M r.q.isEmpty r.acc r.leave a e.b e.k e.cr (e.tgt.map fun t => (t.acts, t.acc, t.last)) with
        | none => .error s!"row {i} {repr r.q} val {repr a} tr {repr e}"
        | some none => .ok (tab, ws)
        | some (some y) => match e.tgt with
          | none => .error "?"
          | some t => let (tab', new) := addV tab t.j y; .ok (tab', if new then (t.j, y) :: ws else ws)
    match res with
    | .error x => .error x
    | .ok (tab, ws) => fix M rows tab ws
def sh (n : String) (M : Machine) (rows : List Row) : String :=
  let rows := rows.toArray
  let tab := (Array.replicate rows.size ([] : List WA)).setIfInBounds 0 [WA.init]
  match fix M rows tab [(0, WA.init)] with
  | .error x => s!"FAIL {n} {x}"
  | .ok tab =>
    let ent : Option Ent → String := fun | none => "none" | some .newline => "some .newline" | some .internalNl => "some .internalNl" | some .checkBlank => "some .checkBlank" | some (.own i) => s!"some (.own {i})"
    let b (x : Bool) := if x then "true" else "false"
    let o : Option Nat → String := fun | none => "none" | some k => s!"some {k}"
    let v (a : WA) := s!"⟨{ent a.ent},{b a.n1},{b a.n2},{b a.te},{o a.acc}⟩"
    let row (l : List WA) := "[" ++ ",".intercalate (l.map v) ++ "]"
    s!"OK {n} [" ++ ",".intercalate (tab.toList.map row) ++ "]"
'''


def main():
    allf = open(os.path.join(CERT, 'All.lean')).read()
    i = allf.index('theorem safeAll')
    j = allf.index('theorem', i + 10)
    body = allf[i:j]
    groups = {}
    k = 1
    while os.path.exists(os.path.join(CERT, f'S{k}.lean')):
        groups[k] = re.findall(r'^def (\w+)_S : SCert', open(os.path.join(CERT, f'S{k}.lean')).read(), re.M)
        k += 1
    names = [n for g in groups.values() for n in g]
    prog = PROG + 'def main : IO Unit := do\n' + ''.join(f'  IO.println (sh "{n}" {n}_M {n}_rows)\n' for n in names)
    prog += 'end Ohcount.Cert\ndef main := Ohcount.Cert.main\n'
    with tempfile.NamedTemporaryFile('w', suffix='.lean', delete=False) as f:
        f.write(prog)
    out = subprocess.run(['lake', 'env', 'lean', '--run', f.name], cwd=ROOT, capture_output=True, text=True, check=True).stdout
    os.unlink(f.name)
    tabs = {}
    for line in out.splitlines():
        ok, n, t = line.split(' ', 2)
        assert ok == 'OK', line
        tabs[n] = t
    for k, g in groups.items():
        with open(os.path.join(CERT, f'W{k}.lean'), 'w') as f:
            f.write(f'''import Verif.Cert.N{k}
import Verif.RagelSolid

/-! Generated by tools/gen_solid.py. -/

namespace Ohcount.Cert
open Ohcount.Ragel Ohcount.Gram

set_option maxRecDepth 100000
''')
            for n in g:
                f.write(f'''
def {n}_wTab : List (List WA) := {tabs[n]}
theorem {n}_wClosed : closed {n}_rows {n}_wTab WA.init (WA.succ {n}_M) (WA.eofOk {n}_M) = true := by
  decide +kernel
def {n}_W : WCert {n}_M := ⟨{n}_D, {n}_wTab, {n}_wClosed⟩
''')
            f.write('\nend Ohcount.Cert\n')
    with open(os.path.join(CERT, 'WAll.lean'), 'w') as f:
        for k in groups:
            f.write(f'import Verif.Cert.W{k}\n')
        f.write('import Verif.Cert.All\n\n/-! Generated by tools/gen_solid.py. -/\n\nnamespace Ohcount.Cert\n')
        f.write('open Ohcount.Ragel Ohcount.Gram\n\nset_option maxRecDepth 100000\n\n')
        b = re.sub(r'(\w+)_M_eq ▸ (\w+)_S⟩', r'\1_M_eq ▸ \2_W⟩', body).replace('safeAll', 'solidAll').replace('SCert', 'WCert')
        b = b[:b.rindex('\n\n')] if '\n\n' in b else b
        f.write(b.rstrip() + '\n\nend Ohcount.Cert\n')


EPROG = '''import Verif.Cert.EAll
import Verif.EmbedSolid
namespace Ohcount.Cert
open Ohcount.Ragel
deriving instance Inhabited for Row
def addV (tab : Array (List XA)) (j : Nat) (y : XA) : Array (List XA) × Bool :=
  let l := tab.getD j []
  if l.contains y then (tab, false) else (tab.setIfInBounds j (l ++ [y]), true)
partial def fix (M : Multi) (o : WOpt) (m : Nat) (rows : Array Row) (tab : Array (List XA)) : List (Nat × XA) → Except String (Array (List XA))
  | [] => .ok tab
  | (i, a) :: ws =>
    let r : Row := rows[i]!
    if !(XA.eofOk M o m r.q.isEmpty r.acc r.leave a) then .error s!"eof at {i} {repr a} {repr r.acc} {repr r.leave}" else
    let res := r.trs.foldl (init := (Except.ok (tab, ws) : Except String _)) fun st e =>
      match st with
      | .error x => .error x
      | .ok (tab, ws) =>
        match XA.succ M o m r.q.isEmpty r.acc r.leave a e.b e.k e.cr (e.tgt.map fun t => (t.acts, t.acc, t.last)) with
        | none => .error s!"row {i} {repr r.q} val {repr a} tr {repr e}"
        | some none => .ok (tab, ws)
        | some (some y) => match e.tgt with
          | none => .error "?"
          | some t => let (tab', new) := addV tab t.j y; .ok (tab', if new then (t.j, y) :: ws else ws)
    match res with
    | .error x => .error x
    | .ok (tab, ws) => fix M o m rows tab ws
def sh (n : String) (M : Multi) (o : WOpt) (m : Nat) (rows : List Row) : String :=
  let rows := rows.toArray
  let tab := (Array.replicate rows.size ([] : List XA)).setIfInBounds 0 [XA.init o]
  match fix M o m rows tab [(0, XA.init o)] with
  | .error x => s!"FAIL {n} {x}"
  | .ok tab =>
    let ent : Option Ent → String := fun | none => "none" | some .newline => "some .newline" | some .internalNl => "some .internalNl" | some .checkBlank => "some .checkBlank" | some (.own i) => s!"some (.own {i})"
    let b (x : Bool) := if x then "true" else "false"
    let o : Option Nat → String := fun | none => "none" | some k => s!"some {k}"
    let v (a : XA) := s!"⟨{ent a.ent},{b a.n1},{b a.n2},{b a.te},{o a.acc},{b a.un},{b a.fr},{b a.ta},{b a.tn},{b a.tp},{b a.lt}⟩"
    let row (l : List XA) := "[" ++ ",".intercalate (l.map v) ++ "]"
    s!"OK {n} [" ++ ",".intercalate (tab.toList.map row) ++ "]"
'''

NL = {'coffeescript'}
TL = {'haml'}


def embedded():
    ecert = open(os.path.join(CERT, 'EAll.lean')).read()
    i = ecert.index('theorem embLineAll')
    j = ecert.index('\n\n', i)
    body = ecert[i:j]
    src = ''
    k = 1
    while os.path.exists(os.path.join(CERT, f'E{k}.lean')):
        src += open(os.path.join(CERT, f'E{k}.lean')).read()
        k += 1
    order = re.findall(r'Checked\.of (\w+)_M_eq', body)
    dfas = {}
    for n, m, d in re.findall(r'^def (\w+)_line_C(\d+)(?:true|false) : MCert \w+ \w+ \(\d+, \w+\) := ⟨(emb\d+)_D,', src, re.M):
        dfas.setdefault(n, {})[int(m)] = d
    opt = {n: f'⟨{"true" if n in NL else "false"}, {"true" if n in TL else "false"}, [{", ".join(map(str, dfas[n]))}]⟩' for n in order}
    prog = EPROG + 'def main : IO Unit := do\n'
    for n in order:
        for m, d in dfas[n].items():
            prog += f'  IO.println (sh "{n}_{m}" {n}_M {opt[n]} {m} {d}_rows)\n'
    prog += 'end Ohcount.Cert\ndef main := Ohcount.Cert.main\n'
    with tempfile.NamedTemporaryFile('w', suffix='.lean', delete=False) as f:
        f.write(prog)
    out = subprocess.run(['lake', 'env', 'lean', '--run', f.name], cwd=ROOT, capture_output=True, text=True)
    os.unlink(f.name)
    tabs = {}
    bad = False
    for line in out.stdout.splitlines():
        ok, n, t = line.split(' ', 2)
        if ok != 'OK':
            print(line)
            bad = True
        tabs[n] = t
    assert out.returncode == 0 and not bad, out.stdout[-3000:] + out.stderr
    with open(os.path.join(CERT, 'EW.lean'), 'w') as f:
        f.write('''import Verif.Cert.EAll
import Verif.EmbedSolid

/-! Generated by tools/gen_solid.py. -/

namespace Ohcount.Cert
open Ohcount.Ragel Ohcount.Gram

set_option maxRecDepth 100000
''')
        for n in order:
            f.write(f'\ndef {n}_wopt : WOpt := {opt[n]}\n')
            for m, d in dfas[n].items():
                f.write(f'''def {n}_w{m}_tab : List (List XA) := {tabs[f"{n}_{m}"]}
theorem {n}_w{m}_closed : closed {d}_rows {n}_w{m}_tab (XA.init {n}_wopt) (XA.succ {n}_M {n}_wopt {m}) (XA.eofOk {n}_M {n}_wopt {m}) = true := by
  decide +kernel
def {n}_w{m} : XCert {n}_M {n}_wopt {m} := ⟨{d}_D, {n}_w{m}_tab, {n}_w{m}_closed⟩
''')
            f.write(f'theorem {n}_solid : ∀ m ∈ {n}_wopt.use, Nonempty (XCert {n}_M {n}_wopt m) :=\n')
            for m in dfas[n]:
                f.write(f'  (List.forall_mem_cons.mpr ⟨⟨{n}_w{m}⟩,\n')
            f.write('  (fun _ h => nomatch h)' + '⟩)' * len(dfas[n]) + '\n')
        f.write('\ntheorem embSolidAll : ∀ P ∈ embParsers, SolidLine P :=\n')
        for n in order:
            f.write(f'  (List.forall_mem_cons.mpr ⟨⟨{n}_wopt, by decide, {n}_M_eq ▸ {n}_solid⟩,\n')
        f.write('  (fun _ h => nomatch h)' + '⟩)' * len(order) + '\n')
        f.write('\nend Ohcount.Cert\n')


def null():
    """Cert/EN.lean: no callback of the Haml parser starts at a NULL line_start (Verif/EmbedNull.lean)."""
    dfas = {1: 'emb57', 0: 'emb56'}
    prog = (EPROG.replace('XA', 'NA').replace('WOpt', 'NOpt').replace('EmbedSolid', 'EmbedNull').replace('NA.init o', 'NA.init o m')
            .replace('{b a.n1},{b a.n2},{b a.te},{o a.acc},{b a.un},{b a.fr},{b a.ta},{b a.tn},{b a.tp},{b a.lt}', '{b a.ls},{o a.acc}'))
    prog += 'def main : IO Unit := do\n'
    for m, d in dfas.items():
        prog += f'  IO.println (sh "{m}" haml_M ⟨[1, 0], [0]⟩ {m} {d}_rows)\n'
    prog += 'end Ohcount.Cert\ndef main := Ohcount.Cert.main\n'
    with tempfile.NamedTemporaryFile('w', suffix='.lean', delete=False) as f:
        f.write(prog)
    out = subprocess.run(['lake', 'env', 'lean', '--run', f.name], cwd=ROOT, capture_output=True, text=True)
    os.unlink(f.name)
    assert out.returncode == 0 and 'FAIL' not in out.stdout, out.stdout[-3000:] + out.stderr
    tabs = {}
    for line in out.stdout.splitlines():
        _, n, t = line.split(' ', 2)
        tabs[int(n)] = t
    with open(os.path.join(CERT, 'EN.lean'), 'w') as f:
        f.write('''import Verif.Cert.EAll
import Verif.EmbedNull

/-! Generated by tools/gen_solid.py. -/

namespace Ohcount.Cert
open Ohcount.Ragel Ohcount.Gram

set_option maxRecDepth 100000

def haml_nopt : NOpt := ⟨[1, 0], [0]⟩
''')
        for m, d in dfas.items():
            f.write(f'''def haml_n{m}_tab : List (List NA) := {tabs[m]}
theorem haml_n{m}_closed : closed {d}_rows haml_n{m}_tab (NA.init haml_nopt {m}) (NA.succ haml_M haml_nopt {m}) (NA.eofOk haml_M haml_nopt {m}) = true := by
  decide +kernel
def haml_n{m} : NCert haml_M haml_nopt {m} := ⟨{d}_D, haml_n{m}_tab, haml_n{m}_closed⟩
''')
        f.write('''theorem haml_null : ∀ m ∈ haml_nopt.use, Nonempty (NCert haml_M haml_nopt m) :=
  (List.forall_mem_cons.mpr ⟨⟨haml_n1⟩,
  (List.forall_mem_cons.mpr ⟨⟨haml_n0⟩,
  (fun _ h => nomatch h)⟩)⟩)

theorem haml_not_null (l : ELeft) (buf : List Byte) : (Emb.Haml.parser.final Emb.Haml.parser.multi l buf).d.ub = false :=
  final_not_null haml_nopt (by decide) (by decide) (haml_M_eq ▸ haml_null) l buf

end Ohcount.Cert
''')


main()
embedded()
null()
