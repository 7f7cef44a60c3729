"""Runs the Lean model of the line parsers on /repo/test/src_dir and compares its reports with
/repo/test/expected_dir (data files; no code of /repo is run).  Usage: python3 tools/validate_parsers.py"""
import os, re, subprocess, tempfile
from concurrent.futures import ThreadPoolExecutor
LEAN = os.path.join(os.path.dirname(os.path.abspath(__file__)), '..', 'lean')
S, X = '/repo/test/src_dir/', '/repo/test/expected_dir/'
PROG = r'''
import Verif.Gram.All
import Verif.Gram.Emb
open Ohcount Ohcount.Ragel Ohcount.Gram
def kindS : Kind → String | .lcode => "code" | .lcomment => "comment" | .lblank => "blank"
def main (args : List String) : IO Unit := do
  for fn in args do
    let [lang, path, out] := fn.splitOn "::" | throw (IO.userError "arg")
    if let some P := embParsers.find? (·.name == lang) then
      let b ← IO.FS.readBinFile path
      let mut o : ByteArray := ByteArray.empty
      for r in P.reports {} b.toList do
        o := o ++ (s!"{P.langs.getD r.lang "?"}\t{kindS r.kind}\t").toUTF8 ++ b.extract r.s r.e
      IO.FS.writeBinFile out o
      continue
    let some P := parsers.find? (·.lang == lang) | IO.println s!"no parser {lang}"
    let b ← IO.FS.readBinFile path
    let mut o : ByteArray := ByteArray.empty
    for r in lineReports P.line.machine {} b.toList do
      o := o ++ (s!"{P.lang}\t{kindS r.kind}\t").toUTF8 ++ b.extract r.s r.e
    IO.FS.writeBinFile out o
'''
tmp = tempfile.mkdtemp()
open(tmp + '/Val.lean', 'w').write(PROG)
langs = set(re.findall(r'⟨"parse_\w+", "(\w+)"', open(LEAN + '/Verif/Gram/All.lean').read()))
args, meta = [], []
EMB = {}
for l in ['Emb1', 'Emb2', 'Emb3', 'Emb4']:
    for m in re.finditer(r'name := "(parse_\w+)"\n  langs := \["(\w+)"((?:, "\w+")*)\]', open(LEAN + '/Verif/Gram/%s.lean' % l).read()):
        EMB[m[1]] = (m[2], {m[2]} | set(re.findall(r'"(\w+)"', m[3])))
EXT = {'.html': 'parse_html', '.jsp': 'parse_jsp', '.php': 'parse_phtml', '.rhtml': 'parse_rhtml', '.mxml': 'parse_mxml', '.nix': 'parse_nix',
       '.coffee': 'parse_coffeescript', '.mp': 'parse_mptex', '.pl': 'parse_perl', '.pm': 'parse_perl', '.pod': 'parse_perl', '.haml': 'parse_haml'}
NAME = {'cs_aspx': 'parse_cs_aspx', 'vb_aspx': 'parse_vb_aspx', 'clearsilver_template1.cs': 'parse_cshtml'}
for f in sorted(os.listdir(X)):
    if not os.path.exists(S + f): continue
    exp = open(X + f, 'rb').read()
    ls = {m.decode() for m in re.findall(rb'(?m)^(\w+)\t(?:code|comment|blank)\t', exp)}
    e = os.path.splitext(f)[1]
    fn = NAME.get(f) or EXT.get(e) or ('parse_cs_aspx' if e == '.aspx' and 'csharp' in ls else 'parse_vb_aspx' if e == '.aspx' else None)
    if fn and fn in EMB and ls <= EMB[fn][1]:
        args.append('%s::%s::%s' % (fn, S + f, tmp + '/o_' + f)); meta.append((f, tmp + '/o_' + f, exp)); continue
    if len(ls) != 1 or min(ls) not in langs: print('not modelled', f, sorted(ls)); continue
    args.append('%s::%s::%s' % (min(ls), S + f, tmp + '/o_' + f)); meta.append((f, tmp + '/o_' + f, exp))
def go(a): return subprocess.run(['lake', 'env', 'lean', '--run', tmp + '/Val.lean'] + a, cwd=LEAN, capture_output=True, text=True)
with ThreadPoolExecutor(3) as ex:
    for r in ex.map(go, [args[i::3] for i in range(3)]): print(r.stdout, r.stderr, end='')
ok = 0
norm = lambda b: re.sub(rb'(?m)^(\w+\t\w+\t)[ \t]*', rb'\1', b)
for f, out, exp in meta:
    got = open(out, 'rb').read()
    if norm(got) == norm(exp): ok += 1
    else: print('differs', f)
print(ok, 'of', len(meta), 'files agree')
