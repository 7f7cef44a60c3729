"""Transcribes the scanners of /repo/src/parsers/*.rl into lean/Verif/Gram/*.lean."""
import os, re, sys
from ragel import *
OUT = os.path.join(os.path.dirname(os.path.abspath(__file__)), '..', 'lean', 'Verif', 'Gram')
SKIP = {'perl'}            # uses fgoto inside a pattern and an EOF action; see gen_embedded.py
LANGH = dict(re.findall(r'#define (LANG_\w+) "([^"]*)"', open('/repo/src/languages.h').read()))

def ranges(s):
    r = []
    for b in sorted(s):
        if r and r[-1][1] == b - 1: r[-1][1] = b
        else: r.append([b, b])
    return [tuple(x) for x in r]
def lean_set(s):
    if len(s) == 256: return 'Cls.any'
    if len(s) == 1: return 'Cls.chr %d' % min(s)
    r = ranges(s)
    if all(a == b for a, b in r): return 'Cls.chars [%s]' % ', '.join(str(a) for a, _ in r)
    return 'Cls.ranges [%s]' % ', '.join('(%d, %d)' % x for x in r)
def lean_cls_lit(s):
    if len(s) > 128 and len(s) < 256: return 'Cls.neg (%s)' % lean_set(ANY - s)
    return lean_set(s)

class Emit:
    def __init__(self, g, own, ents):
        self.g, self.own, self.ents = g, own, ents
    def name(self, n):
        return 'Common.' + n if self.g.where[n][0] == 'common.rl' or n in BUILTIN and n not in self.g.defs else n
    def cls(self, e):
        """Lean expression of type Cls"""
        t = e[0]
        if t == 'cls': return lean_cls_lit(e[1])
        if t == 'paren': return self.cls(e[1])
        if t == 'ref':
            if e[1] in self.g.defs: return self.name(e[1])
            return 'Cls.any' if e[1] == 'any' else 'Common.' + e[1]
        if t == 'alt': return 'Cls.union (%s) (%s)' % (self.cls(e[1]), self.cls(e[2]))
        if t == 'neg': return 'Cls.neg (%s)' % self.cls(e[1])
        if t == 'diff':
            if self.g.cls(e[2]) is None:   # only the one-character strings matter
                return 'Cls.diff (%s) (%s)' % (self.cls(e[1]), lean_cls_lit(one_char(self.g.expand(e[2]))))
            return 'Cls.diff (%s) (%s)' % (self.cls(e[1]), self.cls(e[2]))
        raise ValueError(t)
    def lit(self, e):
        if e[0] == 'cls' and len(e[1]) == 1: return [min(e[1])]
        if e[0] == 'seq' and e[2][0] == 'cls' and len(e[2][1]) == 1:
            l = self.lit(e[1])
            return l and l + [min(e[2][1])]
        return None
    def act(self, a):
        g = self.g
        if a in ('code', 'comment', 'enqueue', 'commit'): return '.' + a
        if a.startswith('{'):
            m = re.fullmatch(r'\{\s*entity\s*=\s*(\w+);\s*\}', a)
            if m: return '(.setEnt %s)' % self.ent(m[1])
            m = re.fullmatch(r'\{\s*fhold;\s*\}#(\d+)', a)
            if m: return '(.fhold %s)' % m[1]
        if a.endswith('_ccallback'): return '.cb'
        b = g.actions.get(a, '')
        if re.fullmatch(r'\w+ = 0;', b): return '.nestRes'
        if re.fullmatch(r'(\w+\+\+|\+\+\w+);', b): return '.nestInc'
        if re.fullmatch(r'(\w+--|--\w+);', b): return '.nestDec'
        raise ValueError('action ' + a)
    def ent(self, e):
        if e == 'NEWLINE': return '.newline'
        if e == 'INTERNAL_NL': return '.internalNl'
        if e == 'CHECK_BLANK_ENTRY': return '.checkBlank'
        return '(.own %d)' % self.ents.index(e)
    def cond(self, c):
        if c == "{p+1 < pe && *(p+1) != '\\n'}": return '.crAlone'
        if re.fullmatch(r'\{\w+ == 0\}', c): return '.nestZero'
        return {'rebol_is_nested': '.nested', 'no_code': '.noCode', '!no_code': '.someCode', 'starts_line': '.startsLine'}[c]
    def rx(self, e):
        """Lean expression of type Rx"""
        t = e[0]
        if t == 'ref' and e[1] in self.g.defs and self.g.cls(e) is None: return self.name(e[1])
        l = self.lit(e)
        if l and len(l) > 1: return '.lit [%s]' % ', '.join(map(str, l))
        if self.g.cls(e) is not None: return '.cls (%s)' % self.cls(e)
        if t == 'paren': return self.rx(e[1])
        if t in ('alt', 'seq'):
            xs = []
            while e[0] == t and self.g.cls(e) is None and not self.lit(e): xs.insert(0, e[2]); e = e[1]
            xs.insert(0, e)
            return '.%ss [%s]' % (t, ', '.join(self.rx(x) for x in xs))
        if t == 'guard': return '.guard (%s) (%s)' % (self.rx(e[1]), self.rx(e[2]))
        if t in ('star', 'plus', 'opt'): return '.%s (%s)' % (t, self.rx(e[1]))
        if t in ('fin', 'all', 'ent', 'leave'): return '.%s (%s) %s' % (t, self.rx(e[1]), self.act(e[2]))
        if t == 'when': return '.cond (%s) %s' % (self.rx(e[1]), self.cond(e[2]))
        if t == 'eps': return '.eps'
        raise ValueError('expr ' + t)

def refs(e, acc):
    if isinstance(e, tuple):
        if e and e[0] == 'ref': acc.append(e[1])
        else:
            for x in e: refs(x, acc)
    elif isinstance(e, list):
        for x in e: refs(x, acc)
def needed(g, e):
    out, todo = [], []
    def visit(n):
        if n in out or n not in g.defs: return
        r = []; refs(g.defs[n], r)
        for m in r: visit(m)
        out.append(n)
    r = []; refs(e, r)
    for n in r: visit(n)
    return out
def src(g, n):
    fn, a, b = g.where[n]
    return 'src/parsers/%s:%d' % (fn, a) + ('-%d' % b if b != a else '')
def text(g, n):
    fn, a, b = g.where[n]
    ls = open(PDIR + fn, encoding='latin-1').read().split('\n')[a-1:b]
    return '\n'.join(l.replace('\t', '  ') for l in ls).replace('-/', '- /').replace('/-', '/ -')

def emit_def(E, g, n, out):
    e = g.defs[n]
    iscls = g.cls(e) is not None
    out.append('/-- %s\n```\n%s\n``` -/\ndef %s : %s := %s\n' % (src(g, n), text(g, n), n, 'Cls' if iscls else 'Rx', E.cls(e) if iscls else E.rx(e)))

def parse_funs(t):
    """(parse function, line scanner, entity scanner, LANG constant) and wrappers"""
    r = []
    for m in re.finditer(r'void (parse_\w+)\s*\(.*?\)\s*\{(.*?)\n\}', t, re.S):
        b = ' '.join(re.sub(r'//[^\n]*', '', m[2]).split())
        line = t.count('\n', 0, m.start()) + 1, t.count('\n', 0, m.end()) + 1
        s = re.fullmatch(r'(?:int \w+ = 0; )?init (?:int \w+ = 0; )?%% write init; cs = \(count\) \? \w+?_en_(\w+_line) : \w+?_en_(\w+_entity); %% write exec; if \(count\) \{ process_last_line\((\w+)\) \}', b)
        w = re.fullmatch(r'(\w+) = (\w+); parse_(\w+)\(buffer, length, count, callback, userdata\); \1 = (\w+);', b)
        if s: r.append((m[1], line, 'std', s[1], s[2], s[3]))
        elif w: r.append((m[1], line, 'wrap', w[3], w[2], None))
        else: r.append((m[1], line, None, None, None, None))
    return r

def main():
    os.makedirs(OUT, exist_ok=True)
    g0 = grammar('common.rl'); E = Emit(g0, True, [])
    out = ['import Verif.Ragel\n', '/-! The definitions of src/parsers/common.rl and the character classes built into Ragel. -/\n',
           'namespace Ohcount.Gram.Common', 'open Ohcount.Ragel\n']
    for n, s in BUILTIN.items():
        if n != 'any': out.append('/-- Ragel\'s builtin `%s`. -/\ndef %s : Cls := %s\n' % (n, n, lean_cls_lit(s)))
    E.name = lambda n: n
    for n in g0.defs: emit_def(E, g0, n, out)
    out.append('end Ohcount.Gram.Common')
    open(OUT + '/Common.lean', 'w').write('\n'.join(out) + '\n')
    files = sorted(f[:-3] for f in os.listdir(PDIR) if f.endswith('.rl') and f != 'common.rl')
    mods, table, missing = [], [], []
    done = {}
    for f in files:
        if f in SKIP: missing.append((f, 'skipped')); continue
        t = open(PDIR + f + '.rl', encoding='latin-1').read()
        try: g = grammar(f + '.rl')
        except Exception as ex: missing.append((f, str(ex))); continue
        ents = []
        for m in re.finditer(r'enum\s*\{(.*?)\}', t, re.S):
            ents += [re.sub(r'\s*=.*', '', x.strip()) for x in re.sub(r'//[^\n]*', '', m[1]).split(',') if x.strip()]
        names = re.findall(r'"([^"]*)"', re.search(r'_entities\[\]\s*=\s*\{(.*?)\}', t, re.S)[1])
        consts = dict(re.findall(r'(?:const )?char \*\s*(\w+)\s*=\s*(LANG_\w+|"[^"]*");', t))
        E = Emit(g, False, ents)
        body, emitted, scs = [], [], {}
        for n, (k, v) in g.inst.items():
            if k != 'scanner': missing.append((f, n + ' not a scanner')); continue
            try:
                o = []
                em = list(emitted)
                for d in needed(g, [e for e, a in v]):
                    if g.where[d][0] == 'common.rl' or d in em: continue
                    emit_def(E, g, d, o); em.append(d)
                ps = []
                for e, a in v:
                    if a is None: en = '.none'
                    elif a.endswith('_ccallback'): en = '.cb'
                    elif a.endswith('_ecallback'): en = '.ecb'
                    else: raise ValueError('end action ' + a)
                    ps.append('  (%s, %s)' % (E.rx(e), en))
                sw = []
                if n.endswith('_line'):
                    cb = [a for a in g.actions if a.endswith('_ccallback')]
                    assert len(cb) == 1
                    pend = []
                    b = g.actions[cb[0]]
                    for m in re.finditer(r'case (\w+):|\b(ls|code|comment)\b|(std_internal_newline|std_newline|check_blank_entry)\((\w+)\)', b):
                        if m[1]: pend.append(m[1]); continue
                        op = m[2] or {'std_internal_newline': 'internalNewline', 'std_newline': 'newline', 'check_blank_entry': None}[m[3]]
                        if op: sw += ['(%s, .%s)' % (E.ent(x), op) for x in pend]
                        elif any('setEnt .checkBlank' in x for x in ps + o): raise ValueError('check_blank_entry')
                        pend = []
                    swsrc = ' with the cases of its callback (%s)' % src(g, cb[0])
                else: swsrc = ''
                o.append('/-- %s%s.\n```\n%s\n``` -/\ndef %s : Scanner where\n  pats := [\n%s]\n  sw := [%s]\n' %
                         (src(g, n), swsrc, text(g, n), n, ',\n'.join(ps), ', '.join(sw)))
                body += o; emitted = em; scs[n] = True
            except Exception as ex: missing.append((f, n + ': ' + str(ex)[:80]))
        if not body: continue
        for fn, (l1, l2), kind, a, b, c in parse_funs(t):
            if kind == 'std':
                if a in scs:
                    done[fn] = (f, a); table.append((fn, f, a, b if b in scs else None, langname(consts[c]), l1, l2, names))
                else: missing.append((f, fn + ' line scanner not modelled'))
            elif kind == 'wrap':
                p = 'parse_' + a
                if p in done: table.append((fn, f, done[p][1], None, langname(consts[b]), l1, l2, names))
            else: missing.append((f, fn + ' has another form'))
        mods.append((f, body))
    # group the files
    per, groups = 9, []
    for i in range(0, len(mods), per): groups.append(mods[i:i+per])
    for i, gr in enumerate(groups):
        out = ['import Verif.Gram.Common\n', '/-! Scanners transcribed from src/parsers/: %s. Generated by tools/gen_grammars.py. -/\n' % ', '.join(f + '.rl' for f, _ in gr)]
        for f, body in gr:
            out += ['namespace Ohcount.Gram.%s' % ns(f), 'open Ohcount.Ragel\n'] + body + ['end Ohcount.Gram.%s\n' % ns(f)]
        open(OUT + '/G%d.lean' % (i + 1), 'w').write('\n'.join(out) + '\n')
    out = ['import Verif.Gram.G%d' % (i + 1) for i in range(len(groups))]
    out += ['', '/-! The parse functions whose scanners are modelled. Generated by tools/gen_grammars.py. -/', '', 'namespace Ohcount.Gram', 'open Ohcount.Ragel', '',
            '/-- A parse function: its name, the language it reports, its line scanner. -/',
            'structure Parser where', '  name : String', '  lang : String', '  line : Scanner', '']
    for fn, f, a, b, lang, l1, l2, names in table:
        out.append('/-- `%s`, src/parsers/%s.rl:%d-%d. -/\ndef %s : Parser := ⟨"%s", "%s", %s.%s⟩\n' % (fn, f, l1, l2, fn, fn, lang, ns(f), a))
    out.append('/-- All modelled line parsers. -/\ndef parsers : List Parser := [\n  %s]\n' % ',\n  '.join(x[0] for x in table))
    ent = sorted({(ns(f), b) for fn, f, a, b, *_ in table if b})
    out.append('/-- All modelled entity scanners. -/\ndef entityScanners : List Scanner := [\n  %s]\n' % ',\n  '.join('%s.%s' % x for x in ent))
    out.append('end Ohcount.Gram')
    open(OUT + '/All.lean', 'w').write('\n'.join(out) + '\n')
    import json
    json.dump({'table': table, 'groups': [[f for f, _ in gr] for gr in groups], 'missing': missing}, open('/tmp/w/gram.json', 'w'))
    print(len(table), 'parsers', len(ent), 'entity scanners'); print(missing)

def langname(x): return x.strip('"') if x[0] == '"' else LANGH[x]
def ns(f): return ''.join(x.capitalize() for x in f.split('_'))
if __name__ == '__main__': main()
