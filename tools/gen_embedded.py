"""Transcribes the parsers with embedded languages into lean/Verif/Gram/Emb*.lean."""
import os, re, sys
from ragel import *
from gen_grammars import Emit, needed, emit_def, src, text, parse_funs, langname, ns, OUT
FILES = ['html', 'mxml', 'nix', 'coffeescript', 'metapost_with_tex', 'jsp', 'phphtml', 'clearsilverhtml', 'cs_aspx', 'rhtml', 'vb_aspx', 'perl', 'haml']
OPS = {'std_internal_newline': 'internalNewline', 'std_newline': 'newline', 'emb_internal_newline': 'embInternalNewline',
       'emb_newline': 'embNewline', 'check_blank_entry': 'checkBlank'}

def enums(t):
    r = []
    for m in re.finditer(r'enum\s*\{(.*?)\}', t, re.S):
        r += [re.sub(r'\s*=.*', '', x.strip()) for x in re.sub(r'//[^\n]*', '', m[1]).split(',') if x.strip()]
    return r

class EmitE(Emit):
    """`langs`: (prefix of the callbacks, entities, language constant) of the parser and the embedded languages"""
    def __init__(self, g, langs, machs):
        self.g, self.langs, self.machs = g, langs, machs
    def ent(self, e):
        if e == 'NEWLINE': return '.newline'
        if e == 'INTERNAL_NL': return '.internalNl'
        if e == 'CHECK_BLANK_ENTRY': return '.checkBlank'
        for _, es, _ in self.langs:
            if e in es: return '(.own %d)' % es.index(e)
        raise ValueError('entity ' + e)
    def lang(self, c): return [x[2] for x in self.langs].index(c)
    def pre(self, a):
        return [x[0] for x in self.langs].index(re.sub(r'_[ce]callback$', '', a))
    def act(self, a):
        if a.endswith('_ccallback'):
            i = self.pre(a); return '.cb' if i == 0 else '(.emb (.cb %d))' % i
        if a == 'check_blank_outry': return '(.emb .outry)'
        b = re.sub(r'#\d+$', '', a)
        m = re.fullmatch(r'\{saw\((\w+)\);?\}', b)
        if m: return '(.emb (.saw %d))' % self.lang(m[1])
        m = re.fullmatch(r'\{saw\((\w+)\); fcall (\w+);\}', b)
        if m: return '(.emb (.sawCall %d %d))' % (self.lang(m[1]), self.machs.index(m[2]))
        m = re.fullmatch(r'\{fgoto (\w+);\}', b)
        if m: return '(.emb (.goto %d))' % self.machs.index(m[1])
        if b == '{p = ts; fret;}': return '(.emb .back)'
        if b == '{fret;}': return '(.emb .ret)'
        ind = {'current_indent_level++;': 'indInc', 'current_indent_level = 0;': 'indRes', 'prior_indent_level = current_indent_level;': 'indSet'}
        if self.g.actions.get(a) in ind: return '(.emb .%s)' % ind[self.g.actions[a]]
        return super().act(a)
    def end(self, a):
        if a is None: return '.none'
        if a.endswith('_ccallback'): return '.cb %d' % self.pre(a)
        if a.endswith('_ecallback'): return '.ecb %d' % self.pre(a)
        m = re.fullmatch(r'\{(fcall|fgoto) (\w+);\}', re.sub(r'#\d+$', '', a))
        return '.%s %d' % ({'fcall': 'call', 'fgoto': 'goto'}[m[1]], self.machs.index(m[2]))
    def cond(self, c):
        ind = {'{current_indent_level < prior_indent_level}': '.indLt', '{current_indent_level >= prior_indent_level}': '.indGe',
               '!starts_line': '.midLine'}
        return ind.get(c) or super().cond(c)
    def rx(self, e):
        if e[0] == 'diff' and self.g.cls(e) is None: return self.rx(self.g.expand(e))
        if e[0] == 'eofa' and e[2] == 'commit': return '.leave (%s) (.emb .eofCommit)' % self.rx(e[1])
        if e[0] == 'not': return self.rx(self.g.expand(e))
        return super().rx(e)

def switch(E, g, pre):
    pend, sw, cb = [], [], pre + '_ccallback'
    for m in re.finditer(r'case (\w+):|\b(ls|code|comment)\b|(\w+_newline|check_blank_entry)\((\w+)\)', g.actions[cb]):
        if m[1]: pend.append(m[1]); continue
        op = m[2] or OPS[m[3]]
        sw += ['(%s, .%s)' % (E.ent(x), op) for x in pend]; pend = []
    return '[%s]' % ', '.join(sw), src(g, cb)

def main():
    allp = []
    for f in FILES:
        t = open(PDIR + f + '.rl', encoding='latin-1').read(); g = grammar(f + '.rl')
        langs = []
        for x in [f] + g.embeds:
            tx = open(PDIR + x + '.rl', encoding='latin-1').read()
            pre = re.search(r'action (\w+)_ccallback', tx)[1]
            k = re.search(r'process_last_line\((\w+)\)', tx)[1]
            v = langname(re.search(r'char \*\s*%s\s*=\s*(LANG_\w+|"[^"]*");' % k, tx)[1])
            o = re.search(r'^\s*%s = (LANG_\w+);\s*\n\s*init' % k, t, re.M)      # cs_aspx.rl:223
            langs.append((pre, enums(tx), k, langname(o[1]) if o else v))
        machs = [n for n in g.inst if g.where[n][0] == f + '.rl']
        E = EmitE(g, [x[:3] for x in langs], machs)
        fn, (l1, l2) = [(x[0], x[1]) for x in parse_funs(t)][0]
        body = ['/-! ### %s.rl -/\n' % f, 'namespace Ohcount.Gram.Emb.%s' % ns(f), 'open Ohcount.Ragel\n']
        emitted = []
        for n in machs:
            k, v = g.inst[n]
            pats = v if k == 'scanner' else [(v, None)]
            for d in needed(g, [e for e, a in pats]):
                if g.where[d][0] == 'common.rl' or d in emitted: continue
                emit_def(E, g, d, body); emitted.append(d)
            ps = ['  (%s, %s)' % (E.rx(e), E.end(a)) for e, a in pats]
            note = '' if k == 'scanner' else ' A plain machine; the alternative with the call comes first, as Ragel lets its action run first.'
            body.append('/-- Machine %d: %s.%s\n```\n%s\n``` -/\ndef %s : EScanner where\n  pats := [\n%s]\n  scanner := %s\n' %
                        (machs.index(n), src(g, n), note, text(g, n), n, ',\n'.join(ps), 'true' if k == 'scanner' else 'false'))
        sws = [switch(E, g, x[0]) for x in langs]
        st = re.search(r'cs = \(count\) \? \w+?_en_(\w+_line) : \w+?_en_(\w+_entity);', t)
        body.append('/-- `%s`, src/parsers/%s.rl:%d-%d; the callbacks are %s. -/\ndef parser : EParser where\n  name := "%s"\n  langs := [%s]\n  sws := [\n    %s]\n  machs := [%s]\n  line := %d\n  entity := %d\n' %
                    (fn, f, l1, l2, ', '.join(x[1] for x in sws), fn, ', '.join('"%s"' % x[3] for x in langs), ',\n    '.join(x[0] for x in sws), ', '.join(machs), machs.index(st[1]), machs.index(st[2])))
        body.append('end Ohcount.Gram.Emb.%s\n' % ns(f))
        allp.append((f, body, fn))
    for i, c in enumerate([allp[:5], allp[5:8], allp[8:11], allp[11:]], 1):
        o = ['import Verif.Gram.Common', 'import Verif.RagelEmbed\n', '/-! Parsers with embedded languages, transcribed from src/parsers/: %s. Generated by tools/gen_embedded.py. -/\n' % ', '.join(f + '.rl' for f, _, _ in c)]
        open(OUT + '/Emb%d.lean' % i, 'w').write('\n'.join(o + [l for _, b, _ in c for l in b]) + '\n')
    o = ['import Verif.Gram.Emb%d' % i for i in (1, 2, 3, 4)] + ['', '/-! The parsers with embedded languages. Generated by tools/gen_embedded.py. -/', '', 'namespace Ohcount.Gram', 'open Ohcount.Ragel', '',
         '/-- All modelled parsers with embedded languages. -/', 'def embParsers : List EParser := [', '  %s]' % ', '.join('Emb.%s.parser' % ns(f) for f, _, _ in allp), '', 'end Ohcount.Gram']
    open(OUT + '/Emb.lean', 'w').write('\n'.join(o) + '\n')
if __name__ == '__main__': main()
