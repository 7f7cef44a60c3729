"""Front end for the subset of Ragel 6 used by /repo/src/parsers/*.rl.

Parses definitions, named actions, scanners and embeddings into tuples:
  ('cls', frozenset)  ('seq', a, b)  ('alt', a, b)  ('star', a)  ('plus', a)  ('opt', a)  ('eps',)
  ('fin', a, act)  ('all', a, act)  ('ent', a, act)  ('leave', a, act)  ('eofa', a, act)
  ('when', a, cond)  ('guard', a, b)   a :>> b
  ('diff', a, b)  ('not', a)           difference and negation, for the cases `x+ - words` and `!'literal'`
  ('ref', name)
"""
import re, os

PDIR = '/repo/src/parsers/'
ANY = frozenset(range(256))
def rng(a, b): return frozenset(range(ord(a), ord(b) + 1))
BUILTIN = {
    'any': ANY, 'digit': rng('0', '9'), 'lower': rng('a', 'z'), 'upper': rng('A', 'Z'),
    'alpha': rng('a', 'z') | rng('A', 'Z'), 'alnum': rng('a', 'z') | rng('A', 'Z') | rng('0', '9'),
    'space': frozenset([9, 10, 11, 12, 13, 32]), 'cntrl': frozenset(list(range(32)) + [127]),
    'xdigit': rng('0', '9') | rng('a', 'f') | rng('A', 'F'), 'ascii': frozenset(range(128)),
    'punct': frozenset(list(range(33, 48)) + list(range(58, 65)) + list(range(91, 97)) + list(range(123, 127))),
    'graph': frozenset(range(33, 127)), 'print': frozenset(range(32, 127)),
}
ESC = {'n': 10, 'r': 13, 't': 9, 'f': 12, 'v': 11, 'a': 7, 'b': 8, '0': 0}

class P:
    UNIQ = False          # give every inline action a name of its own
    def __init__(self, text, base=0):
        self.t, self.i, self.order = text, 0, []
    def ws(self):
        while self.i < len(self.t):
            c = self.t[self.i]
            if c.isspace(): self.i += 1
            elif c == '#':
                while self.i < len(self.t) and self.t[self.i] != '\n': self.i += 1
            else: break
    def peek(self, s):
        self.ws(); return self.t.startswith(s, self.i)
    def eat(self, s):
        if self.peek(s): self.i += len(s); return True
        return False
    def need(self, s):
        if not self.eat(s): raise SyntaxError('expected %r at %r' % (s, self.t[self.i:self.i+60]))
    def name(self):
        self.ws(); m = re.compile(r'[A-Za-z_]\w*').match(self.t, self.i)
        if not m: return None
        self.i = m.end(); return m[0]
    def block(self):                      # { ... } with nesting
        self.need('{'); d, s = 1, self.i
        while d:
            c = self.t[self.i]
            if c == "'":
                m = re.compile(r"'(\\.|[^'\\])'").match(self.t, self.i)
                if m: self.i = m.end(); continue
            if c == '"':
                m = re.compile(r'"(\\.|[^"\\])*"').match(self.t, self.i); self.i = m.end(); continue
            if c == '{': d += 1
            if c == '}': d -= 1
            self.i += 1
        return ' '.join(self.t[s:self.i-1].split())

    def expr(self):
        a = self.term()
        while True:
            self.ws()
            if self.t.startswith('|', self.i) and not self.t.startswith('|*', self.i):
                self.i += 1; a = ('alt', a, self.term())
            elif self.t.startswith('--', self.i): raise SyntaxError('--')
            elif self.t.startswith('-', self.i): self.i += 1; a = ('diff', a, self.term())
            elif self.t.startswith('&', self.i): raise SyntaxError('&')
            else: return a
    def term(self):
        a = self.aug()
        while True:
            self.ws()
            if self.eat(':>>'): a = ('guard', a, self.aug())
            elif self.peek(':>') or self.peek('<:'): raise SyntaxError('prio')
            elif self.eat('.'): a = ('seq', a, self.aug())
            elif self.i < len(self.t) and (self.t[self.i] in '\'"[(/^!' or self.t[self.i].isalnum() or self.t[self.i] == '_'):
                if re.compile(r'when\b').match(self.t, self.i): raise SyntaxError('when')
                b = self.aug()
                # the end of `a b* %/x` may be in `a`
                if b[0] == 'eofa' and b[1][0] == 'star': a = ('eofa', ('seq', a, b[1]), b[2])
                else: a = ('seq', a, b)
            else: return a
    def action(self):
        self.ws()
        if self.t[self.i] == '{':
            a = '{' + self.block() + '}'
            if P.UNIQ: a += '#%d' % len(self.order)
            elif 'fhold' in a or 'fret' in a: a += '#%d' % sum(('fhold' in x) or ('fret' in x) for x in self.order)   # each occurrence is an action of its own
            self.order.append(a); return a
        return self.name()
    def aug(self):
        a = self.rep()
        while True:
            self.ws()
            if re.compile(r'when\b').match(self.t, self.i):
                self.i += 4; self.ws()
                neg = self.eat('!'); c = self.action()
                a = ('when', a, ('!' if neg else '') + c)
            elif self.eat('%/'): a = ('eofa', a, self.action())
            elif self.eat('@'): a = ('fin', a, self.action())
            elif self.eat('$'): a = ('all', a, self.action())
            elif self.t.startswith('>', self.i): self.i += 1; a = ('ent', a, self.action())
            elif self.eat('%'): a = ('leave', a, self.action())
            else: return a
    def rep(self):
        a = self.neg()
        while True:
            self.ws()
            if self.t.startswith('*|', self.i): return a
            if self.eat('**'): raise SyntaxError('**')
            if self.eat('*'): a = ('star', a)
            elif self.eat('+'): a = ('plus', a)
            elif self.eat('?'): a = ('opt', a)
            elif self.i < len(self.t) and self.t[self.i] == '{' and re.compile(r'\{\s*\d*\s*,?\s*\d*\s*\}').match(self.t, self.i):
                m = re.compile(r'\{\s*(\d*)\s*(,?)\s*(\d*)\s*\}').match(self.t, self.i); self.i = m.end()
                lo = int(m[1] or 0); hi = lo if not m[2] else (int(m[3]) if m[3] else None)
                r = None
                for _ in range(lo): r = a if r is None else ('seq', r, a)
                if hi is None: r = ('star', a) if r is None else ('seq', r, ('star', a))
                else:
                    for _ in range(hi - lo): r = ('opt', a) if r is None else ('seq', r, ('opt', a))
                a = r
            else: return a
    def neg(self):
        if self.eat('^'): return ('neg', self.neg())
        if self.eat('!'): return ('not', self.neg())
        return self.factor()
    def lit(self, q):
        out = []
        while self.t[self.i] != q:
            if self.t[self.i] == '\\':
                self.i += 1; c = self.t[self.i]; out.append(ESC.get(c, ord(c)))
            else: out.append(ord(self.t[self.i]))
            self.i += 1
        self.i += 1
        return out
    def chars(self, cs, ci=False):
        r = None
        for c in cs:
            s = frozenset([c])
            if ci and chr(c).isalpha(): s = frozenset([ord(chr(c).lower()), ord(chr(c).upper())])
            e = ('cls', s); r = e if r is None else ('seq', r, e)
        return r or ('eps',)
    def factor(self):
        self.ws(); c = self.t[self.i]
        if c == '(':
            self.i += 1; a = self.expr(); self.need(')'); return ('paren', a)
        if c in '\'"':
            self.i += 1; cs = self.lit(c); ci = False
            if self.t.startswith('i', self.i) and not self.t[self.i+1:self.i+2].isalnum(): self.i += 1; ci = True
            return self.chars(cs, ci)
        if c == '[':
            self.i += 1; neg = False
            if self.t[self.i] == '^': neg = True; self.i += 1
            s = set(); last = None
            while self.t[self.i] != ']':
                if self.t[self.i] == '-' and last is not None and self.t[self.i+1] != ']':
                    self.i += 1; d = self.ch(); s |= set(range(last, d + 1)); last = None
                else: last = self.ch(); s.add(last)
            self.i += 1
            return ('cls', ANY - s if neg else frozenset(s))
        if c == '/':
            self.i += 1; cs = self.lit('/'); ci = False
            if self.t.startswith('i', self.i): self.i += 1; ci = True
            return self.chars(cs, ci)
        m = re.compile(r'\d+').match(self.t, self.i)
        if m: self.i = m.end(); return ('cls', frozenset([int(m[0])]))
        return ('ref', self.name())
    def ch(self):
        if self.t[self.i] == '\\':
            self.i += 1; c = self.t[self.i]; self.i += 1; return ESC.get(c, ord(c))
        c = self.t[self.i]; self.i += 1; return ord(c)

    def scanner(self):
        pats = []
        while not self.eat('*|'):
            a = self.expr(); act = None
            if self.eat('=>'): act = self.action()
            self.need(';'); pats.append((a, act))
        return pats

def sections(text):
    return [(m.start(1), m[1]) for m in re.finditer(r'%%\{(.*?)\}%%', text, re.S)]

class Grammar:
    def __init__(self): self.defs, self.inst, self.actions, self.where, self.order = {}, {}, {}, {}, []; self.embeds = []
    def load(self, fn, embedded=False):
        text = open(PDIR + fn, encoding='latin-1').read()
        for off, sec in sections(text):
            p = P(sec); p.order = self.order
            emb = [(m.start(), m[1]) for m in re.finditer(r'#EMBED\((\w+)\)', sec)]
            while True:
                p.ws()
                while emb and emb[0][0] < p.i:          # src/parsers/compile:26-49
                    l = emb.pop(0)[1]; self.embeds.append(l); self.load(l + '.rl', True)
                if p.i >= len(sec): break
                start = p.i
                m = re.compile(r'(machine|write|include|access|getkey|alphtype)\b[^;]*;').match(sec, p.i)
                if m:
                    p.i = m.end()
                    if m[1] == 'include' and not embedded:
                        f = re.search(r'"([^"]+)"', m[0])
                        if f: self.load(f[1])
                    continue
                n = p.name()
                if n == 'action':
                    n = p.name(); self.actions[n] = p.block(); self.order.append(n)
                elif p.eat(':='):
                    if p.eat('|*'): self.inst[n] = ('scanner', p.scanner())
                    else: self.inst[n] = ('machine', hoist(p.expr()))
                    p.need(';')
                else:
                    p.need('='); self.defs[n] = p.expr(); p.need(';')
                a = text.count('\n', 0, off + start) + 1
                b = text.count('\n', 0, off + p.i) + 1
                self.where[n] = (fn, a, b)

    def cls(self, e):
        """character set of e if it is a single-character expression without embeddings"""
        t = e[0]
        if t == 'cls': return e[1]
        if t == 'paren': return self.cls(e[1])
        if t == 'ref':
            if e[1] in self.defs: return self.cls(self.defs[e[1]])
            return BUILTIN.get(e[1])
        if t == 'alt':
            a, b = self.cls(e[1]), self.cls(e[2])
            return None if a is None or b is None else a | b
        if t == 'diff':
            a, b = self.cls(e[1]), self.cls(e[2])
            if a is not None and b is None:
                r = self.expand(e[2])     # e.g. any - 'ab': strings of other lengths do not matter
                b = one_char(r)
            return None if a is None or b is None else a - b
        if t == 'neg':
            a = self.cls(e[1]); return None if a is None else ANY - a
        return None
    def expand(self, e):
        c = self.cls(e)
        if c is not None: return ('cls', c)
        t = e[0]
        if t == 'paren': return self.expand(e[1])
        if t == 'ref':
            if e[1] not in self.defs: raise KeyError(e[1])
            return self.expand(self.defs[e[1]])
        if t == 'diff': return minus(self.expand(e[1]), words(self.expand(e[2])))
        if t in ('alt', 'seq', 'guard'): return (t, self.expand(e[1]), self.expand(e[2]))
        if t == 'not': return not_lit(lit_chars(self.expand(e[1])))
        if t in ('star', 'plus', 'opt', 'neg'): return (t, self.expand(e[1]))
        if t in ('fin', 'all', 'ent', 'leave', 'eofa', 'when'): return (t, self.expand(e[1]), e[2])
        return e

def hoist(e):
    """Moves the alternatives that call another machine to the front of a repeated alternation.  Ragel renumbers the
    actions at the start of a repeated expression (shiftStartActionOrder), so that they run after the call."""
    if not isinstance(e, tuple): return e
    if e[0] == 'alt':
        xs = []
        while e[0] == 'alt': xs.insert(0, e[2]); e = e[1]
        xs.insert(0, e)
        xs.sort(key=lambda x: 'fcall' not in repr(x))
        r = xs[0]
        for x in xs[1:]: r = ('alt', r, x)
        return r
    return tuple(hoist(x) for x in e)
def lit_chars(e):
    """the characters of a literal string"""
    if e[0] == 'cls' and len(e[1]) == 1: return [min(e[1])]
    if e[0] == 'seq': return lit_chars(e[1]) + lit_chars(e[2])
    raise ValueError('not a literal')
def not_lit(cs):
    """every string but the given one: the strings that leave it at some character, and its proper prefixes"""
    def leave(cs):
        if not cs: return ('cls', ANY)
        c = frozenset(cs[:1])
        return ('alt', ('cls', ANY - c), ('seq', ('cls', c), leave(cs[1:])))
    def prefix(cs):
        if len(cs) == 1: return ('cls', frozenset(cs))
        return ('seq', ('cls', frozenset(cs[:1])), ('opt', prefix(cs[1:])))
    r = ('seq', leave(cs), ('star', ('cls', ANY)))
    return ('opt', r if len(cs) == 1 else ('alt', r, prefix(cs[:-1])))

def words(e):
    """the strings of an expression without repetition"""
    t = e[0]
    if t == 'cls': return {(c,) for c in e[1]}
    if t == 'eps': return {()}
    if t == 'alt': return words(e[1]) | words(e[2])
    if t == 'seq': return {a + b for a in words(e[1]) for b in words(e[2])}
    if t == 'opt': return words(e[1]) | {()}
    raise ValueError(t)
def minus(e, ws):
    """x+ - ws for a character set x and a finite set of strings ws"""
    if e[0] != 'plus' or e[1][0] != 'cls': raise ValueError('diff')
    x = e[1][1]
    def rest(ws):              # x+ - ws
        if not ws: return ('plus', ('cls', x))
        heads = sorted({w[0] for w in ws if w and w[0] in x})
        o = x - frozenset(heads)
        r = ('seq', ('cls', o), ('star', ('cls', x))) if o else None
        for h in heads:
            t = {w[1:] for w in ws if w and w[0] == h}
            y = rest({w for w in t if w})
            y = ('seq', ('cls', frozenset([h])), y if () in t else ('opt', y))
            r = y if r is None else ('alt', r, y)
        return r
    return rest({w for w in ws if w})

def one_char(e):
    """the one-character strings of e"""
    t = e[0]
    if t == 'cls': return e[1]
    if t == 'alt': return one_char(e[1]) | one_char(e[2])
    if t == 'seq':
        r = frozenset()
        if nullable(e[1]): r |= one_char(e[2])
        if nullable(e[2]): r |= one_char(e[1])
        return r
    if t in ('opt', 'star', 'plus'): return one_char(e[1])
    if t == 'eps': return frozenset()
    raise ValueError(t)
def nullable(e):
    t = e[0]
    if t in ('eps', 'star', 'opt'): return True
    if t == 'cls': return False
    if t in ('seq', 'guard'): return nullable(e[1]) and nullable(e[2])
    if t == 'alt': return nullable(e[1]) or nullable(e[2])
    return nullable(e[1])

def grammar(fn):
    g = Grammar(); g.load(fn); return g

if __name__ == '__main__':
    bad = 0
    for f in sorted(os.listdir(PDIR)):
        if f.endswith('.rl') and f != 'common.rl':
            try:
                g = grammar(f)
                for n, (k, v) in g.inst.items():
                    if k == 'scanner':
                        for e, a in v: g.expand(e)
                    else: g.expand(v)
            except Exception as ex:
                bad += 1; print(f, type(ex).__name__, str(ex)[:150])
    print('bad', bad)
