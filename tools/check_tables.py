"""Compares the automata of nfa.py with the tables of the machines generated by Ragel that
are contained, as data, in /repo/ruby/x86_64-linux_ubuntu/ohcount.so (read, never run)."""
import sys, os, subprocess, struct, re, itertools
sys.path.insert(0, os.path.dirname(__file__))
from ragel import *
from nfa import *
P.UNIQ = True
SO = '/repo/ruby/x86_64-linux_ubuntu/ohcount.so'
data = open(SO, 'rb').read()
secs, syms = [], {}
for l in subprocess.check_output(['readelf', '-SW', SO], text=True).splitlines():
    m = re.match(r'\s*\[\s*\d+\]\s+(\S+)\s+(\S+)\s+([0-9a-f]+)\s+([0-9a-f]+)\s+([0-9a-f]+)', l)
    if m: secs.append((m[1], int(m[3], 16), int(m[4], 16), int(m[5], 16)))
for l in subprocess.check_output(['nm', '-S', SO], text=True).splitlines():
    f = l.split()
    if len(f) == 4: syms.setdefault(f[3], (int(f[0], 16), int(f[1], 16)))
def sym(n):
    a, k = syms[n]
    for nm, va, off, sz in secs:
        if va and va <= a < va + sz: return data[off+a-va:off+a-va+k]

class Dfa:
    def __init__(self, name):
        self.ns = len(sym('_%s_single_lengths' % name))
        def g(n, per_state=False, elems=None):
            s = '_%s_%s' % (name, n)
            if s not in syms: return None
            b = sym(s)
            if per_state: w = len(b) // self.ns
            elif elems: w = elems
            else: w = 1
            return list(struct.unpack('<%d%s' % (len(b)//w, {1: 'B', 2: 'h'}[w]), b))
        for n in ['single_lengths', 'range_lengths', 'to_state_actions', 'from_state_actions', 'key_offsets',
                  'index_offsets', 'eof_trans', 'cond_offsets', 'cond_lengths', 'eof_actions']:
            setattr(self, n, g(n, True))
        b = sym('_%s_trans_keys' % name)
        nk = sum(self.single_lengths[s] + 2*self.range_lengths[s] for s in range(self.ns)) + 1
        w = len(b) // nk
        self.trans_keys = list(struct.unpack('<%d%s' % (len(b)//w, {1: 'b', 2: 'h'}[w]), b))
        self.cond_keys = g('cond_keys', elems=w); self.cond_spaces = g('cond_spaces')
        nt = sum(self.single_lengths[s] + self.range_lengths[s] + 1 for s in range(self.ns))
        self.indicies = None
        if '_%s_indicies' % name in syms:
            b = sym('_%s_indicies' % name); w = len(b) // nt
            self.indicies = list(struct.unpack('<%d%s' % (len(b)//w, {1: 'B', 2: 'h'}[w]), b))
        ta = sym('_%s_trans_actions' % name); tt = sym('_%s_trans_targs' % name)
        acts = sym('_%s_actions' % name)
        self.actions = list(acts)
        # widths of targs/actions: both have one entry per transition
        n = len(self.indicies and range(max(self.indicies)+1) or range(nt))
        ne = max(self.eof_trans or [0])
        n = max(n, ne)
        def u(b):
            w = 2 if len(b) >= 2*n else 1
            return list(struct.unpack('<%d%s' % (len(b)//w, {1: 'B', 2: 'h'}[w]), b))
        self.trans_targs, self.trans_actions = u(tt), u(ta)
    def acts(self, off):
        return self.actions[off+1:off+1+self.actions[off]] if off else []
    def trans(self, s, key):
        k, n = self.key_offsets[s], self.single_lengths[s]
        base = self.index_offsets[s]
        keys = self.trans_keys[k:k+n]
        if key in keys: j = base + keys.index(key)
        else:
            r = self.range_lengths[s]; j = base + n + r
            for i in range(r):
                if self.trans_keys[k+n+2*i] <= key <= self.trans_keys[k+n+2*i+1]: j = base + n + i
        t = self.indicies[j] if self.indicies else j
        return self.trans_targs[t], self.acts(self.trans_actions[t])
    def eof(self, s):
        if not self.eof_trans or self.eof_trans[s] == 0: return None
        t = self.eof_trans[s] - 1
        return self.trans_targs[t], self.acts(self.trans_actions[t])
    def space(self, s, c):
        if not self.cond_offsets: return None
        o = self.cond_offsets[s]
        for i in range(self.cond_lengths[s]):
            if self.cond_keys[2*(o+i)] <= c <= self.cond_keys[2*(o+i)+1]: return self.cond_spaces[o+i]
        return None

def sc(b): return b - 256 if b > 127 else b
NLCOND = '{p+1 < pe && *(p+1) != \'\\n\'}'

def compare(name, nfa, dfa, entry, layout=None, scanner=True):
    """lockstep; returns (mapping of action numbers, problems).  `layout` is the order in which the
    ranges of keys of the condition spaces follow each other (the constants are in the code of the
    generated function, not in its tables)."""
    conds = []
    for p in nfa.pos:
        for c in p.conds:
            if c.lstrip('!') not in conds: conds.append(c.lstrip('!'))
    seen = {}; todo = [('start', entry)]; pairs = []; probs = []
    spaces = {}      # space id -> tuple of conds, guessed in order of appearance
    while todo and len(probs) < (6 if scanner else 1):
        st, ds = todo.pop()
        if st in seen:
            if seen[st] != ds and nfa.accepts(st) is None: pass
            continue
        seen[st] = ds
        for c in range(256):
            rel = []
            for p, _ in nfa.edges(st):
                if c in nfa.pos[p].mask:
                    for x in nfa.pos[p].conds:
                        if x.lstrip('!') not in rel: rel.append(x.lstrip('!'))
            rel.sort(key=conds.index)
            sp = dfa.space(ds, sc(c))
            if (sp is None) != (not rel):
                probs.append(('condspace', st, c, sp, rel)); continue
            if sp is not None: spaces.setdefault(sp, tuple(rel))
            for v in range(2 ** len(rel)):
                val = {x: bool(v >> i & 1) for i, x in enumerate(rel)}
                cond = lambda x: (not val[x[1:]]) if x[0] == '!' else val[x]
                nst, acts = nfa.step(st, c, cond, True)
                if sp is None: key = sc(c)
                else:
                    base = 128
                    order = layout or range(sp + 1)
                    for k in order[:list(order).index(sp)]: base += 256 * 2 ** len(spaces.get(k, ('?',)))
                    key = base + sc(c) + 128 + 256 * v
                dt, dacts = dfa.trans(ds, key)
                pairs.append((st, c, nst, acts, dt, dacts))
                if not scanner and bool(acts) != bool(dacts): probs.append(('actions', st, c)); break
                if nst is not None:
                    if not nfa.has_next(nst) and not nfa.leave_acts(nst):
                        if dt != entry and scanner: probs.append(('onlast', st, chr(c), dt))
                    else: todo.append((nst, dt))
        pairs.append((st, 'eof', None, nfa.leave_acts(st, True), *(dfa.eof(ds) or (None, []))))
    return pairs, probs, seen

def plain(a):
    return re.sub(r'#\d+$', '', a) if 'entity' in a else a

def action_map(pairs, order, own=(), nfa=None):
    """assigns the action numbers to action names; None is an action of the scanner itself, which
    the numbers `own` are known to be from another scanner of the same file"""
    cand = {x: {None} for x in own}
    for st, c, nst, acts, dt, dacts in pairs:
        for x in dacts:
            s = set(acts) | {None}
            cand[x] = cand[x] & s if x in cand else s
    m, last = {}, -1
    for x in sorted(cand):
        m[x] = None
        for i in range(last + 1, len(order)):
            if order[i] in cand[x]: m[x] = order[i]; last = i; break
    bad = []
    for st, c, nst, acts, dt, dacts in pairs:
        # the scanner's own action: `te = p + 1` comes first if the match can go on, the end action right after the
        # actions of its pattern if not
        i = [k for k, x in enumerate(dacts) if m[x] is None]
        if i and nst is not None and nfa is not None and nfa.accepts(nst) is not None:
            early = [] if nfa.has_next(nst) or nfa.leave_acts(nst) else nfa.early(st, nst, c, acts)
            got = dedup([plain(m[x]) for x in dacts[:i[0]]])
            if got != dedup([plain(x) for x in early]): bad.append(('own', st, c, nst, acts, dacts, early, got))
        l1, l2 = dedup([plain(m[x]) for x in dacts if m[x] is not None]), dedup([plain(x) for x in acts])
        # Ragel renumbers the actions at the start of a repeated expression, so that in `ws_or_inl*` the callback for one
        # newline precedes the assignment for the next, which assigns the value that `entity` has already
        if len(l1) == 2 and l1 == l2[::-1] and l2[0] == '{entity = INTERNAL_NL;}' and l2[1].endswith('_ccallback'): continue
        # `code` and assignments to `entity` may be exchanged
        if set(l1) == set(l2) and all(x == 'code' or x.startswith('{entity') for x in l1): continue
        if l1 != l2: bad.append((st, c, nst, acts, dacts))
    return m, bad

def scanners(f):
    """yields (machine name, scanner name, grammar, nfa or exception)"""
    g = grammar(f)
    mname = re.search(r'machine (\w+);', open(PDIR+f, encoding='latin-1').read())[1]
    for n, (k, v) in g.inst.items():
        try: yield mname, n, g, Nfa([(g.expand(e), a) for e, a in (v if k == 'scanner' else [(v, None)])])
        except Exception as ex: yield mname, n, g, ex

if __name__ == '__main__':
    only = sys.argv[1:]; layout_of = {}
    for f in sorted(os.listdir(PDIR)):
        if not f.endswith('.rl') or f == 'common.rl': continue
        lang = f[:-3]
        if only and lang not in only: continue
        try: scs = list(scanners(f))
        except Exception as ex: print(lang, 'parse', ex); continue
        owns = []       # for each scanner of the file done so far: its own actions
        for mname, n, g, nfa in sorted(scs, key=lambda x: not x[1].endswith('_entity')):
            if '_%s_actions' % mname not in syms: print(lang, n, 'no tables'); continue
            if isinstance(nfa, Exception): print(lang, n, 'no automaton:', type(nfa).__name__, nfa); continue
            dfa = Dfa(mname)
            sc_ = g.inst[n][0] == 'scanner'
            entries = [s for s in range(dfa.ns) if bool(dfa.from_state_actions and dfa.from_state_actions[s]) == sc_]
            best = None; lays = {}
            nsp = max(dfa.cond_spaces or [0]) + 1
            if not sc_:       # the states whose transitions can be those of the start state
                starts = {c for p, _ in nfa.edges('start') for c in nfa.pos[p].mask if not nfa.pos[p].conds}
                cand = entries; entries = [s for s in entries if all((dfa.trans(s, sc(c))[0] != dfa.trans(0, sc(c))[0]) for c in starts if dfa.space(s, sc(c)) is None)]
            perms = list(itertools.permutations(range(nsp))) if nsp < 5 else [None]
            if layout_of.get(f): perms = [layout_of[f]]
            for en, lay in itertools.product(entries, perms):
              try: pairs, probs, seen = compare(n, nfa, dfa, en, lay, sc_)
              except (IndexError, KeyError) as ex: continue
              for own in [()] + [o for o in owns if o and not probs]:
                try:
                    m, bad = action_map(pairs, g.order, own, nfa)
                except (IndexError, KeyError) as ex: continue
                score = len(probs) + len(bad)
                if best is None or score < best[0]: best = (score, en, probs, bad, len(seen), m, lay)
            if best is None: print(lang, n, 'no entry'); continue
            if best[0] == 0 and len(dfa.cond_spaces or []) and any(p.conds for p in nfa.pos) and n.endswith('_line'): layout_of.setdefault(f, best[6])
            if best[0] == 0: owns.append([x for x, v in best[5].items() if v is None])
            print(lang, n, 'OK' if best[0] == 0 else 'DIFFERS', 'entry', best[1], 'states', best[4], len(best[2]), best[2][:3], len(best[3]), best[3][:2])
