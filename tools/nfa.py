"""Position automaton of a scanner, mirroring lean/Verif/Ragel.lean (see there)."""
from ragel import *

class Pos:
    __slots__ = ('mask', 'conds', 'acts', 'hi', 'lo')
    def __init__(s, mask): s.mask, s.conds, s.acts, s.hi, s.lo = mask, [], [], set(), set()

class Nfa:
    """One scanner: list of patterns. Ordinals follow Ragel's walk."""
    def __init__(self, pats, base_ord=0):
        self.pos, self.follow, self.ord, self.g = [], [], base_ord, 0
        self.start = []           # (pattern, pos, entering acts)
        self.final = {}           # pos -> (pattern, leaving acts, eof acts)
        self.pat_of, self.bounds = [], []
        for k, (e, act) in enumerate(pats):
            n0 = len(self.pos)
            null, first, last = self.walk(e); self.bounds.append(self.ord)
            for p, a in first: self.start.append((k, p, a))
            for p, (a, ea) in last.items(): self.final[p] = (k, a, ea)
            self.pat_of += [k] * (len(self.pos) - n0)
    def walk(self, e):
        t = e[0]
        if t == 'cls':
            i = len(self.pos); self.pos.append(Pos(e[1])); self.follow.append([])
            return False, [(i, [])], {i: ([], [])}
        if t == 'eps': return True, [], {}
        if t in ('seq', 'guard'):
            n0 = len(self.pos)
            n1, f1, l1 = self.walk(e[1]); m = len(self.pos)
            n2, f2, l2 = self.walk(e[2]); n3 = len(self.pos)
            for p, (a, _) in l1.items():
                for q, b in f2: self.follow[p].append((q, a + b))
            if t == 'guard':
                self.g += 1
                for i in range(n0, n3):
                    if i in l2: self.pos[i].hi.add(self.g)
                    elif i < m or i in [p for p, _ in f2]: self.pos[i].lo.add(self.g)
            l = dict(l2)
            if n2: l.update(l1)
            return n1 and n2, f1 + (f2 if n1 else []), l
        if t == 'alt':
            n1, f1, l1 = self.walk(e[1]); n2, f2, l2 = self.walk(e[2])
            return n1 or n2, f1 + f2, {**l1, **l2}
        if t in ('star', 'plus'):
            n, f, l = self.walk(e[1])
            for p, (a, _) in l.items():
                for q, b in f: self.follow[p].append((q, a + b))
            return (n or t == 'star'), f, l
        if t == 'opt':
            n, f, l = self.walk(e[1]); return True, f, l
        if t in ('fin', 'all', 'leave', 'eofa', 'when'):
            n0 = len(self.pos)
            n, f, l = self.walk(e[1])
            if t == 'when':
                for i in range(n0, len(self.pos)): self.pos[i].conds.append(e[2])
                return n, f, l
            o = self.ord; self.ord += 1
            if t == 'fin':
                for i in l: self.pos[i].acts.append((o, e[2]))
            if t == 'all':
                for i in range(n0, len(self.pos)): self.pos[i].acts.append((o, e[2]))
            if t == 'leave':
                assert not n
                l = {p: (a + [(o, e[2])], ea) for p, (a, ea) in l.items()}
            if t == 'eofa':
                l = {p: (a, ea + [(o, e[2])]) for p, (a, ea) in l.items()}
            return n, f, l
        if t == 'ent':
            o = self.ord; self.ord += 1
            n, f, l = self.walk(e[1])
            return n, [(p, a + [(o, e[2])]) for p, a in f], l
        raise ValueError(t)
    def edges(self, state):
        """state: 'start' or frozenset of positions -> list of (pos, acts)"""
        if state == 'start': return [(p, a) for _, p, a in self.start]
        r = []
        for q in sorted(state): r += self.follow[q]
        return r
    def step(self, state, c, cond, late=False):
        """next state and action names, or (None, leaving actions)"""
        es = [(p, a) for p, a in self.edges(state) if c in self.pos[p].mask and all(cond(x) for x in self.pos[p].conds)]
        his = set()
        for p, _ in es: his |= self.pos[p].hi
        es = [(p, a) for p, a in es if not (self.pos[p].lo & his)]
        if not es: return None, self.leave_acts(state)
        acts = sorted({x for p, a in es for x in a + self.pos[p].acts}, key=lambda x: x[0])
        nst = frozenset(p for p, _ in es)
        if not late and self.accepts(nst) is not None and not self.has_next(nst) and not self.leave_acts(nst):
            acts = [x for x in acts if x[0] < self.bounds[self.accepts(nst)]]      # see Nfa.beforeEnd
        return nst, dedup([a for _, a in acts])
    def early(self, state, nst, c, acts):
        """the actions of a transition to a state where the match ends that come before its end action"""
        xs = {x[1] for p, a in self.edges(state) if p in nst and c in self.pos[p].mask for x in a + self.pos[p].acts
              if x[0] < self.bounds[self.accepts(nst)]}
        return [a for a in acts if a in xs]
    def leave_acts(self, state, eof=False):
        if state == 'start': return []
        acts = sorted({x for p in state if p in self.final for x in self.final[p][1] + (self.final[p][2] if eof else [])}, key=lambda x: x[0])
        return dedup([a for _, a in acts])
    def accepts(self, state):
        if state == 'start': return None
        ks = [self.final[p][0] for p in state if p in self.final]
        return min(ks) if ks else None
    def has_next(self, state): return bool(self.edges(state))

def dedup(l):
    r = []
    for x in l:
        if x not in r: r.append(x)
    return r
