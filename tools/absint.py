"""Prototype of the static analysis of lean/Verif/RagelCheck.lean: explores (state, abstract value)."""
from nfa import *
from collections import namedtuple
NL = {10, 12}; CR = 13; WS = {32, 9}
NLC = "{p+1 < pe && *(p+1) != '\\n'}"
A = namedtuple('A', 'pend mk ent ls inq unt cross acc cr')
# mk: 0 clean, 1 marked, 2 owed
class Fail(Exception): pass

def opof(ent):
    e = ent
    if e == 'INTERNAL_NL': return 'inl'
    if e == 'NEWLINE': return 'nl'
    if e == 'CHECK_BLANK_ENTRY': return 'cbe'
    if e.endswith('_SPACE') or e.endswith('LINE_START'): return 'ls'
    if e.endswith('_ANY') or e.endswith('_OPERATOR') or e.endswith('_INCLUDE'): return 'code'
    if e in ('BFPP_COMMENT', 'BRAINFUCK_COMMENT'): return 'comment'
    return 'nop'

def do_inl(a):
    if not a.pend: raise Fail('inl without pending newline')
    if not a.ls: raise Fail('inl with line_start null')
    if a.mk == 2: raise Fail('inl with owed flag')
    return a._replace(pend=False, mk=0, ls=True, unt=False, cross=True)

def run_acts(a, acts):
    """a before reading; returns a and whether a flag was set (after any inl), fholds"""
    flag = False; fh = 0
    for x in acts:
        if x.startswith('{') and 'entity' in x:
            a = a._replace(ent=re.search(r'=\s*(\w+)', x)[1])
        elif x.startswith('{') and 'fhold' in x: fh += 1
        elif x.endswith('ccallback'):
            o = opof(a.ent)
            if o == 'inl':
                if flag: raise Fail('flag before inl')
                a = do_inl(a)
            else: raise Fail('embedded callback ' + o)
        elif x in ('code', 'comment'):
            a = a._replace(ls=True, unt=False); flag = True
        elif x == 'enqueue':
            if not a.unt: raise Fail('enqueue after touch')
            a = a._replace(inq=True)
        elif x == 'commit': a = a._replace(inq=False)
        elif re.search('_(inc|dec|res)(_|$)', x): pass
        else: raise Fail('action ' + x)
    return a, flag, fh

def end(a, act, te_is_p):
    """token end with abstract value a"""
    if act is None: 
        if a.inq: raise Fail('end in queue')
        if a.pend: raise Fail('end with pending newline')
        if a.mk == 2: raise Fail('end with owed flag')
        if not a.ls: raise Fail('end with line_start null')
        return
    o = opof(a.ent)
    if o == 'nl':
        if not a.pend: raise Fail('newline token without newline')
        if a.inq: raise Fail('nl in queue')
        if a.mk == 2: raise Fail('newline with owed')
        return
    if a.pend: raise Fail('end with pending newline')
    if o == 'ls':
        if a.mk == 2: raise Fail('ls with owed flag')
        if a.inq: raise Fail('ls in queue')
        return
    if o in ('code', 'comment'):
        return   # sets flag; nonblank because first char is non-blank (checked by lead)
    raise Fail('end op ' + o)

def analyse(nfa, ends, tame=True):
    seen = set(); todo = []
    errs = {}
    def fail(k, w): errs.setdefault(k, w)
    a0 = A(False, 0, '?', False, False, True, False, None, 0)
    crossed_back = False
    todo = [('start', a0)]
    while todo:
        st, a = todo.pop()
        if (st, a) in seen: continue
        seen.add((st, a))
        if len(seen) > 3000: fail('big', None); break
        for c in list(range(256)) + ['eof']:
            if a.cr == 1 and c in (10, 'eof') or a.cr == 2 and c not in (10, 'eof'): continue
            rel = []
            if c != 'eof':
                for p, _ in nfa.edges(st):
                    if c in nfa.pos[p].mask:
                        for x in nfa.pos[p].conds:
                            if x.lstrip('!') not in rel: rel.append(x.lstrip('!'))
                if c == CR and NLC not in rel: rel.append(NLC)
            for v in range(2 ** len(rel)):
                val = {x: bool(v >> i & 1) for i, x in enumerate(rel)}
                cond = lambda x: (not val[x[1:]]) if x[0] == '!' else val[x]
                try:
                    if c == 'eof': nst, acts = None, nfa.leave_acts(st)
                    else: nst, acts = nfa.step(st, c, cond)
                    if nst is None:
                        if st == 'start': continue
                        if nfa.accepts(st) is not None:
                            b, flag, fh = run_acts(a, acts)
                            end(b, ends[nfa.accepts(st)], True)
                        elif a.acc is not None:
                            k, lead = a.acc
                            if a.cross: crossed_back = True; continue
                            # backtrack; flags may have been set by later characters
                            b = a._replace(pend=False)
                            if b.mk and not lead: raise Fail('backtrack without lead')
                            op = ends[k] and opof(a.ent)
                            if b.inq:
                                if op not in ('code', 'comment'): raise Fail('backtrack in queue')
                            if op in ('code', 'comment'):
                                if not lead: raise Fail('code on blank')
                                continue
                            end(b, ends[k], False)
                        continue
                    b = a
                    lead = (c not in WS and c != CR and c not in NL) if st == 'start' else (a.acc[1] if a.acc else None)
                    b, flag, fh = run_acts(b, acts)
                    if fh > 1: raise Fail('double fhold')
                    isnl = c in NL or (c == CR and cond(NLC))
                    if fh == 0:
                        if b.pend and st != 'start': raise Fail('newline swallowed')
                        if b.pend: raise Fail('x')
                        nonws = c not in WS and c not in NL and c != CR
                        nlch = c in NL or c == CR
                        if flag:
                            if nonws or b.mk: b = b._replace(mk=1)
                            else: raise Fail('flag on blank character')
                        elif nonws and b.mk != 1: b = b._replace(mk=2)
                        b = b._replace(pend=isnl, cr=0 if c != CR else 1 if isnl else 2)
                    else:
                        if flag:
                            if b.mk: b = b._replace(mk=1)
                            else: raise Fail('flag on blank character, fhold')
                    k = nfa.accepts(nst)
                    if k is not None:
                        b = b._replace(acc=(k, lead), cross=False)
                    elif st == 'start': b = b._replace(acc=None)
                    if k is not None and not nfa.has_next(nst) and not nfa.leave_acts(nst):
                        if b.mk == 2 and ends[k] is not None and opof(b.ent) in ('code','comment'): pass
                        end(b, ends[k], True)
                    else: todo.append((nst, b))
                except Fail as e:
                    fail(str(e), (sorted(st) if st != 'start' else st, chr(c) if c != 'eof' else c, a, acts))
    return seen, errs, crossed_back

if __name__ == '__main__':
    import os, sys
    from check_tables import scanners
    cls = {}
    for f in sorted(os.listdir(PDIR)):
        if not f.endswith('.rl') or f == 'common.rl': continue
        try: scs = list(scanners(f))
        except Exception: continue
        for mname, n, g, nfa in scs:
            if isinstance(nfa, Exception) or not n.endswith('_line'): continue
            if 'cs_' in n and 'aspx' in n or any(a and ('fcall' in a or 'fgoto' in a) for e, a in g.inst[n][1]): continue
            ends = [a for e, a in g.inst[n][1]]
            seen, errs, cb = analyse(nfa, ends)
            print(n, len(seen), 'crossing' if cb else 'local', 'EXACT' if not errs else sorted(errs.items(), key=lambda x: x[0]) if '-v' in sys.argv else sorted(errs))
