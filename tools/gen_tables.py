#!/usr/bin/env python3
"""Generates lean/Verif/Tables.lean from /repo/src/hash/*.gperf and src/languages.h."""
import re
R='/repo/src/'
langs=dict(re.findall(r'#define (LANG_\w+)\s+"([^"]*)"',open(R+'languages.h').read()))
def body(f):
    t=open(R+'hash/'+f).read().split('%%\n',1)
    head=t[0].count('\n')+1
    out=[]
    for i,l in enumerate(t[1].split('\n')):
        l=l.strip()
        if l: out.append((head+1+i,[x.strip() for x in re.split(r',\s*(?=(?:[^"]*"[^"]*")*[^"]*$)',l)]))
    return out
def key(k): return '['+', '.join(str(b) for b in k.encode())+']'
def q(s): return '"'+s+'"'
o=[]
w=o.append
w('''/-
The tables of `src/hash/*.gperf`, generated by `tools/gen_tables.py`.  The C code
looks them up with functions generated by gperf, which are exact lookups.  Keys are
bytes, values are the identifiers of `src/languages.h`.
-/
namespace Ohcount.Tables

/-- A value of the extension table: an identifier, `BINARY` ("\\\\1") or
`DISAMBIGUATE(id)` ("\\\\2" id), src/hash/extensions.gperf:4-5. -/
inductive ExtVal where
  | lang (name : String)
  | binary
  | ambiguous (id : String)
  deriving DecidableEq, Repr
''')
def table(name,typ,doc,f,fmt):
    b=body(f)
    w(f'/-- src/hash/{f}:{b[0][0]}-{b[-1][0]}. {doc} -/')
    w(f'def {name} : List ({typ}) := [')
    n=len(b)
    for i,(ln,e) in enumerate(b):
        w('  '+fmt(e)+(',' if i<n-1 else '')+f'  -- {e[0]}')
    w(']\n')
def ext(e):
    v=e[1]
    if v=='BINARY': r='.binary'
    elif v.startswith('DISAMBIGUATE'): r='.ambiguous '+re.search(r'"[^"]*"',v).group()
    else: r='.lang '+q(langs[v])
    return f'({key(e[0])}, {r})'
table('extensions','List UInt8 × ExtVal','Extension to language.','extensions.gperf',ext)
table('filenames','List UInt8 × String','File name to language.','filenames.gperf',lambda e:f'({key(e[0])}, {q(langs[e[1]])})')
table('languages','List UInt8 × String','Language name to identifier (nice name and category are left out).','languages.gperf',lambda e:f'({key(e[0])}, {q(langs[e[1]])})')
table('parsers','List UInt8 × String','Identifier to parser (named by its function).','parsers.gperf',lambda e:f'({key(e[0])}, {q(e[1])})')
table('cppHeaders','List UInt8','The C++ standard headers.','cppheaders.gperf',lambda e:key(e[0]))
table('disambiguators','String','The ids that have a disambiguation function.','disambiguatefuncs.gperf',lambda e:q(e[0]))
w('/-- The identifiers of src/languages.h:9-%d. -/'%(8+len(langs)))
w('def identifiers : List String := [')
ls=list(langs.values())
for i in range(0,len(ls),6):
    w('  '+', '.join(q(x) for x in ls[i:i+6])+(',' if i+6<len(ls) else ''))
w(']\n')
w('end Ohcount.Tables')
open('/verif/lean/Verif/Tables.lean','w').write('\n'.join(o)+'\n')
# report
E={tuple(e[1]) for e in body('extensions.gperf')}
vals={langs[e[1][1]] for e in body('extensions.gperf') if e[1][1].startswith('LANG')}|{langs[e[1][1]] for e in body('filenames.gperf')}|{langs[e[1][1]] for e in body('languages.gperf')}
keys={e[1][0] for e in body('languages.gperf')}
pars={e[1][0] for e in body('parsers.gperf')}
print('values not accepted by name',vals-keys)
print('values without parser',vals-pars)
print('identifiers not accepted',set(ls)-keys,'without parser',set(ls)-pars,'parser keys not ids',pars-set(ls))
for f in ('extensions','filenames','languages','parsers','cppheaders'):
    k=[e[1][0] for e in body(f+'.gperf')]
    print(f,len(k),[x for x in set(k) if k.count(x)>1])
