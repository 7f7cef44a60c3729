#!/usr/bin/env python3
"""Generates lean/Verif/GestaltTable.lean and GestaltLangs.lean from the definitions in /repo/ruby/gestalt."""
import os, re
root = os.path.dirname(os.path.dirname(os.path.abspath(__file__)))
FILES = ['definitions.rb', 'dot_net_definitions.rb', 'java_definitions.rb', 'jasper_definitions.rb']  # ruby/gestalt.rb:12-15

def unescape_dq(s):
    # in a double-quoted Ruby string a backslash before a character without special meaning is dropped
    out, i = '', 0
    while i < len(s):
        if s[i] == '\\':
            i += 1
            assert s[i] in '."', s
        out += s[i]; i += 1
    return out

def unescape_sq(s):
    # in a single-quoted Ruby string only \\ and \' are escapes
    return s.replace("\\\\", "\\").replace("\\'", "'")

def args(s):
    s = s.strip()
    if s.startswith('('):
        assert s.endswith(')'); s = s[1:-1]
    out, i = [], 0
    while i < len(s):
        c = s[i]
        if c in ' ,': i += 1
        elif c == "'":
            j = i + 1
            while s[j] != "'": j += 2 if s[j] == '\\' else 1
            out.append(('str', unescape_sq(s[i+1:j]))); i = j + 1
        elif c == '"':
            j = i + 1
            while s[j] != '"': j += 2 if s[j] == '\\' else 1
            out.append(('str', unescape_dq(s[i+1:j]))); i = j + 1
        elif c == '/':
            j = i + 1
            while s[j] != '/': j += 2 if s[j] == '\\' else 1
            k = j + 1
            while k < len(s) and s[k].isalpha(): k += 1
            assert s[j+1:k] in ('', 'i')
            out.append(('re', s[i+1:j].replace('\\/', '/'), s[j+1:k] == 'i')); i = k
        elif c == ':':
            m = re.match(r':(\w+)\s*=>\s*(\d+)', s[i:])
            if m: out.append(('opt', m[1], int(m[2])))
            else:
                m = re.match(r':(\w+)', s[i:]); out.append(('sym', m[1]))
            i += m.end()
        else: raise Exception(s[i:])
    return out

def lit(s): return '"' + s.replace('\\', '\\\\').replace('"', '\\"') + '"'
def src(a):
    # the text of an argument inside Array#join: Regexp#to_s for a regular expression
    return lit(a[1]) if a[0] == 'str' else lit('(?%s:%s)' % ('i-mx' if a[2] else '-mix', a[1]))
def lst(l): return '[' + ', '.join(l) + ']'
def rx(a):
    assert a[0] == 're'
    return '⟨%s, %s⟩' % (lit(a[1]), 'true' if a[2] else 'false')
def exact(a):
    # maven_rule.rb:13, /^#{Regexp.escape(...)}$/
    if a[0] == 're': return rx(a)
    return '⟨%s, false⟩' % lit('^' + re.sub(r'([.\-*?+^$|(){}\[\]\\ ])', r'\\\1', a[1]) + '$')

def call(name, a):
    mn = 1
    o = [x for x in a if x[0] == 'opt']; a = [x for x in a if x[0] != 'opt']
    if name == 'language':
        m = 0
        for x in o: assert x[1] == 'min_percent'; m = x[2]
        return '.language %s %d' % (lit(a[0][1]), m)
    if name == 'gestalt':
        assert not o; return '.gestalt %s %s' % (lit(a[0][1]), lit(a[1][1]))
    for x in o: assert x[1] == 'min'; mn = x[2]
    if name == 'filenames': t = '.filename ' + lst(map(src, a))
    elif name == 'find_filenames': t = '.findFilenames %s 0' % rx(a[0])
    elif name == 'c_headers': t = '.cHeader ' + lst(map(src, a))
    elif name == 'c_keywords': t = '.cKeyword ' + lst(map(src, a))
    elif name == 'keywords': t = '.keyword none ' + lst(map(src, a))
    elif name == 'java_import': t = '.javaImport ' + rx(a[0])
    elif name == 'csharp_using': t = '.csharpUsing ' + rx(a[0])
    elif name == 'csproj_import': t = '.csproj ' + exact(a[0])
    elif name in ('maven_dependency', 'maven_plugin'):
        art = exact(a[1]) if len(a) > 1 else '⟨".*", false⟩'
        t = '.maven "%s" %s %s' % (name[6:], exact(a[0]), art)
    elif name.endswith('_keywords'): t = '.keyword (some %s) %s' % (lit(name[:-9]), lst(map(src, a)))
    else: raise Exception(name)
    return '.file { test := %s%s }' % (t, '' if mn == 1 else ', min := %d' % mn)

defs = []
for f in FILES:
    stack = []
    for n, line in enumerate(open('/repo/ruby/gestalt/' + f), 1):
        s = line.strip()
        if not s or s.startswith('#') or s.startswith('module'): continue
        m = re.match(r"define_(\w+) '([^']*)' do$", s)
        if m: stack.append(['def', m[1], m[2], n, []]); continue
        m = re.match(r'_(and|or) do$', s)
        if m: stack.append([m[1], None, None, n, []]); continue
        if s == 'end':
            if not stack: continue
            k = stack.pop()
            if k[0] == 'def': defs.append((f, k[3], n, k[1], k[2], k[4]))
            else: stack[-1][4].append('.%s %s' % (k[0], lst(k[4])))
            continue
        m = re.match(r'_not \{ (\w+)(.*) \}$', s)
        if m: stack[-1][4].append('.not %s' % lst([call(m[1], args(m[2]))])); continue
        m = re.match(r'(\w+)(.*)$', s)
        stack[-1][4].append(call(m[1], args(m[2])))
    assert not stack
out = ['import Verif.Gestalt', '/-', 'Generated by tools/gen_gestalt.py from ruby/gestalt/*definitions.rb.  Do not edit.', '-/', '',
       'namespace Ohcount.Gestalt', '']
names = []
for i, (f, a, b, ty, nm, rules) in enumerate(defs):
    d = 'def d%02d' % i
    names.append('d%02d' % i)
    out.append('/-- ruby/gestalt/%s:%d-%d. -/' % (f, a, b))
    out.append('%s : Definition := ⟨%s, %s, [\n    %s]⟩' % (d, lit(ty), lit(nm), ',\n    '.join(rules)))
    out.append('')
out.append('/-- `Definition.all_definitions`, in the order in which ruby/gestalt.rb:11-14 loads them. -/')
out.append('def shipped : List Definition := [' + ', '.join(names) + ']')
out.append('')
out.append('end Ohcount.Gestalt')
open(os.path.join(root, 'lean/Verif/GestaltTable.lean'), 'w').write('\n'.join(out) + '\n')
mk = []
for line in open('/repo/src/hash/languages.gperf'):
    p = [x.strip() for x in line.split(',')]
    if len(p) == 4: mk.append((p[0], int(p[3])))
ln = []
for line in open('/repo/src/languages.h'):
    m = re.match(r'#define LANG_\w+ "(.*)"', line)
    if m: ln.append(m.group(1))
open(os.path.join(root, 'lean/Verif/GestaltLangs.lean'), 'w').write('''/-
Generated by tools/gen_gestalt.py from src/hash/languages.gperf and src/languages.h.  Do not edit.
-/

namespace Ohcount.Gestalt

/-- The keys and categories of src/hash/languages.gperf. -/
def categories : List (String × Nat) := [%s]

/-- The names of languages, src/languages.h:9-131. -/
def langNames : List String := [%s]

end Ohcount.Gestalt
''' % (', '.join('("%s", %d)' % x for x in mk), ', '.join('"%s"' % x for x in ln)))
print(len(defs), 'definitions')
