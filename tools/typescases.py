"""Writes /verif/lean/Verif/Conform/TypesCases.lean: the cases of /repo/internal/typesutil/predicates_test.go
and utils_test.go, with the types of /repo/internal/typesutil/testdata.

  python3 typescases.py <repo> <out.lean>
"""
import os, re, sys
import gosrc

REPO, OUT = sys.argv[1], sys.argv[2]
DIR = os.path.join(REPO, 'internal/typesutil')

class Parser(gosrc.Parser):
    """Signatures keep whether the last parameter is variadic."""
    def params(self):
        i = self.i
        ps = gosrc.Parser.params(self)
        self.dots = any(t.val == '...' for t in self.t[i:self.i])
        return ps
    def sig(self):
        ps = self.params()
        dots = self.dots
        rs = []
        p = self.peek()
        if p == '(':
            rs = self.params()
        elif p in ('*', '[', 'map', 'chan', 'struct', 'func', 'interface') or self.kind() == 'id':
            rs = [self.type()]
        return ('func', ps, rs, dots)

def b(s):
    return 'b!"' + s.replace('\\', '\\\\').replace('"', '\\"') + '"'

types, methods, imports = {}, {}, {}
for f in ('predicates.go', 'utils.go'):
    _, imp, ts, ms = Parser(open(os.path.join(DIR, 'testdata', f)).read()).file()
    for n, (t, line) in ts.items():
        types[n] = (t, imp)
    for recv, ptr, m, s in ms:
        methods.setdefault(recv, []).append((m, s, ptr, imp))
gosql = Parser(open(os.path.join(REPO, 'gosql.go')).read()).file()[2]

BASIC = {'bool', 'int', 'string', 'byte', 'uint8', 'float64'}

def tref(t, imp):
    k = t[0]
    if k == 'name':
        if t[1] is None:
            if t[2] in BASIC:
                return f'.basic {b(t[2])}'
            if t[2] == 'error':
                return '.named none b!"error"'
            return f'.named (some {b("path/to/test")}) {b(t[2])}'
        return f'.named (some {b(imp[t[1]])}) {b(t[2])}'
    if k in ('ptr', 'slice'):
        return f'.{k} ({tref(t[1], imp)})'
    if k == 'map':
        return f'.map ({tref(t[1], imp)}) ({tref(t[2], imp)})'
    if k == 'func':
        return f'.func {len(t[1])} {len(t[2])}'
    if k == 'iface':
        assert not t[2]
        return f'.iface {len(t[1])}'
    if k == 'struct':
        return '.other b!"struct"'
    raise ValueError(t)

def trefs(ts, imp):
    return '[' + ', '.join(tref(t, imp) for t in ts) + ']'

def named(n):
    t, imp = types[n]
    assert t[0] == 'struct'
    return '{ declared := [' + ', '.join(
        f'⟨{b(m)}, ⟨{trefs(s[1], i)}, {trefs(s[2], i)}, {"true" if s[3] else "false"}⟩, {"true" if p else "false"}⟩'
        for m, s, p, i in methods.get(n, [])) + '] }'

def ty(t, imp):
    k = t[0]
    if k == 'name':
        if t[1] is None:
            if t[2] in BASIC:
                return f'.basic .{t[2]} {b(t[2])}'
            u, i = types[t[2]]
            return f'.named (obj {b(t[2])} {b("path/to/test")} {b("testdata")}) ({ty(u, i)})'
        path = imp[t[1]]
        under = '.struct .nil'     # the standard library: fields that no predicate asks for
        if path == 'github.com/frk/gosql':
            u = gosql[t[2]][0]
            while u[0] == 'name':
                u = gosql[u[2]][0]
            under = ty(u, {})
        return f'.named (obj {b(t[2])} {b(path)} {b(path.rsplit("/", 1)[-1])}) ({under})'
    if k == 'slice':
        return f'.slice ({ty(t[1], imp)})'
    if k == 'struct':
        if not t[1]:
            return '.struct .nil'
        return '.struct (.ofList [' + ', '.join(
            f'({"emb" if e else "fld" if n[0].isupper() else "low"} {b(n)} ({ty(u, imp)}))'
            for n, u, e, _, _ in t[1]) + '])'
    raise ValueError(t)

src = open(os.path.join(DIR, 'predicates_test.go')).read()
out = ['''import Verif.Typesutil.Time
import Verif.Conform.Base

/-
The cases of the tests of package typesutil: /repo/internal/typesutil/predicates_test.go and utils_test.go, with
the types of /repo/internal/typesutil/testdata.

This file is written by /verif/tools/typescases.py; do not edit it by hand.
-/
namespace Verif.Conform.TypesTest
open Verif.Typesutil

/-- A case: the name of the type, what is given to the predicate, and the expected answer. -/
structure Case (α : Type) where
  name : Bytes
  arg : α
  want : Bool

/-- A named type's object; no predicate asked about here looks at methods. -/
def obj (name path pkg : Bytes) : Analysis.NamedInfo := { name := name, pkg := some ⟨path, pkg⟩ }
''']
total = 0
for m in re.finditer(r'^func Test(\w+)\(.*?^}', src, re.S | re.M):
    fn, body = m.group(1), m.group(0)
    line = src[:m.start()].count('\n') + 1
    end = line + body.count('\n')
    call = re.search(r'got := (\w+)\((.*)\)', body)
    cs = re.findall(r'\{name: "(\w+)",(?: ident: "(\w+)",)? want: (true|false)\}', body)
    assert len(cs) == body.count('{name: "'), fn
    total += len(cs)
    field = 'Field(0).Type()' in body
    rows = []
    if not field:
        kind = 'Named'
        for n, _, w in cs:
            rows.append(f'  ⟨{b(n)}, {named(n)}, {w}⟩')
    else:
        kind = {'IsTime': 'Analysis.Ty', 'IsDirective': '(Bytes × Analysis.Ty)'}.get(call.group(1), 'TRef')
        for n, i, w in cs:
            t, imp = types[n]
            f0 = t[1][0][1]
            if kind == 'TRef':
                a = tref(f0, imp)
            elif kind == 'Analysis.Ty':
                a = ty(f0, imp)
            else:
                a = f'({b(i)}, {ty(f0, imp)})'
            rows.append(f'  ⟨{b(n)}, {a}, {w}⟩')
    g = call.group(1)
    out.append(f'/-- predicates_test.go:{line}-{end}: {g} -/\ndef case{g} : List (Case {kind}) := [\n' + ',\n'.join(rows) + ']\n')

us = open(os.path.join(DIR, 'utils_test.go')).read()
t, imp = types['GetDirectiveNameTest']
rows = []
for i, w in re.findall(r'\{index: (\d+), want: "(\w*)"\}', us):
    total += 1
    rows.append(f'  ({ty(t[1][int(i)][1], imp)}, {b(w)})')
l0 = us[:us.index('func TestGetDirectiveName')].count('\n') + 1
out.append(f'/-- utils_test.go:{l0}-{us.rstrip().count(chr(10)) + 1}: GetDirectiveName -/\ndef caseGetDirectiveName : List (Analysis.Ty × Bytes) := [\n' + ',\n'.join(rows) + ']\n')
out.append(f'/-- The number of cases. -/\ndef total : Nat := {total}\n\nend Verif.Conform.TypesTest\n')
text = '\n'.join(out)

def wrap(l):
    """Breaks a long line at the last separator before the limit."""
    res = []
    while len(l) > 118:
        i = max(l.rfind(', ', 0, 117), l.rfind(' (', 0, 117))
        if i <= 8:
            break
        cut = i + 1
        res.append(l[:cut].rstrip())
        l = '      ' + l[cut:].lstrip()
    return res + [l]
open(OUT, 'w').write('\n'.join(x for l in text.split('\n') for x in wrap(l)))
