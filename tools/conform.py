"""Writes the modules of /verif/lean/Verif/Conform: the types of the project's test data as types of the
model, and the expectations of the project's tests as Lean terms.

  python3 conform.py <repo> <verif/lean/Verif/Conform>
"""
import os, re, sys
from gosrc import Parser

REPO, OUT = sys.argv[1], sys.argv[2]
TD = os.path.join(REPO, 'internal/testdata')

def lstr(s):
    out = []
    for c in s:
        if c in '"\\':
            out.append('\\' + c)
        elif c == '\n':
            out.append('\\n')
        elif c == '\t':
            out.append('\\t')
        else:
            out.append(c)
    return 'b!"' + ''.join(out) + '"'

def lbool(b):
    return 'true' if b else 'false'

def rec(items):
    return '{ ' + ', '.join(f'{k} := {v}' for k, v in items) + ' }'

def llist(xs):
    return '[' + ', '.join(xs) + ']'

def par(s):
    return s if re.fullmatch(r'[\w.]+|\{.*\}|\[.*\]|\(.*\)|b!"[^"]*"', s) and balanced(s) else f'({s})'

def balanced(s):
    if s[0] not in '([{':
        return True
    d = 0
    for i, c in enumerate(s):
        if c in '([{':
            d += 1
        elif c in ')]}':
            d -= 1
            if d == 0 and i < len(s) - 1:
                return False
    return True

# ---------------------------------------------------------------- packages

class Pkg:
    def __init__(self, path, files):
        self.path, self.name = path, None
        self.types, self.methods = {}, {}
        for f in files:
            name, imports, types, methods = Parser(open(f).read()).file()
            self.name = name
            for n, (t, line) in types.items():
                self.types[n] = (t, line, imports, os.path.relpath(f, REPO))
            for recv, ptr, m, sig in methods:
                self.methods.setdefault(recv, {})[m] = (sig, imports)

def gofiles(d, pred=lambda f: True):
    return sorted(os.path.join(d, f) for f in os.listdir(d) if f.endswith('.go') and pred(f))

PKGS = {
    'path/to/test': Pkg('path/to/test', gofiles(TD)),
    'github.com/frk/gosql': Pkg('github.com/frk/gosql',
        gofiles(REPO, lambda f: not f.endswith('_test.go'))),
    'github.com/frk/gosql/internal/testdata': Pkg('github.com/frk/gosql/internal/testdata', gofiles(TD)),
    'github.com/frk/gosql/internal/testdata/common':
        Pkg('github.com/frk/gosql/internal/testdata/common', gofiles(os.path.join(TD, 'common'))),
}
GEN = 'github.com/frk/gosql/internal/testdata/generator/'
GENDIRS = ['delete', 'select', 'insert', 'update', 'filter', 'pgsql']
for _d in GENDIRS:
    PKGS[GEN + _d] = Pkg(GEN + _d, gofiles(os.path.join(TD, 'generator', _d), lambda f: not f.endswith('_out.go')))

BASIC = {k: k for k in '''bool int int8 int16 int32 int64 uint uint8 uint16 uint32 uint64 uintptr
 float32 float64 complex64 complex128 string'''.split()}
BASIC.update({'byte': 'uint8', 'rune': 'int32'})

# The types of the standard library: what is under the name, and the flags of NamedInfo.
JSON = ['isJSONMarshaler', 'isJSONUnmarshaler']
BYTES = ".slice (.basic .uint8 b!\"byte\")"
STRUCT = '.struct .nil'
STD = {
    ('time', 'Time'): ('time', STRUCT, JSON),
    ('context', 'Context'): ('context', '.iface { methods := 4, name0 := b!"Deadline" } (.func { params := 0, results := 2, errResult := false } .chan)', []),
    ('math/big', 'Int'): ('big', STRUCT, JSON),
    ('math/big', 'Float'): ('big', STRUCT, []),
    ('encoding/json', 'RawMessage'): ('json', BYTES, JSON),
    ('encoding/json', 'Marshaler'): ('json', '.iface { methods := 1, name0 := b!"MarshalJSON" } (.func { params := 0, results := 2, errResult := false } .chan)', ['isJSONMarshaler']),
    ('encoding/json', 'Unmarshaler'): ('json', '.iface { methods := 1, name0 := b!"UnmarshalJSON" } (.func { params := 1, results := 1, errResult := true } (.slice (.basic .uint8 b!"byte")))', ['isJSONUnmarshaler']),
    ('net', 'HardwareAddr'): ('net', BYTES, []),
    ('net', 'IP'): ('net', BYTES, []),
    ('net', 'IPNet'): ('net', STRUCT, []),
    ('database/sql', 'NullString'): ('sql', STRUCT, ['isScanner', 'isValuer']),
    ('database/sql/driver', 'Value'): ('driver', '.iface { methods := 0, isEmpty := true } .chan', []),
}

def is_name(t, n):
    return t == ('name', None, n)

def qual(t, imports):
    return (imports.get(t[1]), t[2]) if t[0] == 'name' else None

def empty_iface(t):
    return t == ('iface', [], []) or is_name(t, 'any')

def sig_ok(name, sig, imports):
    """The tests of typesutil/predicates.go on the method of the given name."""
    _, ps, rs = sig
    err = [('name', None, 'error')]
    bs = [('slice', ('name', None, 'byte'))]
    if name == 'Scan':
        return len(ps) == 1 and empty_iface(ps[0]) and rs == err
    if name == 'Value':
        return ps == [] and len(rs) == 2 and qual(rs[0], imports) == ('database/sql/driver', 'Value') and rs[1:] == err
    if name == 'MarshalJSON':
        return ps == [] and rs == bs + err
    if name == 'UnmarshalJSON':
        return ps == bs and rs == err
    if name == 'MarshalXML':
        return len(ps) == 2 and rs == err
    if name == 'UnmarshalXML':
        return len(ps) == 2 and rs == err
    if name == 'AfterScan':
        return ps == [] and rs == []
    if name == 'HandleError':
        return ps == err and rs == err
    if name == 'HandleErrorInfo':
        return len(ps) == 1 and ps[0][0] == 'ptr' and \
            qual(ps[0][1], imports) == ('github.com/frk/gosql', 'ErrorInfo') and rs == err
    return True

def flags(pkg, name, t, imports):
    ms = {n: (s, imp) for n, (s, imp) in pkg.methods.get(name, {}).items()}
    own = dict(ms)
    if t[0] == 'iface':
        ms = {n: (s, imports) for n, s in t[1]}
    has = lambda m, src: m in src and sig_ok(m, *src[m])
    out = []
    for m, f in (('Scan', 'isScanner'), ('Value', 'isValuer'), ('MarshalJSON', 'isJSONMarshaler'),
                 ('UnmarshalJSON', 'isJSONUnmarshaler'), ('MarshalXML', 'isXMLMarshaler'),
                 ('UnmarshalXML', 'isXMLUnmarshaler')):
        if has(m, ms):
            out.append(f)
    for m, f in (('AfterScan', 'isAfterScanner'), ('HandleError', 'isErrorHandler'),
                 ('HandleErrorInfo', 'isErrorInfoHandler')):
        if has(m, own):
            out.append(f)
    if all(m in ms for m in ('Init', 'InitV2', 'Col', 'And', 'Or')):
        out.append('isFilterConstructor')
    return out

def parse_tag(raw):
    """reflect.StructTag with the values split at commas, sorted by key."""
    out = {}
    for m in re.finditer(r'(\S+?):"((?:[^"\\]|\\.)*)"', raw):
        v = m.group(2).encode().decode('unicode_escape') if '\\' in m.group(2) else m.group(2)
        out.setdefault(m.group(1), v.split(','))
    return sorted(out.items())

def ltag(items):
    return llist(f'({lstr(k)}, {llist([lstr(v) for v in vs])})' for k, vs in items)

class Emitter:
    """Collects the definitions of the named types, each after those it needs."""
    def __init__(self, known=()):
        self.done, self.busy, self.out = {}, [], []
        self.known = dict(known)

    def ident(self, path, name):
        pre = {'path/to/test': 't', 'github.com/frk/gosql': 'g',
               'github.com/frk/gosql/internal/testdata': 'd',
               'github.com/frk/gosql/internal/testdata/common': 'c'}.get(path)
        if pre is None:
            pre = path.split('/')[-1]
            if '/generator/' in path:
                pre = 'q_' + pre
        return f'{pre}_{name}'

    def named(self, path, name):
        key = (path, name)
        if key in self.known:
            return self.known[key]
        if key in self.done:
            return self.done[key]
        if key in self.busy:
            raise ValueError(f'recursive type {key}')
        self.busy.append(key)
        if key in STD:
            pname, under, fl = STD[key]
            cite = f'the standard library\'s {path}.{name}'
        else:
            pkg = PKGS[path]
            t, line, imports, file = pkg.types[name]
            pname, fl = pkg.name, flags(pkg, name, t, imports)
            under = self.under(path, imports, t)
            cite = f'{file}:{line}'
        ident = self.ident(path, name)
        info = [('name', lstr(name)), ('pkg', f'some ⟨{lstr(path)}, {lstr(pname)}⟩')] + [(f, 'true') for f in fl]
        self.out.append(f'/-- {cite} -/\ndef {ident} : Ty :=\n  .named {rec(info)}\n    {par(under)}\n')
        self.busy.pop()
        self.done[key] = ident
        return ident

    def under(self, path, imports, t):
        """The underlying type: a name refers to another type's underlying one."""
        if t[0] == 'name' and not (t[1] is None and t[2] in BASIC):
            p, n = (path, t[2]) if t[1] is None else (imports[t[1]], t[2])
            if (p, n) in STD:
                return STD[(p, n)][1]
            tt, _, imps, _ = PKGS[p].types[n]
            return self.under(p, imps, tt)
        return self.ty(path, imports, t)

    def ty(self, path, imports, t):
        k = t[0]
        if k == 'name':
            if t[1] is None:
                n = t[2]
                if n in BASIC:
                    return f'.basic .{BASIC[n]} {lstr(n)}'
                if n == 'error':
                    return 'errorTy'
                if n == 'any':
                    return 'anyTy'
                return self.named(path, n)
            return self.named(imports[t[1]], t[2])
        if k in ('ptr', 'slice'):
            return f'.{k} {par(self.ty(path, imports, t[1]))}'
        if k == 'array':
            return f'.array {t[1]} {par(self.ty(path, imports, t[2]))}'
        if k == 'map':
            return f'.map {par(self.ty(path, imports, t[1]))} {par(self.ty(path, imports, t[2]))}'
        if k == 'chan':
            return '.chan'
        if k == 'func':
            _, ps, rs = t
            h = rec([('params', len(ps)), ('results', len(rs)),
                     ('errResult', lbool(len(rs) == 1 and is_name(rs[0], 'error')))])
            p0 = self.ty(path, imports, ps[0]) if ps else '.chan'
            return f'.func {h} {par(p0)}'
        if k == 'iface':
            _, ms, embs = t
            if not ms and not embs:
                return 'anyTy'
            if not ms:
                return '.iface { methods := 0 } .chan'
            n0, s0 = ms[0]
            mset = {n: (s, imports) for n, s in ms}
            h = [('methods', len(ms)), ('name0', lstr(n0))]
            if not n0[0].isupper():
                h.append(('exported0', 'false'))
            for m, f in (('Scan', 'isScanner'), ('Value', 'isValuer')):
                if m in mset and sig_ok(m, *mset[m]):
                    h.append((f, 'true'))
            return f'.iface {rec(h)} {par(self.ty(path, imports, s0))}'
        if k == 'struct':
            if not t[1]:
                return '.struct .nil'
            return f'.struct (.ofList {self.fields(path, imports, t[1])})'
        raise ValueError(t)

    def fields(self, path, imports, fs):
        out = []
        for name, ft, emb, tag, _ in fs:
            fn = 'emb' if emb else 'fld' if name[0].isupper() else 'low'
            if emb and not name[0].isupper():
                fn = 'lowEmb'
            s = f'{fn} {lstr(name)} {par(self.ty(path, imports, ft))}'
            if tag:
                s += ' ' + ltag(parse_tag(tag))
            out.append(s)
        return '[\n    ' + ',\n    '.join(out) + ']'

    def target(self, path, name):
        t, line, imports, file = PKGS[path].types[name]
        assert t[0] == 'struct', name
        return f'{file}:{line}', self.fields(path, imports, t[1]) if t[1] else '[]'

# ---------------------------------------------------------------- expected values of analysis_test.go

def get(lit, key, default=None, pos=None):
    """The field of a composite literal; `pos` for a literal without keys."""
    for i, (k, v) in enumerate(lit[2]):
        if k == ('id', key) or (k is None and pos == i):
            return v
    return default

def strip(e):
    return e[2] if e[0] == 'un' and e[1] == '&' else e

class Expect:
    def __init__(self, env):
        self.env = env
    def val(self, e):
        e = strip(e)
        if e[0] == 'id' and e[1] in self.env:
            return self.env[e[1]]
        if e[0] == 'call':
            return self.env[e[1][1] + '()']
        if e[0] == 'sel' and e[1][0] == 'id' and e[1][1] in self.env:
            return self.f(self.env[e[1][1]], e[2])
        return e
    def f(self, lit, key, pos=None):
        v = get(lit, key, None, pos)
        return None if v is None else self.val(v)
    def string(self, e):
        return lstr(e[1]) if e is not None else '[]'
    def boolean(self, e):
        return lbool(e == ('id', 'true'))
    def kind(self, e):
        if e is None:
            return '.invalid'
        n = e[1][len('TypeKind'):]
        n = {'Byte': 'uint8', 'Rune': 'int32', 'UnsafePointer': 'unsafePointer'}.get(n, n.lower())
        return '.' + n
    def thdr(self, e):
        items = []
        for k in ('Name', 'PkgPath', 'PkgName'):
            if self.f(e, k):
                items.append((k[0].lower() + k[1:], self.string(self.f(e, k))))
        items.insert(1 if self.f(e, 'Name') else 0, ('kind', self.kind(self.f(e, 'Kind'))))
        for k in ('IsImported', 'IsScanner', 'IsValuer', 'IsJSONMarshaler', 'IsJSONUnmarshaler',
                  'IsXMLMarshaler', 'IsXMLUnmarshaler', 'IsEmptyInterface', 'IsByte', 'IsRune'):
            if self.f(e, k) == ('id', 'true'):
                items.append((k[0].lower() + k[1:], 'true'))
        if self.f(e, 'ArrayLen'):
            items.append(('arrayLen', self.f(e, 'ArrayLen')[1]))
        known = {'Name', 'PkgPath', 'PkgName', 'PkgLocal', 'Kind', 'Key', 'Elem', 'ArrayLen', 'IsImported',
                 'IsScanner', 'IsValuer', 'IsJSONMarshaler', 'IsJSONUnmarshaler', 'IsXMLMarshaler',
                 'IsXMLUnmarshaler', 'IsEmptyInterface', 'IsByte', 'IsRune'}
        assert all(k[1] in known for k, _ in e[2]), e
        return rec(items)
    def tinfo(self, e):
        k, el = self.f(e, 'Key'), self.f(e, 'Elem')
        if k is not None:
            return f'.keyed {self.thdr(e)} {par(self.tinfo(k))} {par(self.tinfo(el))}'
        if el is not None:
            return f'.elem {self.thdr(e)} {par(self.tinfo(el))}'
        return f'.leaf {self.thdr(e)}'
    def colident(self, e):
        items = []
        if self.f(e, 'Qualifier'):
            items.append(('qualifier', self.string(self.f(e, 'Qualifier'))))
        items.append(('name', self.string(self.f(e, 'Name'))))
        return rec(items)
    def relident(self, e):
        items = [('name', self.string(self.f(e, 'Name')))]
        for k in ('Alias', 'Qualifier'):
            if self.f(e, k):
                items.append((k.lower(), self.string(self.f(e, k))))
        return rec(items)
    def mode(self, e):
        if e is None:
            return '0#64'
        if e[0] == 'id':
            return 'mode' + e[1][len('mode_'):].capitalize()
        a, b = self.mode(e[2]), self.mode(e[3])
        return {'|': f'({a} ||| {b})', '&^': f'(FieldMode.clear {a} {b})'}[e[1]]
    def tag(self, e):
        if e is None:
            return '[]'
        return ltag(sorted((k[1], [x[1] for _, x in v[2]]) for k, v in e[2]))
    def selnode(self, e):
        items = [('name', self.string(self.f(e, 'Name'))), ('tag', self.tag(self.f(e, 'Tag')))]
        for k in ('TypeName', 'TypePkgPath', 'TypePkgName'):
            if self.f(e, k):
                items.append((k[0].lower() + k[1:], self.string(self.f(e, k))))
        for k in ('IsImported', 'IsEmbedded', 'IsExported', 'IsPointer'):
            items.append((k[0].lower() + k[1:], self.boolean(self.f(e, k))))
        items.append(('mode', self.mode(self.f(e, 'Mode'))))
        known = {'Name', 'Tag', 'TypeName', 'TypePkgPath', 'TypePkgName', 'TypePkgLocal', 'IsImported',
                 'IsEmbedded', 'IsExported', 'IsPointer', 'Mode'}
        assert all(k[1] in known for k, _ in e[2]), e
        return rec(items)
    def field(self, e):
        items = [('name', self.string(self.f(e, 'Name'))), ('type', self.tinfo(self.f(e, 'Type')))]
        if self.f(e, 'Selector'):
            items.append(('selector', llist(self.selnode(self.val(v)) for _, v in self.f(e, 'Selector')[2])))
        for k in ('IsEmbedded', 'IsExported'):
            items.append((k[0].lower() + k[1:], self.boolean(self.f(e, k))))
        items.append(('tag', self.tag(self.f(e, 'Tag'))))
        items.append(('colIdent', self.colident(self.f(e, 'ColIdent'))))
        if self.f(e, 'FilterColumnKey'):
            items.append(('filterColumnKey', self.string(self.f(e, 'FilterColumnKey'))))
        items.append(('mode', self.mode(self.f(e, 'Mode'))))
        for k in ('NullEmpty', 'UseDefault', 'UseAdd', 'UseCoalesce'):
            if self.f(e, k):
                items.append((k[0].lower() + k[1:], self.boolean(self.f(e, k))))
        if self.f(e, 'CoalesceValue'):
            items.append(('coalesceValue', self.string(self.f(e, 'CoalesceValue'))))
        known = {'Name', 'Type', 'Selector', 'IsEmbedded', 'IsExported', 'Tag', 'ColIdent', 'FilterColumnKey',
                 'Mode', 'NullEmpty', 'UseDefault', 'UseAdd', 'UseCoalesce', 'CoalesceValue'}
        assert all(k[1] in known for k, _ in e[2]), e
        return rec(items)
    def reltype(self, e):
        if e is None:
            return '{}'
        items = []
        if self.f(e, 'Base'):
            items.append(('base', self.thdr(self.f(e, 'Base'))))
        for k in ('IsPointer', 'IsSlice', 'IsArray', 'IsIter', 'IsAfterScanner'):
            if self.f(e, k):
                items.append((k[0].lower() + k[1:], self.boolean(self.f(e, k))))
        if self.f(e, 'ArrayLen'):
            items.append(('arrayLen', self.f(e, 'ArrayLen')[1]))
        if self.f(e, 'IterMethod'):
            items.append(('iterMethod', self.string(self.f(e, 'IterMethod'))))
        if self.f(e, 'Fields'):
            items.append(('fields', llist(self.field(self.val(v)) for _, v in self.f(e, 'Fields')[2])))
        known = {'Base', 'IsPointer', 'IsSlice', 'IsArray', 'IsIter', 'IsAfterScanner', 'ArrayLen',
                 'IterMethod', 'Fields'}
        assert all(k[1] in known for k, _ in e[2]), e
        return rec(items) if items else '{}'
    def relfield(self, e):
        items = [('fieldName', self.string(self.f(e, 'FieldName'))), ('id', self.relident(self.f(e, 'Id')))]
        if self.f(e, 'Type'):
            items.append(('type', self.reltype(self.f(e, 'Type'))))
        if self.f(e, 'IsDirective'):
            items.append(('isDirective', self.boolean(self.f(e, 'IsDirective'))))
        return rec(items)
    def pred(self, e):
        return '.none' if e is None or e == ('num', '0') else f'(.some .{e[1][0].lower() + e[1][1:]})'
    def quant(self, e):
        return '.none' if e is None or e == ('num', '0') else f'(.some .{e[1][len("Quant"):].lower()})'
    def colcond(self, e):
        items = [('lhs', self.colident(self.f(e, 'LHSColIdent')))]
        if self.f(e, 'RHSColIdent'):
            items.append(('rhs', f'.column {self.colident(self.f(e, "RHSColIdent"))}'))
        if self.f(e, 'RHSLiteral'):
            items.append(('rhs', f'.literal {self.string(self.f(e, "RHSLiteral"))}'))
        items.append(('pred', self.pred(self.f(e, 'Predicate'))))
        items.append(('quant', self.quant(self.f(e, 'Quantifier'))))
        return rec(items)
    def is_or(self, e):
        v = self.f(e, 'Value', 0)
        return {'BoolAnd': 'false', 'BoolOr': 'true'}[v[1]]
    def bound(self, e):
        n = e[1][1]
        if n == 'BetweenColumnDirective':
            return f'.column {self.colident(self.f(e, "ColIdent", 0))}'
        assert n == 'BetweenStructField', n
        return f'.field {self.string(self.f(e, "Name"))} {par(self.tinfo(self.f(e, "Type")))}'
    def witem(self, e):
        e = self.val(e)
        n = e[1][1]
        if n == 'WhereBoolTag':
            return f'.bool {self.is_or(e)}'
        if n == 'WhereStruct':
            return f'.nested {self.string(self.f(e, "FieldName"))} {self.witems(e)}'
        if n == 'WhereColumnDirective':
            return f'.column {self.colcond(e)}'
        if n == 'WhereStructField':
            items = [('name', self.string(self.f(e, 'Name'))), ('type', self.tinfo(self.f(e, 'Type'))),
                     ('colIdent', self.colident(self.f(e, 'ColIdent'))),
                     ('pred', self.pred(self.f(e, 'Predicate'))), ('quant', self.quant(self.f(e, 'Quantifier')))]
            if self.f(e, 'FuncName'):
                items.append(('func', self.string(self.f(e, 'FuncName'))))
            return f'.field {rec(items)}'
        assert n == 'WhereBetweenStruct', n
        items = [('name', self.string(self.f(e, 'FieldName'))), ('colIdent', self.colident(self.f(e, 'ColIdent'))),
                 ('pred', self.pred(self.f(e, 'Predicate'))), ('lower', self.bound(self.f(e, 'LowerBound'))),
                 ('upper', self.bound(self.f(e, 'UpperBound')))]
        return f'.between {rec(items)}'
    def witems(self, e):
        return llist(self.witem(v) for _, v in self.f(e, 'Items')[2]) if self.f(e, 'Items') else '[]'
    def jitem(self, e):
        e = self.val(e)
        if e[1][1] == 'JoinBoolTagItem':
            return f'.bool {self.is_or(e)}'
        return f'.cond {self.colcond(e)}'
    def join(self, e):
        items = [('fieldName', self.string(self.f(e, 'FieldName')))]
        if self.f(e, 'Relation'):
            items.append(('relation', f'some {self.relident(self.f(self.f(e, "Relation"), "RelIdent", 0))}'))
        ds = []
        for _, d in (self.f(e, 'Directives') or ('lit', None, []))[2]:
            d = self.val(d)
            its = [('joinType', f'some .{self.f(d, "JoinType")[1][len("JoinType"):].lower()}'),
                   ('relIdent', self.relident(self.f(d, 'RelIdent')))]
            if self.f(d, 'TagItems'):
                its.append(('items', llist(self.jitem(v) for _, v in self.f(d, 'TagItems')[2])))
            ds.append(rec(its))
        items.append(('directives', llist(ds)))
        return rec(items)
    def cidlist(self, e):
        l = self.f(e, 'ColIdentList', 0)
        items = []
        if self.f(l, 'All'):
            items.append(('all', self.boolean(self.f(l, 'All'))))
        if self.f(l, 'Items'):
            items.append(('items', llist(self.colident(v) for _, v in self.f(l, 'Items')[2])))
        return rec(items)
    def onconflict(self, e):
        items = [('fieldName', self.string(self.f(e, 'FieldName')))]
        if self.f(e, 'Column'):
            items.append(('column', 'some ' + llist(self.colident(v) for _, v in self.f(self.f(e, 'Column'), 'ColIdents', 0)[2])))
        for k in ('Index', 'Constraint'):
            if self.f(e, k):
                items.append((k.lower(), 'some ' + self.string(self.f(self.f(e, k), 'Name', 0))))
        if self.f(e, 'Ignore'):
            items.append(('ignore', 'true'))
        if self.f(e, 'Update'):
            items.append(('update', 'some ' + self.cidlist(self.f(e, 'Update'))))
        return rec(items)
    def limit(self, e):
        items = []
        if self.f(e, 'Name'):
            items.append(('name', self.string(self.f(e, 'Name'))))
        if self.f(e, 'Value'):
            items.append(('value', self.f(e, 'Value')[1]))
        return rec(items)
    def query(self, e):
        k = self.f(e, 'Kind')[1][len('QueryKind'):]
        items = [('typeName', self.string(self.f(e, 'TypeName'))), ('kind', '.' + k[0].lower() + k[1:]),
                 ('rel', self.relfield(self.f(e, 'Rel')))]
        known = {'TypeName', 'Kind', 'Rel'}
        def opt(go, lean, fn):
            known.add(go)
            v = self.f(e, go)
            if v is not None:
                items.append((lean, fn(v)))
        some = lambda fn: lambda v: 'some ' + par(fn(v))
        opt('Join', 'join', some(self.join))
        opt('Where', 'wher', some(lambda v: rec([('fieldName', self.string(self.f(v, 'FieldName'))), ('items', self.witems(v))])))
        opt('OnConflict', 'onConflict', some(self.onconflict))
        opt('All', 'all', lambda v: 'true')
        for go, lean in (('Default', 'default'), ('Force', 'force'), ('Optional', 'optional'), ('Return', 'ret')):
            opt(go, lean, some(self.cidlist))
        opt('Result', 'result', some(lambda v: f'({self.string(self.f(v, "FieldName"))}, {self.reltype(self.f(v, "Type"))})'))
        opt('RowsAffected', 'rowsAffected', some(lambda v: f'({self.string(self.f(v, "Name"))}, {self.kind(self.f(v, "TypeKind"))})'))
        opt('Limit', 'limit', some(self.limit))
        opt('Offset', 'offset', some(self.limit))
        def order(v):
            out = []
            for _, it in self.f(v, 'Items', 0)[2]:
                its = [('colIdent', self.colident(self.f(it, 'ColIdent')))]
                if self.f(it, 'Direction') == ('id', 'OrderDesc'):
                    its.append(('desc', 'true'))
                n = self.f(it, 'Nulls')
                if n and n[0] == 'id':
                    its.append(('nulls', f'some .{n[1][len("Nulls"):].lower()}'))
                out.append(rec(its))
            return llist(out)
        opt('OrderBy', 'orderBy', some(order))
        opt('Override', 'override', some(lambda v: '.' + self.f(v, 'Kind', 0)[1][len('Overriding'):].lower()))
        opt('ErrorHandler', 'errorHandler', some(lambda v: f'({self.string(self.f(v, "Name"))}, {self.boolean(self.f(v, "IsInfo"))})'))
        opt('Context', 'context', some(lambda v: self.string(self.f(v, 'Name', 0))))
        opt('Filter', 'filter', some(lambda v: self.string(self.f(v, 'Name', 0))))
        assert all(k[1] in known for k, _ in e[2]), [k for k, _ in e[2]]
        return rec(items)
    def filterstruct(self, e):
        fc = self.f(e, 'FilterConstructor')
        items = [('typeName', self.string(self.f(e, 'TypeName'))), ('rel', self.relfield(self.f(e, 'Rel')))]
        if self.f(e, 'TextSearch'):
            items.append(('textSearch', 'some ' + self.colident(self.f(self.f(e, 'TextSearch'), 'ColIdent', 0))))
        items.append(('constructor', f'({self.string(self.f(fc, "Name"))}, {self.boolean(self.f(fc, "IsV2"))})'))
        return rec(items)

def sub_lit(lit, key, val):
    return ('lit', lit[1], [(k, v) for k, v in lit[2] if k != ('id', key)] + [(('id', key), val)])

def expr_at(src, pos):
    p = Parser(src[pos:])
    return p.expr()

def analysis_cases():
    src = open(os.path.join(REPO, 'internal/analysis/analysis_test.go')).read()
    env = {}
    for m in re.finditer(r'^func (makeReltype\w+)\(\) RelType \{\n\treturn ', src, re.M):
        env[m.group(1) + '()'] = expr_at(src, m.end())
    groups = []
    for fn in ('TestAnalysis_queryStruct', 'TestAnalysis_filterStruct'):
        start = src.index(f'func {fn}(')
        end = src.index('\n}\n', start)
        body = src[start:end]
        e = dict(env)
        head = body[:body.index('\ttests := ')]
        for m in re.finditer(r'^\t(\w+)(?:\.(\w+))? :?= ', head, re.M):
            v = strip(expr_at(head, m.end()))
            if v[0] == 'call':
                v = e[v[1][1] + '()']
            if m.group(2):
                e[m.group(1)] = sub_lit(e[m.group(1)], m.group(2), v)
            else:
                e[m.group(1)] = v
        m = re.search(r'\ttests := \[\]struct \{.*?\n\t\}\{', body, re.S)
        lit = Parser(body[m.end() - 1:]).lit(None)
        line0 = src[:start].count('\n') + 1
        groups.append((e, [x for _, x in lit[2]]))
    return groups

HEAD = '''/-
{doc}

This file is written by /verif/tools/conform.py; do not edit it by hand.
-/
'''

ERR = {}
def err_code(e):
    n = e[1][len('err'):].replace('Confict', 'Conflict')
    return '.' + n[0].lower() + n[1:]

def write(name, text):
    os.makedirs(OUT, exist_ok=True)
    p = os.path.join(OUT, name)
    if not os.path.exists(p) or open(p).read() != text:
        open(p, 'w').write(text)
        print('wrote', name, len(text))

def wrap(s, indent, width=100):
    """Breaks a long term at the commas of its brackets; the parts of a bracket are aligned."""
    toks = re.findall(r'b!"(?:[^"\\]|\\.)*"|[\[\](){}⟨⟩,]|[^\s,\[\](){}⟨⟩]+|\s+', s)
    pos = 0
    def group(close):
        """The parts up to the closing bracket, each a list of tokens and groups."""
        nonlocal pos
        parts, cur = [], []
        while pos < len(toks):
            t = toks[pos]
            pos += 1
            if t == close:
                if cur:
                    parts.append(cur)
                return parts
            if t in '[({⟨':
                cur.append((t, group({'[': ']', '(': ')', '{': '}', '⟨': '⟩'}[t])))
            elif t == ',':
                parts.append(cur)
                cur = []
            elif not (t.isspace() and not cur):
                cur.append(' ' if t.isspace() else t)
        parts.append(cur)
        return parts
    def flat(part):
        return ''.join(t if isinstance(t, str) else flatg(t) for t in part).rstrip()
    def flatg(g):
        o, ps = g
        body = ', '.join(flat(p) for p in ps)
        return '{ ' + body + ' }' if o == '{' and ps else o + body + {'[': ']', '(': ')', '{': '}', '⟨': '⟩'}[o]
    def show(part, col):
        out = ''
        for t in part:
            c = col + len(out) if '\n' not in out else len(out) - out.rindex('\n') - 1
            if isinstance(t, str):
                out += t
            else:
                fl = flatg(t)
                if c + len(fl) <= width - 4:
                    out += fl
                else:
                    o, ps = t
                    lead = '{ ' if o == '{' else o
                    body = (',\n' + ' ' * (c + len(lead))).join(show(p, c + len(lead)) for p in ps)
                    out += lead + body + {'[': ']', '(': ')', '{': ' }', '⟨': '⟩'}[o]
        return out.rstrip()
    parts = group(None)
    return ' ' * indent + ', '.join(show(p, indent) for p in parts)

def catalog():
    """Conform/TestCat.lean"""
    import pgcat
    ty = []
    for n, (oid, fmt, typ, cat, arr, elem) in pgcat.T.items():
        ty.append((oid, fmt, typ, cat, elem))
        if arr:
            ty.append((arr, fmt + '[]', 'b', 'A', oid))
    s = '/-- The rows of pg_type that are used. -/\ndef testTypes : List PgType := [\n  '
    s += ',\n  '.join(f"{{ oid := {o}, nameFmt := {lstr(f)}, typ := '{t}', category := '{c}'"
                      + (f', elem := {e}' if e else '') + ' }' for o, f, t, c, e in ty) + ']\n'
    ops = {}
    for n, l, r in pgcat.operators():
        ops.setdefault(n, []).append((l, r))
    s += '\n/-- The rows of pg_operator: the operand types of each operator. -/\ndef testOps : List (Bytes × List (Nat × Nat)) := [\n  '
    s += ',\n  '.join(wrap(f'({lstr(n)}, [' + ', '.join(f'({l}, {r})' for l, r in v) + '])', 2).strip() for n, v in ops.items()) + ']\n'
    s += '\n/-- The rows of pg_cast. -/\ndef testCasts : List (Nat × Nat × Char) := [\n'
    s += fill([f"({a}, {b}, '{k}')" for a, b, k in pgcat.casts()]) + ']\n'
    names = []
    for t in pgcat.tables(REPO).values():
        names.append(t.name)
        s += f'\n/-- /repo/internal/postgres/testing.go -/\ndef rel_{t.name} : RawRel :=\n'
        cols = []
        for i, c in enumerate(t.cols):
            x = f'{{ num := {i + 1}, name := {lstr(c["name"])}, typeOid := {c["oid"]}'
            if c['mod'] != -1:
                x += f', typeMod := {c["mod"]}'
            for k, l in (('notnull', 'hasNotNull'), ('default', 'hasDefault'), ('pk', 'isPrimary')):
                if c[k]:
                    x += f', {l} := true'
            cols.append(x + ' }')
        x = f"{{ relKind := '{t.kind}'\n    columns := [\n      " + ',\n      '.join(cols) + ']'
        if t.cons:
            x += '\n    constraints := [\n      ' + ',\n      '.join(f"{{ name := {lstr(n)}, typ := '{k}' }}" for n, k in t.cons) + ']'
        if t.idx:
            idx = []
            for i in t.idx:
                y = f'{{ name := {lstr(i["name"])}, key := {i["key"]}'
                if i['unique']:
                    y += ', isUnique := true'
                if i['primary']:
                    y += ', isPrimary := true'
                y += f'\n        definition := {lstr(i["definition"])}'
                if i['pred']:
                    y += f'\n        predicate := {lstr(i["pred"])}'
                idx.append(y + ' }')
            x += '\n    indexes := [\n      ' + ',\n      '.join(idx) + ']'
        s += '  ' + x + ' }\n'
    s += '\n/-- The tables, found by their names and by their names in the schema. -/\ndef testRels : List (Bytes × RawRel) := [\n  '
    s += ',\n  '.join(f'({lstr(n)}, rel_{n}), ({lstr("public." + n)}, rel_{n})' for n in names) + ']\n'
    s += '\n/-- The functions of one argument. -/\ndef testProcs : List Proc := [\n'
    s += fill([f'⟨{lstr(n)}, {a}, {r}⟩' for n, a, r in pgcat.PROCS]) + ']\n'
    write('TestCat.lean', 'import Verif.Postgres.Types\n\n' + HEAD.format(doc='The database of the tests: the tables of /repo/internal/postgres/testing.go, and the rows of the catalogs\nof PostgreSQL that they need.') +
          'namespace Verif.Conform\nopen Verif.Postgres\n\n' + s + '\nend Verif.Conform\n')

def fill(l):
    """Terms in lines."""
    out, cur = [], ''
    for i, x in enumerate(l):
        x += ',' if i < len(l) - 1 else ''
        if cur and len(cur) + len(x) > 96:
            out.append('  ' + cur.rstrip())
            cur = ''
        cur += x + ' '
    return '\n'.join(out + ['  ' + cur.rstrip()])

def check_cases(em):
    """Conform/CheckCases.lean"""
    src = open(os.path.join(REPO, 'internal/postgres/postgres_test.go')).read()
    body = src[src.index('func TestCheck('):]
    m = re.search(r'\ttests := \[\]struct \{.*?\n\t\}\{', body, re.S)
    lit = Parser(body[m.end() - 1:]).lit(None)
    l = []
    for _, c in lit[2]:
        name, err = get(c, 'name')[1], strip(get(c, 'err'))
        code = None if err[0] != 'lit' else err_code(get(err, 'Code'))
        cite, fields = em.target('path/to/test', name)
        l.append((name, cite, fields, code, err))
    return l

def golden_cases(em):
    """The cases of generator_test.go: directory, file, options, target structs, lines of the expected file."""
    src = open(os.path.join(REPO, 'internal/generator/generator_test.go')).read()
    m = re.search(r'\ttests := \[\]struct \{.*?\n\t\}\{', src, re.S)
    body = src[m.end():]
    body = body[:body.index('\n\tfor ')]
    cases, d = [], None
    for m in re.finditer(r'dirname: "(\w+)"|^(\t*//)?\s*\{filename: "(\w+)"(.*?)\}(?:,\n|\})|skip:\s+true', body, re.M | re.S):
        if m.group(1):
            d = m.group(1)
        elif m.group(3) and not (m.group(2) or '').strip():
            opts = dict(re.findall(r'cfg\.(\w+)\.Value = "?([^"\n]*)"?', m.group(4)))
            cases.append((d, m.group(3), opts))
    out = []
    for d, f, opts in cases:
        pkg = PKGS[GEN + d]
        rel = f'internal/testdata/generator/{d}/{f}'
        ts = sorted((line, n) for n, (t, line, imports, file) in pkg.types.items()
                    if file == rel + '_in.go' and re.match(r'(?i:Select|Insert|Update|Delete|Filter)', n))
        targets = [(n,) + em.target(GEN + d, n) for _, n in ts]
        want = open(os.path.join(REPO, rel + '_out.go')).read().split('\n')
        out.append((d, f, opts, targets, want))
    return out

def goldens(em0):
    em = Emitter(em0.done)
    cases = golden_cases(em)
    write('GoldTypes.lean', 'import Verif.Conform.Types\n\n' + HEAD.format(doc='The named types of /repo/internal/testdata/generator.') +
          'namespace Verif.Conform\nopen Verif.Analysis\n\n' + '\n'.join(em.out) + '\nend Verif.Conform\n')
    for d in GENDIRS:
        s, names = '', []
        for dd, f, opts, targets, want in cases:
            if dd != d:
                continue
            base = f'{d}_{f}'
            for i, (n, cite, fields) in enumerate(targets):
                s += f'/-- {cite} -/\ndef {base}_{i} : List (FieldHdr × Ty) := {fields}\n\n'
            items = [('dir', lstr(d)), ('file', lstr(f))]
            if 'MethodName' in opts:
                items.append(('method', lstr(opts['MethodName'])))
            if 'MethodWithContext' in opts:
                items.append(('withContext', opts['MethodWithContext']))
            if opts.get('FilterColumnKeyTag'):
                items.append(('keyTag', lstr(opts['FilterColumnKeyTag'])))
            assert opts.get('FilterColumnKeySeparator', '.') == '.' and opts.get('QuoteIdentifiers', 'true') == 'true'
            assert not set(opts) - {'MethodName', 'MethodWithContext', 'FilterColumnKeyTag', 'FilterColumnKeySeparator', 'QuoteIdentifiers'}
            s += f'/-- internal/testdata/generator/{d}/{f}_out.go -/\ndef {base} : Golden :=\n  {{ '
            s += '\n    '.join(f'{k} := {v}' for k, v in items)
            s += '\n    targets := [' + ', '.join(f'({lstr(n)}, {base}_{i})' for i, (n, _, _) in enumerate(targets)) + ']'
            s += '\n    want := [\n      ' + ',\n      '.join(lstr(l) for l in want) + '] }\n\n'
            names.append(base)
        mod = 'Gold' + d.capitalize()
        parts = [names[i:i + 4] for i in range(0, len(names), 4)]
        for i, l in enumerate(parts):
            s += f'def {d}Goldens{i} : List Golden := [\n' + fill(l) + ']\n\n'
        s += f'def {d}Goldens : List Golden :=\n' + fill([f'{d}Goldens{i}' for i in range(len(parts))]).replace(',', ' ++') + '\n'
        t = f'import Verif.Conform.{mod}\n\n' + HEAD.format(doc='C84: analysis, checker and generator make of the test files of the project the files that its own tests\n' +
            f'expect.  /repo/internal/testdata/generator/{d}') + 'namespace Verif.Conform\n\n'
        for i in range(len(parts)):
            t += f'theorem {d}Goldens{i}_all : {d}Goldens{i}.all isGolden = true := by decide +kernel\n\n'
        t += f'/-- Each of the files of the tests in /repo/internal/testdata/generator/{d}. -/\n'
        t += f'theorem C84_{d} : ∀ g ∈ {d}Goldens, asGolden g := isGolden_sound _ (by\n'
        if len(parts) == 1:
            t += f'  exact {d}Goldens0_all)\n'
        else:
            t += f'  simp only [{d}Goldens, List.all_append, Bool.and_eq_true]\n  exact '
            x = f'{d}Goldens0_all'
            for i in range(1, len(parts)):
                x = f'⟨{x}, {d}Goldens{i}_all⟩'
            t += x + ')\n'
        t += f'\n/-- How many they are. -/\ntheorem C84_{d}_cases : {d}Goldens.length = {len(names)} := by decide\n\nend Verif.Conform\n'
        write(f'Props{d.capitalize()}.lean', t)
        write(mod + '.lean', 'import Verif.Conform.GoldTypes\nimport Verif.Conform.GoldBase\n\n' +
              HEAD.format(doc=f'The input and the expected output of the generator tests, /repo/internal/testdata/generator/{d}.') +
              'namespace Verif.Conform\nopen Verif.Analysis\n\n' + s + '\nend Verif.Conform\n')
    print(len(cases))

def main():
    em = Emitter()
    groups = analysis_cases()
    bad, ok, fbad, fok = [], [], [], []
    for gi, (env, cases) in enumerate(groups):
        x = Expect(env)
        for c in cases:
            name = get(c, 'Name')[1]
            cite, fields = em.target('path/to/test', name)
            err, want = get(c, 'err'), get(c, 'want')
            if err is not None:
                err = strip(err)
                (fbad if gi else bad).append((name, cite, fields, err_code(get(err, 'Code')), err))
            else:
                (fok if gi else ok).append((name, cite, fields,
                    x.filterstruct(x.val(want)) if gi else x.query(x.val(want))))
    lit_cite, lit_fields = em.target('path/to/test', 'SelectAnalysisTestOK_typeinfo_string')
    catalog()
    checks = check_cases(em)
    types = 'import Verif.Conform.Base\n\n' + HEAD.format(doc='The named types of /repo/internal/testdata that the analysis tests use.')
    types += 'namespace Verif.Conform\nopen Verif.Analysis\n\n' + '\n'.join(em.out) + '\nend Verif.Conform\n'
    write('Types.lean', types)
    def part(doc, mod, defs, extra='', opens='Verif.Analysis'):
        write(mod + '.lean', 'import Verif.Conform.Types\n' + extra + '\n' + HEAD.format(doc=doc) +
              'namespace Verif.Conform\nopen ' + opens + '\n\n' + defs + '\nend Verif.Conform\n')
    def targets(l, pre):
        return '\n'.join(f'/-- {cite} -/\ndef {pre}{i} : List (FieldHdr × Ty) := {fields}\n'
                         for i, (name, cite, fields, *_) in enumerate(l))
    s = targets(bad, 'bad')
    s += '\n/-- The refused query structs and the expected codes. -/\ndef badCases : List (Bytes × List (FieldHdr × Ty) × ECode) := [\n  '
    s += ',\n  '.join(f'({lstr(n)}, bad{i}, {code})' for i, (n, _, _, code, _) in enumerate(bad)) + ']\n'
    s += targets(fbad, 'fbad')
    s += '\n/-- The refused filter structs and the expected codes. -/\ndef fbadCases : List (Bytes × List (FieldHdr × Ty) × ECode) := [\n  '
    s += ',\n  '.join(f'({lstr(n)}, fbad{i}, {code})' for i, (n, _, _, code, _) in enumerate(fbad)) + ']\n'
    part('The query and filter structs that the analysis tests expect to be refused\n(/repo/internal/analysis/analysis_test.go).', 'BadCases', s)
    s = targets(ok, 'ok')
    for i, (n, cite, f, q) in enumerate(ok):
        s += f'\ndef want{i} : Query :=\n{wrap(q, 2)}\n'
    s += '\n/-- The accepted query structs and the expected results. -/\ndef okCases : List (Bytes × List (FieldHdr × Ty) × Query) := [\n  '
    s += ',\n  '.join(f'({lstr(n)}, ok{i}, want{i})' for i, (n, *_ ) in enumerate(ok)) + ']\n'
    s += targets(fok, 'fok')
    for i, (n, cite, f, q) in enumerate(fok):
        s += f'\ndef fwant{i} : FilterStruct :=\n{wrap(q, 2)}\n'
    s += '\n/-- The accepted filter structs and the expected results. -/\ndef fokCases : List (Bytes × List (FieldHdr × Ty) × FilterStruct) := [\n  '
    s += ',\n  '.join(f'({lstr(n)}, fok{i}, fwant{i})' for i, (n, *_ ) in enumerate(fok)) + ']\n'
    src = open(os.path.join(REPO, 'internal/analysis/analysis_test.go')).read()
    consts = dict(re.findall(r'(Literal\w+)\s+LiteralType = "([^"]*)"', open(os.path.join(REPO, 'internal/analysis/enums.go')).read()))
    body = src[src.index('func TestTypeinfo_string('):]
    lits = re.findall(r'\{"(f\d+)", (?:(Literal\w+)|"([^"]*)")\}', body)
    s += f'\n/-- {lit_cite} -/\ndef literalTarget : List (FieldHdr × Ty) := {lit_fields}\n'
    s += '\n/-- TestTypeinfo_string: the fields and the expected texts of their types. -/\ndef literalCases : List (Bytes × Bytes) := [\n  '
    s += ',\n  '.join(f'({lstr(n)}, {lstr(consts[c] if c else v)})' for n, c, v in lits) + ']\n'
    part('The query and filter structs that the analysis tests expect to be accepted, with the expected results\n(/repo/internal/analysis/analysis_test.go).', 'OkCases', s)
    s = targets(checks, 'check')
    q = [(i, c) for i, c in enumerate(checks) if not c[0].startswith('Filter')]
    f = [(i, c) for i, c in enumerate(checks) if c[0].startswith('Filter')]
    s += '\n/-- The query structs, with the expected error if one is expected. -/\ndef checkCases : List (Bytes × List (FieldHdr × Ty) × Option DbErr) := [\n  '
    s += ',\n  '.join(f'({lstr(c[0])}, check{i}, {"some " + c[3] if c[3] else "none"})' for i, c in q) + ']\n'
    s += '\n/-- The filter structs, with the expected error. -/\ndef fcheckCases : List (Bytes × List (FieldHdr × Ty) × Option DbErr) := [\n  '
    s += ',\n  '.join(f'({lstr(c[0])}, check{i}, {"some " + c[3] if c[3] else "none"})' for i, c in f) + ']\n'
    part('The query and filter structs of the tests of the checker (/repo/internal/postgres/postgres_test.go).', 'CheckCases', s,
         extra='import Verif.Postgres.Types\n', opens='Verif.Analysis Verif.Postgres')
    print(len(bad), len(fbad), len(ok), len(fok))
    goldens(em)

main()
