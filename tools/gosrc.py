"""A small reader of Go declarations: enough for the query structs of /repo/internal/testdata and for
composite literals in the tests.  It is used by conform.py only."""
import re

TOK = re.compile(r'''
  (?P<ws>[ \t\r]+|//[^\n]*|/\*.*?\*/)
 |(?P<nl>\n)
 |(?P<raw>`[^`]*`)
 |(?P<str>"(?:[^"\\]|\\.)*")
 |(?P<chr>'(?:[^'\\]|\\.)*')
 |(?P<num>[0-9][0-9a-zA-Z_.]*)
 |(?P<id>[A-Za-z_][A-Za-z_0-9]*)
 |(?P<op>\.\.\.|&\^|:=|==|!=|<=|>=|&&|\|\||<-|\+\+|--|\+=|[-+*/%&|^<>=!(){}\[\],;.:~])
''', re.X | re.S)

class Tok:
    __slots__ = ('kind', 'val', 'line')
    def __init__(self, kind, val, line):
        self.kind, self.val, self.line = kind, val, line
    def __repr__(self):
        return f'{self.kind}:{self.val}@{self.line}'

def lex(src):
    out, pos, line = [], 0, 1
    while pos < len(src):
        m = TOK.match(src, pos)
        if not m:
            raise SyntaxError(f'line {line}: {src[pos:pos+20]!r}')
        kind, val = m.lastgroup, m.group()
        if kind == 'nl':
            # automatic semicolons
            if out and (out[-1].kind in ('id', 'num', 'str', 'raw', 'chr') and
                        out[-1].val not in ('struct', 'func', 'interface', 'map') or
                        out[-1].val in (')', ']', '}', '++', '--')):
                out.append(Tok('op', ';', line))
        elif kind != 'ws':
            out.append(Tok(kind, val, line))
        line += val.count('\n')
        pos = m.end()
    return out

class Parser:
    def __init__(self, src):
        self.t, self.i = lex(src), 0
    def peek(self, k=0):
        return self.t[self.i + k].val if self.i + k < len(self.t) else ''
    def kind(self, k=0):
        return self.t[self.i + k].kind if self.i + k < len(self.t) else ''
    def line(self):
        return self.t[self.i].line
    def next(self):
        self.i += 1
        return self.t[self.i - 1].val
    def eat(self, v):
        if self.peek() != v:
            raise SyntaxError(f'line {self.line()}: want {v!r}, have {self.peek()!r}')
        self.i += 1
    def skip_semi(self):
        while self.peek() == ';':
            self.i += 1

    # types are tuples
    def type(self):
        p = self.peek()
        if p == '*':
            self.next()
            return ('ptr', self.type())
        if p == '[':
            self.next()
            if self.peek() == ']':
                self.next()
                return ('slice', self.type())
            n = int(self.next())
            self.eat(']')
            return ('array', n, self.type())
        if p == 'map':
            self.next()
            self.eat('[')
            k = self.type()
            self.eat(']')
            return ('map', k, self.type())
        if p == 'chan':
            self.next()
            return ('chan', self.type())
        if p == 'struct':
            return self.struct()
        if p == 'func':
            self.next()
            return self.sig()
        if p == 'interface':
            return self.iface()
        if p == '(':
            self.next()
            t = self.type()
            self.eat(')')
            return t
        if self.kind() == 'id':
            n = self.next()
            if self.peek() == '.':
                self.next()
                return ('name', n, self.next())
            return ('name', None, n)
        raise SyntaxError(f'line {self.line()}: type {p!r}')

    def struct(self):
        self.eat('struct')
        self.eat('{')
        fs = []
        while True:
            self.skip_semi()
            if self.peek() == '}':
                self.next()
                return ('struct', fs)
            line = self.line()
            names, emb = [], False
            if self.peek() == '*' or (self.kind() == 'id' and
                    (self.peek(1) in (';', '.', '}') or self.kind(1) in ('raw', 'str'))):
                emb = True
            if emb:
                t = self.type()
                b = t[1] if t[0] == 'ptr' else t
                names = [b[2]]
            else:
                names = [self.next()]
                while self.peek() == ',':
                    self.next()
                    names.append(self.next())
                t = self.type()
            tag = ''
            if self.kind() in ('raw', 'str'):
                tag = self.next()[1:-1]
            for n in names:
                fs.append((n, t, emb, tag, line))

    def iface(self):
        self.eat('interface')
        self.eat('{')
        ms, embs = [], []
        while True:
            self.skip_semi()
            if self.peek() == '}':
                self.next()
                return ('iface', ms, embs)
            if self.peek(1) == '(':
                n = self.next()
                ms.append((n, self.sig()))
            else:
                embs.append(self.type())

    def params(self):
        """A parameter list; names are dropped."""
        self.eat('(')
        items = []  # each: list of tokens positions parsed as type, or name + type
        while self.peek() != ')':
            if self.peek() == '...':
                self.next()
                items.append(('t', ('slice', self.type())))
            else:
                t = self.type()
                if self.peek() in (',', ')'):
                    items.append(('t', t))
                else:
                    if self.peek() == '...':
                        self.next()
                        items.append(('nt', ('slice', self.type())))
                    else:
                        items.append(('nt', self.type()))
            if self.peek() == ',':
                self.next()
        self.eat(')')
        if any(k == 'nt' for k, _ in items):
            out, last = [], None
            for k, t in reversed(items):
                if k == 'nt':
                    last = t
                out.append(last)
            return list(reversed(out))
        return [t for _, t in items]

    def sig(self):
        ps = self.params()
        rs = []
        p = self.peek()
        if p == '(':
            rs = self.params()
        elif p in ('*', '[', 'map', 'chan', 'struct', 'func', 'interface') or \
                (self.kind() == 'id' and p not in ('',)):
            rs = [self.type()]
        return ('func', ps, rs)

    def skip_block(self):
        self.eat('{')
        d = 1
        while d:
            v = self.next()
            if v == '{':
                d += 1
            elif v == '}':
                d -= 1

    def file(self):
        """imports: local name -> path; types: name -> (type, line); methods: (recv, ptr?, name, sig)."""
        self.skip_semi()
        self.eat('package')
        pkg = self.next()
        imports, types, methods = {}, {}, []
        while self.i < len(self.t):
            self.skip_semi()
            p = self.peek()
            if p == '':
                break
            if p == 'import':
                self.next()
                specs = []
                if self.peek() == '(':
                    self.next()
                    while True:
                        self.skip_semi()
                        if self.peek() == ')':
                            self.next()
                            break
                        specs.append(self.import_spec())
                else:
                    specs.append(self.import_spec())
                for n, path in specs:
                    imports[n or path.rsplit('/', 1)[-1]] = path
            elif p == 'type':
                self.next()
                if self.peek() == '(':
                    self.next()
                    while True:
                        self.skip_semi()
                        if self.peek() == ')':
                            self.next()
                            break
                        self.type_spec(types)
                else:
                    self.type_spec(types)
            elif p == 'func':
                self.next()
                recv = None
                if self.peek() == '(':
                    self.next()
                    if self.kind() == 'id' and self.peek(1) not in (')', '.'):
                        self.next()
                    ptr = self.peek() == '*'
                    if ptr:
                        self.next()
                    recv = (self.next(), ptr)
                    self.eat(')')
                name = self.next()
                s = self.sig()
                if self.peek() == '{':
                    self.skip_block()
                if recv:
                    methods.append((recv[0], recv[1], name, s))
            elif p in ('var', 'const'):
                self.next()
                d = 0
                while not (d == 0 and self.peek() == ';'):
                    v = self.next()
                    if v in '([{':
                        d += 1
                    elif v in ')]}':
                        d -= 1
            else:
                raise SyntaxError(f'line {self.line()}: {p!r}')
        return pkg, imports, types, methods

    def import_spec(self):
        n = None
        if self.kind() == 'id' or self.peek() == '.':
            n = self.next()
        return n, self.next()[1:-1]

    def type_spec(self, types):
        line = self.line()
        n = self.next()
        if self.peek() == '=':
            self.next()
        types[n] = (self.type(), line)

    # composite literals and the like: values are tuples
    def expr(self):
        e = self.unary()
        while self.peek() in ('+', '|', '==', '*', '/', '-', '&^'):
            op = self.next()
            e = ('bin', op, e, self.unary())
        return e

    def unary(self):
        if self.peek() in ('&', '-', '*'):
            op = self.next()
            return ('un', op, self.unary())
        return self.postfix(self.primary())

    def primary(self):
        k, p = self.kind(), self.peek()
        if k in ('str', 'raw'):
            self.next()
            s = p[1:-1]
            if k == 'str':
                s = s.encode('latin-1', 'backslashreplace').decode('unicode_escape') if '\\' in s else s
            return ('str', s)
        if k == 'num':
            self.next()
            return ('num', p)
        if k == 'chr':
            self.next()
            return ('chr', p[1:-1])
        if p == '(':
            self.next()
            e = self.expr()
            self.eat(')')
            return e
        if p == '{':
            return self.lit(None)
        if p in ('[', 'map', 'struct'):
            t = self.type()
            return self.lit(t) if self.peek() == '{' else ('type', t)
        if p == 'func':
            self.next()
            s = self.sig()
            start = self.i
            self.skip_block()
            return ('funclit', s)
        if k == 'id':
            self.next()
            return ('id', p)
        raise SyntaxError(f'line {self.line()}: expr {p!r}')

    def postfix(self, e):
        while True:
            p = self.peek()
            if p == '.':
                self.next()
                e = ('sel', e, self.next())
            elif p == '(':
                self.next()
                args = []
                while self.peek() != ')':
                    args.append(self.expr())
                    if self.peek() == ',':
                        self.next()
                self.eat(')')
                e = ('call', e, args)
            elif p == '[':
                self.next()
                i = self.expr()
                self.eat(']')
                e = ('index', e, i)
            elif p == '{' and e[0] in ('id', 'sel'):
                e = self.lit(e)
            else:
                return e

    def lit(self, t):
        self.eat('{')
        items = []
        while self.peek() != '}':
            k = self.lit(None) if self.peek() == '{' else self.expr()
            if self.peek() == ':':
                self.next()
                v = self.lit(None) if self.peek() == '{' else self.expr()
                items.append((k, v))
            else:
                items.append((None, k))
            if self.peek() == ',':
                self.next()
        self.eat('}')
        return ('lit', t, items)
