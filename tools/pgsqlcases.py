"""Transcribe the tests of package pgsql: python3 pgsqlcases.py /repo /verif/lean/Verif/Conform

Writes PgCases1.lean, PgCases2.lean, ...: for every file of tests the cases with a valuer and a scanner, and
the cases in which a text goes in and a text comes out. What is left out is printed."""
import glob, os, re, struct, sys
from fractions import Fraction
from gosrc import lex

REPO, OUT = sys.argv[1], sys.argv[2]

# ---------------------------------------------------------------- Go expressions

def unquote(tok):
    """the bytes of a string literal, or the code point of a character literal"""
    if tok[0] == '`':
        return tok[1:-1].encode()
    body, out, i = tok[1:-1], b'', 0
    simple = dict(zip('abfnrtv\\\'"', [7, 8, 12, 10, 13, 9, 11, 92, 39, 34]))
    point = None
    while i < len(body):
        if body[i] != '\\':
            out += body[i].encode(); point = ord(body[i]); i += 1
        elif body[i + 1] == 'x':
            point = int(body[i + 2:i + 4], 16); out += bytes([point]); i += 4
        else:
            point = simple[body[i + 1]]; out += bytes([point]); i += 2
    return point if tok[0] == "'" else out

class Other(Exception):
    pass

class P:
    def __init__(self, toks):
        self.t, self.i = toks, 0
        self.alias = {}
    def peek(self, k=0):
        return self.t[self.i + k].val
    def kind(self):
        return self.t[self.i].kind
    def line(self):
        return self.t[self.i].line
    def next(self):
        self.i += 1
        return self.t[self.i - 1].val
    def eat(self, v):
        if self.peek() != v:
            raise Other(f'line {self.line()}: want {v}, have {self.peek()}')
        self.i += 1
    def skip(self):
        """past the balanced expression"""
        d = 0
        while True:
            v = self.peek()
            if d == 0 and v in (',', '}'):
                return
            if v in '([{':
                d += 1
            elif v in ')]}':
                d -= 1
            self.i += 1
    def type(self):
        v = self.peek()
        if v == '[':
            self.next()
            if self.peek() == ']':
                self.next()
                return ('slice', self.type())
            n = int(self.next()); self.eat(']')
            return ('arr', n, self.type())
        if v == '*':
            self.next()
            return ('ptr', self.type())
        if v == 'map':
            self.next(); self.eat('['); k = self.type(); self.eat(']')
            return ('map', k, self.type())
        n = self.next()
        if self.peek() == '.':
            self.next(); n += '.' + self.next()
        return ('name', n)
    def args(self):
        self.eat('(')
        out = []
        while self.peek() != ')':
            out.append(self.expr(None))
            if self.peek() == ',':
                self.next()
        self.eat(')')
        return out
    def expr(self, ty):
        v = self.prim(ty)
        while self.peek() == '+':
            self.next(); v += self.prim(ty)
        return v
    def num(self, ty, text):
        x = Fraction(text)
        if ty == ('name', 'float32'):
            return ('fl', struct.unpack('<f', struct.pack('<f', float(x)))[0])
        if ty == ('name', 'float64'):
            return ('fl', float(x))
        assert x.denominator == 1
        return int(x)
    def prim(self, ty):
        v, k = self.peek(), self.kind()
        if k in ('str', 'raw', 'chr'):
            return unquote(self.next())
        if k == 'num':
            return self.num(ty, self.next())
        if v == '-':
            self.next()
            return self.num(ty, '-' + self.next())
        if v in ('true', 'false'):
            self.next()
            return v == 'true'
        if v == 'nil':
            self.next()
            return None
        if v == '{':
            return self.composite(ty)
        fns = {'strptr': lambda a: ('ptr', a[0]), 'dateval': lambda a: ('time', *a, 0, 0, 0, 0),
               'timeval': lambda a: ('time', 0, 1, 1, *a), 'timestamp': lambda a: ('time', *a),
               'netCIDR': lambda a: ('cidr', a[0]), 'netIP': lambda a: ('ip', a[0]), 'netMAC': lambda a: ('mac', a[0]),
               'netCIDRSlice': lambda a: [('cidr', x) for x in a], 'netIPSlice': lambda a: [('ip', x) for x in a],
               'netMACSlice': lambda a: [('mac', x) for x in a], 'uuid16bytes': lambda a: ('uuid', a[0])}
        if k == 'id' and self.peek(1) == '(' and (v in fns or v in self.alias):
            self.next()
            a = self.args()
            n = self.alias.get(v, v)
            return a[0] if n == 'bytes' else fns[n](a)
        if k == 'id' and v in ('timetzval', 'timestamptz', 'data', 'time'):
            raise Other(v)
        t = self.type()
        if self.peek() == '(':
            self.next()
            x = self.expr(t)
            self.eat(')')
            if t == ('slice', ('name', 'rune')) and isinstance(x, bytes):
                x = [ord(c) for c in x.decode()]
            return x
        if self.peek() == '{':
            return self.composite(t)
        raise Other(f'line {self.line()}: {v}')
    def composite(self, ty):
        self.eat('{')
        if ty is None:
            raise Other('elided type')
        out = []
        if ty[0] == 'map':
            while self.peek() != '}':
                k = self.expr(ty[1]); self.eat(':')
                out.append((k, self.expr(ty[2])))
                if self.peek() == ',':
                    self.next()
            self.eat('}')
            return out
        if ty == ('name', 'sql.NullString'):
            s = self.expr(None); self.eat(','); ok = self.expr(None); self.eat('}')
            return ('ptr', s) if ok else None
        if ty == ('name', 'time.Time'):
            self.eat('}')
            return ('time', 1, 1, 1, 0, 0, 0, 0)
        if ty == ('name', 'net.IPNet'):
            ip = None
            if self.peek() == 'IP':
                self.next(); self.eat(':'); ip = self.expr(None)
            self.eat('}')
            return ('ipnet', ip)
        el = ty[-1]
        while self.peek() != '}':
            out.append(self.expr(el))
            if self.peek() == ',':
                self.next()
        self.eat('}')
        if ty[0] == 'arr':
            out += [zero(el)] * (ty[1] - len(out))
        if ty == ('slice', ('name', 'byte')):
            return bytes(out)
        return out

def zero(ty):
    if ty[0] == 'arr':
        return [zero(ty[2])] * ty[1]
    if ty in (('name', 'float64'), ('name', 'float32')):
        return ('fl', 0.0)
    if ty == ('name', 'time.Time'):
        return ('time', 1, 1, 1, 0, 0, 0, 0)
    return 0

# ---------------------------------------------------------------- Lean terms

def chars(points):
    out = ''
    for c in points:
        if c in (34, 92):
            out += '\\' + chr(c)
        elif 32 <= c < 127 or c > 255:
            out += chr(c)
        else:
            out += '\\x%02x' % c
    return 'b!"%s"' % out

def by(v):
    assert isinstance(v, bytes), v
    return chars(v)
def char(c): return f'(Char.ofNat {c})'
def boolean(v): return 'true' if v else 'false'
def integer(v):
    if isinstance(v, tuple):
        assert v[0] == 'fl' and v[1] == int(v[1])
        v = int(v[1])
    return f'({v})' if v < 0 else str(v)
def natural(v): return str(v)
def optb(v): return 'none' if v is None else f'(some {by(v)})'
def optp(v): return 'none' if v is None else f'(some {by(v[1])})'
def lst(f): return lambda v: '[' + ', '.join(f(x) for x in v) + ']'
def opt(f): return lambda v: 'none' if v is None else f'(some {f(v)})'
def ol(f): return opt(lst(f))
def tup(f): return lambda v: '(' + ', '.join(f(x) for x in v) + ')'
def entry(f): return lambda e: f'({by(e[0])}, {f(e[1])})'
def fl(v):
    x = v[1]
    if x == 0:
        return '(.fin false 0)'
    b = struct.unpack('<Q', struct.pack('<d', abs(x)))[0]
    e, m = b >> 52, b & (2 ** 52 - 1)
    assert e > 0
    m, e = m + 2 ** 52, e - 1
    while m % 2 == 0:
        m, e = m // 2, e + 1
    return f'(.fin {boolean(x < 0)} ({m} * 2 ^ {e}))'
def pts(v): return tup(fl)(v)
def pts2(v): return '(' + pts(v[0]) + ', ' + pts(v[1]) + ')'
def time(v):
    _, y, mo, d, h, mi, s, ms = v
    return f'{{ year := {y}, month := {mo}, day := {d}, hour := {h}, minute := {mi}, second := {s}, nano := {ms * 10 ** 6} }}'
def times(v): return f'({time(v[0])}, {time(v[1])})'
def raw(bs): return '[' + ', '.join(str(b) for b in bs) + ']'
def ipbytes(s):
    import ipaddress
    a = ipaddress.ip_address(s.decode())
    return (bytes(10) + b'\xff\xff' + a.packed) if a.version == 4 else a.packed
def ip(v):
    return 'none' if v is None else f'(some {raw(ipbytes(v[1]))})'
def ipnet(v):
    import ipaddress
    if v[0] == 'ipnet':
        return f'⟨{ip(v[1]) if v[1] else "none"}, none⟩'
    n = ipaddress.ip_network(v[1].decode(), strict=False)
    return f'⟨some {raw(n.network_address.packed)}, some {raw(n.netmask.packed)}⟩'
def mac(v):
    return 'none' if v is None else f'(some {raw(bytes.fromhex(v[1].decode().replace(":", "")))})'
def uuid(v): return raw(bytes.fromhex(v[1].decode().replace('-', '')))
def raws(v): return raw(v)
def runes(v):
    if isinstance(v, bytes):
        return chars([ord(c) for c in v.decode()])
    return chars(v)
def onerunes(v):
    if v is None: return 'none'
    assert all(len(x.decode()) == 1 for x in v)
    return f'(some {chars([ord(x.decode()) for x in v])})'

# valuer: (value, scanner, term of the input, term of the output, how they are compared)
T = {}
def row(valuer, scanner, value, scan, term, out=None, cmp='gives'):
    T[valuer] = (scanner, value, scan, term, out or term, cmp)

st = lambda f: (lambda x: f'stored ({f} {x})')
va = lambda f: (lambda x: f'{f} {x}')
tx = lambda f: (lambda x: f'.text ({f} {x})')

for k in ('Text', 'VarChar'):
    row(f'{k}ArrayFromStringSlice', f'{k}ArrayToStringSlice', st('textFromStrings'), 'textToStrings none', ol(by))
    row(f'{k}ArrayFromByteSliceSlice', f'{k}ArrayToByteSliceSlice', st('textFromBytes'), 'textToBytes none', ol(optb))
for k in ('BPChar', 'Char'):
    row(f'{k}ArrayFromString', f'{k}ArrayToString', st('charFromString'), 'charToString []', runes, by)
    row(f'{k}ArrayFromByteSlice', f'{k}ArrayToByteSlice', st('charFromBytes'), 'charToBytes none', optb)
    row(f'{k}ArrayFromRuneSlice', f'{k}ArrayToRuneSlice', st('charFromRunes'), 'charToRunes none', opt(runes))
    row(f'{k}ArrayFromStringSlice', f'{k}ArrayToStringSlice', st('charFromRunes'), 'charToRunes none', onerunes)
    row(f'{k}FromByte', f'{k}ToByte', tx('charFromByte'), "charToByte '\\x00'", char, cmp='is')
    row(f'{k}FromRune', f'{k}ToRune', tx('charFromRune'), "charToRune '\\x00'", char, cmp='is')
for k in ('JSON', 'XML'):
    row(f'{k}ArrayFromByteSliceSlice', f'{k}ArrayToByteSliceSlice', st('jsonFromBytes'), 'jsonToBytes none', ol(optb))
row('BoolArrayFromBoolSlice', 'BoolArrayToBoolSlice', va('boolFromBools'), 'boolToBools none', ol(boolean))
row('BitArrayFromBoolSlice', 'BitArrayToBoolSlice', va('bitFromBools'), 'bitToBools none', ol(boolean))
for t in ('Uint8', 'Uint'):
    row(f'BitArrayFrom{t}Slice', f'BitArrayTo{t}Slice', va('bitFromUints'), 'bitToUints none', ol(natural))
row('VarBitFromInt64', 'VarBitToInt64', tx('varbitFromInt'), 'varbitToInt 0', integer)
row('VarBitFromBoolSlice', 'VarBitToBoolSlice', st('varbitFromBools'), 'varbitToBools none', ol(boolean))
row('VarBitFromUint8Slice', 'VarBitToUint8Slice', st('varbitFromUint8s'), 'varbitToUint8s none', ol(natural))
row('VarBitArrayFromBoolSliceSlice', 'VarBitArrayToBoolSliceSlice', va('varbitArrFromBools'), 'varbitArrToBools none', ol(ol(boolean)))
row('VarBitArrayFromUint8SliceSlice', 'VarBitArrayToUint8SliceSlice', va('varbitArrFromUint8s'), 'varbitArrToUint8s none', ol(ol(natural)))
row('VarBitArrayFromStringSlice', 'VarBitArrayToStringSlice', va('varbitArrFromStrings'), 'varbitArrToStrings none', ol(by))
row('VarBitArrayFromInt64Slice', 'VarBitArrayToInt64Slice', st('varbitArrFromInts'), 'varbitArrToInts none', ol(integer))
for t in ('StringSlice', 'ByteSliceSlice'):
    row(f'ByteaArrayFrom{t}', f'ByteaArrayTo{t}', st('byteaFromBytes'), 'byteaToBytes none', ol(raws))
row('UUIDFromByteArray16', 'UUIDToByteArray16', tx('formatUUID'), 'uuidScan [] (List.replicate 16 0)', uuid)
row('UUIDArrayFromByteArray16Slice', 'UUIDArrayToByteArray16Slice', va('uuidArrValue'), 'uuidArrScan [] none', ol(uuid))
row('UUIDArrayFromStringSlice', 'UUIDArrayToStringSlice', va('uuidArrFromTexts'), 'uuidArrToStrings none', ol(optb), ol(by))
row('UUIDArrayFromByteSliceSlice', 'UUIDArrayToByteSliceSlice', va('uuidArrFromTexts'), 'uuidArrToTexts none', ol(optb))
row('HStoreFromStringMap', 'HStoreToStringMap', st('hstoreFromMap'), 'hstoreToMap none', ol(entry(by)), cmp='givesMap')
row('HStoreArrayFromStringMapSlice', 'HStoreArrayToStringMapSlice', st('hstoreArrFromMaps'), 'hstoreArrToMaps none', ol(ol(entry(by))), cmp='givesMaps')
for t in ('StringPtr', 'NullString'):
    row(f'HStoreFrom{t}Map', f'HStoreTo{t}Map', st('hstoreFromPtrMap'), 'hstoreToPtrMap none', ol(entry(optp)), cmp='givesMap')
    row(f'HStoreArrayFrom{t}MapSlice', f'HStoreArrayTo{t}MapSlice', st('hstoreArrFromPtrMaps'), 'hstoreArrToPtrMaps none', ol(ol(entry(optp))), cmp='givesMaps')
for t in ('StringSlice', 'ByteSliceSlice'):
    row(f'TSVectorFrom{t}', f'TSVectorTo{t}', va('tsVectorValue'), 'tsVectorScan none', ol(by))
    row(f'TSVectorArrayFrom{t}Slice', f'TSVectorArrayTo{t}Slice', va('tsVecArrValue'), 'tsVecArrScan none', ol(ol(by)))
row('TSQueryArrayFromStringSlice', 'TSQueryArrayToStringSlice', va('tsQueryFromStrings'), 'tsQueryToStrings none', ol(by))
row('TSQueryArrayFromByteSliceSlice', 'TSQueryArrayToByteSliceSlice', va('tsQueryFromBytes'), 'tsQueryToBytes none', ol(optb))
row('MoneyFromInt64', 'MoneyToInt64', tx('moneyValue'), 'moneyScan 0', integer)
row('MoneyArrayFromInt64Slice', 'MoneyArrayToInt64Slice', st('moneyArrValue'), 'moneyArrScan none', ol(integer))
for k in ('Float4', 'Float8', 'Numeric'):
    for t in ('Float32', 'Float64'):
        n = k[0].lower() + k[1:]
        row(f'{k}ArrayFrom{t}Slice', f'{k}ArrayTo{t}Slice', st(f'{n}From{t}'), f'{n}To{t} none', ol(fl))
ints = ['Int', 'Int8', 'Int16', 'Int32', 'Int64', 'Uint', 'Uint8', 'Uint16', 'Uint32', 'Uint64']
def irow(valuer, sc, value, scan, dest, term):
    row(valuer, sc, value, f'{scan} (scanner "{sc[0].lower() + sc[1:]}") {dest}', term)
for t in ints + ['Float32', 'Float64']:
    for k in ('Int2', 'Int4', 'Int8', 'Numeric'):
        if not (k == 'Numeric' and t[0] == 'F'):
            irow(f'{k}ArrayFrom{t}Slice', f'{k}ArrayTo{t}Slice', st('intArrValue'), 'intArrScan', 'none', ol(integer))
    irow(f'Int2VectorFrom{t}Slice', f'Int2VectorTo{t}Slice', st('vecValue'), 'vecScan', 'none', ol(integer))
    irow(f'Int2VectorArrayFrom{t}SliceSlice', f'Int2VectorArrayTo{t}SliceSlice', st('vecArrValue'), 'vecArrScan', 'none', ol(lst(integer)))
    for k in ('Int4', 'Int8', 'Num'):
        irow(f'{k}RangeFrom{t}Array2', f'{k}RangeTo{t}Array2', tx('rangeValue'), 'rangeScan', '(0, 0)', tup(integer))
        irow(f'{k}RangeArrayFrom{t}Array2Slice', f'{k}RangeArrayTo{t}Array2Slice', st('rangeArrValue'), 'rangeArrScan', 'none', ol(tup(integer)))
Z = '(.fin false 0, .fin false 0)'
def geo(name, typ, value, scan, dest, term, wrap):
    row(f'{name}From{typ}', f'{name}To{typ}', wrap(value + ' coords'), f'{scan} coords {dest}', term)
geo('Point', 'Float64Array2', 'pointValue', 'pointScan', Z, pts, tx)
geo('PointArray', 'Float64Array2Slice', 'pointArrValue', 'pointArrScan', 'none', ol(pts), st)
geo('Lseg', 'Float64Array2Array2', 'lsegValue', 'lsegScan', f'({Z}, {Z})', pts2, tx)
geo('LsegArray', 'Float64Array2Array2Slice', 'lsegArrValue', 'lsegArrScan', 'none', ol(pts2), st)
geo('Box', 'Float64Array2Array2', 'boxValue', 'boxScan', f'({Z}, {Z})', pts2, tx)
geo('BoxArray', 'Float64Array2Array2Slice', 'boxArrValue', 'boxArrScan', 'none', ol(pts2), st)
geo('Line', 'Float64Array3', 'lineValue', 'lineScan', f'(.fin false 0, {Z[1:]}', pts, tx)
geo('LineArray', 'Float64Array3Slice', 'lineArrValue', 'lineArrScan', 'none', ol(pts), st)
for k in ('path', 'polygon'):
    geo(k.capitalize(), 'Float64Array2Slice', f'{k}Value', f'{k}Scan', 'none', ol(pts), st)
    geo(k.capitalize() + 'Array', 'Float64Array2SliceSlice', f'{k}ArrValue', f'{k}ArrScan', 'none', ol(ol(pts)), st)
ZT = '(zeroTime, zeroTime)'
row('DateArrayFromTimeSlice', 'DateArrayToTimeSlice', st('timeArrValue dateLayout'), 'timeArrScan dateLayout none', ol(time))
row('TimeArrayFromTimeSlice', 'TimeArrayToTimeSlice', st('timeArrValue timeLayout'), 'timeArrScan timeLayout none', ol(time))
row('TimestampArrayFromTimeSlice', 'TimestampArrayToTimeSlice', st('stampArrValue timestampLayout'), 'stampArrScan timestampLayout none', ol(time))
row('TsRangeFromTimeArray2', 'TsRangeToTimeArray2', tx('stampRangeValue timestampLayout'), f'stampRangeScan timestampLayout {ZT}', times)
row('TsRangeArrayFromTimeArray2Slice', 'TsRangeArrayToTimeArray2Slice', st('stampRangeArrValue timestampLayout'), 'stampRangeArrScan timestampLayout none', ol(times))
row('DateRangeFromTimeArray2', 'DateRangeToTimeArray2', tx('dateRangeValue'), f'dateRangeScan {ZT}', times)
row('DateRangeArrayFromTimeArray2Slice', 'DateRangeArrayToTimeArray2Slice', st('dateRangeArrValue'), 'dateRangeArrScan none', ol(times))
row('InetFromIPNet', 'InetToIPNet', st('inetFromNet'), 'inetToNet ⟨none, none⟩', ipnet)
row('InetFromIP', 'InetToIP', st('inetFromIP'), 'inetToIP none', ip)
row('InetArrayFromIPNetSlice', 'InetArrayToIPNetSlice', st('netArrValue'), 'inetArrToNets none', ol(ipnet))
row('InetArrayFromIPSlice', 'InetArrayToIPSlice', st('ipArrValue'), 'inetArrToIPs none', ol(ip))
row('CIDRFromIPNet', 'CIDRToIPNet', st('cidrFromNet'), 'cidrToNet ⟨none, none⟩', ipnet)
row('CIDRArrayFromIPNetSlice', 'CIDRArrayToIPNetSlice', st('netArrValue'), 'cidrArrToNets none', ol(ipnet))
for k in ('MACAddr', 'MACAddr8'):
    row(f'{k}FromHardwareAddr', f'{k}ToHardwareAddr', st('macValue'), 'macScan none', mac)
    row(f'{k}ArrayFromHardwareAddrSlice', f'{k}ArrayToHardwareAddrSlice', st('macArrValue'), 'macArrScan none', ol(mac))

# scanners of values that the driver decodes: the text of the input is stored
S = {}
for t in ('String', 'ByteSlice'):
    S[f'DateTo{t}'] = 'dateToString (asDate r)'
    S[f'TimeTo{t}'] = 'timeToString timeLayout [] (asClock r)'
    S[f'TimetzTo{t}'] = 'timeToString timetzLayout [] (asTimetz r)'

# the types of the columns (/repo/pgsql/convert_test.go:74-182)
one = {'bit': 'bit1', 'bool': 'boolean', 'bpchar': 'chars', 'char': 'chars', 'cidr': 'cidr', 'date': 'date',
       'float4': '(float single)', 'float8': '(float double)', 'inet': 'inet', 'int2': '(intBits 16)',
       'int4': '(intBits 32)', 'int8': '(intBits 64)', 'macaddr': '(mac 6)', 'macaddr8': '(mac 8)', 'money': 'money',
       'numeric': 'numeric', 'text': 'keep', 'time': 'time', 'timestamp': 'timestamp', 'tsquery': 'keep',
       'tsvector': 'keep', 'uuid': 'uuid', 'varbit': 'varbit', 'varchar': 'keep', 'bytea': 'bytea', 'line': 'shape',
       'lseg': 'shape', 'path': 'shape', 'point': 'shape', 'polygon': 'shape', 'hstore': 'hstore', 'box': 'box',
       'int2vector': 'int2vector', 'int4range': 'intRange', 'int8range': 'intRange', 'numrange': '(rangeOf numeric)',
       'daterange': 'daterange', 'tsrange': '(rangeOf timestamp)', 'json': 'keep', 'jsonb': 'jsonb', 'xml': 'keep', 'timetz': 'timetz'}
col = dict(one)
for k, v in one.items():
    col[k + 'arr'] = f'(arrayOf {v})'
col['boxarr'] = 'boxarr'
# the driver decodes the values of these types, the text that is scanned is not that of the server
decoded = {'bool', 'bytea', 'date', 'time', 'timestamp', 'timetz', 'timestamptz', 'float4', 'float8',
           'int2', 'int4', 'int8'}

# ---------------------------------------------------------------- files

files, left, total = [], [], 0
for path in sorted(glob.glob(REPO + '/pgsql/*_test.go')):
    name = os.path.basename(path)
    src = open(path).read()
    p = P(lex(src))
    while p.i < len(p.t):
        if p.peek() == 'testlist2' and p.t[p.i + 1].val == '{':
            p.next(); p.eat('{')
            lists = []
            while p.peek() != '}':
                p.eat('{')
                item = {'data': []}
                while p.peek() != '}':
                    key = p.next(); p.eat(':')
                    if key in ('valuer', 'scanner'):
                        item[key] = p.next()
                    else:
                        p.type(); p.eat('{')
                        while p.peek() != '}':
                            line = p.line()
                            p.eat('{')
                            td = {}
                            while p.peek() != '}':
                                k = p.next(); p.eat(':')
                                start = p.i
                                try:
                                    texty = p.peek() == 'string' or [x.val for x in p.t[p.i:p.i + 4]] == ['[', ']', 'byte', '(']
                                    td[k] = p.expr(None)
                                    td[k + 'text'] = texty
                                except Other as e:
                                    td['why'] = str(e)
                                    p.i = start; p.skip()
                                if p.peek() == ',':
                                    p.next()
                            p.eat('}')
                            if p.peek() == ',':
                                p.next()
                            item['data'].append((line, td))
                        p.eat('}')
                    if p.peek() == ',':
                        p.next()
                p.eat('}')
                lists.append(item)
                if p.peek() == ',':
                    p.next()
            p.eat('}')
            p.eat('.'); p.eat('execute'); p.eat('('); p.next(); p.eat(',')
            c = unquote(p.next()).decode()
            cases, texts = [], []
            for it in lists:
                v, s = it.get('valuer'), it.get('scanner')
                for line, td in it['data']:
                    total += 1
                    if c not in col:
                        left.append((name, line, c)); continue
                    if 'why' in td:
                        left.append((name, line, td['why'])); continue
                    if v in T and T[v][0] == s:
                        _, value, scan, term, out, cmp = T[v]
                        a, b = term(td['input']), out(td['output'])
                        r = f'decide ({scan} r = {b})' if cmp == 'is' else f'{cmp} ({scan} r) {b}'
                        cases.append(f'⟨{line}, {value(a)}, fun r => {r}⟩')
                    elif v is None and s in S:
                        cases.append(f'⟨{line}, .text {by(td["input"])}, fun r => decide ({S[s]} = {by(td["output"])})⟩')
                    elif v is None and s is None and c not in decoded and td['inputtext'] and td['outputtext'] \
                            and td['input'] is not None:
                        texts.append(f'({line}, {by(td["input"])}, {by(td["output"])})')
                    else:
                        left.append((name, line, f'{v} {s} {c}'))
            if cases or texts:
                files.append((c, name, cases, texts))
        else:
            m = src.splitlines()[p.line() - 1].strip()
            if re.match(r'[ABU] := ', m) and p.peek() in 'ABU':
                p.alias[p.peek()] = {'A': 'strptr', 'B': 'bytes', 'U': 'uuid16bytes'}[p.peek()]
            p.i += 1

per = 20
n = 0
names = []
for i in range(0, len(files), per):
    n += 1
    o = ['import Verif.Conform.PgServer', '', '/-', 'Cases of the tests of package pgsql, /repo/pgsql/*_test.go. Written by /verif/tools/pgsqlcases.py.', '-/',
         'namespace Verif.Conform.Codec', 'open Verif Verif.Pgsql Verif.PgServer', '']
    for c, name, cases, texts in files[i:i + per]:
        names.append((n, c))
        o += [f'/-- /repo/pgsql/{name}: {len(cases)} cases with a valuer and a scanner, {len(texts)} texts. -/',
              f'def {c}File : File where', f'  name := "{name}"', f'  col := {col[c][1:-1] if col[c].startswith("(") else col[c]}']
        for f, xs in (('cases', cases), ('texts', texts)):
            if xs:
                o += [f'  {f} := ['] + [f'    {x}' + (',' if j + 1 < len(xs) else ']') for j, x in enumerate(xs)]
            else:
                o += [f'  {f} := []']
        o += ['', f'theorem {c}_ok : {c}File.ok = true := by decide +kernel', '']
    o += ['end Verif.Conform.Codec', '']
    open(f'{OUT}/PgCases{n}.lean', 'w').write('\n'.join(o))
print(n, 'files;', len(files), 'tests;', sum(len(f[2]) for f in files), 'cases,', sum(len(f[3]) for f in files), 'texts of', total)
import collections
for k, v in sorted(collections.Counter((a, w) for a, _, w in left).items()):
    print('left out', k, v)
print(' '.join(c for _, c in names))
