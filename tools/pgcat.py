"""The database of the tests as a value of the model's `Catalog`: the tables of
/repo/internal/postgres/testing.go, and the rows of PostgreSQL's own catalogs that they need."""
import os, re

# typname: (oid, format_type, typtype, typcategory, oid of the array type, typelem)
T = {
 'bool': (16, 'boolean', 'b', 'B', 1000, 0),
 'bytea': (17, 'bytea', 'b', 'U', 1001, 0),
 'char': (18, '"char"', 'b', 'S', 1002, 0),
 'name': (19, 'name', 'b', 'S', 1003, 18),
 'int8': (20, 'bigint', 'b', 'N', 1016, 0),
 'int2': (21, 'smallint', 'b', 'N', 1005, 0),
 'int2vector': (22, 'int2vector', 'b', 'A', 1006, 21),
 'int4': (23, 'integer', 'b', 'N', 1007, 0),
 'text': (25, 'text', 'b', 'S', 1009, 0),
 'oid': (26, 'oid', 'b', 'N', 1028, 0),
 'json': (114, 'json', 'b', 'U', 199, 0),
 'xml': (142, 'xml', 'b', 'U', 143, 0),
 'point': (600, 'point', 'b', 'G', 1017, 701),
 'lseg': (601, 'lseg', 'b', 'G', 1018, 600),
 'path': (602, 'path', 'b', 'G', 1019, 0),
 'box': (603, 'box', 'b', 'G', 1020, 600),
 'polygon': (604, 'polygon', 'b', 'G', 1027, 0),
 'line': (628, 'line', 'b', 'G', 629, 701),
 'cidr': (650, 'cidr', 'b', 'I', 651, 0),
 'float4': (700, 'real', 'b', 'N', 1021, 0),
 'float8': (701, 'double precision', 'b', 'N', 1022, 0),
 'unknown': (705, 'unknown', 'p', 'X', 0, 0),
 'circle': (718, 'circle', 'b', 'G', 719, 0),
 'macaddr8': (774, 'macaddr8', 'b', 'U', 775, 0),
 'money': (790, 'money', 'b', 'N', 791, 0),
 'macaddr': (829, 'macaddr', 'b', 'U', 1040, 0),
 'inet': (869, 'inet', 'b', 'I', 1041, 0),
 'bpchar': (1042, 'character', 'b', 'S', 1014, 0),
 'varchar': (1043, 'character varying', 'b', 'S', 1015, 0),
 'date': (1082, 'date', 'b', 'D', 1182, 0),
 'time': (1083, 'time without time zone', 'b', 'D', 1183, 0),
 'timestamp': (1114, 'timestamp without time zone', 'b', 'D', 1115, 0),
 'timestamptz': (1184, 'timestamp with time zone', 'b', 'D', 1185, 0),
 'interval': (1186, 'interval', 'b', 'T', 1187, 0),
 'timetz': (1266, 'time with time zone', 'b', 'D', 1270, 0),
 'bit': (1560, 'bit', 'b', 'V', 1561, 0),
 'varbit': (1562, 'bit varying', 'b', 'V', 1563, 0),
 'numeric': (1700, 'numeric', 'b', 'N', 1231, 0),
 'uuid': (2950, 'uuid', 'b', 'U', 2951, 0),
 'tsvector': (3614, 'tsvector', 'b', 'U', 3643, 0),
 'tsquery': (3615, 'tsquery', 'b', 'U', 3645, 0),
 'jsonb': (3802, 'jsonb', 'b', 'U', 3807, 0),
 'int4range': (3904, 'int4range', 'r', 'R', 3905, 0),
 'numrange': (3906, 'numrange', 'r', 'R', 3907, 0),
 'tsrange': (3908, 'tsrange', 'r', 'R', 3909, 0),
 'tstzrange': (3910, 'tstzrange', 'r', 'R', 3911, 0),
 'daterange': (3912, 'daterange', 'r', 'R', 3913, 0),
 'int8range': (3926, 'int8range', 'r', 'R', 3927, 0),
 # the types that the script creates; the numbers are arbitrary
 'color_enum': (16501, 'color_enum', 'e', 'E', 16502, 0),
 'css_styles': (16503, 'css_styles', 'c', 'C', 16504, 0),
}
ALIAS = {'boolean': 'bool', 'integer': 'int4', 'serial': 'int4'}

COMPARE = '= <> < > <= >='.split()
MATCH = '~ ~* !~ !~* ~~ !~~ ~~* !~~*'.split()

def operators():
    out = []
    def add(names, l, r):
        for n in names:
            out.append((n, T[l][0] if isinstance(l, str) else l, T[r][0] if isinstance(r, str) else r))
    for t in '''bool char name int8 int2 int4 text oid float4 float8 macaddr8 money macaddr inet bpchar date
            time timestamp timestamptz interval timetz bit varbit numeric uuid tsvector tsquery jsonb
            bytea lseg box circle path'''.split():
        add(COMPARE, t, t)
    add(['='], 'line', 'line')
    for l in ('int2', 'int4', 'int8'):
        for r in ('int2', 'int4', 'int8'):
            if l != r:
                add(COMPARE, l, r)
    for l, r in (('float4', 'float8'), ('float8', 'float4'), ('name', 'text'), ('text', 'name')):
        add(COMPARE, l, r)
    for l in ('date', 'timestamp', 'timestamptz'):
        for r in ('date', 'timestamp', 'timestamptz'):
            if l != r:
                add(COMPARE, l, r)
    for l in ('text', 'bpchar', 'name'):
        add(MATCH, l, 'text')
    add(['~~', '!~~'], 'bytea', 'bytea')
    add(COMPARE, 2277, 2277)  # anyarray
    add(COMPARE, 3500, 3500)  # anyenum
    add(COMPARE, 3831, 3831)  # anyrange
    return out

CASTS = '''
int8 int2 a; int8 int4 a; int8 float4 i; int8 float8 i; int8 numeric i
int2 int8 i; int2 int4 i; int2 float4 i; int2 float8 i; int2 numeric i
int4 int8 i; int4 int2 a; int4 float4 i; int4 float8 i; int4 numeric i
float4 int8 a; float4 int2 a; float4 int4 a; float4 float8 i; float4 numeric a
float8 int8 a; float8 int2 a; float8 int4 a; float8 float4 a; float8 numeric a
numeric int8 a; numeric int2 a; numeric int4 a; numeric float4 i; numeric float8 i
money numeric a; numeric money a; int4 money a; int8 money a
int4 bool e; bool int4 e
text bpchar i; text varchar i; bpchar text i; bpchar varchar i; varchar text i; varchar bpchar i
char text i; name text i; char bpchar a; name bpchar a; char varchar a; name varchar a
text char a; bpchar char a; varchar char a; text name i; bpchar name i; varchar name i
char int4 e; int4 char e
date timestamp i; date timestamptz i; time interval i; time timetz i
timestamp date a; timestamp time a; timestamp timestamptz i
timestamptz date a; timestamptz time a; timestamptz timestamp a; timestamptz timetz a
interval time a; timetz time a
cidr inet i; inet cidr a; cidr text a; inet text a; bool text a; xml text a; text xml e
cidr varchar a; inet varchar a; bool varchar a; xml varchar a; varchar xml e; bpchar xml e
bit varbit i; varbit bit i; int8 bit e; int4 bit e; bit int8 e; bit int4 e
macaddr macaddr8 i; macaddr8 macaddr i; json jsonb a; jsonb json a
path polygon a; polygon path a; box polygon a; point box a
bpchar bpchar i; varchar varchar i; time time i; timestamp timestamp i; timestamptz timestamptz i
interval interval i; timetz timetz i; bit bit i; varbit varbit i; numeric numeric i
'''

def casts():
    for c in re.split(r'[;\n]', CASTS):
        if c.strip():
            s, t, k = c.split()
            yield T[s][0], T[t][0], k

# pg_proc: lower and upper on texts, and the script's function
PROCS = [('lower', 25, 25), ('lower', 3831, 2283), ('upper', 25, 25), ('upper', 3831, 2283),
         ('increment', 23, 23)]

def split_top(s):
    out, d, cur, q = [], 0, '', False
    for c in s:
        if c == "'":
            q = not q
        if not q:
            if c in '([{':
                d += 1
            if c in ')]}':
                d -= 1
            if c == ',' and d == 0:
                out.append(cur)
                cur = ''
                continue
        cur += c
    out.append(cur)
    return [x.strip() for x in out]

class Table:
    def __init__(self, name, kind='r'):
        self.name, self.kind = name, kind
        self.cols, self.cons, self.idx = [], [], []  # (name, type oid, typmod, notnull, default, pk)
    def num(self, c):
        return [x['name'] for x in self.cols].index(c) + 1
    def index(self, name, cols, unique=False, primary=False, exprs=None, pred='', pexpr=''):
        u = 'UNIQUE ' if unique else ''
        d = f'CREATE {u}INDEX {name} ON public.{self.name} USING btree ({", ".join(exprs or cols)})'
        if pred:
            d += f' WHERE ({pred})'
        key = [self.num(c) if c in [x['name'] for x in self.cols] else 0 for c in cols]
        self.idx.append(dict(name=name, unique=unique, primary=primary, key=key, definition=d, pred=pred))

def column(spec):
    m = re.match(r'(\w+)\s+(\w+)(?:\((\d+)\))?(\[\])?\s*(.*)$', spec, re.S)
    name, typ, n, arr, rest = m.groups()
    serial = typ == 'serial'
    mod = -1
    if typ == 'char':
        typ, mod = 'bpchar', 4 + int(n or 1)
    elif typ in ('bpchar', 'varchar') and n:
        mod = 4 + int(n)
    elif typ == 'bit':
        mod = int(n or 1)
    elif typ == 'varbit' and n:
        mod = int(n)
    t = T[ALIAS.get(typ, typ)]
    low = re.sub(r"'[^']*'", "''", rest).lower()
    return dict(name=name, oid=t[4] if arr else t[0], mod=mod, notnull='not null' in low or serial or 'primary key' in low,
                default='default' in low or serial, pk='primary key' in low, unique='unique' in low,
                ref=re.search(r'references\s+(\w+)', low))

def tables(repo):
    src = open(os.path.join(repo, 'internal/postgres/testing.go')).read()
    ddl = src[src.index('populatedbquery = `') + 19:src.index('` //`')]
    ddl = re.sub(r'--[^\n]*', '', ddl)
    ddl = re.sub(r'\$\$.*?\$\$', '', ddl, flags=re.S)
    out = {}
    for st in re.split(r";(?=(?:[^']*'[^']*')*[^']*$)", ddl):
        st = st.strip()
        m = re.match(r'CREATE TABLE (\w+) \((.*)\)$', st, re.S)
        if m:
            t = Table(m.group(1))
            pk = None
            uniq = []
            for s in split_top(m.group(2)):
                if s.upper().startswith('PRIMARY KEY'):
                    pk = [x.strip() for x in s[s.index('(') + 1:s.rindex(')')].split(',')]
                else:
                    c = column(s)
                    t.cols.append(c)
                    if c['pk']:
                        pk = [c['name']]
                    if c['unique']:
                        uniq.append(c['name'])
                    if c['ref']:
                        t.cons.append((f'{t.name}_{c["name"]}_fkey', 'f'))
            if pk:
                for c in t.cols:
                    if c['name'] in pk:
                        c['pk'] = c['notnull'] = True
                t.cons.insert(0, (f'{t.name}_pkey', 'p'))
                t.index(f'{t.name}_pkey', pk, True, True)
            for c in uniq:
                t.cons.append((f'{t.name}_{c}_key', 'u'))
                t.index(f'{t.name}_{c}_key', [c], True)
            out[t.name] = t
            continue
        m = re.match(r'CREATE (UNIQUE )?INDEX (\w+) ON (\w+) \((.*?)\)(?: where (.*))?$', st, re.S)
        if m:
            t = out[m.group(3)]
            parts = split_top(m.group(4))
            shown = [re.sub(r'\bcollate\b', 'COLLATE', p) for p in parts]
            t.index(m.group(2), parts, bool(m.group(1)), exprs=shown, pred=m.group(5) or '')
            continue
        m = re.match(r'ALTER TABLE (\w+) ADD CONSTRAINT (\w+) (UNIQUE|FOREIGN KEY) \((.*?)\)', st)
        if m:
            t = out[m.group(1)]
            if m.group(3) == 'UNIQUE':
                t.cons.append((m.group(2), 'u'))
                t.index(m.group(2), [x.strip() for x in m.group(4).split(',')], True)
            else:
                t.cons.append((m.group(2), 'f'))
            continue
        m = re.match(r'CREATE VIEW (\w+) AS SELECT(.*)FROM (\w+)$', st, re.S)
        if m:
            t, b = Table(m.group(1), 'v'), out[m.group(3)]
            for s in split_top(m.group(2)):
                if re.fullmatch(r'\w+', s):
                    c = dict(b.cols[b.num(s) - 1])
                else:
                    c = dict(name=s.split()[-1], oid=16, mod=-1)
                c.update(notnull=False, default=False, pk=False)
                t.cols.append(c)
            out[t.name] = t
            continue
        assert re.match(r'CREATE (TYPE|FUNCTION|EXTENSION)|$', st), st
    return out
