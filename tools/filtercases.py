"""Transcribe /repo/filter/filter_test.go: python3 filtercases.py /repo /verif/lean/Verif/Conform/FilterCases.lean"""
import re, sys
src=open(sys.argv[1]+'/filter/filter_test.go').read()
head="""import Verif.Conform.FilterBase

/-
The tests of package filter, /repo/filter/filter_test.go: TestFilter (lines 41-374) and Test_toTSQuery
(lines 392-407). Written by /verif/tools/filtercases.py.
-/
namespace Verif.Conform.FilterTest
open Verif Verif.Filter

/-- The cases of TestFilter. -/
def cases : List Case :=
"""
body=src[src.index('tests := []struct'):src.index('for _, tt := range tests')]
parts=re.split(r'\n\t\tname: ',body)[1:]
def B(s): return 'b!"'+s.replace('\\','\\\\').replace('"','\\"')+'"'
def lit(s):
    s=s.strip()
    if s[0]=='`': return s[1:-1]
    assert s[0]=='"' and '\\' not in s; return s[1:-1]
def parse_stmts(lines,i,closers):
    out=[]
    while i<len(lines):
        l=lines[i].strip(); i+=1
        if l in closers: return out,i
        if l in('return nil',''): continue
        m=re.match(r'(return |if err := )?c\.Unmarshal(FQL|Sort)\((.+?)\)(; err != nil \{)?$',l)
        if m:
            t=B(lit(m[3]))
            if m[2]=='Sort': assert m[1]; out.append('.sort '+t)
            elif m[1]: out.append('.fql '+t)
            else: out.append('.fqlDrop '+t)
            if m[4]:
                assert lines[i].strip()=='return err' and lines[i+1].strip()=='}'; i+=2
            continue
        m=re.match(r'c\.(And|Or)\(func\(\) \{$',l)
        if m:
            sub,i=parse_stmts(lines,i,['})'])
            sub=[re.match(r'\.call \((.*)\)$',x,re.S)[1] for x in sub]
            out.append('.call (.%sNest [%s])'%(m[1].lower(),', '.join(sub))); continue
        m=re.match(r'c\.(And|Or)\(nil\)$',l)
        if m: out.append('.call (.%s)'%m[1].lower()); continue
        m=re.match(r'c\.TextSearch\((.*)\)$',l)
        if m: out.append('.call (.textSearch %s)'%B(lit(m[1]))); continue
        m=re.match(r'c\.(Limit|Offset)\((\d+)\)$',l)
        if m: out.append('.call (.%s %s)'%(m[1].lower(),m[2])); continue
        m=re.match(r'c\.OrderBy\((".*?"), (true|false), (true|false)\)$',l)
        if m: out.append('.call (.orderBy %s %s %s)'%(B(lit(m[1])),m[2],m[3])); continue
        m=re.match(r'c\.Col\((".*?"), (".*?"), (.*)\)$',l)
        if m:
            a,b=B(lit(m[1])),B(lit(m[2])); v=m[3]
            if v.isdigit(): out.append('.call (colI %s %s %s)'%(a,b,v)); continue
            k=re.match(r'\[\](int|string)\{(.*)\}$',v)
            xs=k[2].split(', ')
            if k[1]=='int': vs='[%s]'%', '.join('.int '+x for x in xs)
            else: vs='[%s]'%', '.join('.string '+B(lit(x)) for x in xs)
            out.append('.call (.col %s %s (.slice .%s %s))'%(a,b,k[1],vs)); continue
        raise Exception(l)
    raise Exception('eof')
def split(s):
    out=[];d=0;q=None;cur=''
    for ch in s:
        if q:
            cur+=ch
            if ch==q:q=None
            continue
        if ch in '"`': q=ch
        if ch in '({[': d+=1
        if ch in ')}]': d-=1
        if ch==',' and d==0: out.append(cur); cur=''
        else: cur+=ch
    if cur.strip(): out.append(cur)
    return [x.strip() for x in out]
def param(x):
    m=re.match(r'int64\((-?\d+)\)$',x)
    if m: return 'i64 (%s)'%m[1]
    m=re.match(r'float64\((.*)\)$',x)
    if m: return '.v (.float64 %s)'%B(m[1])
    m=re.match(r'time\.Unix\((\d+), 0\)$',x)
    if m: return '.v (.time %s)'%m[1]
    m=re.match(r'myString\((.*)\)$',x)
    if m: return '.v (.myString %s)'%B(lit(m[1]))
    m=re.match(r'pgsql\.Int4ArrayFromIntSlice\(\[\]int\{(.*)\}\)$',x)
    if m: return '.array .int [%s]'%', '.join('.int '+y for y in m[1].split(', '))
    if x.isdigit(): return 'int '+x
    return 'str '+B(lit(x))
res=[]
for p in parts:
    name=re.match(r'"(.*?)"',p)[1]
    lines=p[p.index('run: func'):].split('\n')[1:]
    st,i=parse_stmts(lines,0,['},'])
    rest='\n'.join(lines[i:])
    m=re.search(r'pos: (\d+)',rest); pos=m[1] if m else None
    m=re.search(r'err:\s+UnknownColumnKeyError\{Key: "(.*?)"\}',rest)
    if m: want='.err (.unknownKey %s)'%B(m[1])
    else:
        m=re.search(r'where: (.*)',rest,re.S); t=m[1]
        w='';
        while True:
            k=re.match(r'\s*`(.*?)`\s*(\+)?',t)
            w+=k[1]; t=t[k.end():]
            if not k[2]: break
        ps='[]'
        k=re.search(r'params:\s*\[\]interface\{\}\{',t)
        if k:
            d=1; e=k.end()
            while d:
                d+={'{':1,'}':-1}.get(t[e],0); e+=1
            k=[None,t[k.end():e-1]]
        if k:
            ps='['+', '.join(param(x) for x in split(k[1]))+']'
        else:
            k=re.search(r'params:\s*i64s\((.*?)\)',t)
            if k: ps='['+', '.join('i64 '+x for x in k[1].split(', '))+']'
            else: assert 'params' not in t,t
        want='.sql %s\n        %s'%(B(w),ps)
    s='{ name := %s\n     body := [%s]\n'%(B(name),',\n       '.join(st))
    if pos: s+='     pos := %s\n'%pos
    s+='     want := %s }'%want
    res.append(s)
out='  ['+',\n   '.join(res)+']\n'
tail='''
/-- The cases of Test_toTSQuery (/repo/filter/filter_test.go:396-400). -/
def tsCases : List (Bytes × Bytes) :=
  ['''
q=src[src.index('func Test_toTSQuery'):]
tail+=',\n   '.join('(%s, %s)'%(B(a),B(b)) for a,b in re.findall(r'\{"(.*?)", "(.*?)"\},',q))+']\n\nend Verif.Conform.FilterTest\n'
open(sys.argv[2],'w').write(head+out+tail)
print(len(res))
