#!/usr/bin/env python3
"""Transcribes the serde structs and enums of /repo/src (not versions/, generator/) that are reachable from ROOTS into
lean/Verif/Gen/JsonSchema.lean, and one shipped balance unit into lean/Verif/Gen/BalanceSample.lean."""
import re,os,glob,json
from fractions import Fraction
ROOTS=['VersionedBalanceUnit','SC2EventIteratorItem','SC2EventIterator','TrackerEvent','GameEvent','MessageEvent','Details','InitData']
HERE=os.path.dirname(os.path.abspath(__file__))
T={}; ALIAS={}
def strip(l):
    return re.sub(r'//.*$','',l)
for p in sorted(glob.glob('/repo/src/**/*.rs',recursive=True)):
    if '/versions/' in p or '/generator/' in p: continue
    L=open(p).read().split('\n')
    for i,l in enumerate(L):
        m=re.match(r'pub type (\w+) = (.*);$',l)
        if m: ALIAS[m.group(1)]=m.group(2)
        m=re.match(r'pub (struct|enum) (\w+)(.*)$',l)
        if not m: continue
        kind,n,tail=m.groups()
        k=i-1; at=[]
        while k>=0 and (re.match(r'#\[|\)\]|    |///',L[k])): at.append(L[k]); k-=1
        at='\n'.join(reversed(at))
        if not ('Serialize' in at and 'Deserialize' in at): continue
        # container attributes that would change the form
        for a in re.findall(r'#\[serde\(([^\]]*)\)\]',at): assert re.fullmatch(r'rename = "\w+"',a),(n,a)
        if tail.strip().startswith('('):
            T[n]=(p,i+1,i+1,'newtype',re.match(r'\(pub (.*)\);',tail.strip()).group(1)); continue
        j=i
        while L[j]!='}': j+=1
        body='\n'.join(strip(x) for x in L[i+1:j])
        body=re.sub(r'/\*.*?\*/','',body,flags=re.S)
        T[n]=(p,i+1,j+1,kind,body)
def fields(body):
    out=[]; attrs=[]
    # split at top-level commas / attributes
    pos=0
    body=body.strip()
    while body:
        m=re.match(r'#\[(.*?)\]\s*',body,re.S)
        if m: attrs.append(m.group(1)); body=body[m.end():]; continue
        m=re.match(r'(?:pub(?:\([a-z]+\))? )?(\w+):\s*',body)
        assert m,body[:80]
        f=m.group(1); body=body[m.end():]
        d=0; t=''
        while body and not (body[0]==',' and d==0):
            if body[0] in '<[(': d+=1
            if body[0] in '>])': d-=1
            t+=body[0]; body=body[1:]
        body=body[1:].strip()
        key=f; kind='required'
        for a in attrs:
            m=re.fullmatch(r'serde\((.*)\)',a)
            if not m: 
                assert a.startswith(('cfg_attr(','arrow_field','doc')),a
                assert 'serde' not in a
                continue
            for part in m.group(1).split(','):
                part=part.strip()
                r=re.fullmatch(r'rename = "([^"]+)"',part)
                if r: key=r.group(1)
                elif part=='default': kind='default'
                elif part=='skip': kind='skip'
                else: raise Exception(a)
        attrs=[]
        out.append((f,key,kind,re.sub(r'\s+',' ',t).strip()))
    return out
def variants(body):
    out=[]; body=body.strip()
    while body:
        m=re.match(r'#\[(.*?)\]\s*',body,re.S)
        if m:
            assert m.group(1)=='default',m.group(1)
            body=body[m.end():]; continue
        m=re.match(r'(\w+)\s*',body); n=m.group(1); body=body[m.end():]
        if body.startswith('('):
            j=body.index(')'); t=body[1:j]; assert ',' not in t; out.append((n,'newtype',t)); body=body[j+1:]
        elif body.startswith('{'):
            j=body.index('}'); out.append((n,'fields',fields(body[1:j]))); body=body[j+1:]
        else: out.append((n,'unit',None))
        body=body.strip()
        assert body=='' or body[0]==',',body[:50]
        body=body[1:].strip()
    return out
P={'String':'.string','bool':'.bool','f32':'.f32','chrono::NaiveDateTime':'.date','usize':'(.uint 64)'}
def ty(t):
    t=t.strip()
    if t in P: return P[t]
    m=re.fullmatch(r'([ui])(8|16|32|64)',t)
    if m: return f'(.{"uint" if m.group(1)=="u" else "sint"} {m.group(2)})'
    m=re.fullmatch(r'Option<(.*)>',t)
    if m: return f'(.opt {ty(m.group(1))})'
    m=re.fullmatch(r'Vec<(.*)>',t)
    if m: return f'(.list {ty(m.group(1))})'
    m=re.fullmatch(r'Box<(.*)>',t)
    if m: return ty(m.group(1))
    m=re.fullmatch(r'\[(.*); (\d+)\]',t)
    if m: return f'(.array {m.group(2)} {ty(m.group(1))})'
    m=re.fullmatch(r'HashMap<(\w+), (.*)>',t)
    if m:
        k={'String':'.string','u32':'(.uint 32)','i64':'(.sint 64)'}[m.group(1)]
        return f'(.map {k} {ty(m.group(2))})'
    if t in ALIAS: return ty(ALIAS[t])
    assert t in T,t
    return 'j'+t
def deps(t):
    t=t.strip()
    for d in re.findall(r'[A-Za-z_]\w*',t):
        if d in T: visit(d)
        elif d in ALIAS: deps(ALIAS[d])
done=[]; busy=[]
def visit(n):
    if n in done: return
    assert n not in busy,n
    busy.append(n)
    p,a,b,kind,body=T[n]
    if kind=='struct':
        for f in fields(body): deps(f[3])
    elif kind=='newtype': deps(body)
    else:
        for v in variants(body):
            if v[1]=='newtype': deps(v[2])
            elif v[1]=='fields':
                for f in v[2]: deps(f[3])
    done.append(n)
for r in ROOTS: visit(r)
out=['import Verif.Misc.Json','/-!','# The serialized structs and enums','',
 'Generated by tools/gen_json.py: every struct and enum reachable from '+', '.join('`%s`'%r for r in ROOTS)+', with its fields in',
 'declaration order (serialized name, serde attribute, type).  `Box` is transparent, type aliases are resolved.','-/','namespace S2.Json','']
def fl(fs,ind):
    pad=' '*ind
    return ''.join(f'{pad}.cons "{k}" .{kind} {ty(t)} <|\n' for f,k,kind,t in fs)+pad+'.nil'
for n in done:
    p,a,b,kind,body=T[n]
    out.append(f'/-- `{n}` ({p}:{a}-{b}). -/')
    if kind=='struct':
        out.append(f'def j{n} : JTy := .struct (\n{fl(fields(body),2)})')
    elif kind=='newtype':
        out.append(f'def j{n} : JTy := {ty(body)}')
    else:
        o=''
        for v in variants(body):
            if v[1]=='unit': o+=f'  .unit "{v[0]}" <|\n'
            elif v[1]=='newtype': o+=f'  .newtype "{v[0]}" {ty(v[2])} <|\n'
            else: o+=f'  .fields "{v[0]}" (\n{fl(v[2],4)}) <|\n'
        out.append(f'def j{n} : JTy := .enum (\n{o}  .nil)')
    out.append('')
out.append('end S2.Json')
open(os.path.join(HERE,'../lean/Verif/Gen/JsonSchema.lean'),'w').write('\n'.join(out)+'\n')
print(len(done),'types')

# One of the shipped units, as a tree, to try the schema on
A='/repo/assets/BalanceData/95841/Tempest.json'
def q(x):
    f=Fraction(x)
    return f'({f.numerator}/{f.denominator} : Rat)' if f.denominator!=1 else f'({f.numerator} : Rat)'
def lit(x,ind):
    pad=' '*ind
    if x is None: return '.null'
    if isinstance(x,bool): return f'.bool {str(x).lower()}'
    if isinstance(x,int): return f'.int {x}' if x>=0 else f'.int ({x})'
    if isinstance(x,float): return f'.flt {q(x)}'
    if isinstance(x,str): return f'.str {json.dumps(x)}'
    if isinstance(x,list): return '.arr ['+', '.join(lit(y,ind+2) for y in x)+']'
    return '.obj ['+(',\n'+pad).join(f'("{k}", {lit(v,ind+2)})' for k,v in x.items())+']'
out=['import Verif.Misc.Json','/-!','# A shipped balance unit','',f'Generated by tools/gen_json.py from {A}.','-/','namespace S2.Json','',
 '/-- Floating point numbers as rational numbers (`none` is an infinity or a NaN; nothing is ever rounded) and dates as their',
 'texts, for trying things out. [example, no counterpart in /repo] -/',
 'def ratPrims : Prims where','  F32 := Option Rat','  F64 := Rat','  zero := some 0','  widen := id','  narrow := some','  ofInt i := some i',
 '  Date := String','  epoch := "1970-01-01T00:00:00"','  showDate := id','  readDate := some','',
 f'/-- The tree in {A}. -/','def tempestFile : Json ratPrims :=','  '+lit(json.load(open(A)),4),'','end S2.Json']
open(os.path.join(HERE,'../lean/Verif/Gen/BalanceSample.lean'),'w').write('\n'.join(out)+'\n')
