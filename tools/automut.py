#!/usr/bin/env python3
"""Random mutation of the model.  usage: automut.py seed out.jsonl [maxperdef]   (works in /tmp/mut/lean, a scratch copy)
Every definition of the model files (not Spec, Props, lemma files or the generated schemas) is cut into sites where a small
edit is possible: comparison, constant, +/-, and/or, true/false, swapped neighbours, dropped or duplicated argument.  Sites are taken in random
order, at most `maxperdef` per definition.  A mutant whose first error is in the edited definition itself is stillborn
and not counted.  The build is stopped at the first other error."""
import sys,re,json,subprocess,os,glob,random,time,signal
ROOT=os.environ.get("MUTROOT","/tmp/mut/lean")
FILES=["Bits","Text","Vlq","Schema/BitPacked","Schema/ByteAligned","Events/Convert","Events/Read","State/Balance","State/F32","State/Game",
"State/Merged","State/Tracker","State/Types"]+["Misc/"+x for x in "BalanceFiles Cache Cli Coords Details Export Files GenBytes GenDecls GenTags GenText Generator Handles Hex InitData Json JsonDir Main QuickHeader Replay Rows Scan Snapshot Time Tui".split()]
def defs(src):
    """(name, start, end) of definitions, in characters"""
    heads=[(m.start(),m.group(2),m.group(3)) for m in re.finditer(r'^(?:@\[[^\]]*\]\s*)?((?:private |protected )*)(def|theorem|lemma|instance|abbrev|structure|inductive|mutual|end|example|namespace|open|/--|/-!|set_option)\b\s*(\S*)',src,re.M)]
    heads+= [(m.start(),'/--','') for m in re.finditer(r'^/-[-!]',src,re.M)]
    heads.sort()
    out=[]
    for i,(p,k,n) in enumerate(heads):
        e=heads[i+1][0] if i+1<len(heads) else len(src)
        if k=='def': out.append((n,p,e))
    return out
def sites(body):
    """(start,end,replacement,kind) in body; the part after the first := or |"""
    m=re.search(r':=|\n\s*\|',body)
    if not m: return
    b0=m.start()
    def ok(i): 
        # not inside a -- comment
        ls=body.rfind('\n',0,i)+1
        c=body.find('--',ls)
        return i>=b0 and not (0<=c<i)
    R=[(r' < ',' ≤ '),(r' ≤ ',' < '),(r' > ',' ≥ '),(r' ≥ ',' > '),(r' \+ (?!\+)',' - '),(r' - ',' + '),(r' && ',' || '),(r' \|\| ',' && '),(r' ∧ ',' ∨ '),(r' ∨ ',' ∧ '),
       (r'\btrue\b','false'),(r'\bfalse\b','true'),(r' == ',' != '),(r' = ',' ≠ '),(r' \* ',' + '),(r'\bnot ',''),(r'isSome','isNone'),(r'\.min\b','.max'),(r'\.head\?','.getLast?'),(r'\.take ','.drop '),(r'\.drop ','.take ')]
    for r,w in R:
        for m in re.finditer(r,body):
            if ok(m.start()):
                if r==' = ' and re.search(r'let \S+$',body[:m.start()].split('\n')[-1]): continue
                yield (m.start(),m.end(),w,'op')
    for m in re.finditer(r'(?<![\w.#?′\'])(0x[0-9a-fA-F]+|\d+)(?![\w#])',body):
        if ok(m.start()):
            v=int(m.group(1),0)
            yield (m.start(1),m.end(1),str(v+1),'const')
            if v>0: yield (m.start(1),m.end(1),str(v-1),'const')
    # neighbours in anonymous constructors / lists
    for m in re.finditer(r'[⟨\[]([^⟨⟩\[\]\n]*)[⟩\]]',body):
        if not ok(m.start()): continue
        ps=m.group(1).split(', ')
        # not in a pattern: pattern positions are before =>
        line=body[body.rfind('\n',0,m.start())+1:]
        pre=body[body.rfind('\n',0,m.start())+1:m.start()]
        if re.match(r'\s*\|',pre) and '=>' not in pre: continue
        for i in range(len(ps)-1):
            if ps[i]!=ps[i+1]:
                q=ps[:]; q[i],q[i+1]=q[i+1],q[i]
                yield (m.start(1),m.end(1),', '.join(q),'swap')
    # match arms: replace the right-hand side of an arm by that of the next one
    arms=[m for m in re.finditer(r'^(\s*\|[^\n]*?=> )([^\n]+)$',body,re.M) if ok(m.start(2))]
    for a,b in zip(arms,arms[1:]):
        if a.group(2)!=b.group(2): yield (a.start(2),a.end(2),b.group(2),'arm')
    # record fields: drop an update { s with a := x, b := y }
    for m in re.finditer(r'(with [^{}\n]*?)(, \w+ := [^,{}\n]+)',body):
        if ok(m.start(2)): yield (m.start(2),m.end(2),'','drop')
    for m in re.finditer(r'\{ (\w+) with [^{},\n]+ \}',body):
        if ok(m.start()): yield (m.start(),m.end(),m.group(1),'drop')
def decl_at(path,line):
    name=None
    for n,l in enumerate(open(path,encoding='utf8'),1):
        if n>line: break
        m=re.match(r'\s*(?:@\[[^\]]*\]\s*)?(?:private |protected |noncomputable )*(theorem|lemma|def|abbrev|instance|example|inductive|structure)\s*(\S*)',l)
        if m: name=(m.group(2) if m.group(1)!='example' else 'example@%d'%n)
    return name
def run(cmd,stop):
    p=subprocess.Popen(cmd,cwd=ROOT,stdout=subprocess.PIPE,stderr=subprocess.STDOUT,text=True,start_new_session=True)
    buf=[]
    for l in p.stdout:
        buf.append(l)
        if stop(l):
            os.killpg(p.pid,signal.SIGKILL); p.wait(); return 'stopped',buf
    p.wait(); return p.returncode,buf
def main():
    seed=int(sys.argv[1]); out=sys.argv[2]; maxper=int(sys.argv[3]) if len(sys.argv)>3 else 2
    done=set()
    if os.path.exists(out): done={(r['file'],r['pos'],r['new']) for r in map(json.loads,open(out))}
    rnd=random.Random(seed)
    only=set(json.load(open(os.environ["ONLY"]))) if "ONLY" in os.environ else None   # restrict to these definitions
    allm=[]
    for f in FILES:
        src=open(ROOT+'/Verif/'+f+'.lean',encoding='utf8').read()
        for (n,s,e) in defs(src):
            if only is not None and n not in only: continue
            ss=[(f,n,s+a,s+b,w,k) for (a,b,w,k) in sites(src[s:e])]
            rnd.shuffle(ss)
            seen=0
            for x in ss[:maxper]: allm.append(x)
    rnd.shuffle(allm)
    print(len(allm),"mutants",flush=True)
    for (f,n,a,b,w,k) in allm:
        if (f,a,w) in done: continue
        path=ROOT+'/Verif/'+f+'.lean'
        src=open(path,encoding='utf8').read()
        line=src[:a].count('\n')+1
        ls=src.rfind('\n',0,a)+1; le=src.find('\n',b); le=len(src) if le<0 else le
        new=src[:a]+w+src[b:]
        t0=time.time(); err=[]
        def stop(l):
            m=re.match(r'error: (?:\./)?(Verif/\S+?\.lean):(\d+):(\d+): (.*)',l)
            if m:
                err.append((m.group(1),int(m.group(2)))); return True
            return False
        open(path,'w',encoding='utf8').write(new)
        try: rc,buf=run(['nice','lake','build'],stop)
        finally:
            d=[(p,decl_at(ROOT+'/'+p,ln)) for p,ln in err]
            open(path,'w',encoding='utf8').write(src)
        still=bool(d) and d[0][0]=='Verif/'+f+'.lean' and d[0][1]==n
        st='stillborn' if still else 'killed' if d else 'SURVIVED' if rc==0 else 'odd'
        r=dict(file=f,definition=n,pos=a,line=line,old=src[ls:a]+'⟦'+src[a:b]+'⟧'+src[b:le],new=w,kind=k,status=st,by=d[0][1] if d else None,where=d[0][0] if d else None,t=round(time.time()-t0))
        with open(out,'a') as o: o.write(json.dumps(r)+'\n')
        print(st,f,n,'|',(src[ls:a]+'⟦'+src[a:b]+'→'+w+'⟧'+src[b:le]).strip()[:150],'|',r['by'],r['t'],flush=True)
        if st=='odd': print(''.join(buf)[-500:],flush=True)
main()
