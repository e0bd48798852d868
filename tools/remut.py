#!/usr/bin/env python3
"""Repeats the surviving mutants of tools/automut.py after theorems were tightened.  usage: remut.py results.jsonl... > retest.jsonl"""
import sys,json,re,subprocess
sys.argv,files=sys.argv[:1],sys.argv[1:]
src=open(__file__.replace('remut','automut')).read().replace('\nmain()\n','\n')
exec(src)
for f in files:
    for r in map(json.loads,open(f)):
        if r['status']!='SURVIVED': continue
        path=ROOT+'/Verif/'+r['file']+'.lean'
        s=open(path,encoding='utf8').read()
        m=re.match(r'(.*)⟦(.*)⟧(.*)$',r['old'],re.S)
        old=m.group(1)+m.group(2)+m.group(3)
        if s.count(old)!=1: print('skip',r['definition'],s.count(old),file=sys.stderr); continue
        err=[]
        def stop(l):
            k=re.match(r'error: (?:\./)?(Verif/\S+?\.lean):(\d+):(\d+): (.*)',l)
            if k: err.append((k.group(1),int(k.group(2)))); return True
            return False
        open(path,'w',encoding='utf8').write(s.replace(old,m.group(1)+r['new']+m.group(3)))
        try: rc,buf=run(['nice','lake','build'],stop)
        finally:
            d=[(p,decl_at(ROOT+'/'+p,ln)) for p,ln in err]
            open(path,'w',encoding='utf8').write(s)
        r.update(status='killed' if d else 'SURVIVED' if rc==0 else 'odd',by=d[0][1] if d else None,where=d[0][0] if d else None,retest=True)
        print(json.dumps(r),flush=True)
