#!/usr/bin/env python3
"""Mutation runner.  usage: mutate.py mutants.py out.jsonl  (works in /tmp/mut/lean, a scratch copy)
mutants.py defines M = [(definition, file, old, new, broken claim), ...].
For each: edit, lake build, record the declarations whose check fails and the property theorems that can no
longer be checked because a module they need fails; restore."""
import sys, re, json, subprocess, os, glob
ROOT=os.environ.get("MUTROOT","/tmp/mut/lean")
def decl_at(path, line):
    name=None
    for n,l in enumerate(open(path,encoding='utf8'),1):
        if n>line: break
        m=re.match(r'\s*(?:@\[[^\]]*\]\s*)?(?:private |protected |noncomputable )*(theorem|lemma|def|abbrev|instance|example|inductive|structure)\s*(\S*)',l)
        if m: name=(m.group(2) if m.group(1)!='example' else 'example@%d'%n)
    return name
def imports(path):
    return re.findall(r'^import (Verif\.\S+)',open(path,encoding='utf8').read(),re.M)
def main():
    ns={}; exec(open(sys.argv[1]).read(),ns)
    done=set()
    if os.path.exists(sys.argv[2]):
        done={(r['definition'],r['edit']) for r in map(json.loads,open(sys.argv[2]))}
    mods={p[len(ROOT)+1:-5].replace('/','.'):p for p in glob.glob(ROOT+'/Verif/**/*.lean',recursive=True)}
    deps={m:imports(p) for m,p in mods.items()}
    for (d,f,old,new,claim) in ns['M']:
        edit="%s: `%s` -> `%s`"%(f,old.strip(),new.strip())
        if (d,edit) in done: continue
        path=ROOT+'/Verif/'+f
        src=open(path,encoding='utf8').read()
        if src.count(old)!=1:
            print("BAD",d,src.count(old),old[:60],flush=True); continue
        open(path,'w',encoding='utf8').write(src.replace(old,new))
        try:
            out=subprocess.run(['nice','lake','build'],cwd=ROOT,capture_output=True,text=True,timeout=3600)
            txt=out.stdout+out.stderr
        finally:
            open(path,'w',encoding='utf8').write(src)
        failed=[]; badmods=set()
        for m in re.finditer(r'^error: (?:\./)?(Verif/\S+?\.lean):(\d+):(\d+): (.*)$',txt,re.M):
            p=ROOT+'/'+m.group(1); mod=m.group(1)[:-5].replace('/','.')
            badmods.add(mod)
            n=decl_at(p,int(m.group(2)))
            if (mod,n) not in failed: failed.append((mod,n))
        memo={}
        def blocked(m):
            if m not in memo:
                memo[m]=any(x in badmods or blocked(x) for x in deps.get(m,[]) if x in mods)
            return memo[m]
        bt=[]
        for m,p in sorted(mods.items()):
            if m.startswith('Verif.Props.') and m not in badmods and blocked(m):
                bt+=re.findall(r'^theorem (C\d\d+_\w+)',open(p,encoding='utf8').read(),re.M)
        r=dict(definition=d,edit=edit,claim=claim,theorems_failed=[n for _,n in failed],failed_in=sorted(badmods),blocked=bt,rc=out.returncode)
        with open(sys.argv[2],'a') as o: o.write(json.dumps(r)+"\n")
        print(d,'|',claim[:50],'|',"SURVIVED" if out.returncode==0 else [n for _,n in failed][:6],flush=True)
        if out.returncode!=0 and not failed: print(txt[-800:],flush=True)
main()
