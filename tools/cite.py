# check the citations of /repo in the model: files exist, lines exist, and a cited `name` occurs in the cited lines
import re,glob,os
root='/verif/lean/Verif'
bad=0
for f in sorted(glob.glob(root+'/**/*.lean',recursive=True)):
    s=open(f).read()
    for m in re.finditer(r'/repo/(\S+?\.rs):(\d[0-9, \-]*)',s):
        p='/repo/'+m.group(1)
        line=s[:m.start()].count('\n')+1
        if not os.path.exists(p): print(f,line,'missing',p); bad+=1; continue
        L=open(p).read().split('\n')
        rs=[(int(a),int(b or a)) for a,b in re.findall(r'(\d+)(?:-(\d+))?',m.group(2))]
        if any(b>len(L) or a>b for a,b in rs): print(f,line,'range',m.group(0)); bad+=1; continue
        # nearest backticked name before, within the same comment
        a=s.rfind('/-',0,m.start())
        pre=s[a:m.start()]
        names=re.findall(r'`([^`]*)`',pre)
        if not names: continue
        ids=re.findall(r'[A-Za-z_][A-Za-z_0-9]{3,}',names[-1])
        if not ids: continue
        text='\n'.join('\n'.join(L[x-1:y]) for x,y in rs)
        miss=[i for i in ids if i not in text]
        if len(miss)==len(ids) or (len(ids)==1 and miss): print(f"{f[len(root)+1:]}:{line} {m.group(0)} lacks {names[-1]}"); bad+=1
print(bad,'to look at')
