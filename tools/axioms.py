#!/usr/bin/env python3
"""Write AXIOMS.md: the axioms every manifest theorem depends on, as printed by Lean."""
import json,subprocess,re,os,collections
root=os.path.dirname(os.path.dirname(os.path.abspath(__file__)))
claims=json.load(open(root+'/MANIFEST.json'))['claims']
ths=[t for c in claims for t in c['theorems']]
src='import Verif\n'+''.join(f'#print axioms {t}\n' for t in ths)
p='/tmp/axioms_q.lean'; open(p,'w').write(src)
o=subprocess.run(['lake','env','lean',p],cwd=root+'/lean',capture_output=True,text=True).stdout
o=re.sub(r'\n\s+',' ',o)
g=collections.defaultdict(list)
for m in re.finditer(r"'([^']+)' (does not depend on any axioms|depends on axioms: \[([^\]]*)\])",o):
    g[m.group(3) and ', '.join(sorted(x.strip() for x in m.group(3).split(','))) or 'none'].append(m.group(1))
n=sum(len(v) for v in g.values()); assert n==len(ths),(n,len(ths),o[:500])
ok={'propext','Classical.choice','Quot.sound'}
with open(root+'/AXIOMS.md','w') as f:
    f.write('# Axioms of every theorem in MANIFEST.json\n\nOutput of `#print axioms`, grouped (`tools/axioms.py`). The three names that occur are the standard axioms of Lean.\n')
    for k in sorted(g):
        assert k=='none' or set(k.split(', '))<=ok,k
        f.write(f'\n## {k}\n\n'+', '.join(f'`{t}`' for t in g[k])+'\n')
print({k:len(v) for k,v in g.items()})
