import re
src=open('/verif/lean/Verif/Misc/GenBitCode.lean').read()
a=src.index('def bitMorph'); b=src.index('/-! ## What the code does -/')
seg=src[a:b]
lits=[]
for m in re.finditer(r'lit ("(?:[^"\\]|\\.)*")',seg):
    if m.group(1) not in lits: lits.append(m.group(1))
op={'{':'}','(':')','[':']'}
out=[]
def ch(c): return "'%s'"%c
for i,l in enumerate(lits):
    s=l[1:-1].replace('\\n','\n').replace('\\"','"')
    need=[];st=[]
    for c in s:
        if c in op: st.insert(0,op[c])
        elif c in '})]':
            if st:
                assert st[0]==c,(l,st); st.pop(0)
            else: need.append(c)
    f=lambda L: ' :: '.join([ch(c) for c in L]+['s'])
    g=lambda L: '['+', '.join(ch(c) for c in L)+']'
    out.append(f"theorem blit{i} (s : List Char) : awaited ({f(need)}) (lit {l}) = some ({f(st)}) :=\n  awaited_frame {g(need)} {g(st)} _ (by decide +kernel) s")
mac="/-- [proof device, no counterpart in /repo] -/\nmacro \"read_bit\" : tactic => `(tactic| first\n"+"\n".join(f"  | exact blit{i} _" for i in range(len(lits)))+")\n"
print("""import Verif.Props.GenText
import Verif.Spec.GenBitCodeSpec
/-! # Delimiters of the pieces of generated bit-packed text

For each literal piece of `Verif/Misc/GenBitCode.lean` the delimiters it needs and leaves (written by a script, checked by the kernel). -/
namespace S2.Generator
open S2

"""+"\n".join(out)+"\n\n"+mac+"""
/-- [proof device, no counterpart in /repo] -/
macro "read_bits" "[" ts:term,* "]" : tactic => do
  let hs := ts.getElems
  `(tactic| repeat with_reducible first | apply awaited_step | apply awaited_ite | exact awaited_nil _ $[| exact $hs]* | read_bit)

end S2.Generator""")
