#!/usr/bin/env python3
"""Builds seeded/LOG.jsonl from the results of tools/mutate.py.  usage: mklog.py results.jsonl...
TIGHTENED: what was done about a mutant that survived an earlier state of the theorems."""
import sys, json, os
ROOT=os.path.dirname(os.path.dirname(os.path.abspath(__file__)))
TIGHTENED={
 "shouldSkipEvent":["C37_max_events_partial","C39_hides_rejected"],
 "firstCommand":["C61_*"],"abilityName":["C61_*"],
 "convUnitBorn":["C101_*"],"convUnitDied":["C101_*"],"convUpgrade":["C101_*"],"convUnitTypeChange":["C101_*"],"convPlayerSetup":["C101_*"],
 "convCoord":["C102_*"],"convAbil":["C102_*"],"convTargetUnit":["C102_*"],"convCmd":["C102_*"],"convSelectionDelta":["C102_*"],
 "convGroupUpdate":["C102_*"],"convCameraUpdate":["C102_*"],
 "addI32":["C75_release_partial","C75_debug_partial"],
}
extra=json.load(open(os.path.join(ROOT,"tools","tightened.json"))) if os.path.exists(os.path.join(ROOT,"tools","tightened.json")) else {}
TIGHTENED.update(extra)
EQUIV=json.load(open(os.path.join(ROOT,"tools","equivalent.json")))
import re
def doc_of(file,name):
    """First sentence of the doc comment of a definition of the model."""
    L=open(os.path.join(ROOT,"lean","Verif",file+".lean"),encoding="utf8").read().split("\n")
    for i,l in enumerate(L):
        if re.match(r"\s*(?:@\[.*?\]\s*)?(?:partial |private )?(?:def|abbrev|structure|inductive) "+re.escape(name)+r"\b",l):
            j=i-1
            while j>=0 and not L[j].lstrip().startswith("/--"):
                if not L[j].strip(): return ""
                j-=1
            return re.split(r"(?<=[.:])\s|\(/repo"," ".join(x.strip() for x in L[j:i]).replace("/--","").replace("-/","").strip())[0]
    return ""
manifest=json.load(open(os.path.join(ROOT,"MANIFEST.json")))
names=[t for c in manifest["claims"] for t in c["theorems"]]
def expand(l):
    out=[]
    for t in l:
        if t.endswith("*"): out+=[n for n in names if n.split(".")[-1].startswith(t[:-1])]
        else: out+=[n for n in names if n.split(".")[-1]==t]
    return out
with open(os.path.join(ROOT,"seeded","LOG.jsonl"),"w") as o:
    n=0
    for f in sys.argv[1:]:
        for r in map(json.loads,open(f)):
            if "status" in r:                     # result of tools/automut.py
                if r["status"]=="stillborn": continue
                n+=1
                m=re.match(r"(.*)\u27e6(.*)\u27e7(.*)",r["old"],re.S)
                edit="%s.lean: `%s` -> `%s` in `%s`"%(r["file"],m.group(2),r["new"],(m.group(1)+m.group(2)+m.group(3)).strip())
                doc=doc_of(r["file"],r["definition"])
                surv=r["status"]!="killed"
                d=dict(attempt=n,definition=r["definition"],edit=edit,
                  claim="the claims resting on: "+(doc or r["definition"]),result="survived" if surv else "killed",
                  theorems_failed=[r["by"]] if r.get("by") else [],no_longer_checked=[],
                  theorems_tightened=expand(TIGHTENED.get(r["definition"],[])) if surv else [])
                if surv and r["definition"] in EQUIV: d["note"]=EQUIV[r["definition"]]
                o.write(json.dumps(d,ensure_ascii=False)+"\n")
                continue
            n+=1
            d=dict(attempt=n,definition=r["definition"],edit=r["edit"],claim=r["claim"],
              result="survived" if r["rc"]==0 else "killed",
              theorems_failed=[t for t in r["theorems_failed"] if t],
              no_longer_checked=r["blocked"],
              theorems_tightened=expand(TIGHTENED.get(r["definition"],[])) if r["rc"]==0 else [])
            if r["rc"]==0 and r["definition"] in EQUIV: d["note"]=EQUIV[r["definition"]]
            if r.get("note"): d["note"]=r["note"]
            o.write(json.dumps(d,ensure_ascii=False)+"\n")
print(n)
