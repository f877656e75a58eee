#!/usr/bin/env python3
"""Regenerates MANIFEST.json from tools/claims.tsv (id<TAB>status<TAB>space-separated theorems<TAB>note)
and checks that every theorem name occurs in the sources."""
import json,glob,re,sys,os
root=os.path.dirname(os.path.dirname(os.path.abspath(__file__)))
src="".join(open(f).read() for f in glob.glob(root+"/lean/Verif/**/*.lean",recursive=True))
names=set(re.findall(r"^theorem\s+(\S+)",src,re.M))
claims=[];bad=0
for l in open(root+"/tools/claims.tsv"):
    l=l.rstrip("\n")
    if not l or l.startswith("#"): continue
    i,st,th,note=(l.split("\t")+["",""])[:4]
    ths=th.split()
    for t in ths:
        if t not in names: print("missing",i,t); bad=1
    claims.append({"property":i,"status":st,"theorems":["GoBCDice."+t for t in ths],"note":note})
json.dump({"claims":claims},open(root+"/MANIFEST.json","w"),ensure_ascii=False,indent=1)
ids={json.loads(l)["id"] for l in open(root+"/properties.jsonl")}
print("uncovered:",sorted(ids-{c["property"] for c in claims}))
sys.exit(bad)
