#!/usr/bin/env python3
"""Rewrites section 5 of DESIGN.md (axioms of each property theorem) from `lake env lean` output."""
import json,os,re,subprocess
root=os.path.dirname(os.path.dirname(os.path.abspath(__file__)))
m=json.load(open(root+'/MANIFEST.json'))
ts=[t for c in m['claims'] for t in c['theorems']]
open('/tmp/ax.lean','w').write('import Verif\n'+'\n'.join('#print axioms '+t for t in ts))
out=subprocess.run(['lake','env','lean','/tmp/ax.lean'],cwd=root+'/lean',capture_output=True,text=True).stdout
out=re.sub(r'\n +',' ',out)
groups={}
for l in out.splitlines():
    n=re.match(r"'GoBCDice\.(\S+)'",l).group(1)
    a=re.search(r'\[(.*)\]',l)
    groups.setdefault(a.group(1) if a else 'no axioms',[]).append(n)
assert sum(map(len,groups.values()))==len(ts)
s='## 5. Axioms of each property theorem\n\n(generated by `tools/design.py` from `#print axioms`)\n'
for k in sorted(groups,key=lambda k:(k!='no axioms',len(k))):
    s+='\n* **%s**: %s.\n'%(k if k=='no axioms' else ', '.join('`%s`'%x for x in k.split(', ')),', '.join('`%s`'%x for x in groups[k]))
d=open(root+'/DESIGN.md').read()
d=d.split('## 5. Axioms')[0].rstrip('\n')+'\n\n'+s
open(root+'/DESIGN.md','w').write(d)
print({k:len(v) for k,v in groups.items()})
