#!/usr/bin/env python3
"""Generate Verif/Conformance.lean: the project's own recorded test data
(/repo/pkg/dicebot/gamesystem/basic/testdata/*.txt) replayed on the model.
These are tests of the model (not proofs of properties)."""
import glob,os,re,json
out=[]
out.append('''import Verif.BCDice

/-!
# Conformance tests (generated by tools/gen_conformance.py)

Every test case of `pkg/dicebot/gamesystem/basic/testdata/*.txt` replayed on the model: the
message must be the recorded one and the dice queue must end empty, as in
`pkg/dicebot/testing/testing.go:36-76`.  These are *tests of the model against the project's
recorded behaviour*, not proofs of properties.
-/

namespace GoBCDice.Conformance

/-- The check made by `testing.Run` (pkg/dicebot/testing/testing.go:36-76): expected output
(empty = an error is expected), secret marker, and an empty queue after success. -/
def check (input : Str) (output : Str) (dice : List Die) : Bool :=
  match executeCommand queueFeeder (basicBot []) input dice with
  | (.ok r, q) =>
    decide (r.message ++ (if r.isSecret then chars!"###secret dice###" else []) = output) && q.isEmpty
  | (.err _, _) => output.isEmpty
  | (.panic _, _) => false
''')
def lit(s):
    return 'chars!'+json.dumps(s,ensure_ascii=False)
n=0
for f in sorted(glob.glob('/repo/pkg/dicebot/gamesystem/basic/testdata/*.txt')):
    content=open(f,encoding='utf8').read().rstrip('\n')
    cases=[]
    for src in content.split('\n============================\n'):
        m=re.match(r'\Ainput:\n(.+)\noutput:(.*)\nrand:(.*)',src,re.S)
        inp=m.group(1).split('\n')[0]; o=m.group(2).lstrip('\n')
        dice=[d.strip().split('/') for d in m.group(3).split(',')] if m.group(3)!='' else []
        ds='['+', '.join('⟨%s, %s⟩'%(a,b) for a,b in dice)+']'
        cases.append('  check %s %s %s'%(lit(inp),lit(o),ds)); n+=1
    name=os.path.basename(f)[:-4]
    out.append('/-- pkg/dicebot/gamesystem/basic/testdata/%s.txt (%d cases) -/'%(name,len(cases)))
    # split in chunks
    for k in range(0,len(cases),20):
        out.append('example : (\n'+' &&\n'.join(cases[k:k+20])+') = true := by decide +kernel\n')
out.append('end GoBCDice.Conformance')
open('/verif/lean/Verif/Conformance.lean','w').write('\n'.join(out)+'\n')
print(n)
