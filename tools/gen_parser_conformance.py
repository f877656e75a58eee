#!/usr/bin/env python3
"""Generate Verif/ParserConformance.lean: the table of /repo/pkg/core/parser/parser_test.go
replayed on the model.  These are tests of the model (not proofs of properties)."""
import re,json
src=open('/repo/pkg/core/parser/parser_test.go',encoding='utf8').read()
body=src[src.index('testCases := '):src.index('for _, test := range')]
body=re.sub(r'^\s*//.*$','',body,flags=re.M)
S=r'("(?:[^"\\]|\\.)*"|`[^`]*`)'
cases=[]
for m in re.finditer(r'\{\s*(?:input:\s*)?'+S+r',\s*(?:expectedSExp:\s*)?'+S+r',\s*(?:err:\s*)?(true|false),?\s*\}',body):
    un=lambda t: t[1:-1] if t[0]=='`' else json.loads(t)
    cases.append((un(m.group(1)),un(m.group(2)),m.group(3)=='true'))
lit=lambda s:'chars!'+json.dumps(s,ensure_ascii=False)
out=['''import Verif.Parser
import Verif.SExp

/-!
# Parser conformance tests (generated by tools/gen_parser_conformance.py)

Every case of `TestParse` (pkg/core/parser/parser_test.go:25-302) replayed on the model.  These
are *tests of the model*, not proofs of properties.
-/

namespace GoBCDice.Conformance

/-- The check made by `TestParse`: the expected S-expression, or none for an expected error.
Characters beyond ASCII of this table are printable. -/
def checkParse (input : Str) (expected : Option Str) : Bool :=
  decide ((parse input).map (Node.sexp fun c => decide (32 ≤ c.toNat ∧ c.toNat ≠ 127)) = expected)
''']
rows=['  checkParse %s %s'%(lit(i),'none' if e else '(some %s)'%lit(s)) for i,s,e in cases]
for k in range(0,len(rows),20):
    out.append('example : (\n'+' &&\n'.join(rows[k:k+20])+') = true := by decide +kernel\n')
out.append('end GoBCDice.Conformance')
open('/verif/lean/Verif/ParserConformance.lean','w').write('\n'.join(out)+'\n')
print(len(cases))
