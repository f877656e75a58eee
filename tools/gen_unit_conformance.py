#!/usr/bin/env python3
"""Generates lean/Verif/UnitConformance.lean: the tables of the unit tests of /repo, replayed on the model."""
import re, sys, os, json
sys.path.insert(0, os.path.dirname(__file__))
import gotests
R = '/repo/pkg/core/'

def unq(e):
    if e[0] == 'raw': return e[1]
    assert e[0] == 'str', e
    return json.loads(e[1])          # Go escapes used in the tests are those of JSON
def lit(s):
    out = ''
    for c in s:
        out += {'\n': '\\n', '\t': '\\t', '"': '\\"', '\\': '\\\\'}.get(c, c)
    return 'chars!"' + out + '"'
def integer(e): return '(%s)' % e[1] if e[1].startswith('-') else e[1]
def boolean(e): return e[1]
def dice(e):
    if e is None or e[0] == 'tok' and e[1] == 'nil': return '[]'
    return '[' + ', '.join('⟨%s, %s⟩' % tuple(integer(x[1]) for x in d[1][2]) for d in e[2]) + ']'
def ints(e): return '[]' if e is None else '[' + ', '.join(integer(x[1]) for x in e[2]) + ']'
def intss(e): return '[]' if e is None else '[' + ', '.join(ints(x[1]) for x in e[2]) + ']'
CONV = {'string': lambda e: lit(unq(e)) if e else '[]', 'int': lambda e: integer(e) if e else '0',
        'bool': lambda e: boolean(e) if e else 'false', '[]dice.Die': dice, '[]Die': dice, '[]int': ints, '[][]int': intss,
        'SuccessCheckResultType': lambda e: {'SUCCESS_CHECK_SUCCESS': '.success', 'SUCCESS_CHECK_FAILURE': '.failure',
                                             'SUCCESS_CHECK_UNSPECIFIED': '.unspecified'}[e[1]]}

# Go constructor calls -> Lean terms
def call(src):
    """parses a Go call expression f(a, b, ...) into nested lists"""
    toks = gotests.tokens(src) if isinstance(src, str) else src
    i = 0
    def go():
        nonlocal i
        k, v = toks[i]; i += 1
        if k in ('str', 'raw', 'chr'): return (k, v)
        if v in '&': return go()
        if v == '-':
            k, v = toks[i]; i += 1
            return ('num', '-' + v)
        if v == '[':                       # []dice.Die{...} : only as an argument of NewSumRollResult
            d = []
            while toks[i] != ('t', '{') : i += 1
            depth = 0
            while True:
                k2, v2 = toks[i]; i += 1
                if v2 == '{': depth += 1
                if v2 == '}':
                    depth -= 1
                    if depth == 0: break
                if v2.isdigit(): d.append(v2)
            return ('dice', d)
        while i < len(toks) and toks[i] == ('t', '.'):
            i += 1; v = toks[i][1]; i += 1
        if i < len(toks) and toks[i] == ('t', '('):
            i += 1; args = []
            while toks[i] != ('t', ')'):
                args.append(go())
                if toks[i] == ('t', ','): i += 1
            i += 1
            return ('call', v, args)
        if i < len(toks) and toks[i] == ('t', '{'):
            while toks[i] != ('t', '}'): i += 1
            i += 1
            return ('call', 'New' + v, None)
        return ('num', v) if v.isdigit() else ('id', v)
    return go()
def tok_call(e): return call(e[2])

def value(c):
    k = c[1]; a = c[2]
    if k == 'NewInteger': return '(.integer %s)' % (num(a[0]) if a else '0')
    if k == 'NewBoolean': return '(.boolean %s)' % (a[0][1] if a else 'false')
    if k == 'NewString': return '(.string %s)' % (lit(a[0][1] if a[0][0] == 'raw' else json.loads(a[0][1])) if a else '[]')
    if k in ('NewArray', 'NewArrayByMove'): return '(.array [%s])' % ', '.join(value(x) for x in a or [])
    def els(x): return '[%s]' % ', '.join(value(y) for y in x[2])
    def n(x): return num(x[2][0])
    if a is None: return {'NewBRollCompResult': '(.bRollComp [] 0)', 'NewRRollCompResult': '(.rRollComp [] 0)',
                          'NewURollExprResult': '(.uRollExpr [] 0)', 'NewURollCompResult': '(.uRollComp [] 0 0)'}[k]
    if k == 'NewBRollCompResult': return '(.bRollComp %s %s)' % (els(a[0]), n(a[1]))
    if k == 'NewRRollCompResult': return '(.rRollComp %s %s)' % (els(a[0]), n(a[1]))
    if k == 'NewURollExprResult': return '(.uRollExpr %s %s)' % (els(a[0]), n(a[1]))
    if k == 'NewURollCompResult': return '(.uRollComp %s %s %s)' % (els(a[0][2][0]), n(a[0][2][1]), n(a[1]))
    raise Exception(k)
def num(x): return '(%s)' % x[1] if x[1].startswith('-') else x[1]

BIN = dict(NewAdd='.add', NewSubtract='.sub', NewMultiply='.mul', NewDivideWithRoundingUp='(.div .up)',
           NewDivideWithRounding='(.div .round)', NewDivideWithRoundingDown='(.div .down)', NewDRoll='.dRoll', NewBRoll='.bRoll',
           NewRRoll='.rRoll', NewURoll='.uRoll', NewRandomNumber='.random')
CMD = dict(NewDRollExpr='.dRollExpr', NewDRollComp='.dRollComp', NewBRollComp='.bRollComp', NewRRollComp='.rRollComp',
           NewURollComp='.uRollComp', NewCalc='.calc')
def node(c):
    """(pointer, heap) by constructor calls, as a do-free Lean term built from `Heap`"""
    heap = []
    def go(c):
        if c == ('id', 'nil'): return 'none'
        k, a = c[1], c[2]
        if k in BIN:
            l, r = go(a[0]), go(a[1]); heap.append('.binary %s %s %s' % (BIN[k], l, r))
        elif k == 'NewCompare':
            l, r = go(a[0]), go(a[2]); heap.append('.binary (.compare %s) %s %s' % (lit(json.loads(a[1][1])), l, r))
        elif k in CMD:
            e = go(a[0]); heap.append('.command %s %s' % (CMD[k], e))
        elif k == 'NewUnaryMinus':
            e = go(a[0]); heap.append('.unary %s' % e)
        elif k == 'NewInt': heap.append('.int %s' % num(a[0]))
        elif k == 'NewString': heap.append('.string %s' % lit(json.loads(a[0][1])))
        elif k == 'NilInstance': heap.append('.nilNode')
        elif k == 'NewSumRollResult':
            d = a[0][1] if a[0][0] == 'dice' else []
            heap.append('.sumRoll [%s]' % ', '.join('⟨%s, %s⟩' % p for p in zip(d[::2], d[1::2])))
        elif k == 'NewBRollList':
            e = go(a[0]); heap.append('.bRollList [%s]' % e)
        elif k == 'NewChoice':
            e = go(a[0]); heap.append('.choice [%s]' % e)
        elif k == 'NewRRollList':
            e, t = go(a[0]), go(a[1]); heap.append('.rRollList [%s] %s' % (e, t))
        elif k == 'NewURollExpr':
            e, t = go(a[0]), go(a[1]); heap.append('.uRollExpr %s %s' % (e, t))
        else: raise Exception(k)
        return '(some %d)' % (len(heap) - 1)
    go(c)
    return '[%s]' % ', '.join(heap)
CONV['Node'] = lambda e: node(tok_call(e))
def conv_value(e):
    if e[0] == 'comp':
        return value(('call', 'New' + e[1].lstrip('&'), [tok_call(x) for _, x in e[2]] or None))
    return value(tok_call(e))
for t in ('*Array', '*BRollCompResult', '*Boolean', '*Integer', 'Object', '*RRollCompResult', '*String', '*URollCompResult', '*URollExprResult'):
    CONV[t] = conv_value

CHECK = {
 'TestExecuteBRollComp': ('checkExecuteQ', None), 'TestExecuteBRollList': ('checkExecuteQ', None), 'TestExecuteChoice': ('checkExecuteQ', None),
 'TestExecuteCalc': ('checkExecuteC', None), 'TestExecuteDRollComp': ('checkExecute', None), 'TestExecuteDRollExpr': ('checkExecuteQ', None),
 'TestExecuteRRollComp': ('checkExecuteQ', None), 'TestExecuteRRollList': ('checkExecuteQ', None), 'TestExecuteURollComp': ('checkExecuteQ', None),
 'TestExecuteURollExpr': ('checkExecuteQ', None),
 'TestFormatDice': ('checkFormatDice', None), 'TestFormatDiceWithoutSpace': ('checkFormatDiceWithoutSpaces', None),
 'TestDiceRoller_RollDice_Queue': ('checkRollDice', None),
 'TestDetermineValues': ('checkDetermineValues', None), 'TestEvalVarArgs': ('checkEvalVarArgs', None),
 'TestEvalBRollComp': ('checkEvalBRollComp', None), 'TestEvalBRollList': ('checkEvalBRollList', None), 'TestEvalCalc': ('checkEvalCalc', None),
 'TestEvalChoice': ('checkEvalChoice', None), 'TestEvalDRollComp': ('checkEvalDRollComp', None), 'TestEvalDRollExpr': ('checkEvalDRollExpr', None),
 'TestEvalRRollComp': ('checkEvalRRollComp', None), 'TestEvalRRollList': ('checkEvalRRollList', None),
 'TestEvalURollComp': ('checkEvalURollComp', None), 'TestEvalURollExpr': ('checkEvalURollExpr', None),
 'TestSetRerollThreshold': ('checkSetRerollThreshold', None), 'TestCheckRRollThreshold': ('checkRThreshold', None),
 'TestCheckURollThreshold': ('checkUThreshold', None), 'TestInfixNotation': ('checkInfixNotation', None),
 'TestNode_Type': ('checkType', None), 'TestNode_IsNil': ('checkIsNil', None), 'TestNode_IsPrimaryExpression': ('checkIsPrimary', None),
 'TestNode_IsVariable': ('checkIsVariable', None),
 'TestArray_Inspect': ('checkInspect', None), 'TestArray_InspectWithoutSpaces': ('checkInspectTight', None),
 'TestArray_JoinedElements': ('checkJoined', None), 'TestArray_MaxInteger': ('checkMaxInteger', None), 'TestArray_SumOfIntegers': ('checkSum', None),
 'TestBRollCompResult_Inspect': ('checkInspect', None), 'TestBoolean_Inspect': ('checkInspect', None), 'TestInteger_Inspect': ('checkInspect', None),
 'TestInteger_Add': ('checkAdd', None), 'TestObject_Type': ('checkObjectType', None), 'TestRRollCompResult_Inspect': ('checkInspect', None),
 'TestString_Inspect': ('checkInspect', None), 'TestURollCompResult_Inspect': ('checkInspect', None), 'TestURollExprResult_Inspect': ('checkInspect', None),
 'TestURollExprResult_MaxValue': ('checkMaxValue', None), 'TestURollExprResult_SumOfValues': ('checkSumOfValues', None),
 'TestURollExprResult_SumOfGroups': ('checkSumOfGroups', None),
}
import glob
out = []; total = 0
for f in sorted(glob.glob(R + '**/*_test.go', recursive=True)):
    for name, fields, items, body in gotests.tests(f):
        if name not in CHECK or fields is None: continue
        fn = CHECK[name][0]
        lines = []
        for _, e in items:
            vals = {}
            if e[2] and e[2][0][0] is None:
                for (n, t), (_, x) in zip(fields, e[2]): vals[n] = x
            else:
                for k, x in e[2]: vals[k] = x
            lines.append('  %s %s' % (fn, ' '.join(CONV[t](vals.get(n)) for n, t in fields)))
        for k in range(0, len(lines), 60):
            part = lines[k:k + 60]
            out.append('/-- `%s` (%s)%s -/\nexample : (\n%s) = true := by decide +kernel\n' %
                       (name, f[len('/repo/'):], '' if len(lines) <= 60 else ', cases %d to %d' % (k + 1, k + len(part)), ' &&\n'.join(part)))
        total += len(lines)
# pkg/dicebot/testing/testcase_test.go
tf = '/repo/pkg/dicebot/testing/testcase_test.go'
tabs = gotests.tables(tf)
def case(e):
    v = {k: x for k, x in e[2]}
    inp = '[' + ', '.join(lit(unq(x)) for _, x in v['Input'][2]) + ']'
    return '⟨%s, %s, %s, %s, %s⟩' % (lit(unq(v['GameID'])), integer(v['Index']), inp, lit(unq(v['Output'])), dice(v['Dice']))
def rows(name): return [{k: x for k, x in e[2]} for _, e in tabs[name][1]]
lines = []
for v in rows('parseTestCases'):
    lines.append('  checkParseCase %s %s %s %s' % (CONV['string'](v['source']), CONV['string'](v.get('gameID')), CONV['int'](v.get('index')),
        'none' if v.get('err') and v['err'][1] == 'true' else '(some %s)' % case(v['expected'])))
out.append('/-- `TestParse` (pkg/dicebot/testing/testcase_test.go) -/\nexample : (\n%s) = true := by decide +kernel\n' % ' &&\n'.join(lines)); total += len(lines)
lines = []
for v in rows('parseDiceTestCases'):
    lines.append('  checkParseDice %s %s' % (CONV['string'](v['source']), 'none' if v['err'][1] == 'true' else '(some %s)' % dice(v['expected'])))
out.append('/-- `TestParseDice` (pkg/dicebot/testing/testcase_test.go) -/\nexample : (\n%s) = true := by decide +kernel\n' % ' &&\n'.join(lines)); total += len(lines)
lines = []; files = []
for v in rows('parseFileTestCases'):
    base = re.search(r'"([\w.]+)"\)', v['filename'][1]).group(1)
    content = open('/repo/pkg/dicebot/testing/testdata/' + base).read()
    files.append('(%s, %s)' % (lit('testdata/' + base), lit(content)))
    lines.append('  checkParseFile %s %s [%s]' % (lit(content), lit(unq(v['gameID'])), ',\n    '.join(case(x) for _, x in v['expected'][2])))
out.append('/-- `TestParseFile` (pkg/dicebot/testing/testcase_test.go) -/\nexample : (\n%s) = true := by decide +kernel\n' % ' &&\n'.join(lines)); total += len(lines)
out.append('/-- `TestParseFiles` (pkg/dicebot/testing/testcase_test.go:283-322) -/\nexample : checkParseFiles [%s] chars!"DiceBot" 6 1 6 = true := by decide +kernel\n' % ',\n  '.join(files)); total += 1
open(os.path.join(os.path.dirname(__file__), '../lean/Verif/UnitConformance.lean'), 'w').write(
    open(os.path.join(os.path.dirname(__file__), 'unit_conformance_head.txt')).read() + '\n' + '\n'.join(out) + '\nend GoBCDice.Conformance\n')
print(total, 'cases')
