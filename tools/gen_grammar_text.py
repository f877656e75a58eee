#!/usr/bin/env python3
"""Embed the text of the grammar file and of the parts of the generated parser made from it.

Lines are copied character by character into Lean literals; nothing is interpreted.
Usage: gen_grammar_text.py /repo/pkg/core/parser > lean/Verif/GrammarText.lean
"""
import sys
d = sys.argv[1]
pig = open(d + '/parser.pigeon', encoding='utf-8').read()
go = open(d + '/parser.go', encoding='utf-8').read()


def q(l):
    out = ''
    for c in l:
        out += {'\\': '\\\\', '"': '\\"', '\t': '\\t'}.get(c, c)
    return 'chars!"%s"' % out if l else '[]'


def lines(name, doc, ls, out):
    out.append('/-- %s -/' % doc)
    out.append('def %s : List Str :=' % name)
    out.append('  [' + ',\n   '.join(q(l) for l in ls) + ']')
    out.append('')


out = ['import Verif.Basic', '', '/-!',
       '# The text of the grammar file and of the parts of the parser made from it (generated by',
       'tools/gen_grammar_text.py)', '-/', '', 'namespace GoBCDice', '']
assert pig.endswith('\n')
pl = pig[:-1].split('\n')
gl = go.split('\n')


def ln(s):
    return gl.index(s)


# the grammar file: initializer and rules
end = pl.index('}', pl.index('package parser') ) 
# the initializer ends with the first line '}' at column 0 preceded by an empty line
end = next(i for i in range(len(pl)) if pl[i] == '}' and pl[i - 1] == '' )
lines('pigeonInit', 'pkg/core/parser/parser.pigeon:1-%d' % (end + 1), pl[:end + 1], out)
# rules in groups
starts = [i for i in range(end + 1, len(pl)) if '<-' in pl[i]]
names = []
bounds = starts[1:] + [len(pl)]
prev = end + 1
for k, (s, e) in enumerate(zip(starts, bounds)):
    n = pl[s].split()[0]
    names.append(n)
    lines('pigeon' + n, 'pkg/core/parser/parser.pigeon:%d-%d' % (prev + 1, e), pl[prev:e], out)
    prev = e
out.append('/-- The lines of pkg/core/parser/parser.pigeon, in pieces. -/')
out.append('def pigeonPieces : List (List Str) :=')
out.append('  [pigeonInit, ' + ', '.join('pigeon' + n for n in names) + ']')
out.append('')
# the table
t0 = ln('var g = &grammar{')
rs = [i for i in range(t0, len(gl)) if gl[i] == '\t\t{']
t1 = next(i for i in range(t0, len(gl)) if gl[i] == '}')
gn = []
for s, e in zip(rs, rs[1:] + [t1 - 1]):
    n = gl[s + 1].split('"')[1]
    gn.append(n)
    lines('goRule' + n, 'pkg/core/parser/parser.go:%d-%d' % (s + 1, e), gl[s:e], out)
out.append('/-- The lines of the table `var g` (pkg/core/parser/parser.go:%d-%d), rule by rule. -/' % (t0 + 1, t1 + 1))
out.append('def goRulePieces : List (List Str) :=')
out.append('  [' + ', '.join('goRule' + n for n in gn) + ']')
out.append('')
# functions
i0 = ln('// toIfaceSlice は、vを任意の型のスライスに変換する。')
lines('goHelpers', 'pkg/core/parser/parser.go:%d-%d' % (i0 + 1, t0), gl[i0:t0], out)
a0 = t1 + 2
a1 = ln('var (')
fs = [i for i in range(a0, a1) if gl[i].startswith('func (c *current) on')]
fn = []
for s, e in zip(fs, fs[1:] + [a1]):
    n = gl[s].split('(c *current) on')[1].split('(')[0]
    fn.append(n)
    lines('goFunc' + n, 'pkg/core/parser/parser.go:%d-%d' % (s + 1, e), gl[s:e], out)
out.append('/-- The lines of the functions called by the table (pkg/core/parser/parser.go:%d-%d). -/' % (a0 + 1, a1))
out.append('def goFuncPieces : List (List Str) :=')
out.append('  [' + ', '.join('goFunc' + n for n in fn) + ']')
out.append('')
out.append('end GoBCDice')
text = '\n'.join(out)


def wrap(t):
    res = []
    for l in t.split('\n'):
        if l.startswith('  [pigeonInit') or l.startswith('  [goRule') or l.startswith('  [goFunc'):
            cur = '  '
            for w in l.strip().split(' '):
                if len(cur) + len(w) > 105:
                    res.append(cur.rstrip())
                    cur = '   '
                cur += w + ' '
            res.append(cur.rstrip())
        else:
            res.append(l)
    return '\n'.join(res)


print(wrap(text))
