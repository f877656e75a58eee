#!/usr/bin/env python3
"""Translate the grammar table `var g = &grammar{...}` of pkg/core/parser/parser.go into Lean data.

A plain recursive-descent reader of the Go composite literal; no knowledge of the grammar itself.
Usage: gen_pigeon_grammar.py /repo/pkg/core/parser/parser.go > lean/Verif/PigeonGrammar.lean
"""
import re, sys

src = open(sys.argv[1], encoding='utf-8').read()
start = src.index('var g = &grammar{')
text = src[start + len('var g = '):]
base_line = src[:start].count('\n') + 1

TOK = re.compile(r'''\s+|(?P<str>"(?:\\.|[^"\\])*")|(?P<rune>'(?:\\.|[^'\\])+')|(?P<num>\d+)|'''
                 r'''(?P<id>[A-Za-z_][A-Za-z_0-9]*)|(?P<p>[&{}\[\](),:.*])''')


def tokens(s):
    i = 0
    while i < len(s):
        m = TOK.match(s, i)
        if not m:
            raise SystemExit('bad token at %r' % s[i:i + 40])
        i = m.end()
        if m.lastgroup:
            yield (m.lastgroup, m.group(m.lastgroup), m.start())


class Reader:
    def __init__(self, s):
        self.it = tokens(s)
        self.buf = []
        self.s = s

    def peek(self, k=0):
        while len(self.buf) <= k:
            self.buf.append(next(self.it))
        return self.buf[k]

    def take(self, v=None):
        t = self.peek()
        self.buf.pop(0)
        if v is not None and t[1] != v:
            raise SystemExit('expected %r, got %r at %r' % (v, t, self.s[t[2]:t[2] + 60]))
        return t

    def line(self):
        return base_line + self.s[:self.peek()[2]].count('\n')

    def value(self):
        """Returns ('lit', type, fields|items, line) | ('str', s) | ('rune', c) | ('int', n) |
        ('id', name) | ('call', name, arg) | ('method', name)"""
        line = self.line()
        k, v, _ = self.peek()
        if k == 'str':
            self.take()
            return ('str', unquote(v))
        if k == 'rune':
            self.take()
            return ('rune', unquote(v))
        if k == 'num':
            self.take()
            return ('int', int(v))
        if v == '&':
            self.take()
            return self.value()
        if v == '(':  # (*parser).callonX
            for w in ('(', '*', 'parser', ')', '.'):
                self.take(w)
            return ('method', self.take()[1])
        if v == '{':
            return ('lit', '', self.body(), line)
        if v == '[':  # []T{...}
            self.take('[')
            self.take(']')
            if self.peek()[1] == '*':
                self.take()
            t = self.take()[1]
            if self.peek()[1] == '.':
                self.take()
                t += '.' + self.take()[1]
            if t == 'interface':
                self.take('{')
                self.take('}')
            return ('lit', '[]' + t, self.body(), line)
        if k == 'id':
            name = self.take()[1]
            if self.peek()[1] == '{':
                return ('lit', name, self.body(), line)
            if self.peek()[1] == '(':
                self.take('(')
                a = self.value()
                self.take(')')
                return ('call', name, a)
            return ('id', name)
        raise SystemExit('unexpected %r' % (v,))

    def body(self):
        self.take('{')
        out = []
        while self.peek()[1] != '}':
            if self.peek()[0] == 'id' and self.peek(1)[1] == ':':
                key = self.take()[1]
                self.take(':')
                out.append((key, self.value()))
            else:
                out.append((None, self.value()))
            if self.peek()[1] == ',':
                self.take()
        self.take('}')
        return out


def unquote(q):
    s = q[1:-1]
    out = ''
    i = 0
    while i < len(s):
        if s[i] == '\\':
            c = s[i + 1]
            out += {'n': '\n', 't': '\t', '\\': '\\', '"': '"', "'": "'"}[c]
            i += 2
        else:
            out += s[i]
            i += 1
    return out


def lstr(s):
    return 'chars!"' + s.replace('\\', '\\\\').replace('"', '\\"') + '"'


def lchar(c):
    return "'" + {"'": "\\'", '\\': '\\\\'}.get(c, c) + "'"


def lbool(v):
    return v[1]


def expr(v, ind):
    kind, typ, fields, line = v
    assert kind == 'lit', v
    f = dict((k, x) for k, x in fields if k)
    pad = '\n' + ' ' * ind

    def sub(key):
        return pad + '(' + expr(f[key], ind + 2) + ')'

    def subs(key):
        return '[' + (',').join(pad + expr(x, ind + 2) for _, x in f[key][2]) + ']'
    if typ == 'actionExpr':
        return '.action .%s' % f['run'][1].replace('callon', 'on', 1) + sub('expr')
    if typ == 'stateCodeExpr':
        return '.stateCode .%s' % f['run'][1].replace('callon', 'on', 1)
    if typ == 'seqExpr':
        return '.seq ' + subs('exprs')
    if typ == 'choiceExpr':
        return '.choice ' + subs('alternatives')
    if typ == 'ruleRefExpr':
        return '.ruleRef ' + lstr(f['name'][1])
    if typ == 'labeledExpr':
        return '.labeled ' + lstr(f['label'][1]) + sub('expr')
    if typ == 'litMatcher':
        return '.lit %s %s' % (lstr(f['val'][1]), lbool(f['ignoreCase']))
    if typ == 'charClassMatcher':
        chars = [x[1] for _, x in f['chars'][2]] if 'chars' in f else []
        ranges = [x[1] for _, x in f['ranges'][2]] if 'ranges' in f else []
        classes = [x[2][1] for _, x in f['classes'][2]] if 'classes' in f else []
        pairs = list(zip(ranges[::2], ranges[1::2]))
        return '.charClass %s [%s] [%s] [%s] %s %s' % (
            lstr(f['val'][1]), ', '.join(map(lchar, chars)),
            ', '.join('(%s, %s)' % (lchar(a), lchar(b)) for a, b in pairs),
            ', '.join(map(lstr, classes)), lbool(f['ignoreCase']), lbool(f['inverted']))
    if typ == 'anyMatcher':
        return '.any'
    if typ in ('zeroOrOneExpr', 'zeroOrMoreExpr', 'oneOrMoreExpr', 'notExpr'):
        return '.' + typ[:-4] + sub('expr')
    raise SystemExit('unknown expression %s' % typ)


tree = Reader(text).value()
rules = dict(tree[2])['rules'][2]
print('''import Verif.Pigeon

/-!
# The grammar table of the generated parser (generated by tools/gen_pigeon_grammar.py)

`var g = &grammar{...}` (pkg/core/parser/parser.go), translated entry by entry; positions in the
grammar file are dropped (they serve debugging and statistics only).
-/

namespace GoBCDice.Pigeon
''')
names = []
for _, r in rules:
    f = dict(r[2])
    n = f['name'][1]
    names.append(n)
    print('/-- Rule `%s` (pkg/core/parser/parser.go:%d). -/' % (n, r[3]))
    print('def rule%s : PExpr :=\n  %s\n' % (n, expr(f['expr'], 4)))
print('/-- The rules of the grammar (pkg/core/parser/parser.go:%d), in order. -/' % base_line)
print('def goGrammar : List (Str × PExpr) :=\n  [' +
      ',\n   '.join('(%s, rule%s)' % (lstr(n), n) for n in names) + ']\n')
print('end GoBCDice.Pigeon')
