"""Writes the generated Lean modules of the SQL parser:

  Model/YyTables.lean      the tables of /repo/sqlparser/parser.go
  Spec/Grammar.lean        the rules of /repo/sqlparser/parser.y
  Proofs/YyCertificate.lean  the certificate the proofs check (nothing is trusted in it)

Usage: python3 tools/yacc.py [/repo]
"""
import re, sys, os, collections

REPO = sys.argv[1] if len(sys.argv) > 1 and __name__ == '__main__' else '/repo'
HERE = os.path.dirname(os.path.abspath(__file__))
LEAN = os.path.join(HERE, '..', 'lean', 'Verif')
go = open(REPO + '/sqlparser/parser.go').read()
y = open(REPO + '/sqlparser/parser.y').read()

# ---------------------------------------------------------------- parser.go

def table(name):
    m = re.search(r'^var ' + name + r' = \[\.\.\.\]int(?:8|16|32)?\{(.*?)\n\}', go, re.S | re.M)
    first = go.count('\n', 0, m.start()) + 1
    last = go.count('\n', 0, m.end()) + 1
    return [int(x) for x in re.findall(r'-?\d+', m.group(1))], first, last

NAMES = ['Exca', 'Act', 'Pact', 'Pgo', 'R1', 'R2', 'Chk', 'Def', 'Tok1', 'Tok2', 'Tok3']
T = {n: table('yy' + n) for n in NAMES}
Exca, Act, Pact, Pgo, R1, R2, Chk, Def, Tok1, Tok2, Tok3 = [T[n][0] for n in NAMES]
yyLast = int(re.search(r'yyLast = (\d+)', go).group(1))
yyFlag = int(re.search(r'yyFlag = (-?\d+)', go).group(1))
yyPrivate = int(re.search(r'yyPrivate = (\d+)', go).group(1))
toknames = re.findall(r'"((?:[^"\\]|\\.)*)"',
                      re.search(r'var yyToknames = \[\.\.\.\]string\{(.*?)\n\}', go, re.S).group(1))
consts = dict((a, int(b)) for a, b in re.findall(r'^const (\w+) = (\d+)$', go, re.M))

# ---------------------------------------------------------------- parser.y

pre, body = y.split('\n%%\n', 1)

def lex(body):
    i, n, toks, line = 0, len(body), [], pre.count('\n') + 3
    while i < n:
        c = body[i]
        if c == '\n': line += 1; i += 1; continue
        if c.isspace(): i += 1; continue
        if body.startswith('//', i):
            while i < n and body[i] != '\n': i += 1
            continue
        if body.startswith('/*', i):
            j = body.index('*/', i) + 2; line += body.count('\n', i, j); i = j; continue
        if c == '{':
            d, j = 0, i
            while True:
                ch = body[j]
                if ch == '{': d += 1
                elif ch == '}':
                    d -= 1
                    if d == 0: break
                elif ch in '"\'':
                    j += 1
                    while body[j] != ch:
                        if body[j] == '\\': j += 1
                        j += 1
                elif body.startswith('//', j):
                    while body[j] != '\n': j += 1
                    continue
                j += 1
            toks.append(('act', body[i+1:j], line)); line += body.count('\n', i, j + 1); i = j + 1; continue
        if c == "'":
            j = body.index("'", i + 1); toks.append(('sym', body[i:j+1], line)); i = j + 1; continue
        if c in ':|;': toks.append((c, c, line)); i += 1; continue
        if c == '%':
            m = re.match(r'%prec\s+(\w+)', body[i:]); toks.append(('prec', m.group(1), line)); i += m.end(); continue
        m = re.match(r'\w+', body[i:]); toks.append(('sym', m.group(0), line)); i += m.end()
    return toks

Rule = collections.namedtuple('Rule', 'lhs rhs action line')
rules = [Rule('$accept', ['any_command', '$end'], None, 0)]

def read_rules():
    toks = lex(body); cur = None; lhs = None; i = 0
    def flush():
        nonlocal cur
        if cur: rules.append(Rule(*cur)); cur = None
    while i < len(toks):
        t = toks[i]
        if t[0] == 'sym' and i + 1 < len(toks) and toks[i+1][0] == ':':
            flush(); lhs = t[1]; cur = [lhs, [], None, toks[i+1][2]]; i += 2; continue
        if t[0] == '|': flush(); cur = [lhs, [], None, t[2]]
        elif t[0] == ';': flush()
        elif t[0] == 'sym':
            if not cur[1] and cur[2] is None: cur[3] = t[2]
            if cur[2] is not None:      # an action in the middle of a rule
                nm = '$$%d' % len(rules)
                rules.append(Rule(nm, [], cur[2], cur[3]))
                cur[1].append(nm); cur[2] = None
            cur[1].append(t[1])
        elif t[0] == 'act': cur[2] = t[1]
        i += 1
    flush()
read_rules()
assert len(rules) == len(R1) == len(R2)
assert all(len(r.rhs) == R2[i] for i, r in enumerate(rules) if i)
types = {}
for m in re.finditer(r'^%(?:type|token|left|right|nonassoc)\s*<(\w+)>\s*(.*)$', pre, re.M):
    for s in m.group(2).split(): types[s] = m.group(1)

# ---------------------------------------------------------------- symbols

NT = len(toknames)
ntcode = {}
for i, r in enumerate(rules): ntcode[r.lhs] = R1[i]
assert all(ntcode[r.lhs] == R1[i] for i, r in enumerate(rules))
ntname = {v: k for k, v in ntcode.items()}
tcode = {n: i + 1 for i, n in enumerate(toknames)}
def code(s): return -ntcode[s] if s in ntcode else tcode[s]
RHS = [[code(s) for s in r.rhs] for r in rules]
LHS = R1
byl = collections.defaultdict(list)
for i in range(len(rules)): byl[LHS[i]].append(i)
nstates = len(Pact)

# ---------------------------------------------------------------- automaton

def shift(s, t):
    if Pact[s] <= yyFlag: return None
    n = Pact[s] + t
    if n < 0 or n >= yyLast: return None
    n = Act[n]
    return n if Chk[n] == t else None
def goto(s, A):
    g = Pgo[A]; j = g + s + 1
    if j >= yyLast: return Act[g]
    n = Act[j]
    return n if Chk[n] == -A else Act[g]
def closure(kern):
    nts = set(); todo = [RHS[r][d] for r, d in kern if d < len(RHS[r]) and RHS[r][d] < 0]
    while todo:
        a = -todo.pop()
        if a in nts: continue
        nts.add(a)
        for r in byl[a]:
            if RHS[r] and RHS[r][0] < 0: todo.append(RHS[r][0])
    return nts
kern = {0: frozenset([(0, 0)])}; cl = {}; trans = {}
todo = [0]
while todo:
    s = todo.pop(); cl[s] = closure(kern[s])
    syms = collections.defaultdict(set)
    for r, d in list(kern[s]) + [(r, 0) for a in cl[s] for r in byl[a]]:
        if d < len(RHS[r]): syms[RHS[r][d]].add((r, d + 1))
    for x, k in syms.items():
        if x == 1: continue
        t = shift(s, x) if x > 0 else goto(s, -x)
        if t is None: continue
        assert Chk[t] == x
        trans[(s, x)] = t; k = frozenset(k)
        if t in kern: assert kern[t] == k
        else: kern[t] = k; todo.append(t)
assert len(kern) == nstates

# ---------------------------------------------------------------- weights

def weights():
    nullable = set(); ch = True
    while ch:
        ch = False
        for i in range(len(rules)):
            if LHS[i] not in nullable and all(x < 0 and -x in nullable for x in RHS[i]):
                nullable.add(LHS[i]); ch = True
    nnt = len(Pgo); w = [0] * nnt; h = [0] * nstates
    epsrule = set(LHS[i] for i in range(1, len(rules)) if not RHS[i])
    eps = [(s, A, trans[(s, -A)]) for s in kern for A in cl[s] if A in epsrule]
    while True:
        ch = False
        for s, A, t in eps:
            v = w[A] + h[t] + 1
            if h[s] < v: h[s] = v; ch = True
        H = [0] * nnt
        for s in kern:
            if Chk[s] < 0 and s: H[-Chk[s]] = max(H[-Chk[s]], h[s])
        for i in range(1, len(rules)):
            R = RHS[i]
            if not R or any(x > 0 for x in R): continue
            need = w[LHS[i]] + H[LHS[i]] + 1; have = sum(w[-x] for x in R)
            if have < need:
                nn = [x for x in R if -x not in nullable]
                w[-(nn or R)[-1]] += need - have; ch = True
        if not ch: break
        assert max(w) < 1000
    K = max(w[LHS[i]] + H[LHS[i]] + 1 for i in range(1, len(rules)) if any(x > 0 for x in RHS[i]))
    return w, h, H, K

# ---------------------------------------------------------------- output

OFF = 2000
def enc(l, off=OFF):
    return '0x' + '_'.join('%04x' % (v + off) for v in l)

def tables():
    out = ['/-',
      'The tables of the generated parser, /repo/sqlparser/parser.go.  This module is written by',
      'tools/yacc.py; every table is one number whose hexadecimal digits, read from left to right in',
      'groups of four, are the entries of the Go table with 2000 added to each.',
      '-/', 'namespace Sqldef.Yy', '',
      '/-- A Go array of integers (entries from -2000 to 63535). -/',
      'structure Table where', '  bits : Nat', '  size : Nat', '',
      '/-- Entry `i` of a table of `n` entries, still with 2000 added. -/',
      'def entry (bits n i : Nat) : Nat :=',
      '  Nat.land (Nat.shiftRight bits (Nat.mul (nat_lit 16) (Nat.sub n (Nat.succ i)))) (nat_lit 65535)', '',
      '/-- Indexing a Go array: `none` is the run-time panic "index out of range". -/',
      'def Table.at (t : Table) (i : Int) : Option Int :=',
      '  if 0 ≤ i ∧ i < t.size then some ((entry t.bits t.size i.toNat : Int) - 2000) else none', '']
    for n in NAMES:
        if n in ('Exca', 'Tok1', 'Tok2', 'Tok3'): continue
        v, a, b = T[n]
        out += ['/-- Models /repo/sqlparser/parser.go %d-%d, `yy%s` (%d entries). -/' % (a, b, n, len(v)),
                'def bits%s : Nat := nat_lit %s' % (n, enc(v)),
                '@[inherit_doc bits%s] def yy%s : Table := ⟨bits%s, %d⟩' % (n, n, n, len(v)), '']
    v, a, b = T['Exca']
    out += ['/-- Models /repo/sqlparser/parser.go %d-%d, `yyExca`, two entries at a time. -/' % (a, b),
            'def yyExca : List (Int × Int) :=', '  [' + ',\n   '.join(
              ', '.join('(%d, %d)' % (v[i], v[i+1]) for i in range(k, min(k + 16, len(v)), 2))
              for k in range(0, len(v), 16)) + ']', '']
    def lst(n, doc):
        v, a, b = T[n]
        rows = [', '.join(map(str, v[k:k+20])) for k in range(0, len(v), 20)]
        return ['/-- Models /repo/sqlparser/parser.go %d-%d, `yy%s`%s. -/' % (a, b, n, doc),
                'def yy%s : List Nat :=' % n, '  [' + ',\n   '.join(rows) + ']', '']
    out += lst('Tok1', ': the token of a character') + lst('Tok2', ': the token of a code from 57344 on')
    v, a, b = T['Tok3']
    assert v[-1] == 0 and len(v) % 2 == 1
    ps = ['(%d, %d)' % (v[i], v[i+1]) for i in range(0, len(v) - 1, 2)]
    out += ['/-- Models /repo/sqlparser/parser.go %d-%d, `yyTok3`, two entries at a time; the 0 that ends the' % (a, b),
            'table is left out (no code is 0). -/',
            'def yyTok3 : List (Nat × Nat) :=', '  [' + ',\n   '.join(', '.join(ps[k:k+7]) for k in range(0, len(ps), 7)) + ']', '']
    m = re.search(r'^const yyLast = ', go, re.M)
    out += ['/-- Models /repo/sqlparser/parser.go %d, `yyLast`. -/' % (go.count('\n', 0, m.start()) + 1),
            'def yyLast : Int := %d' % yyLast, '']
    m = re.search(r'yyFlag = ', go)
    out += ['/-- Models /repo/sqlparser/parser.go %d, `yyFlag`. -/' % (go.count('\n', 0, m.start()) + 1),
            'def yyFlag : Int := %d' % yyFlag, '']
    m = re.search(r'^const yyPrivate = |yyPrivate = ', go, re.M)
    out += ['/-- Models /repo/sqlparser/parser.go %d, `yyPrivate`. -/' % (go.count('\n', 0, m.start()) + 1),
            'def yyPrivate : Nat := %d' % yyPrivate, '']
    out += ['end Sqldef.Yy', '']
    return '\n'.join(out)

def q(s): return '"' + s.replace('\\', '\\\\').replace('"', '\\"') + '"'

def grammar():
    CH = 100
    out = ['/-',
      'The grammar of /repo/sqlparser/parser.y, rule by rule, in the order in which goyacc numbers the',
      'rules (tools/yacc.py copies it).  A terminal has the name `yyToknames` gives it',
      '(parser.go %d); `$end` is the end of the text.  `$$...` stands for the one action in the middle' % (go.count('\n', 0, go.index('var yyToknames')) + 1),
      'of a rule.', '-/', 'namespace Sqldef.Spec', '',
      '/-- The names of the terminals, in the order of `yyToknames` (parser.go %d-%d): the first one is' % (
          go.count('\n', 0, go.index('var yyToknames')) + 1, go.count('\n', 0, go.index('\n}', go.index('var yyToknames'))) + 2),
      'token 1. -/', 'def terminals : List String :=']
    rows = [', '.join(q(t) for t in toknames[k:k+6]) for k in range(0, NT, 6)]
    out += ['  [' + ',\n   '.join(rows) + ']', '']
    parts = []
    for k in range(0, len(rules), CH):
        out += ['/-- Rules %d to %d of parser.y. -/' % (k, min(k + CH, len(rules)) - 1),
                'def grammar%d : List (String × List String) := [' % k]
        for i in range(k, min(k + CH, len(rules))):
            r = rules[i]
            out.append('  (%s, [%s])%s  -- %d, parser.y %d' % (q(r.lhs), ', '.join(map(q, r.rhs)),
                       '' if i == min(k + CH, len(rules)) - 1 else ',', i, r.line))
        out += [']', '']
        parts.append('grammar%d' % k)
    out += ['/-- The rules of parser.y: left hand side and right hand side. -/',
            'def grammar : List (String × List String) :=', '  ' + ' ++ '.join(parts), '',
            'end Sqldef.Spec', '']
    return '\n'.join(out)

def certificate():
    w, h, H, K = weights()
    ks, ki = [], []
    for s in range(nstates):
        ks.append(len(ki))
        for r, d in sorted(kern[s]):
            if d > 0: ki.append(r * 16 + d)
    ks.append(len(ki))
    rs, ri = [], []
    for r in range(len(rules)):
        rs.append(len(ri)); ri += [x + OFF for x in RHS[r]]
    rs.append(len(ri))
    clbits = 0
    for s in range(nstates):
        for a in cl[s]: clbits |= 1 << (256 * s + a)
    clbits |= 1
    names = ['-'] * len(Pgo)
    for a, n in ntname.items(): names[a] = n
    out = ['/-',
      'What the proofs about the parser know of its tables: the items of every state, the nonterminals',
      'that may begin in every state, the right hand sides in numbers, and the weights of the',
      'termination argument.  Written by tools/yacc.py, trusted by nobody: Proofs/YyCheck*.lean has the',
      'kernel check every entry against the tables of Model/YyTables.lean and the rules of',
      'Spec/Grammar.lean.', '-/', 'namespace Sqldef.Yy', '',
      '/-- Where the items of a state begin in `certItem`. -/',
      'def certStart : Nat := nat_lit %s' % enc(ks, 0), '',
      '/-- The items: 16 times the rule plus the position of the dot. -/',
      'def certItem : Nat := nat_lit %s' % enc(ki, 0), '',
      'def certItems : Nat := nat_lit %d' % len(ki), '',
      '/-- Where the right hand side of a rule begins in `certRhs`. -/',
      'def certRhsStart : Nat := nat_lit %s' % enc(rs, 0), '',
      '/-- The symbols of the right hand sides: 2000 plus a token, 2000 minus a nonterminal. -/',
      'def certRhs : Nat := nat_lit %s' % enc(ri, 0), '',
      'def certRhsSize : Nat := nat_lit %d' % len(ri), '',
      '/-- Bit 256 s + A: nonterminal A may begin in state s (bit 0: the start). -/',
      'def certBegins : Nat := nat_lit %s' % hex(clbits), '',
      '/-- The weight of a nonterminal. -/',
      'def certWeight : Nat := nat_lit %s' % enc(w, 0), '',
      '/-- The height of a state. -/',
      'def certHeight : Nat := nat_lit %s' % enc(h, 0), '',
      '/-- The greatest height of the states a nonterminal leads to. -/',
      'def certTop : Nat := nat_lit %s' % enc(H, 0), '',
      '/-- Bit A: nonterminal A has an empty right hand side. -/',
      'def certEmpty : Nat := nat_lit %s' % hex(sum(1 << a for a in set(LHS[i] for i in range(1, len(rules)) if not RHS[i]))), '',
      '/-- The weight of a terminal. -/',
      'def certTerminal : Nat := nat_lit %d' % K, '',
      '/-- The names of the nonterminals. -/',
      'def certNames : List String :=',
      '  [' + ',\n   '.join(', '.join(q(n) for n in names[k:k+5]) for k in range(0, len(names), 5)) + ']', '',
      'end Sqldef.Yy', '']
    return '\n'.join(out), K, max(w), max(h)

if __name__ == '__main__':
    c, K, mw, mh = certificate()
    for n, t in (('Model/YyTables', tables()), ('Spec/Grammar', grammar()), ('Proofs/YyCertificate', c)):
        p = os.path.join(LEAN, n + '.lean')
        if not os.path.exists(p) or open(p).read() != t: open(p, 'w').write(t)
        print(n, len(t))
    print('terminal weight', K, 'nonterminal', mw, 'height', mh, 'items', max(map(len, kern.values())))
