#!/usr/bin/env python3
"""Compares the model with the expectations written in the tests of /repo (text only, nothing of /repo is run).

usage: conformance.py OUTDIR, then `lake env lean OUTDIR/parse.lean` and `lake env lean OUTDIR/apply.lean` in lean/.
parse.lean: the inputs of sqlparser/parse_test.go with the expected text of the tree. Statements that are no queries are
shown by their kind only, and texts that only `Parse` accepts (incomplete definitions, `partialDDL`) are syntax errors of
`ParseStrictDDLWithMode`.
apply.lean: the assertApplyOutput cases of cmd/*/*_test.go. The test's current schema is what a server reports; here it is
the schema of the step before, so a case whose output depends on what the server changes in it differs.
Each file prints the cases that differ.  These are tests of the reading of the code, no part of any proof.
"""
import ast
import re
import sys

OUT = sys.argv[1]
HEAD = 'import Verif.Model.SqlParse\nopen Sqldef Sqldef.Sql Sqldef.Yy\n'


def golit(x):
    return x[1:-1] if x[0] == '`' else ast.literal_eval(x)


def lean(x):
    esc = {'\n': '\\n', '\t': '\\t', '\r': '\\r', '"': '\\"', '\\': '\\\\'}
    return '"' + ''.join(c if 32 <= ord(c) < 127 and c not in '"\\' else esc.get(c) or '\\u%04x' % ord(c)
                         for c in x) + '"'


def parse_cases():
    s = open('/repo/sqlparser/parse_test.go').read()
    lit = r'("(?:[^"\\]|\\.)*"|`[^`]*`)'
    expr = lit + r'(?:\s*\+\s*' + lit + r')*'
    cat = lambda x: ''.join(golit(m) for m in re.findall(lit, x))
    cases = []
    for m in re.finditer(r'input:\s*(' + expr + r')(?:,\s*output:\s*(' + expr + r'))?', s):
        i = cat(m.group(1))
        cases.append((s.count('\n', 0, m.start()) + 1, i, cat(m.group(4)) if m.group(4) else i))
    return cases


def write_parse():
    out = [HEAD, '''
def obs (sql : String) : String :=
  let k := newTokenizer sql.toList .mysql
  match run host (23 * k.scanner.size + 7) (start {} k) with
  | some (.accepted _ k) => match k.parseTree with
     | .dml (some t) => "DML:" ++ String.ofList t
     | .dml none => "DML PANIC"
     | .ddl _ => "DDL"
     | .other => "OTHER"
  | some (.rejected k) => "ERR:" ++ String.ofList (k.lastError.getD (k.message (lit "syntax error")))
  | some (.stopped _) => "PANIC"
  | _ => "??"
''']
    cases = parse_cases()
    for j in range(0, len(cases), 60):
        body = ',\n'.join('(%d, %s, %s)' % (a, lean(b), lean(o)) for a, b, o in cases[j:j + 60])
        out.append(f'def cases{j} : List (Nat × String × String) := [{body}]')
        out.append(f'#eval show IO Unit from do for (n, i, o) in cases{j} do\n  let r := obs i\n'
                   '  if r != "DML:" ++ o then IO.println s!"{n}\\n  in   {i}\\n  want {o}\\n  got  {r}"')
    open(OUT + '/parse.lean', 'w').write('\n'.join(out))
    print('parse', len(cases))


TOK = re.compile(r'\s*("(?:[^"\\]|\\.)*"|`[^`]*`|[A-Za-z_][\w.]*|[-+(),:=\[\]{}!<>&|;*/%.]|\d+|\'[^\']*\')')


class Skip(Exception):
    pass


class Go:
    """The string expressions of the tests."""

    def __init__(self, text, pos, env):
        self.t, self.p, self.env = text, pos, env

    def peek(self):
        m = TOK.match(self.t, self.p)
        return m.group(1) if m else None

    def next(self):
        m = TOK.match(self.t, self.p)
        if not m:
            raise Skip('end')
        self.p = m.end()
        return m.group(1)

    def expr(self):
        v = self.atom()
        while self.peek() == '+':
            self.next()
            v += self.atom()
        return v

    def atom(self):
        t = self.next()
        if t[0] in '"`':
            return golit(t)
        if t == 'stripHeredoc':
            assert self.next() == '('
            v = self.expr()
            if self.peek() == ',':
                self.next()
            assert self.next() == ')'
            return re.sub(r'(?m)^\t*', '', v[1:] if v.startswith('\n') else v)
        if t in self.env:
            return self.env[t]
        raise Skip('atom ' + t)


def write_apply():
    out = [HEAD, '''
def obs (mode : Mode) (desired current : String) : String :=
  match generateIdempotentDDLs (env id) mode desired.toList current.toList with
  | .ok l => if l.isEmpty then "-- Nothing is modified --\\n" else
      "-- Apply --\\n" ++ String.join (l.map fun s => String.ofList s ++ ";\\n")
  | .error (.parse t) => "ERR:" ++ String.ofList t
  | .error e => "E " ++ reprStr e
''']
    for f, mode in [('mysqldef', 'mysql'), ('psqldef', 'postgres'), ('sqlite3def', 'sqlite3'), ('mssqldef', 'mssql')]:
        s = open(f'/repo/cmd/{f}/{f}_test.go').read()
        genv = {m.group(1): golit(m.group(2)) for m in re.finditer(r'^\s*(\w+)\s*=\s*("(?:[^"\\]|\\.)*")$', s, re.M)}
        cs = []
        for fm in re.finditer(r'^func (Test\w+)\(t \*testing\.T\) \{\n(.*?)^\}', s, re.S | re.M):
            body, off, env, cur, unknown = fm.group(2), fm.start(2), dict(genv), '', False
            for m in re.finditer(r'(?m)^\t(\w+) :?= |^\t(assertApplyOutput|assertApply|assertApplyFailure)\(t, '
                                 r'|^\t(resetTestDatabase)\(\)|^\t(mustExecute\(.*)', body):
                ln = s.count('\n', 0, off + m.start()) + 1
                try:
                    if m.group(1):
                        env.pop(m.group(1), None)
                        env[m.group(1)] = Go(body, m.end(), env).expr()
                    elif m.group(3):
                        cur, unknown = '', False
                    elif m.group(4):
                        unknown = True
                    else:
                        e = Go(body, m.end(), env)
                        desired = e.expr()
                        if m.group(2) == 'assertApply':
                            cur = desired
                            continue
                        assert e.next() == ','
                        want = e.expr()
                        if not unknown:
                            cs.append((ln, desired, cur, want))
                        if m.group(2) == 'assertApplyOutput':
                            cur = desired
                except Skip:
                    if not m.group(1):
                        unknown = True
        print('apply', f, len(cs))
        for j in range(0, len(cs), 40):
            body = ',\n'.join('(%d, %s, %s, %s)' % (a, lean(b), lean(c), lean(d)) for a, b, c, d in cs[j:j + 40])
            out.append(f'def {f}{j} : List (Nat × String × String × String) := [{body}]')
            out.append(f'#eval show IO Unit from do for (n, d, c, x) in {f}{j} do\n  let r := obs .{mode} d c\n  if r != x '
                       f'then IO.println s!"{f} {{n}}\\n  desired {{d}}\\n  current {{c}}\\n  want {{x}}\\n  got {{r}}"')
    open(OUT + '/apply.lean', 'w').write('\n'.join(out))


write_parse()
write_apply()
