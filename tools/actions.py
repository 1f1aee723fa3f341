#!/usr/bin/env python3
"""Translate the actions of /repo/sqlparser/parser.y to Lean: Model/SymType.lean and Model/YyActions.lean.

An action is a list of Go statements that build the value of the left-hand side from the values of the right-hand
side. The translator reads the assignments (`$$ = e`, `$$.F = e`, `$1.F = e`, `$$.AddColumn(e)`) with a small parser
for Go expressions; the few actions with other statements are written by hand in MANUAL below. It stops on anything it
does not know.
"""
import re, sys
sys.path.insert(0, '/verif/tools')
_argv = sys.argv
sys.argv = ['yacc']
import yacc
sys.argv = _argv
rules, types = yacc.rules, yacc.types

# ---------------------------------------------------------------- the union, /repo/sqlparser/parser.y:53-118
# field of the union -> (Go type, Lean type, Lean zero value); None: not modelled
UNION = {
 'statement': ('Statement', 'Go.Statement', '.other'),
 'selStmt': ('SelectStatement', 'Go.Txt', 'none'),
 'ddl': ('DDL', 'SqlDDL', '{ action := [] }'),
 'ins': ('Insert', 'Go.Insert', '{}'),
 'byt': ('byte', 'Nat', '0'),
 'bytes': ('string', 'Str', '[]'),
 'bytes2': ('Comments', 'List Str', '[]'),
 'str': ('string', 'Str', '[]'),
 'strs': ('[]string', 'List Str', '[]'),
 'selectExprs': ('SelectExprs', 'List Go.Txt', '[]'),
 'selectExpr': ('SelectExpr', 'Go.Txt', 'none'),
 'columns': ('Columns', 'List Str', '[]'),
 'partitions': ('Partitions', 'List Str', '[]'),
 'colName': ('ColName', 'Go.ColName', '{}'),
 'tableExprs': ('TableExprs', 'List Go.Txt', '[]'),
 'tableExpr': ('TableExpr', 'Go.Txt', 'none'),
 'joinCondition': ('JoinCondition', 'Go.Txt', 'some []'),
 'tableName': ('TableName', 'SqlTableName', '{ name := [] }'),
 'tableNames': ('TableNames', 'List SqlTableName', '[]'),
 'indexHints': ('IndexHints', 'Str', '[]'),
 'expr': ('Expr', 'Go.Expr', 'none'),
 'exprs': ('Exprs', 'List Go.Expr', '[]'),
 'boolVal': ('BoolVal', 'Bool', 'false'),
 'colTuple': ('Expr', 'Go.Expr', 'none'),
 'values': ('Values', 'List (List Go.Expr)', '[]'),
 'valTuple': ('ValTuple', 'List Go.Expr', '[]'),
 'subquery': ('Subquery', 'Go.Txt', 'none'),
 'whens': ('[]*When', 'List Go.Txt', '[]'),
 'when': ('When', 'Go.Txt', 'none'),
 'orderBy': ('OrderBy', 'List Go.Txt', '[]'),
 'order': ('Order', 'Go.Txt', 'none'),
 'limit': ('Limit', 'Go.Txt', 'some []'),
 'updateExprs': ('UpdateExprs', 'List Go.UpdateExpr', '[]'),
 'setExprs': None,
 'updateExpr': ('UpdateExpr', 'Go.UpdateExpr', '{}'),
 'setExpr': None,
 'colIdent': ('string', 'Str', '[]'),
 'colIdents': ('[]ColIdent', 'List Str', '[]'),
 'tableIdent': ('string', 'Str', '[]'),
 'convertType': ('ConvertType', 'Go.ConvertType', '{}'),
 'aliasedTableName': ('TableExpr', 'Go.Txt', 'none'),
 'TableSpec': ('TableSpec', 'SqlTableSpec', '{ columns := [] }'),
 'columnType': ('ColumnType', 'SqlColumnType', '{ type := [] }'),
 'optVal': ('SQLVal', 'Option SqlVal', 'none'),
 'LengthScaleOption': ('LengthScaleOption', 'Go.LengthScaleOption', '{}'),
 'columnDefinition': ('ColumnDefinition', 'SqlColumn', '{ name := [], type := { type := [] } }'),
 'indexDefinition': ('IndexDefinition', 'SqlIndexDef', '{ name := [], type := [], columns := [] }'),
 'indexInfo': ('IndexInfo', 'Go.IndexInfo', '{}'),
 'indexOption': ('IndexOption', 'SqlIndexOption', '{ name := [] }'),
 'indexOptions': ('[]*IndexOption', 'List SqlIndexOption', '[]'),
 'indexPartition': ('IndexPartition', 'Option SqlIndexPartition', 'none'),
 'indexColumn': ('IndexColumn', 'SqlIndexColumn', '{ column := [] }'),
 'indexColumns': ('[]IndexColumn', 'List SqlIndexColumn', '[]'),
 'foreignKeyDefinition': ('ForeignKeyDefinition', 'SqlForeignKey', "{ constraintName := [], indexColumns := [], referenceName := [], referenceColumns := [] }"),
 'partDefs': None, 'partDef': None, 'partSpec': None, 'vindexParam': None, 'vindexParams': None, 'showFilter': None,
 'sequence': ('Sequence', 'SqlSequence', '{}'),
 'triggerBody': ('[]Statement', 'List Go.Statement', '[]'),
}
LEANFIELD = {'TableSpec': 'tableSpec', 'LengthScaleOption': 'lengthScale', 'when': 'when_', 'order': 'order_'}
def lf(f): return LEANFIELD.get(f, f)

# ---------------------------------------------------------------- constants, from /repo/sqlparser/ast.go
ast = open('/repo/sqlparser/ast.go').read()
CONST = dict(re.findall(r'^\t(\w+)\s*= "([^"]*)"$', ast, re.M))
KEY = {'colKeyNone': '.none', 'colKeyPrimary': '.primary', 'colKey': '.key', 'colKeyUniqueKey': '.uniqueKey',
       'colKeyUnique': '.unique'}

# ---------------------------------------------------------------- nodes
E, S, V = 'Expr', 'string', 'SQLVal'
# nodes rendered at once: Go struct -> (result type, {field: type}); the fields are the parameters of Go.<name>
NODES = {
 'AndExpr': (E, dict(Left=E, Right=E)), 'OrExpr': (E, dict(Left=E, Right=E)), 'NotExpr': (E, dict(Expr=E)),
 'IsExpr': (E, dict(Operator=S, Expr=E)), 'Default': (E, dict(ColName=S)), 'NullVal': (E, {}),
 'ComparisonExpr': (E, dict(Left=E, Operator=S, Right=E, Escape=E)),
 'RangeCond': (E, dict(Left=E, Operator=S, From=E, To=E)), 'ExistsExpr': (E, dict(Subquery='Subquery')),
 'BinaryExpr': (E, dict(Left=E, Operator=S, Right=E)), 'UnaryExpr': (E, dict(Operator=S, Expr=E)),
 'CollateExpr': (E, dict(Expr=E, Charset=S)), 'IntervalExpr': (E, dict(Expr=E, Unit=S)),
 'ConvertExpr': (E, dict(Expr=E, Type='ConvertType')), 'ConvertUsingExpr': (E, dict(Expr=E, Type=S)),
 'FuncExpr': (E, dict(Name=S, Qualifier=S, Distinct='BoolVal', Exprs='SelectExprs')),
 'SubstrExpr': (E, dict(Name='ColName', From=E, To=E)),
 'MatchExpr': (E, dict(Columns='SelectExprs', Expr=E, Option=S)),
 'GroupConcatExpr': (E, dict(Distinct=S, Exprs='SelectExprs', OrderBy='OrderBy', Separator=S)),
 'CaseExpr': (E, dict(Expr=E, Whens='[]*When', Else=E)), 'ValuesFuncExpr': (E, dict(Name='ColName')),
 'When': ('When', dict(Cond=E, Val=E)), 'Order': ('Order', dict(Expr=E, Direction=S)),
 'Limit': ('Limit', dict(Offset=E, Rowcount=E)),
 'StarExpr': ('SelectExpr', dict(TableName='TableName')), 'AliasedExpr': ('SelectExpr', dict(Expr=E, As=S)),
 'Nextval': ('SelectExpr', dict(Expr=E)),
 'AliasedTableExpr': ('TableExpr', dict(Expr='SimpleTableExpr', Partitions='Partitions', As=S, Hints='IndexHints')),
 'ParenTableExpr': ('TableExpr', dict(Exprs='TableExprs')),
 'JoinTableExpr': ('TableExpr', dict(LeftExpr='TableExpr', Join=S, RightExpr='TableExpr', Condition='JoinCondition')),
 'JoinCondition': ('JoinCondition', dict(On=E, Using='Columns')),
 'IndexHints': ('IndexHints', dict(Type=S, Indexes='Columns')),
 'Select': ('SelectStatement', dict(Comments='Comments', Cache=S, Distinct=S, Hints=S, SelectExprs='SelectExprs',
            From='TableExprs', Where='WhereClause', GroupBy='Exprs', Having='HavingClause')),
 'ParenSelect': ('SelectStatement', dict(Select='SelectStatement')),
 'Union': ('SelectStatement', dict(Type=S, Left='SelectStatement', Right='SelectStatement', OrderBy='OrderBy', Limit='Limit', Lock=S)),
 'Update': ('Statement', dict(Comments='Comments', TableExprs='TableExprs', Exprs='UpdateExprs', Where='WhereClause', OrderBy='OrderBy', Limit='Limit')),
 'Delete': ('Statement', dict(Comments='Comments', Targets='TableNames', TableExprs='TableExprs', Partitions='Partitions', Where='WhereClause', OrderBy='OrderBy', Limit='Limit')),
 'IndexDefinition': ('IndexDefinition', dict(Info='IndexInfo', Columns='[]IndexColumn', Options='[]*IndexOption', Partition='IndexPartition')),
 'View': ('View', dict(Action=None, Name='TableName', Definition='SelectStatement')),
 'Trigger': ('Trigger', dict(Name=S, TableName='TableName', Time=S, Event=S, Body='[]Statement')),
}
LEANNODE = {'Update': '.dml (Go.formatUpdate%s)', 'Delete': '.dml (Go.formatDelete%s)'}
PARAM = {'Expr': 'E', 'Type': 'Ty', 'Option': 'Opt'}
# structures: Go struct -> (Lean type, {Go field: (Lean field, type)}); field None: not read by schema/parser.go
def low(s): return s[0].lower() + s[1:]
def st(lean, **kw): return (lean, {k: (None if v is None else (low(k), v) if isinstance(v, str) else v) for k, v in kw.items()})
STRUCTS = {
 'DDL': st('SqlDDL', Action=S, Table='TableName', NewName='TableName', TableSpec='*TableSpec', IndexSpec='*IndexSpec',
   IndexCols='[]IndexColumn', ForeignKey='*ForeignKeyDefinition', Policy='*Policy', View='*View', Trigger='*Trigger',
   VindexSpec=None, VindexCols=None, PartitionSpec=None, IfExists=None),
 'IndexSpec': st('SqlIndexSpec', Name=S, Type=None, Unique='BoolVal', Primary=None, Clustered='BoolVal', Included='Columns',
   Where=('whereClause', 'IndexWhere'), Options='[]*IndexOption', Partition='IndexPartition'),
 'Policy': st('SqlPolicy', Name=S, Permissive=S, Scope=S, To='[]ColIdent', Using=('using_', 'PolicyWhere'), WithCheck='PolicyWhere'),
 'TableSpec': st('SqlTableSpec', Options=S),
 'ColumnDefinition': st('SqlColumn', Name=S, Type='ColumnType'),
 'ColumnType': st('SqlColumnType', Type=S, NotNull='*BoolVal', Autoincrement='BoolVal', Default='*DefaultDefinition',
   OnUpdate=V, Comment=None, Array='BoolVal', Length=V, Unsigned='BoolVal', Zerofill=None, Scale=V, Charset=S, Collate=S,
   Timezone='BoolVal', EnumValues='[]string', KeyOpt='ColumnKeyOption', References=S, ReferenceNames=None,
   Identity='*IdentityOpt', Check='*CheckDefinition', CheckNoInherit='BoolVal'),
 'DefaultDefinition': st('SqlDefault', Value=V, ConstraintName=S),
 'IdentityOpt': st('SqlIdentity', Behavior=S, Sequence='*Sequence', NotForReplication='BoolVal'),
 'Sequence': st('SqlSequence', StartWith=V, IncrementBy=V, MinValue=V, MaxValue=V, Cache=V, NoMinValue='*BoolVal',
   NoMaxValue='*BoolVal', NoCycle='*BoolVal', Cycle='*BoolVal', OwnedBy=S),
 'LengthScaleOption': st('Go.LengthScaleOption', Length=('Length', V), Scale=('Scale', V)),
 'IndexOption': st('SqlIndexOption', Name=S, Value=V, Using=None),
 'IndexPartition': st('SqlIndexPartition', Name=S, Column=S),
 'IndexInfo': st('Go.IndexInfo', Type=('Ty', S), Name=('Name', S), Primary=('Primary', 'BoolVal'), Spatial=('Spatial', 'BoolVal'),
   Fulltext=('Fulltext', 'BoolVal'), Unique=('Unique', 'BoolVal'), Clustered=('Clustered', 'BoolVal')),
 'IndexColumn': st('SqlIndexColumn', Column=S, Length=V, Direction=S),
 'ForeignKeyDefinition': st('SqlForeignKey', ConstraintName=S, IndexName=S, IndexColumns='[]ColIdent', ReferenceName=S,
   ReferenceColumns='[]ColIdent', OnDelete=S, OnUpdate=S, NotForReplication='BoolVal'),
 'ConvertType': st('Go.ConvertType', Type=('Ty', S), Length=('Length', V), Scale=('Scale', V), Operator=('Operator', S), Charset=('Charset', S)),
 'ColName': st('Go.ColName', Name=('Name', S), Qualifier=('Qualifier', 'TableName')),
 'TableName': st('SqlTableName', Name=S, Qualifier=S),
 'UpdateExpr': st('Go.UpdateExpr', Name=('Name', 'ColName'), Expr=('E', E)),
 'Insert': st('Go.Insert', Columns=('Columns', 'Columns'), Rows=('Rows', 'InsertRows')),
}
DEFAULTS = {'SqlTableName': {'name': '[]'}, 'SqlIndexPartition': {'column': '[]'}, 'SqlDDL': {}}
OTHER = {'Set', 'Show', 'Use', 'Begin', 'Commit', 'Rollback', 'OtherRead', 'OtherAdmin', 'DBDDL', 'Stream'}
LISTS = {'SelectExprs': 'SelectExpr', 'TableExprs': 'TableExpr', 'TableNames': 'TableName', 'Columns': S, 'Partitions': S,
         'Exprs': E, 'Values': 'ValTuple', 'OrderBy': 'Order', 'UpdateExprs': 'UpdateExpr', 'ValTuple': E,
         '[]*When': 'When', '[]IndexColumn': 'IndexColumn', '[]*IndexOption': 'IndexOption', '[]ColIdent': S,
         '[]Statement': 'Statement', '[]string': S, 'Comments': S}
SAME = [{'SelectExpr'}, {'Exprs', 'ValTuple', 'GroupBy'}]
COERCE = {
 ('Subquery', E): 'Go.node %s', ('ValTuple', E): 'Go.tupleExpr %s', (V, E): 'Go.valExpr %s', ('ColName', E): 'Go.ColName.expr %s',
 ('BoolVal', E): 'Go.boolExpr %s', ('SelectStatement', 'Statement'): '.dml %s', ('DDL', 'Statement'): '.ddl %s',
 ('TableName', 'SimpleTableExpr'): 'some (Go.formatTableName %s)', ('Subquery', 'SimpleTableExpr'): '%s',
 ('SelectStatement', 'InsertRows'): '%s', ('Values', 'InsertRows'): 'Go.formatValues %s',
 ('Where:WhereStr', 'WhereClause'): '%s', ('Where:HavingStr', 'HavingClause'): '%s',
 ('Where:WhereStr', 'IndexWhere'): 'Go.whereOf %s', ('Where:WhereStr', 'PolicyWhere'): 'Option.map Go.ExprNode.sql %s',
 ('Exprs', 'ValTuple'): '%s', ('ValTuple', 'Exprs'): '%s', ('[]ColIdent', 'Columns'): '%s',
 ('IndexPartition!', 'IndexPartition'): 'some %s',
}
NIL = {E: 'none', V: 'none', 'Limit': 'some []', 'IndexHints': '[]', 'IndexPartition': 'none', '*BoolVal': 'none',
       '*DefaultDefinition': 'none', '*IdentityOpt': 'none', S: '[]', 'Comments': '[]', 'Partitions': '[]', 'Columns': '[]',
       'SelectExprs': '[]', 'Exprs': '[]', 'OrderBy': '[]', 'UpdateExprs': '[]'}

def atom(x):
    if re.fullmatch(r'[\w.]+|\[\]|"[^"]*"', x): return x
    if x[0] in '([{' and closes(x): return x
    return '(' + x + ')'
def closes(x):
    depth, i = 0, 0
    while i < len(x):
        if x[i] == '"':
            i = x.index('"', i + 1)
        elif x[i] in '([{': depth += 1
        elif x[i] in ')]}':
            depth -= 1
            if depth == 0: return i == len(x) - 1
        i += 1
    return False

def coerce(x, t, want):
    if want is None or t == want: return x
    if t == 'nil': return NIL[want]
    if want == '*' + t: return 'some ' + atom(x)
    if (t, want) in COERCE:
        f = COERCE[t, want]
        return x if f == '%s' else f % atom(x)
    raise SystemExit('cannot use %s of type %s as %s' % (x, t, want))

TOK = re.compile(r'\s*(\$\$|\$\d+|"(?:[^"\\]|\\.)*"|\[\]\*?\w+|[A-Za-z_]\w*|\d+|[{}()\[\],:.+*&=]|!=)')
class P:
    def __init__(self, s, rule):
        self.t, self.i, self.rule = [], 0, rule
        pos = 0
        s = s.strip()
        while pos < len(s):
            m = TOK.match(s, pos)
            if not m: raise SystemExit('lex %r' % s[pos:])
            self.t.append(m.group(1)); pos = m.end()
    def peek(self, k=0): return self.t[self.i + k] if self.i + k < len(self.t) else None
    def next(self):
        self.i += 1
        return self.t[self.i - 1]
    def eat(self, x):
        assert self.next() == x, (x, self.t, self.i, self.rule)
    def dollar(self, n):
        f = types.get(self.rule.rhs[n - 1])
        assert f, (self.rule, n)
        assert UNION[f], (self.rule, n)
        return '(d %d).%s' % (n, lf(f)), UNION[f][0]
    def expr(self):
        x, t = self.term()
        while self.peek() == '+':
            self.next()
            y, u = self.term()
            assert t == u == S
            x = x + ' ++ ' + atom(y)
        return x, t
    def term(self):
        t = self.next()
        if t == '&':
            x, ty = self.term()
            return x, (ty + '!' if ty == 'IndexPartition' else ty)
        if re.fullmatch(r'\$\d+', t): r = self.dollar(int(t[1:]))
        elif t == '$$': r = self.dollar(1)
        elif t[0] == '"': r = 'lit ' + t, S
        elif t in ('true', 'false'): r = t, 'BoolVal'
        elif t == 'nil': r = 'nil', 'nil'
        elif t.isdigit(): r = t, 'byte'
        elif t in CONST: r = 'lit "%s"' % CONST[t], S
        elif t in KEY: r = KEY[t], 'ColumnKeyOption'
        elif t == 'append':
            self.eat('('); a, ta = self.expr(); self.eat(','); b, tb = self.expr(); self.eat(')')
            if ta in LISTS: r = '%s ++ [%s]' % (a, coerce(b, tb, LISTS[ta])), ta
            else: raise SystemExit('append ' + ta)
        elif t in ('NewStrVal', 'NewIntVal', 'NewFloatVal', 'NewHexNum', 'NewHexVal', 'NewBitVal', 'NewValArg'):
            a = self.args([S]); r = 'Go.%s %s' % (t, atom(a[0])), V
        elif t == 'NewBoolSQLVal': a = self.args(['BoolVal']); r = 'Go.%s %s' % (t, atom(a[0])), V
        elif t == 'NewValArgWithOpt': a = self.args([S, V]); r = 'Go.%s %s %s' % (t, atom(a[0]), atom(a[1])), V
        elif t == 'NewBoolVal': a = self.args(['BoolVal']); r = 'some ' + a[0], '*BoolVal'
        elif t in ('bool', 'BoolVal'): a = self.args(['BoolVal']); r = a[0], 'BoolVal'
        elif t in ('string', 'NewColIdent', 'NewTableIdent', 'Permissive'): a = self.args([S]); r = a[0], S
        elif t == '[]byte': a = self.args([S]); r = a[0], S
        elif t == 'ListArg': a = self.args([S]); r = 'Go.ListArg ' + atom(a[0]), E
        elif t in ('Comments', 'GroupBy', 'OnDup', 'ValTuple') and self.peek() == '(':
            self.eat('('); x, ty = self.expr(); self.eat(')')
            r = x, {'Comments': ty, 'GroupBy': ty, 'OnDup': ty, 'ValTuple': 'ValTuple'}[t]
            assert (t, ty) in {('Comments', 'Comments'), ('GroupBy', 'Exprs'), ('OnDup', 'UpdateExprs'), ('ValTuple', 'Exprs')}
        elif t == 'NewWhere':
            self.eat('('); k = self.next(); self.eat(','); x, ty = self.expr(); self.eat(')')
            assert k in ('WhereStr', 'HavingStr') and ty == E
            r = x, 'Where:' + k
        elif t == 'ColIdent' and self.peek() == '{': self.eat('{'); self.eat('}'); r = '[]', S
        elif t == 'Subquery':
            self.eat('{'); x, ty = self.expr(); self.eat('}'); assert ty == 'SelectStatement'
            r = 'Go.Subquery ' + atom(x), 'Subquery'
        elif t in LISTS and self.peek() == '{':
            self.eat('{'); out = []
            while self.peek() != '}':
                x, ty = self.expr(); out.append(coerce(x, ty, LISTS[t]))
                if self.peek() == ',': self.next()
            self.eat('}'); r = '[%s]' % ', '.join(out), t
        elif t in NODES:
            res, ps = NODES[t]; fs = self.fields()
            out = ''
            for k, (x, ty) in fs:
                if ps[k] is None: continue
                out += ' (%s := %s)' % (PARAM.get(k, k), coerce(x, ty, ps[k]))
            r = (LEANNODE[t] % out if t in LEANNODE else 'Go.' + t + out), res
        elif t in STRUCTS:
            lean, ps = STRUCTS[t]; fs = self.fields()
            out = []
            for k, (x, ty) in fs:
                if ps[k] is None: continue
                out.append('%s := %s' % (ps[k][0], coerce(x, ty, ps[k][1])))
            for k, v in DEFAULTS.get(lean, {}).items():
                if not any(o.startswith(k + ' :=') for o in out): out.append('%s := %s' % (k, v))
            r = '({ %s } : %s)' % (', '.join(out), lean) if out else '({} : %s)' % lean, t
        elif t in OTHER:
            self.i -= 1; self.skip(); r = '.other', 'Statement'
        else: raise SystemExit('term %s in %s' % (t, self.rule))
        while self.peek() == '.':
            self.next(); m = self.next(); x, ty = r
            if m == 'v' or m == 'val': assert ty == S
            elif m == 'String': assert ty == S; self.eat('('); self.eat(')')
            elif m == 'ToViewName': assert ty == 'TableName'; self.eat('('); self.eat(')'); r = 'Go.toViewName ' + atom(x), ty
            elif m in ('Name', 'Length', 'Scale', 'Type'):
                lean, ps = STRUCTS[ty]; r = '%s.%s' % (atom(x), ps[m][0]), ps[m][1]
            else: raise SystemExit('selector ' + m)
        return r
    def args(self, want):
        self.eat('('); out = []
        for i, w in enumerate(want):
            if i: self.eat(',')
            x, ty = self.expr(); out.append(coerce(x, ty, w))
        self.eat(')')
        return out
    def fields(self):
        self.eat('{'); out = []
        while self.peek() != '}':
            k = self.next(); self.eat(':')
            if k in ('VindexSpec', 'VindexCols', 'PartitionSpec'):
                self.skip(); v = None
                if self.peek() == ',': self.next()
                continue
            out.append((k, self.expr()))
            if self.peek() == ',': self.next()
        self.eat('}')
        return out
    def skip(self):
        depth = 0
        while True:
            t = self.peek()
            if depth == 0 and t in (',', '}', None) : return
            if t in '({[': depth += 1
            if t in ')}]': depth -= 1
            self.next()

# ---------------------------------------------------------------- the odd ones, by rule number
MANUAL = {
 22: ('selStmt', 'Go.cat [(d 1).selStmt, Go.formatOrderBy (d 2).orderBy, (d 3).limit, some (d 4).str]'),
 31: ('statement', '.dml (Go.formatInsert (d 1).str (d 2).bytes2 (d 3).str (d 4).tableName (d 5).partitions (d 6).ins.Columns (d 6).ins.Rows (d 7).updateExprs)'),
 32: ('statement', '.dml (Go.formatInsert (d 1).str (d 2).bytes2 (d 3).str (d 4).tableName (d 5).partitions ((d 7).updateExprs.map fun u => u.Name.Name) (Go.formatValues [(d 7).updateExprs.map fun u => u.E]) (d 8).updateExprs)'),
 106: ('ddl', '({ action := lit "create", newName := (d 4).tableName } : SqlDDL)'),
 108: ('tableSpec', '({ columns := [(d 1).columnDefinition] } : SqlTableSpec)'),
 109: ('tableSpec', '{ (d 1).tableSpec with columns := (d 1).tableSpec.columns ++ [(d 3).columnDefinition] }'),
 110: ('tableSpec', '{ (d 1).tableSpec with indexes := (d 1).tableSpec.indexes ++ [(d 3).indexDefinition] }'),
 111: ('tableSpec', '{ (d 1).tableSpec with foreignKeys := (d 1).tableSpec.foreignKeys ++ [(d 3).foreignKeyDefinition] }'),
 112: ('tableSpec', '{ (d 1).tableSpec with indexes := (d 1).tableSpec.indexes ++ [(d 3).indexDefinition] }'),
 131: ('columnType', '{ (d 1).columnType with check := (d 5).expr.map fun e => { whereExpr := e.sql, notForReplication := (d 3).boolVal }, checkNoInherit := (d 7).boolVal }'),
 132: ('columnType', '{ (d 1).columnType with check := (d 7).expr.map fun e => { whereExpr := e.sql, constraintName := Go.formatID (d 3).colIdent, notForReplication := (d 5).boolVal } }'),
 139: ('columnType', '{ (d 1).columnType with identity := (d 1).columnType.identity.map fun i => { i with notForReplication := true } }'),
 241: ('strs', '[lit "\'" ++ (d 1).bytes ++ lit "\'"]'),
 373: ('statement', '.ddl { action := lit "drop", table := (d 4).tableName }'),
 375: ('statement', '.ddl { action := lit "drop", table := Go.toViewName (d 4).tableName }'),
 395: ('statement', '.other'),
 431: ('bytes2', '(d 2).bytes2'),
 499: ('str', 'if (d 2).str = lit "left join" then lit "natural left join" else lit "natural right join"'),
 576: ('expr', 'Go.unaryPlus (d 2).expr'),
 577: ('expr', 'Go.unaryMinus (d 2).expr'),
 667: ('expr', 'Go.valExpr (Go.NewIntVal (lit "1"))'),
 706: ('expr', 'Go.tupleOrParen (d 1).valTuple'),
}
NOTES = {
 106: '`setDDL` records the statement for callers that tolerate errors; it is not read here.',
 131: 'A nil expression is a nil dereference: see `Sql.act`.', 132: 'A nil expression is a nil dereference: see `Sql.act`.',
 139: 'A nil identity is a nil dereference: see `Sql.act`.',
 667: 'The test of the word is in `Sql.act`.',
}
NOVALUE = {1, 430, 993, 994, 995, 996, 997, 998}

def strip(a):
    return ' '.join(re.sub(r'//[^\n]*', '', a).split())

def translate(n, r):
    field = types.get(r.lhs)
    a = strip(r.action)
    if n in MANUAL:
        f, x = MANUAL[n]
        assert f == lf(field), (n, f, field)
        return f, x
    if a in ('$$ = struct{}{}',): return None
    assert field, (n, r)
    if UNION[field] is None: return None
    want = UNION[field][0]
    # split into assignments
    parts = re.split(r'(?=(?:(?<=\s)|^)(?:\$\$|\$1)(?:\.\w+)* = )', ' ' + a)
    parts = [p.strip() for p in parts if p.strip()]
    cur, upd, result = None, [], None
    for p in parts:
        m = re.match(r'(\$\$|\$1)((?:\.\w+)*) = (.*)$', p)
        assert m, (n, a, p)
        tgt, sel, rhs = m.groups()
        pr = P(rhs, r)
        x, t = pr.expr()
        assert pr.i == len(pr.t), (n, rhs, pr.t[pr.i:])
        if sel:
            assert sel.count('.') == 1, (n, p)
            base = ('(d 1).%s' % lf(types[r.rhs[0]]), UNION[types[r.rhs[0]]][0]) if tgt == '$1' else result
            if cur is None: cur = base
            lean, ps = STRUCTS[cur[1]]
            if ps[sel[1:]] is None: continue
            upd.append('%s := %s' % (ps[sel[1:]][0], coerce(x, t, ps[sel[1:]][1])))
        else:
            assert tgt == '$$'
            result = (x, t)
    if cur is not None:
        if tgt == '$$' and not sel: assert rhs.strip() == '$1', (n, a)
        else: pass
        x = '{ %s with %s }' % (cur[0], ', '.join(upd)) if upd else cur[0]
        result = (x, cur[1])
    return lf(field), coerce(result[0], result[1], want)

def check_generated():
    """The switch of parser.go has the actions of parser.y: same code with yyDollar for $."""
    go = open('/repo/sqlparser/parser.go').read()
    body = go[go.index('switch yynt {'):]
    cases = {int(m.group(1)): m.group(2) for m in re.finditer(
        r'\tcase (\d+):\n\t\tyyDollar = [^\n]*\n//line [^\n]*\n(.*?)(?=\n\tcase \d+:|\n\t}\n\tgoto yystack)', body, re.S)}
    def norm(x): return re.sub(r'\s+', '', re.sub(r'//[^\n]*', '', x)).replace(',}', '}')
    for n, r in enumerate(rules):
        if not n or r.action is None:
            assert n not in cases, n
            continue
        a = r.action
        a = re.sub(r'\$\$', 'yyVAL.' + types[r.lhs] if r.lhs in types else 'yyVAL', a)
        a = re.sub(r'\$(\d+)', lambda m: 'yyDollar[%s]' % m.group(1) + ('.' + types[r.rhs[int(m.group(1)) - 1]]), a)
        c = norm(cases[n]).strip()
        assert c == '{' + norm(a) + '}', (n, c, norm(a))
    print(len(cases), 'actions of parser.go agree with parser.y')

def token_codes():
    c = sorted((v, k) for k, v in yacc.consts.items() if v >= 57346)
    assert [v for v, _ in c] == list(range(57346, 57346 + len(c)))
    go = open('/repo/sqlparser/parser.go').read().split('\n')
    first = go.index('const LEX_ERROR = 57346') + 1
    last = go.index('const %s = %d' % (c[-1][1], c[-1][0])) + 1
    assert last - first == len(c) - 1
    def block(f):
        lines, cur = [], '  ['
        for i, (_, k) in enumerate(c):
            x = f(k) + (', ' if i < len(c) - 1 else ']')
            if len(cur) + len(x) > 110: lines.append(cur.rstrip()); cur = '   '
            cur += x
        return '\n'.join(lines + [cur])
    open('/verif/lean/Verif/Model/TokenCodes.lean', 'w').write("""import Verif.Base.Str
/-
The codes of the tokens of the grammar. Generated by tools/actions.py from /repo/sqlparser/parser.go.
-/
namespace Sqldef

/-- The constants of /repo/sqlparser/parser.go:%d-%d; the codes are the numbers from %d on. -/
def tokenNames : List String :=
%s

/-- The same names as lists of characters (`tokenWords_eq`), /repo/sqlparser/parser.go:%d-%d. -/
def tokenWords : List Str :=
%s

set_option maxRecDepth 10000 in
theorem tokenWords_eq : tokenWords = tokenNames.map lit := by decide +kernel

/-- The code of a constant, /repo/sqlparser/parser.go:%d-%d. -/
def codeOfName (name : Str) : Nat := 57346 + tokenWords.findIdx (fun n => decide (n = name))

end Sqldef
""" % (first, last, c[0][0], block(lambda k: '"%s"' % k), first, last,
       block(lambda k: '[' + ','.join("'%s'" % x for x in k) + ']'), first, last))

def main():
    check_generated()
    token_codes()
    out = []
    out.append('''import Verif.Model.SqlNodes
/-
The values of the symbols of the grammar. Generated by tools/actions.py from /repo/sqlparser/parser.y.
-/
namespace Sqldef

/-- `yySymType`, /repo/sqlparser/parser.y:53-118: one field for each field of the union. The fields `setExprs`,
`setExpr`, `partDefs`, `partDef`, `partSpec`, `vindexParam`, `vindexParams`, `showFilter` and `empty` are left out:
what is built from them is not used by `/repo/schema/parser.go`. -/
structure SymType where''')
    for f, v in UNION.items():
        if v: out.append('  %s : %s := %s' % (lf(f), v[1], v[2]))
    out.append('  deriving DecidableEq, Repr\n\nnamespace SymType\n')
    for f, v in UNION.items():
        if v:
            F = lf(f)
            out.append('/-- The value with another `%s`, /repo/sqlparser/parser.y:53-118. -/' % f)
            out.append('def set%s (s : SymType) (x : %s) : SymType := { s with %s := x }' % (F[0].upper() + F[1:], v[1], F))
    out.append('\nend SymType\n\nend Sqldef\n')
    open('/verif/lean/Verif/Model/SymType.lean', 'w').write('\n'.join(out))
    out = ['''import Verif.Model.SymType
/-
The actions of the grammar /repo/sqlparser/parser.y, as far as they compute values. Generated by tools/actions.py.

`ruleN d` is the value that the action of rule N gives to the left-hand side, where `d n` is the value of the n-th
symbol of the right-hand side (`$n`, `yyDollar[n]`). The code first sets `yyVAL` to the value of the first symbol
(/repo/sqlparser/parser.go:3392) and the action then sets one field; a rule without an action keeps the value of
the first symbol. The effects on the tokenizer and the ways to fail are in `Verif.Model.SqlParse`.
-/
namespace Sqldef.Go

/-- Rule 576, /repo/sqlparser/parser.y:3003-3009: an integer keeps its value. -/
def unaryPlus (e : Expr) : Expr :=
  match e with
  | some { kind := .val ⟨.intVal, _⟩, .. } => e
  | _ => UnaryExpr (Operator := lit "+") (E := e)

/-- Rule 577, /repo/sqlparser/parser.y:3011-3023: the sign of an integer becomes part of it. An empty text is
an index out of range (`num.Val[0]`): see `Sql.act`. -/
def unaryMinus (e : Expr) : Expr :=
  match e with
  | some { kind := .val ⟨.intVal, '-' :: s⟩, .. } => valExpr (NewIntVal s)
  | some { kind := .val ⟨.intVal, s⟩, .. } => valExpr (NewIntVal ('-' :: s))
  | _ => UnaryExpr (Operator := lit "-") (E := e)

/-- Rule 706, /repo/sqlparser/parser.y:3613-3620: one expression in parentheses is not a tuple. -/
def tupleOrParen (l : List Expr) : Expr :=
  match l with
  | [e] => ParenExpr e
  | _ => tupleExpr l

end Sqldef.Go

namespace Sqldef.Sql
''']
    leaf = []
    for n, r in enumerate(rules):
        if not r.action or n == 0 or n in NOVALUE:
            if n and not r.action and not r.rhs and types.get(r.lhs) and UNION[types[r.lhs]]:
                raise SystemExit('empty rule without value %d' % n)
            leaf.append('d 1'); continue
        t = translate(n, r)
        if t is None:
            leaf.append('d 1'); continue
        F, x = t
        note = ' ' + NOTES[n] if n in NOTES else ''
        out.append('/-- `%s: %s`, /repo/sqlparser/parser.y:%d.%s -/' % (r.lhs, ' '.join(r.rhs), r.line, note))
        out.append('def rule%d (d : Nat → SymType) : SymType :=\n  (d 1).set%s %s\n' % (n, F[0].upper() + F[1:], atom(x)))
        leaf.append('rule%d d' % n)
    out.append('''/-- The value of the left-hand side of a rule, the `switch` of /repo/sqlparser/parser.go:3408-7848. -/
def value (r : Nat) (d : Nat → SymType) : SymType :=''')
    # intervals with the same leaf
    iv = []
    for n, l in enumerate(leaf):
        if iv and iv[-1][2] == l == 'd 1': iv[-1][1] = n
        else: iv.append([n, n, l])
    def tree(lo, hi, ind):
        if hi - lo == 1: return '%s%s' % ('  ' * 0, iv[lo][2])
        mid = (lo + hi) // 2
        return ('bif Nat.blt r %d then %s\n%selse %s' % (iv[mid][0], paren(tree(lo, mid, ind + 1), mid - lo, ind), ' ' * ind, paren(tree(mid, hi, ind + 1), hi - mid, ind)))
    def paren(s, k, ind): return '(' + s + ')' if k > 1 else s
    out.append('  ' + tree(0, len(iv), 2))
    out.append('\nend Sqldef.Sql\n')
    open('/verif/lean/Verif/Model/YyActions.lean', 'w').write('\n'.join(out))
    print(len([l for l in leaf if l != 'd 1']), 'rules with values')

main()
