import Verif.Base.Str
/-
The part of the syntax tree of `/repo/sqlparser/ast.go` that `/repo/schema/parser.go` reads.
The conversion to the schema (`Verif.Model.Parser`) takes the SQL grammar as a parameter; the grammar of the code is
`Verif.Model.SqlParse`.

Identifiers (`ColIdent`, `TableIdent`) are represented by the result of their `String()` method.
Expressions, select statements and trigger bodies are represented by their rendering
`sqlparser.String(node)`.
-/
namespace Sqldef

/-- `ValType`, /repo/sqlparser/ast.go:2408-2427. -/
inductive SqlValType
  | strVal | intVal | floatVal | hexNum | hexVal | valArg | bitVal | valBool
  deriving DecidableEq, Repr

/-- `SQLVal`, /repo/sqlparser/ast.go:2429-2432. -/
structure SqlVal where
  type : SqlValType
  val : Str
  deriving DecidableEq, Repr

/-- An expression: its rendering and, if it is a `ParenExpr`, the rendering of the inner
expression. `panics`: the rendering dereferences a nil expression and panics. -/
structure SqlExpr where
  text : Str
  inner : Option Str := none
  panics : Bool := false
  deriving DecidableEq, Repr

/-- `TableName`: name and qualifier. -/
structure SqlTableName where
  name : Str
  qualifier : Str := []
  deriving DecidableEq, Repr

/-- `Sequence`, /repo/sqlparser/ast.go:907-922. `*BoolVal` fields are only compared with nil. -/
structure SqlSequence where
  name : Str := []
  ifNotExists : Bool := false
  type : Str := []
  incrementBy : Option SqlVal := none
  minValue : Option SqlVal := none
  noMinValue : Option Bool := none
  maxValue : Option SqlVal := none
  noMaxValue : Option Bool := none
  startWith : Option SqlVal := none
  cache : Option SqlVal := none
  cycle : Option Bool := none
  noCycle : Option Bool := none
  ownedBy : Str := []
  deriving DecidableEq, Repr

/-- `IdentityOpt`, /repo/sqlparser/ast.go:929-933. -/
structure SqlIdentity where
  behavior : Str := []
  sequence : Option SqlSequence := none
  notForReplication : Bool := false
  deriving DecidableEq, Repr

/-- `DefaultDefinition`, /repo/sqlparser/ast.go:978-981. -/
structure SqlDefault where
  value : Option SqlVal
  constraintName : Str := []
  deriving DecidableEq, Repr

/-- `CheckDefinition`, /repo/sqlparser/ast.go:983-987. `constraintName` is
`sqlparser.String(ConstraintName)`. -/
structure SqlCheck where
  whereExpr : SqlExpr
  constraintName : Str := []
  notForReplication : Bool := false
  deriving DecidableEq, Repr

/-- `ColumnKeyOption`, /repo/sqlparser/ast.go:1290-1299. -/
inductive SqlKeyOpt
  | none | primary | spatialKey | unique | uniqueKey | key
  deriving DecidableEq, Repr

/-- `ColumnType`, /repo/sqlparser/ast.go:937-976 (comment, zerofill and reference names are not read
by schema/parser.go). -/
structure SqlColumnType where
  type : Str
  notNull : Option Bool := Option.none
  autoincrement : Bool := false
  default : Option SqlDefault := Option.none
  onUpdate : Option SqlVal := Option.none
  check : Option SqlCheck := Option.none
  checkNoInherit : Bool := false
  array : Bool := false
  length : Option SqlVal := Option.none
  unsigned : Bool := false
  scale : Option SqlVal := Option.none
  charset : Str := []
  collate : Str := []
  timezone : Bool := false
  enumValues : List Str := []
  keyOpt : SqlKeyOpt := .none
  references : Str := []
  identity : Option SqlIdentity := Option.none
  deriving DecidableEq, Repr

/-- `ColumnDefinition`, /repo/sqlparser/ast.go:886-889. -/
structure SqlColumn where
  name : Str
  type : SqlColumnType
  deriving DecidableEq, Repr

/-- `IndexColumn`, /repo/sqlparser/ast.go:1263-1267. -/
structure SqlIndexColumn where
  column : Str
  length : Option SqlVal := none
  direction : Str := []
  deriving DecidableEq, Repr

/-- `IndexOption`, /repo/sqlparser/ast.go:1277-1281. -/
structure SqlIndexOption where
  name : Str
  value : Option SqlVal := none
  deriving DecidableEq, Repr

/-- `IndexPartition`, /repo/sqlparser/ast.go:1283-1286. -/
structure SqlIndexPartition where
  name : Str
  column : Str
  deriving DecidableEq, Repr

/-- `IndexDefinition` with its `IndexInfo`, /repo/sqlparser/ast.go:1192-1197, 1239-1247. -/
structure SqlIndexDef where
  name : Str
  type : Str
  primary : Bool := false
  unique : Bool := false
  clustered : Bool := false
  columns : List SqlIndexColumn
  options : List SqlIndexOption := []
  partition : Option SqlIndexPartition := none
  deriving DecidableEq, Repr

/-- `ForeignKeyDefinition`, /repo/sqlparser/ast.go:1389-1398. -/
structure SqlForeignKey where
  constraintName : Str
  indexName : Str := []
  indexColumns : List Str
  referenceName : Str
  referenceColumns : List Str
  onDelete : Str := []
  onUpdate : Str := []
  notForReplication : Bool := false
  deriving DecidableEq, Repr

/-- `TableSpec`, /repo/sqlparser/ast.go:827-832. -/
structure SqlTableSpec where
  columns : List SqlColumn
  indexes : List SqlIndexDef := []
  foreignKeys : List SqlForeignKey := []
  options : Str := []
  deriving DecidableEq, Repr

/-- `Where`: its type (`where` or `having`) and its expression. -/
structure SqlWhere where
  isWhere : Bool
  expr : SqlExpr
  deriving DecidableEq, Repr

/-- `IndexSpec`, /repo/sqlparser/ast.go:1301-1311. -/
structure SqlIndexSpec where
  name : Str
  unique : Bool := false
  clustered : Bool := false
  included : List Str := []
  whereClause : Option SqlWhere := none
  options : List SqlIndexOption := []
  partition : Option SqlIndexPartition := none
  deriving DecidableEq, Repr

/-- `Policy`, /repo/sqlparser/ast.go:1400-1407. -/
structure SqlPolicy where
  name : Str
  permissive : Str := []
  scope : Str := []
  to : List Str := []
  using_ : Option SqlExpr := none
  withCheck : Option SqlExpr := none
  deriving DecidableEq, Repr

/-- `View`, /repo/sqlparser/ast.go:1590-1594: name and rendered definition. `panics`: the rendering of the definition panics. -/
structure SqlView where
  name : Str
  definition : Str
  panics : Bool := false
  deriving DecidableEq, Repr

/-- `Trigger`, /repo/sqlparser/ast.go:1596-1602. `panics`: the rendering of a statement of the body panics. -/
structure SqlTrigger where
  name : Str
  tableName : SqlTableName
  time : Str
  event : Str
  body : List Str
  panics : Bool := false
  deriving DecidableEq, Repr

/-- `DDL`, /repo/sqlparser/ast.go:659-674: the fields read by schema/parser.go. -/
structure SqlDDL where
  action : Str
  table : SqlTableName := { name := [] }
  newName : SqlTableName := { name := [] }
  tableSpec : Option SqlTableSpec := none
  indexSpec : Option SqlIndexSpec := none
  indexCols : List SqlIndexColumn := []
  foreignKey : Option SqlForeignKey := none
  policy : Option SqlPolicy := none
  view : Option SqlView := none
  trigger : Option SqlTrigger := none
  deriving DecidableEq, Repr

/-- `Statement`: only `*DDL` is distinguished. -/
inductive SqlStatement
  | ddl (d : SqlDDL)
  | other
  deriving DecidableEq, Repr

end Sqldef
