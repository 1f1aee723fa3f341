import Verif.Base.Str
/-
Model of `/repo/schema/ast.go`: the schema-level syntax tree that the generator diffs.
Go pointers that are only used as optional values are `Option`.
-/
namespace Sqldef

/-- `GeneratorMode`, /repo/schema/generator.go:12-19. -/
inductive Mode
  | mysql | postgres | sqlite3 | mssql
  deriving DecidableEq, Repr

/-- `ValueType`, /repo/schema/ast.go:159-170. -/
inductive ValueType
  | str | int | float | hexNum | hex | valArg | bit | bool
  deriving DecidableEq, Repr

/-- `Value`, /repo/schema/ast.go:148-157. `floatVal float64` is represented by the text that
`fmt.Sprintf("%f", floatVal)` prints, the only thing the program does with it. -/
structure Value where
  valueType : ValueType
  raw : Str
  strVal : Str := []
  intVal : Int := 0
  floatVal : Str := []
  bitVal : Bool := false
  deriving DecidableEq, Repr

/-- `ColumnKeyOption`, /repo/schema/ast.go:172-181. -/
inductive ColumnKeyOption
  | none | primary | spatialKey | unique | uniqueKey | key
  deriving DecidableEq, Repr

/-- `ColumnKeyOption.isUnique`, /repo/schema/ast.go:277-279. -/
def ColumnKeyOption.isUnique : ColumnKeyOption → Bool
  | .unique => true
  | .uniqueKey => true
  | _ => false

/-- `Identity`, /repo/schema/ast.go:183-186. -/
structure Identity where
  behavior : Str
  notForReplication : Bool
  deriving DecidableEq, Repr

/-- `Sequence`, /repo/schema/ast.go:188-202. -/
structure Sequence where
  name : Str := []
  ifNotExists : Bool := false
  type : Str := []
  incrementBy : Option Int := .none
  minValue : Option Int := .none
  noMinValue : Bool := false
  maxValue : Option Int := .none
  noMaxValue : Bool := false
  startWith : Option Int := .none
  cache : Option Int := .none
  cycle : Bool := false
  noCycle : Bool := false
  ownedBy : Str := []
  deriving DecidableEq, Repr

/-- `DefaultDefinition`, /repo/schema/ast.go:204-207. -/
structure DefaultDefinition where
  value : Option Value
  constraintName : Str := []
  deriving DecidableEq, Repr

/-- `CheckDefinition`, /repo/schema/ast.go:209-213. -/
structure CheckDefinition where
  definition : Str
  constraintName : Str := []
  notForReplication : Bool := false
  deriving DecidableEq, Repr

/-- `Column`, /repo/schema/ast.go:51-75. -/
structure Column where
  name : Str
  position : Int
  typeName : Str
  unsigned : Bool := false
  notNull : Option Bool := .none
  autoIncrement : Bool := false
  array : Bool := false
  defaultDef : Option DefaultDefinition := .none
  length : Option Value := .none
  scale : Option Value := .none
  check : Option CheckDefinition := .none
  checkNoInherit : Bool := false
  charset : Str := []
  collate : Str := []
  timezone : Bool := false
  keyOption : ColumnKeyOption := .none
  onUpdate : Option Value := .none
  enumValues : List Str := []
  references : Str := []
  identity : Option Identity := .none
  sequence : Option Sequence := .none
  deriving DecidableEq, Repr

/-- `IndexColumn`, /repo/schema/ast.go:90-94. -/
structure IndexColumn where
  column : Str
  length : Option Int := .none
  direction : Str := []
  deriving DecidableEq, Repr

/-- `AscScr`, /repo/schema/ast.go:98. -/
def ascScr : Str := lit "asc"
/-- `DescScr`, /repo/schema/ast.go:99. -/
def descScr : Str := lit "desc"

/-- `IndexOption`, /repo/schema/ast.go:102-105. -/
structure IndexOption where
  optionName : Str
  value : Option Value
  deriving DecidableEq, Repr

/-- `IndexPartition`, /repo/schema/ast.go:107-110. -/
structure IndexPartition where
  partitionName : Str := []
  column : Str := []
  deriving DecidableEq, Repr

/-- `Index`, /repo/schema/ast.go:77-88. -/
structure Index where
  name : Str
  indexType : Str := []
  columns : List IndexColumn
  primary : Bool := false
  unique : Bool := false
  whereExpr : Str := []
  included : List Str := []
  clustered : Bool := false
  partition : IndexPartition := {}
  options : List IndexOption := []
  deriving DecidableEq, Repr

/-- `ForeignKey`, /repo/schema/ast.go:112-121. -/
structure ForeignKey where
  constraintName : Str
  indexName : Str := []
  indexColumns : List Str
  referenceName : Str
  referenceColumns : List Str
  onDelete : Str := []
  onUpdate : Str := []
  notForReplication : Bool := false
  deriving DecidableEq, Repr

/-- `Policy`, /repo/schema/ast.go:123-131. -/
structure Policy where
  name : Str
  referenceName : Str := []
  permissive : Str := []
  scope : Str := []
  roles : List Str := []
  using_ : Str := []
  withCheck : Str := []
  deriving DecidableEq, Repr

/-- `View`, /repo/schema/ast.go:133-137. -/
structure View where
  statement : Str
  name : Str
  definition : Str
  deriving DecidableEq, Repr

/-- `Trigger`, /repo/schema/ast.go:139-146. -/
structure Trigger where
  statement : Str
  name : Str
  tableName : Str
  time : Str
  event : Str
  body : List Str
  deriving DecidableEq, Repr

/-- `Table`, /repo/schema/ast.go:42-49. -/
structure Table where
  name : Str
  columns : List Column
  indexes : List Index := []
  foreignKeys : List ForeignKey := []
  policies : List Policy := []
  deriving DecidableEq, Repr

/-- The implementations of the `DDL` interface, /repo/schema/ast.go:3-40 and 133-146. -/
inductive DDL
  | createTable (statement : Str) (table : Table)
  | createIndex (statement : Str) (tableName : Str) (index : Index)
  | addIndex (statement : Str) (tableName : Str) (index : Index)
  | addPrimaryKey (statement : Str) (tableName : Str) (index : Index)
  | addForeignKey (statement : Str) (tableName : Str) (foreignKey : ForeignKey)
  | addPolicy (statement : Str) (tableName : Str) (policy : Policy)
  | view (v : View)
  | trigger (t : Trigger)
  deriving DecidableEq, Repr

/-- `DDL.Statement()`, /repo/schema/ast.go:215-245. -/
def DDL.statement : DDL → Str
  | .createTable s _ => s
  | .createIndex s _ _ => s
  | .addIndex s _ _ => s
  | .addPrimaryKey s _ _ => s
  | .addForeignKey s _ _ => s
  | .addPolicy s _ _ => s
  | .view v => v.statement
  | .trigger t => t.statement

/-- `Table.PrimaryKey`, /repo/schema/ast.go:247-275. -/
def Table.primaryKey (t : Table) : Option Index :=
  match t.indexes.find? (·.primary) with
  | some i => some i
  | none =>
    let cols : List IndexColumn :=
      (t.columns.filter (·.keyOption = ColumnKeyOption.primary)).map fun c => { column := c.name }
    if cols.isEmpty then none
    else some { name := lit "PRIMARY", indexType := lit "primary key", columns := cols,
                primary := true, unique := true, clustered := true }

end Sqldef
