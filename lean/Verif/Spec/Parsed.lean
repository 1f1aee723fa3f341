import Verif.Model.Parser
/-
What it means that a definition of the schema (`/repo/schema/ast.go`) says the same as the syntax tree of a
statement (`/repo/sqlparser/ast.go`). The two types have been written independently of each other in the program;
the relations below go through their fields one by one and do not use the conversion functions.
-/
namespace Sqldef.Spec

/-- The kinds of literals correspond. -/
inductive KeepsKind : SqlValType → ValueType → Prop
  | str : KeepsKind .strVal .str
  | int : KeepsKind .intVal .int
  | float : KeepsKind .floatVal .float
  | hexNum : KeepsKind .hexNum .hexNum
  | hex : KeepsKind .hexVal .hex
  | valArg : KeepsKind .valArg .valArg
  | bit : KeepsKind .bitVal .bit
  | bool : KeepsKind .valBool .bool

/-- The same literal: its kind, its text, and for a text its characters, for an integer its value (see C16 for the
value that `atoi` gives), for a bit whether it is `1`. -/
structure KeepsValue (v : SqlVal) (w : Value) : Prop where
  kind : KeepsKind v.type w.valueType
  text : w.raw = v.val
  chars : v.type = .strVal → w.strVal = v.val
  number : v.type = .intVal → w.intVal = (atoi v.val).1
  bit : v.type = .bitVal → (w.bitVal = true ↔ v.val = lit "1")

/-- Both are absent, or both are present and related. -/
inductive OptRel {α β : Type} (R : α → β → Prop) : Option α → Option β → Prop
  | none : OptRel R none none
  | some {a : α} {b : β} : R a b → OptRel R (some a) (some b)

/-- Lists of the same length whose elements at every position are related. -/
def ListRel {α β : Type} (R : Nat → α → β → Prop) (as : List α) (bs : List β) : Prop :=
  as.length = bs.length ∧ ∀ i a b, as[i]? = some a → bs[i]? = some b → R i a b

/-- The same key of a column. -/
inductive KeepsKey : SqlKeyOpt → ColumnKeyOption → Prop
  | none : KeepsKey .none .none
  | primary : KeepsKey .primary .primary
  | spatialKey : KeepsKey .spatialKey .spatialKey
  | unique : KeepsKey .unique .unique
  | uniqueKey : KeepsKey .uniqueKey .uniqueKey
  | key : KeepsKey .key .key

/-- A DEFAULT clause with a value, and its name. -/
structure KeepsDefault (a : SqlDefault) (b : DefaultDefinition) : Prop where
  value : OptRel KeepsValue a.value b.value
  name : b.constraintName = a.constraintName

/-- A CHECK clause. -/
structure KeepsCheck (a : SqlCheck) (b : CheckDefinition) : Prop where
  condition : b.definition = a.whereExpr.text
  name : b.constraintName = a.constraintName
  replication : b.notForReplication = a.notForReplication

/-- The number written by an integer literal. -/
def KeepsNumber (v : SqlVal) (n : Int) : Prop := v.type = .intVal → n = (atoi v.val).1

/-- The options of an identity sequence. A flag that is absent is false. -/
structure KeepsSequence (a : SqlSequence) (b : Sequence) : Prop where
  name : b.name = a.name
  ifNotExists : b.ifNotExists = a.ifNotExists
  type : b.type = a.type
  ownedBy : b.ownedBy = a.ownedBy
  increment : OptRel KeepsNumber a.incrementBy b.incrementBy
  min : OptRel KeepsNumber a.minValue b.minValue
  max : OptRel KeepsNumber a.maxValue b.maxValue
  start : OptRel KeepsNumber a.startWith b.startWith
  cache : OptRel KeepsNumber a.cache b.cache
  noMin : b.noMinValue = true ↔ a.noMinValue ≠ none
  noMax : b.noMaxValue = true ↔ a.noMaxValue ≠ none
  cycle : b.cycle = true ↔ a.cycle ≠ none
  noCycle : b.noCycle = true ↔ a.noCycle ≠ none

/-- The identity of a column and its sequence. -/
structure KeepsIdentity (a : SqlIdentity) (b : Identity) : Prop where
  behavior : b.behavior = toUpper a.behavior
  replication : b.notForReplication = a.notForReplication

/-- The `i`-th column of a table. The collation `binary` is a way of writing the binary collation of the
character set of the table (C17); every other collation is kept. -/
structure KeepsColumn (i : Nat) (a : SqlColumn) (b : Column) : Prop where
  name : b.name = a.name
  position : b.position = i
  type : b.typeName = a.type.type
  unsigned : b.unsigned = a.type.unsigned
  notNull : b.notNull = a.type.notNull
  autoIncrement : b.autoIncrement = a.type.autoincrement
  array : b.array = a.type.array
  default : (∀ d v, a.type.default = some d → d.value = some v → ∃ e, b.defaultDef = some e ∧ KeepsDefault d e) ∧
    ((∀ d, a.type.default = some d → d.value = none) → b.defaultDef = none)
  length : OptRel KeepsValue a.type.length b.length
  scale : OptRel KeepsValue a.type.scale b.scale
  check : OptRel KeepsCheck a.type.check b.check
  checkNoInherit : b.checkNoInherit = a.type.checkNoInherit
  charset : b.charset = a.type.charset
  collate : a.type.collate ≠ lit "binary" → b.collate = a.type.collate
  timezone : b.timezone = a.type.timezone
  key : KeepsKey a.type.keyOpt b.keyOption
  onUpdate : OptRel KeepsValue a.type.onUpdate b.onUpdate
  enumValues : b.enumValues = a.type.enumValues
  references : b.references = a.type.references
  identity : OptRel KeepsIdentity a.type.identity b.identity
  sequence : OptRel KeepsSequence (a.type.identity.bind (·.sequence)) b.sequence

/-- The length of a column of an index is an integer that is in range. -/
def KeepsLength (v : SqlVal) (n : Int) : Prop := v.type = .intVal ∧ atoi v.val = (n, none)

/-- A column of an index. -/
structure KeepsIndexColumn (a : SqlIndexColumn) (b : IndexColumn) : Prop where
  column : b.column = a.column
  length : OptRel KeepsLength a.length b.length
  direction : b.direction = a.direction

/-- An option of an index. -/
structure KeepsIndexOption (a : SqlIndexOption) (b : IndexOption) : Prop where
  name : b.optionName = a.name
  value : OptRel KeepsValue a.value b.value

/-- The partition of an index; without one, both names are empty. -/
def KeepsPartition (a : Option SqlIndexPartition) (b : IndexPartition) : Prop :=
  match a with
  | none => b.partitionName = [] ∧ b.column = []
  | some p => b.partitionName = p.name ∧ b.column = p.column

/-- An index written inside CREATE TABLE. It has no condition and no included columns. -/
structure KeepsIndexDef (a : SqlIndexDef) (b : Index) : Prop where
  name : b.name = a.name
  type : b.indexType = a.type
  columns : ListRel (fun _ => KeepsIndexColumn) a.columns b.columns
  primary : b.primary = a.primary
  unique : b.unique = a.unique
  clustered : b.clustered = a.clustered
  options : ListRel (fun _ => KeepsIndexOption) a.options b.options
  partition : KeepsPartition a.partition b.partition
  condition : b.whereExpr = []
  included : b.included = []

/-- The condition of an index: the expression of the WHERE clause, without its outer parentheses. -/
def KeepsCondition (a : Option SqlWhere) (text : Str) : Prop :=
  match a with
  | none => text = []
  | some w => w.isWhere = true →
    (∀ inner, w.expr.inner = some inner → text = inner) ∧ (w.expr.inner = none → text = w.expr.text)

/-- An index written as a statement of its own. -/
structure KeepsIndexSpec (a : SqlIndexSpec) (cols : List SqlIndexColumn) (b : Index) : Prop where
  name : b.name = a.name
  columns : ListRel (fun _ => KeepsIndexColumn) cols b.columns
  primary : b.primary = false
  unique : b.unique = a.unique
  clustered : b.clustered = a.clustered
  options : ListRel (fun _ => KeepsIndexOption) a.options b.options
  partition : KeepsPartition a.partition b.partition
  condition : KeepsCondition a.whereClause b.whereExpr
  included : b.included = a.included

/-- A foreign key. -/
structure KeepsForeignKey (a : SqlForeignKey) (b : ForeignKey) : Prop where
  name : b.constraintName = a.constraintName
  index : b.indexName = a.indexName
  columns : b.indexColumns = a.indexColumns
  table : b.referenceName = a.referenceName
  referenced : b.referenceColumns = a.referenceColumns
  onDelete : b.onDelete = a.onDelete
  onUpdate : b.onUpdate = a.onUpdate
  replication : b.notForReplication = a.notForReplication

/-- The condition of a policy; an absent one is empty. -/
def KeepsPredicate (a : Option SqlExpr) (text : Str) : Prop :=
  match a with
  | none => text = []
  | some e => text = e.text

/-- A policy. -/
structure KeepsPolicy (a : SqlPolicy) (b : Policy) : Prop where
  name : b.name = a.name
  permissive : b.permissive = a.permissive
  scope : b.scope = a.scope
  roles : b.roles = a.to
  using_ : KeepsPredicate a.using_ b.using_
  withCheck : KeepsPredicate a.withCheck b.withCheck

/-- The name of a table in a schema: in Postgres it carries its schema, `public` if none is written; elsewhere
the schema is not kept. -/
def KeepsTableName (mode : Mode) (a : SqlTableName) (name : Str) : Prop :=
  (mode = .postgres → a.qualifier ≠ [] → name = a.qualifier ++ '.' :: a.name) ∧
  (mode = .postgres → a.qualifier = [] → name = lit "public." ++ a.name) ∧
  (mode ≠ .postgres → name = a.name)

/-- The definition `d` of the schema says what the statement with the text `text` and the syntax tree `a` says. -/
inductive SaysTheSame (mode : Mode) (text : Str) (a : SqlDDL) : DDL → Prop
  | createTable {t : Table} {spec : SqlTableSpec} : a.action = lit "create" → a.tableSpec = some spec →
    KeepsTableName mode a.newName t.name → ListRel KeepsColumn spec.columns t.columns →
    ListRel (fun _ => KeepsIndexDef) spec.indexes t.indexes →
    ListRel (fun _ => KeepsForeignKey) spec.foreignKeys t.foreignKeys → t.policies = [] →
    SaysTheSame mode text a (.createTable text t)
  | createIndex {n : Str} {i : Index} {s : SqlIndexSpec} : a.action = lit "create index" → a.indexSpec = some s →
    KeepsTableName mode a.table n → KeepsIndexSpec s a.indexCols i → SaysTheSame mode text a (.createIndex text n i)
  | addIndex {n : Str} {i : Index} {s : SqlIndexSpec} : a.action = lit "add index" → a.indexSpec = some s →
    KeepsTableName mode a.table n → KeepsIndexSpec s a.indexCols i → SaysTheSame mode text a (.addIndex text n i)
  | addPrimaryKey {n : Str} {i : Index} {s : SqlIndexSpec} : a.action = lit "add primary key" → a.indexSpec = some s →
    KeepsTableName mode a.table n → KeepsIndexSpec s a.indexCols i → SaysTheSame mode text a (.addPrimaryKey text n i)
  | addForeignKey {n : Str} {k : SqlForeignKey} {f : ForeignKey} : a.action = lit "add foreign key" →
    a.foreignKey = some k → KeepsTableName mode a.table n → KeepsForeignKey k f →
    SaysTheSame mode text a (.addForeignKey text n f)
  | addPolicy {n : Str} {k : SqlPolicy} {p : Policy} : a.action = lit "create policy" →
    a.policy = some k → KeepsTableName mode a.table n → KeepsPolicy k p →
    SaysTheSame mode text a (.addPolicy text n p)
  | view {w : SqlView} {v : View} : a.action = lit "create view" → a.view = some w →
    v.statement = text → v.name = w.name → v.definition = w.definition → SaysTheSame mode text a (.view v)
  | trigger {w : SqlTrigger} {t : Trigger} : a.action = lit "create trigger" → a.trigger = some w →
    t.statement = text → t.name = w.name → t.tableName = w.tableName.name → t.time = w.time → t.event = w.event →
    t.body = w.body → SaysTheSame mode text a (.trigger t)

end Sqldef.Spec
