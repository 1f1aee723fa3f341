import Verif.Model.Compare
/-
Model of the text-producing functions of `/repo/schema/generator.go` and of the statements
that the generator emits.
-/
namespace Sqldef

/-- How a Go call can end other than by returning a value. `panic` stands for a Go run-time
panic, `fatal` for `log.Fatalf` (process exit); every other constructor is a returned `error`.
Error texts are not modelled, only their cause and the names they mention. -/
inductive Err
  | panic
  | fatal
  | unsupportedDefault
  | unsupportedColumnKey
  | fkWithoutName (table : Str)
  | inexistentTable (table : Str)
  | beforeCreateTable (table : Str)
  | doublyCreated (name : Str)
  | primaryKeyColumnMismatch (table : Str)
  | unexpectedDDL
  | parse (msg : Str)
  | badLength
  | missingIndexSpec
  | unsupportedAction (action : Str)
  | notDDL
  deriving DecidableEq, Repr

/-! ### Names -/

/-- `escapeSQLName`, /repo/schema/generator.go:1046-1055. -/
def escapeSQLName (mode : Mode) (name : Str) : Str :=
  match mode with
  | .postgres => lit "\"" ++ name ++ lit "\""
  | .mssql => lit "[" ++ name ++ lit "]"
  | _ => lit "`" ++ name ++ lit "`"

/-- `escapeTableName`, /repo/schema/generator.go:1024-1044. -/
def escapeTableName (mode : Mode) (name : Str) : Str :=
  match mode with
  | .postgres =>
    match splitDot name with
    | none => escapeSQLName mode (lit "public") ++ lit "." ++ escapeSQLName mode name
    | some (s, t) => escapeSQLName mode s ++ lit "." ++ escapeSQLName mode t
  | .mssql =>
    match splitDot name with
    | none => escapeSQLName mode (lit "dbo") ++ lit "." ++ escapeSQLName mode name
    | some (s, t) => escapeSQLName mode s ++ lit "." ++ escapeSQLName mode t
  | _ => escapeSQLName mode name

/-! ### Definitions -/

/-- `generateDataType`, /repo/schema/generator.go:759-779. -/
def generateDataType (c : Column) : Str :=
  let suffix : Str := if c.array then lit "[]" else []
  match c.length with
  | some l =>
    match c.scale with
    | some s => c.typeName ++ lit "(" ++ l.raw ++ lit ", " ++ s.raw ++ lit ")" ++ suffix
    | none => c.typeName ++ lit "(" ++ l.raw ++ lit ")" ++ suffix
  | none =>
    if c.typeName = lit "enum" then
      c.typeName ++ lit "(" ++ join (lit ", ") c.enumValues ++ lit ")" ++ suffix
    else c.typeName ++ suffix

/-- `generateDefaultDefinition`, /repo/schema/generator.go:1610-1629. -/
def generateDefaultDefinition (v : Value) : Except Err Str :=
  match v.valueType with
  | .str => .ok (lit "DEFAULT '" ++ v.strVal ++ lit "'")
  | .int => .ok (lit "DEFAULT " ++ showInt v.intVal)
  | .float => .ok (lit "DEFAULT " ++ v.floatVal)
  | .bit => .ok (if v.bitVal then lit "DEFAULT b'1'" else lit "DEFAULT b'0'")
  | .valArg => .ok (lit "DEFAULT " ++ v.raw)
  | _ => .error .unsupportedDefault

/-- `label %d ` for an optional number. -/
def optClause (label : Str) : Option Int → Str
  | none => []
  | some n => label ++ showInt n ++ lit " "

/-- `generateSequenceClause`, /repo/schema/generator.go:1574-1608. -/
def generateSequenceClause (s : Sequence) : Str :=
  trimSpace <|
    (if s.name ≠ [] then lit "SEQUENCE NAME " ++ s.name ++ lit " " else []) ++
    optClause (lit "START WITH ") s.startWith ++
    optClause (lit "INCREMENT BY ") s.incrementBy ++
    optClause (lit "MINVALUE ") s.minValue ++
    (if s.noMinValue then lit "NO MINVALUE " else []) ++
    optClause (lit "MAXVALUE ") s.maxValue ++
    (if s.noMaxValue then lit "NO MAXVALUE " else []) ++
    optClause (lit "CACHE ") s.cache ++
    (if s.cycle then lit "CYCLE " else []) ++
    (if s.noCycle then lit "NO CYCLE " else [])

/-- The `NOT NULL `/`NULL ` part of a column definition, /repo/schema/generator.go:802-806. -/
def nullClause (c : Column) : Str :=
  if c.identity.isNone && (decide (c.notNull = some true) || decide (c.keyOption = .primary)) then
    lit "NOT NULL "
  else if c.notNull = some false then lit "NULL "
  else []

/-- The `DEFAULT ... ` part of a column definition, /repo/schema/generator.go:808-814. -/
def defaultClause (c : Column) : Except Err Str :=
  match c.defaultDef with
  | none => .ok []
  | some d =>
    match d.value with
    | none => .ok []
    | some v => do
      let s ← generateDefaultDefinition v
      return s ++ lit " "

/-- The `CHECK ... ` part of a column definition, /repo/schema/generator.go:824-833. -/
def checkClause (c : Column) : Str :=
  (match c.check with
    | none => []
    | some k =>
      lit "CHECK " ++ (if k.notForReplication then lit "NOT FOR REPLICATION " else []) ++
      lit "(" ++ k.definition ++ lit ") ") ++
  (if c.checkNoInherit then lit "NO INHERIT " else [])

/-- The key part of a column definition, /repo/schema/generator.go:835-850. -/
def keyClause (c : Column) (enableUnique : Bool) : Except Err Str :=
  match c.keyOption with
  | .none => .ok []
  | .unique => .ok (if enableUnique then lit "UNIQUE " else [])
  | .uniqueKey => .ok (if enableUnique then lit "UNIQUE KEY " else [])
  | .primary => .ok []
  | .spatialKey => .error .unsupportedColumnKey
  | .key => .error .unsupportedColumnKey

/-- The identity part of a column definition, /repo/schema/generator.go:852-862. For SQL Server
the code dereferences `sequence.StartWith`, `sequence.IncrementBy` and `identity`. -/
def identityClause (mode : Mode) (c : Column) : Except Err Str :=
  let mssqlPart : Except Err Str :=
    if mode = .mssql then
      match c.sequence with
      | none => .ok []
      | some s =>
        match s.startWith, s.incrementBy, c.identity with
        | some a, some b, some i =>
          .ok (lit "IDENTITY(" ++ showInt a ++ lit "," ++ showInt b ++ lit ")" ++
            (if i.notForReplication then lit " NOT FOR REPLICATION" else []))
        | _, _, _ => .error .panic
    else .ok []
  match c.identity with
  | some i =>
    if i.behavior ≠ [] then
      .ok (lit "GENERATED " ++ i.behavior ++ lit " AS IDENTITY " ++
        (match c.sequence with
          | none => []
          | some s => lit "(" ++ generateSequenceClause s ++ lit ") "))
    else mssqlPart
  | none => mssqlPart

/-- `generateColumnDefinition`, /repo/schema/generator.go:781-865. -/
def generateColumnDefinition (mode : Mode) (c : Column) (enableUnique : Bool) : Except Err Str := do
  let def_ ← defaultClause c
  let key ← keyClause c enableUnique
  let ident ← identityClause mode c
  return trimSuffixSpace <|
    escapeSQLName mode c.name ++ lit " " ++ generateDataType c ++ lit " " ++
    (if c.unsigned then lit "UNSIGNED " else []) ++
    (if c.timezone then lit "WITH TIME ZONE " else []) ++
    (if c.charset ≠ [] then lit "CHARACTER SET " ++ c.charset ++ lit " " else []) ++
    (if c.collate ≠ [] then lit "COLLATE " ++ c.collate ++ lit " " else []) ++
    nullClause c ++
    def_ ++
    (if c.autoIncrement then lit "AUTO_INCREMENT " else []) ++
    (match c.onUpdate with
      | none => []
      | some v => lit "ON UPDATE " ++ v.raw ++ lit " ") ++
    checkClause c ++
    key ++ ident

/-- One entry of the SQL Server `WITH (...)` list, /repo/schema/generator.go:953-967. -/
def mssqlIndexOption (o : IndexOption) : Except Err Str :=
  match o.value with
  | none => .error .panic
  | some v =>
    let value : Str :=
      if v.valueType = .bool then (if v.raw = lit "true" then lit "ON" else lit "OFF") else v.raw
    .ok (o.optionName ++ lit " = " ++ value)

/-- `generateIndexOptionDefinition`, /repo/schema/generator.go:940-971. The code dereferences
`indexOption.value`. -/
def generateIndexOptionDefinition (mode : Mode) (options : List IndexOption) : Except Err Str :=
  match options with
  | [] => .ok []
  | o :: rest =>
    match mode with
    | .mysql =>
      match o.value with
      | none => .error .panic
      | some v =>
        .ok (lit " " ++ (if o.optionName = lit "parser" then lit "WITH " ++ o.optionName else o.optionName)
          ++ lit " " ++ v.raw)
    | .mssql => do
      let os ← (o :: rest).mapM mssqlIndexOption
      return lit " WITH (" ++ join (lit ", ") os ++ lit ")"
    | _ => .ok []

/-- The text of one column of an index, /repo/schema/generator.go:881-888. -/
def indexColumnText (mode : Mode) (c : IndexColumn) : Str :=
  escapeSQLName mode c.column ++
  (match c.length with
    | none => []
    | some n => lit "(" ++ showInt n ++ lit ")") ++
  (if c.direction = descScr then lit " " ++ c.direction else [])

/-- `generateAddIndex`, /repo/schema/generator.go:867-938. -/
def generateAddIndex (mode : Mode) (table : Str) (index : Index) : Except Err Str := do
  let uniqueOption : Str := if index.unique then lit " UNIQUE" else []
  let clusteredOption : Str := if index.clustered then lit " CLUSTERED" else lit " NONCLUSTERED"
  let columns := index.columns.map (indexColumnText mode)
  let optionDefinition ← generateIndexOptionDefinition mode index.options
  let tail := lit " (" ++ join (lit ", ") columns ++ lit ")" ++ optionDefinition
  match mode with
  | .mssql =>
    if !index.primary then
      return lit "CREATE" ++ uniqueOption ++ clusteredOption ++ lit " INDEX " ++
        escapeSQLName mode index.name ++ lit " ON " ++ escapeTableName mode table ++ tail ++
        (if index.partition.partitionName ≠ [] then
          lit " ON " ++ escapeSQLName mode index.partition.partitionName ++
          (if index.partition.column ≠ [] then
            lit " (" ++ escapeSQLName mode index.partition.column ++ lit ")" else [])
         else [])
    else
      return lit "ALTER TABLE " ++ escapeTableName mode table ++ lit " ADD" ++
        (if index.name ≠ lit "PRIMARY" then
          lit " CONSTRAINT " ++ escapeSQLName mode index.name else []) ++
        lit " " ++ index.indexType ++ clusteredOption ++ tail
  | _ =>
    return lit "ALTER TABLE " ++ escapeTableName mode table ++ lit " ADD " ++ index.indexType ++
      (if !index.primary then lit " " ++ escapeSQLName mode index.name else []) ++ tail

/-- `generateForeignKeyDefinition`, /repo/schema/generator.go:973-1009. -/
def generateForeignKeyDefinition (mode : Mode) (fk : ForeignKey) : Str :=
  trimSuffixSpace <|
    lit "CONSTRAINT " ++ escapeSQLName mode fk.constraintName ++ lit " FOREIGN KEY " ++
    (if fk.indexName ≠ [] then escapeSQLName mode fk.indexName ++ lit " " else []) ++
    lit "(" ++ join (lit ",") (fk.indexColumns.map (escapeSQLName mode)) ++ lit ") REFERENCES " ++
    escapeSQLName mode fk.referenceName ++ lit " (" ++
    join (lit ",") (fk.referenceColumns.map (escapeSQLName mode)) ++ lit ") " ++
    (if fk.onDelete ≠ [] then lit "ON DELETE " ++ fk.onDelete ++ lit " " else []) ++
    (if fk.onUpdate ≠ [] then lit "ON UPDATE " ++ fk.onUpdate ++ lit " " else []) ++
    (if fk.notForReplication then lit "NOT FOR REPLICATION " else [])

/-! ### Statements -/

/-- Placement of a column in MySQL, /repo/schema/generator.go:256-262 and 282-288. -/
inductive Place
  | none
  | first
  | after (column : Str)
  deriving DecidableEq, Repr

/-- The statements that the generator emits, one constructor per `Sprintf` (or group of `Sprintf`s
that differ only by dialect). The lines given are those of /repo/schema/generator.go. -/
inductive Stmt
  /-- a statement of the desired schema, verbatim (97, 537, 543, 600, 605, 629) -/
  | user (d : DDL)
  /-- 149 -/
  | dropTable (table : Str)
  /-- 197, 604 -/
  | dropPolicy (table policy : Str)
  /-- 208, 634 -/
  | dropView (view : Str)
  /-- 635 -/
  | createView (view definition : Str)
  /-- 637 -/
  | replaceView (view definition : Str)
  /-- 676 -/
  | dropTrigger (trigger : Str)
  /-- 658-667, 678; `orAlter` for `CREATE OR ALTER` -/
  | createTrigger (orAlter : Bool) (t : Trigger)
  /-- 251-262, 396 -/
  | addColumn (table : Str) (c : Column) (place : Place)
  /-- 281-289, 436, 487 -/
  | changeColumn (table old : Str) (c : Column) (place : Place)
  /-- 295 -/
  | addUniqueKey (table column : Str)
  /-- 227, 389 -/
  | dropColumn (table column : Str)
  /-- 301 -/
  | alterType (table column : Str) (c : Column)
  /-- 307 -/
  | dropNotNull (table column : Str)
  /-- 309 -/
  | setNotNull (table column : Str)
  /-- 317-320 -/
  | addIdentity (table column behavior : Str) (seq : Option Sequence)
  /-- 324 -/
  | dropIdentity (table column : Str)
  /-- 328 -/
  | setGenerated (table column behavior : Str)
  /-- 336 -/
  | dropDefault (table column : Str)
  /-- 343 -/
  | setDefault (table column : Str) (v : Value)
  /-- 350, 368: the constraint name is not quoted -/
  | dropCheck (table column constraint : Str)
  /-- 354-358, 380: the constraint name is not quoted; `noInherit` only for Postgres -/
  | addCheck (table column constraint : Str) (check : CheckDefinition) (noInherit : Bool)
  /-- 221, 405 -/
  | dropDefaultConstraint (table column constraint : Str)
  /-- 414-418 -/
  | addDefaultConstraint (table column constraint : Str) (v : Value)
  /-- 448 (MySQL), 451 (Postgres), 729 (SQL Server) -/
  | dropPrimaryKey (table constraint : Str)
  /-- 457, 470, 475 -/
  | addIndex (table : Str) (index : Index)
  /-- 469, 542, 750, 753 -/
  | dropIndex (table index : Str)
  /-- 506, 508, 693, 704 -/
  | dropForeignKey (table constraint : Str)
  /-- 511, 516 -/
  | addForeignKey (table : Str) (fk : ForeignKey)
  deriving DecidableEq, Repr

/-- Text of a placement, /repo/schema/generator.go:257-261. -/
def Place.render (mode : Mode) : Place → Str
  | .none => []
  | .first => lit " FIRST"
  | .after c => lit " AFTER " ++ escapeSQLName mode c

/-- A text that the generator has already computed without error (the generator emits the
statement only in that case, see `diff_wellformed`). -/
def textOf : Except Err Str → Str
  | .ok s => s
  | .error _ => []

/-- `TRIGGER ...`, /repo/schema/generator.go:655-663. -/
def triggerDefinition (mode : Mode) (t : Trigger) : Str :=
  match mode with
  | .mssql =>
    lit "TRIGGER " ++ escapeSQLName mode t.name ++ lit " ON " ++ escapeTableName mode t.tableName ++
    lit " " ++ t.time ++ lit " " ++ t.event ++ lit " AS " ++ join (lit " ") t.body
  | _ =>
    lit "TRIGGER " ++ escapeSQLName mode t.name ++ lit " " ++ t.time ++ lit " " ++ t.event ++
    lit " ON " ++ escapeTableName mode t.tableName ++ lit " FOR EACH ROW " ++ join (lit " ") t.body

/-- `ALTER TABLE <table> `. -/
def alterTable (mode : Mode) (table : Str) : Str :=
  lit "ALTER TABLE " ++ escapeTableName mode table ++ lit " "

/-- `generateDropIndex`, /repo/schema/generator.go:1011-1022. -/
def generateDropIndex (mode : Mode) (table index : Str) : Str :=
  match mode with
  | .mysql => alterTable mode table ++ lit "DROP INDEX " ++ escapeSQLName mode index
  | .postgres => lit "DROP INDEX " ++ escapeSQLName mode index
  | .mssql => lit "DROP INDEX " ++ escapeSQLName mode index ++ lit " ON " ++ escapeTableName mode table
  | .sqlite3 => []

/-- The text of a statement. The lines are given at the constructors of `Stmt`. -/
def Stmt.render (mode : Mode) : Stmt → Str
  | .user d => d.statement
  | .dropTable t => lit "DROP TABLE " ++ escapeTableName mode t
  | .dropPolicy t p => lit "DROP POLICY " ++ escapeSQLName mode p ++ lit " ON " ++ escapeTableName mode t
  | .dropView v => lit "DROP VIEW " ++ escapeTableName mode v
  | .createView v d => lit "CREATE VIEW " ++ escapeTableName mode v ++ lit " AS " ++ d
  | .replaceView v d => lit "CREATE OR REPLACE VIEW " ++ escapeTableName mode v ++ lit " AS " ++ d
  | .dropTrigger n => lit "DROP TRIGGER " ++ escapeSQLName mode n
  | .createTrigger orAlter t =>
    lit "CREATE " ++ (if orAlter then lit "OR ALTER " else []) ++ triggerDefinition mode t
  | .addColumn t c place =>
    alterTable mode t ++ (if mode = .mssql then lit "ADD " else lit "ADD COLUMN ") ++
    textOf (generateColumnDefinition mode c true) ++ place.render mode
  | .changeColumn t old c place =>
    alterTable mode t ++ lit "CHANGE COLUMN " ++ escapeSQLName mode old ++ lit " " ++
    textOf (generateColumnDefinition mode c false) ++ place.render mode
  | .addUniqueKey t c =>
    alterTable mode t ++ lit "ADD UNIQUE KEY " ++ escapeSQLName mode c ++ lit "(" ++
    escapeSQLName mode c ++ lit ")"
  | .dropColumn t c => alterTable mode t ++ lit "DROP COLUMN " ++ escapeSQLName mode c
  | .alterType t c col =>
    alterTable mode t ++ lit "ALTER COLUMN " ++ escapeSQLName mode c ++ lit " TYPE " ++ generateDataType col
  | .dropNotNull t c =>
    alterTable mode t ++ lit "ALTER COLUMN " ++ escapeSQLName mode c ++ lit " DROP NOT NULL"
  | .setNotNull t c =>
    alterTable mode t ++ lit "ALTER COLUMN " ++ escapeSQLName mode c ++ lit " SET NOT NULL"
  | .addIdentity t c b seq =>
    alterTable mode t ++ lit "ALTER COLUMN " ++ escapeSQLName mode c ++ lit " ADD GENERATED " ++ b ++
    lit " AS IDENTITY" ++
    (match seq with
      | none => []
      | some s => lit " (" ++ generateSequenceClause s ++ lit ")")
  | .dropIdentity t c =>
    alterTable mode t ++ lit "ALTER COLUMN " ++ escapeSQLName mode c ++ lit " DROP IDENTITY IF EXISTS"
  | .setGenerated t c b =>
    alterTable mode t ++ lit "ALTER COLUMN " ++ escapeSQLName mode c ++ lit " SET GENERATED " ++ b
  | .dropDefault t c =>
    alterTable mode t ++ lit "ALTER COLUMN " ++ escapeSQLName mode c ++ lit " DROP DEFAULT"
  | .setDefault t c v =>
    alterTable mode t ++ lit "ALTER COLUMN " ++ escapeSQLName mode c ++ lit " SET " ++
    textOf (generateDefaultDefinition v)
  | .dropCheck t _ k => alterTable mode t ++ lit "DROP CONSTRAINT " ++ k
  | .addCheck t _ k check noInherit =>
    alterTable mode t ++ lit "ADD CONSTRAINT " ++ k ++ lit " CHECK" ++
    (if mode = .mssql ∧ check.notForReplication then lit " NOT FOR REPLICATION" else []) ++
    lit " (" ++ check.definition ++ lit ")" ++ (if noInherit then lit " NO INHERIT" else [])
  | .dropDefaultConstraint t _ k => alterTable mode t ++ lit "DROP CONSTRAINT " ++ escapeSQLName mode k
  | .addDefaultConstraint t c k v =>
    alterTable mode t ++ lit "ADD " ++
    (if k ≠ [] then lit "CONSTRAINT " ++ escapeSQLName mode k ++ lit " " else []) ++
    textOf (generateDefaultDefinition v) ++ lit " FOR " ++ escapeSQLName mode c
  | .dropPrimaryKey t k =>
    if mode = .mysql then alterTable mode t ++ lit "DROP PRIMARY KEY"
    else alterTable mode t ++ lit "DROP CONSTRAINT " ++ escapeSQLName mode k
  | .addIndex t i => textOf (generateAddIndex mode t i)
  | .dropIndex t i => generateDropIndex mode t i
  | .dropForeignKey t k =>
    if mode = .mysql then alterTable mode t ++ lit "DROP FOREIGN KEY " ++ escapeSQLName mode k
    else alterTable mode t ++ lit "DROP CONSTRAINT " ++ escapeSQLName mode k
  | .addForeignKey t fk => alterTable mode t ++ lit "ADD " ++ generateForeignKeyDefinition mode fk

end Sqldef
