import Verif.Model.Render
/-
Model of the diffing part of `/repo/schema/generator.go` (lines 33-757, 1088-1173, 1556-1572).
-/
namespace Sqldef

/-- A Go loop appending the statements computed for every element and stopping at the first error. -/
def concatMapM {α β : Type} (f : α → Except Err (List β)) : List α → Except Err (List β)
  | [] => .ok []
  | a :: l => do
    let x ← f a
    let y ← concatMapM f l
    return x ++ y

/-- Evaluates a definition for its error only: the statement is emitted if the definition can be
generated. -/
def guardText (t : Except Err Str) (s : Stmt) : Except Err (List Stmt) := do
  let _ ← t
  return [s]

/-- `FIRST` or `AFTER previous`, /repo/schema/generator.go:257-260. -/
def placeAfter : Option Str → Place
  | none => .first
  | some p => .after p

/-- Each desired column with the name of its predecessor (`desired.table.columns[i-1].name`). -/
def withPrev : Option Str → List Column → List (Option Str × Column)
  | _, [] => []
  | prev, c :: cs => (prev, c) :: withPrev (some c.name) cs

/-- The condition for moving an existing MySQL column, /repo/schema/generator.go:270-272. -/
def changeOrder (currentTable desiredTable : Table) (cur des : Column) : Bool :=
  decide (cur.position > des.position) &&
  decide (cur.position - des.position >
    (currentTable.columns.length : Int) - (desiredTable.columns.length : Int))

/-- CHANGE COLUMN of an existing column in MySQL, /repo/schema/generator.go:269-290. -/
def mysqlChange (currentTable desiredTable : Table) (prev : Option Str) (cur des : Column) :
    Except Err (List Stmt) :=
  let move := changeOrder currentTable desiredTable cur des
  if !haveSameColumnDefinition .mysql cur des ||
     !areSameDefaultValue cur.defaultDef des.defaultDef || move then
    guardText (generateColumnDefinition .mysql des false)
      (.changeColumn desiredTable.name cur.name des (if move then placeAfter prev else .none))
  else .ok []

/-- ADD UNIQUE KEY for an existing column in MySQL, /repo/schema/generator.go:292-297. -/
def mysqlUnique (currentTable desiredTable : Table) (cur des : Column) : List Stmt :=
  if des.keyOption.isUnique && !cur.keyOption.isUnique &&
     (findIndexByName currentTable.indexes des.name).isNone then
    [.addUniqueKey desiredTable.name des.name]
  else []

/-- An existing column in MySQL, /repo/schema/generator.go:269-297. `des.autoIncrement` has
already been cleared if the current column lacks it. -/
def mysqlColumn (currentTable desiredTable : Table) (prev : Option Str) (cur des : Column) :
    Except Err (List Stmt) := do
  let change ← mysqlChange currentTable desiredTable prev cur des
  return change ++ mysqlUnique currentTable desiredTable cur des

/-- NOT NULL of an existing column in Postgres, /repo/schema/generator.go:305-311. -/
def pgNotNull (currentTable desiredTable : Table) (cur des : Column) : List Stmt :=
  if !isPrimaryKey cur currentTable then
    if notNull .postgres cur && !notNull .postgres des then [.dropNotNull desiredTable.name cur.name]
    else if !notNull .postgres cur && notNull .postgres des then [.setNotNull desiredTable.name cur.name]
    else []
  else []

/-- Identity of an existing column in Postgres, /repo/schema/generator.go:314-330. -/
def pgIdentity (currentTable desiredTable : Table) (cur des : Column) : List Stmt :=
  if !areSameIdentityDefinition cur.identity des.identity then
    match cur.identity, des.identity with
    | none, some i => [.addIdentity desiredTable.name des.name i.behavior des.sequence]
    | some _, none => [.dropIdentity currentTable.name cur.name]
    | some _, some i => [.setGenerated desiredTable.name des.name i.behavior]
    | none, none => []   -- unreachable: equal identities
  else []

/-- Default of an existing column in Postgres, /repo/schema/generator.go:333-345. -/
def pgDefault (currentTable : Table) (cur des : Column) : Except Err (List Stmt) :=
  if !areSameDefaultValue cur.defaultDef des.defaultDef then
    match des.defaultDef with
    | none => .ok [.dropDefault currentTable.name cur.name]
    | some d =>
      match d.value with
      | none => .error .panic
      | some v => guardText (generateDefaultDefinition v) (.setDefault currentTable.name cur.name v)
  else .ok []

/-- CHECK of an existing column in Postgres, /repo/schema/generator.go:347-360. -/
def pgCheck (desiredTable : Table) (cur des : Column) : List Stmt :=
  if !areSameCheckDefinition cur.check des.check || cur.checkNoInherit ≠ des.checkNoInherit then
    let name := deleteFirst (lit "public.") desiredTable.name ++ lit "_" ++ des.name ++ lit "_check"
    (match cur.check with
      | none => []
      | some _ => [.dropCheck desiredTable.name des.name name]) ++
    (match des.check with
      | none => []
      | some k => [.addCheck desiredTable.name des.name name k des.checkNoInherit])
  else []

/-- An existing column in Postgres, /repo/schema/generator.go:298-362. -/
def postgresColumn (currentTable desiredTable : Table) (cur des : Column) :
    Except Err (List Stmt) := do
  let type : List Stmt :=
    if !haveSameDataType .postgres cur des then [.alterType desiredTable.name cur.name des] else []
  let default ← pgDefault currentTable cur des
  return type ++ pgNotNull currentTable desiredTable cur des ++
    pgIdentity currentTable desiredTable cur des ++ default ++ pgCheck desiredTable cur des

/-- CHECK of an existing column in SQL Server, /repo/schema/generator.go:364-383. -/
def mssqlCheck (desiredTable : Table) (cur des : Column) : List Stmt :=
  if !areSameCheckDefinition cur.check des.check || cur.checkNoInherit ≠ des.checkNoInherit then
    let name := deleteFirst (lit "dbo.") desiredTable.name ++ lit "_" ++ des.name ++ lit "_check"
    (match cur.check with
      | none => []
      | some k => [.dropCheck desiredTable.name des.name k.constraintName]) ++
    (match des.check with
      | none => []
      | some k =>
        [.addCheck desiredTable.name des.name (if k.constraintName = [] then name else k.constraintName)
          k false])
  else []

/-- /repo/schema/generator.go:387-390. -/
def mssqlIdentityDrop (currentTable : Table) (cur : Column) : List Stmt :=
  match cur.identity with
  | none => []
  | some _ => [.dropColumn currentTable.name cur.name]

/-- /repo/schema/generator.go:391-397. -/
def mssqlIdentityAdd (desiredTable : Table) (des : Column) : Except Err (List Stmt) :=
  match des.identity with
  | none => .ok []
  | some _ => guardText (generateColumnDefinition .mssql des true) (.addColumn desiredTable.name des .none)

/-- Identity of an existing column in SQL Server, /repo/schema/generator.go:386-398. -/
def mssqlIdentity (currentTable desiredTable : Table) (cur des : Column) : Except Err (List Stmt) :=
  if !areSameIdentityDefinition cur.identity des.identity then do
    let add ← mssqlIdentityAdd desiredTable des
    return mssqlIdentityDrop currentTable cur ++ add
  else .ok []

/-- /repo/schema/generator.go:402-405. -/
def mssqlDefaultDrop (currentTable : Table) (cur : Column) : List Stmt :=
  match cur.defaultDef with
  | none => []
  | some d => [.dropDefaultConstraint currentTable.name cur.name d.constraintName]

/-- /repo/schema/generator.go:406-419. -/
def mssqlDefaultAdd (currentTable : Table) (cur des : Column) : Except Err (List Stmt) :=
  match des.defaultDef with
  | none => .ok []
  | some d =>
    match d.value with
    | none => .error .panic
    | some v =>
      guardText (generateDefaultDefinition v)
        (.addDefaultConstraint currentTable.name cur.name d.constraintName v)

/-- Default of an existing column in SQL Server, /repo/schema/generator.go:401-420. -/
def mssqlDefault (currentTable : Table) (cur des : Column) : Except Err (List Stmt) :=
  if !areSameDefaultValue cur.defaultDef des.defaultDef then do
    let add ← mssqlDefaultAdd currentTable cur des
    return mssqlDefaultDrop currentTable cur ++ add
  else .ok []

/-- An existing column in SQL Server, /repo/schema/generator.go:363-420. -/
def mssqlColumn (currentTable desiredTable : Table) (cur des : Column) :
    Except Err (List Stmt) := do
  let ident ← mssqlIdentity currentTable desiredTable cur des
  let default ← mssqlDefault currentTable cur des
  return mssqlCheck desiredTable cur des ++ ident ++ default

/-- A column of the desired table, /repo/schema/generator.go:236-424. -/
def columnDDLs (mode : Mode) (currentTable desiredTable : Table) (prev : Option Str) (des : Column) :
    Except Err (List Stmt) :=
  match findColumnByName currentTable.columns des.name with
  | none =>
    let des := { des with autoIncrement := false }
    guardText (generateColumnDefinition mode des true)
      (.addColumn desiredTable.name des (if mode = .mysql then placeAfter prev else .none))
  | some cur =>
    let des := if cur.autoIncrement then des else { des with autoIncrement := false }
    match mode with
    | .mysql => mysqlColumn currentTable desiredTable prev cur des
    | .postgres => postgresColumn currentTable desiredTable cur des
    | .mssql => mssqlColumn currentTable desiredTable cur des
    | .sqlite3 => .ok []

/-- The current column has AUTO_INCREMENT and the desired table lacks the column or its
AUTO_INCREMENT, /repo/schema/generator.go:429-430. -/
def losesAutoIncrement (desiredTable : Table) (cur : Column) : Bool :=
  cur.autoIncrement &&
  match findColumnByName desiredTable.columns cur.name with
  | none => true
  | some des => !des.autoIncrement

/-- Removal of AUTO_INCREMENT, /repo/schema/generator.go:427-439. -/
def removeAutoIncrement (mode : Mode) (currentTable desiredTable : Table) : Except Err (List Stmt) :=
  if mode = .mysql then
    concatMapM (fun (cur : Column) =>
      if losesAutoIncrement desiredTable cur then
        guardText (generateColumnDefinition mode { cur with autoIncrement := false } false)
          (.changeColumn currentTable.name cur.name { cur with autoIncrement := false } .none)
      else .ok []) currentTable.columns
  else .ok []

/-- Dropping the old primary key, /repo/schema/generator.go:445-453. For Postgres the code indexes the
part of the table name after the dot. -/
def dropPrimaryKeyDDLs (mode : Mode) (currentTable desiredTable : Table) : Except Err (List Stmt) :=
  match currentTable.primaryKey with
  | none => .ok []
  | some _ =>
    match mode with
    | .mysql => .ok [.dropPrimaryKey desiredTable.name (lit "PRIMARY")]
    | .postgres =>
      match splitDot desiredTable.name with
      | none => .error .panic
      | some (_, t) => .ok [.dropPrimaryKey desiredTable.name (t ++ lit "_pkey")]
    | _ => .ok []

/-- Adding the new primary key, /repo/schema/generator.go:455-457. -/
def addPrimaryKeyDDLs (mode : Mode) (desiredTable : Table) : Except Err (List Stmt) :=
  match desiredTable.primaryKey with
  | none => .ok []
  | some pk => guardText (generateAddIndex mode desiredTable.name pk) (.addIndex desiredTable.name pk)

/-- Primary key, /repo/schema/generator.go:442-458. -/
def primaryKeyDDLs (mode : Mode) (currentTable desiredTable : Table) : Except Err (List Stmt) :=
  if !areSamePrimaryKeys currentTable.primaryKey desiredTable.primaryKey then do
    let drop ← dropPrimaryKeyDDLs mode currentTable desiredTable
    let add ← addPrimaryKeyDDLs mode desiredTable
    return drop ++ add
  else .ok []

/-- An index of the desired CREATE TABLE, /repo/schema/generator.go:461-476. -/
def tableIndexDDLs (mode : Mode) (currentTable desiredTable : Table) (des : Index) :
    Except Err (List Stmt) :=
  if des.primary then .ok []
  else
    match findIndexByName currentTable.indexes des.name with
    | some cur =>
      if !areSameIndexes cur des then do
        let add ← guardText (generateAddIndex mode desiredTable.name des) (.addIndex desiredTable.name des)
        return Stmt.dropIndex desiredTable.name des.name :: add
      else .ok []
    | none => guardText (generateAddIndex mode desiredTable.name des) (.addIndex desiredTable.name des)

/-- The desired column has AUTO_INCREMENT and the current table lacks the column or its
AUTO_INCREMENT, /repo/schema/generator.go:481-482. -/
def gainsAutoIncrement (currentTable : Table) (des : Column) : Bool :=
  des.autoIncrement &&
  match findColumnByName currentTable.columns des.name with
  | none => true
  | some cur => !cur.autoIncrement

/-- Addition of AUTO_INCREMENT, /repo/schema/generator.go:479-490. -/
def addAutoIncrement (mode : Mode) (currentTable desiredTable : Table) : Except Err (List Stmt) :=
  if mode = .mysql then
    concatMapM (fun (des : Column) =>
      if gainsAutoIncrement currentTable des then
        guardText (generateColumnDefinition mode des false)
          (.changeColumn currentTable.name des.name des .none)
      else .ok []) desiredTable.columns
  else .ok []

/-- A foreign key of the desired CREATE TABLE, /repo/schema/generator.go:493-520. -/
def tableForeignKeyDDLs (mode : Mode) (currentTable desiredTable : Table) (des : ForeignKey) :
    Except Err (List Stmt) :=
  if des.constraintName = [] then .error (.fkWithoutName desiredTable.name)
  else
    match findForeignKeyByName currentTable.foreignKeys des.constraintName with
    | some cur =>
      if !areSameForeignKeys mode cur des then
        .ok ((if mode = .sqlite3 then [] else [Stmt.dropForeignKey desiredTable.name cur.constraintName]) ++
          [.addForeignKey desiredTable.name des])
      else .ok []
    | none => .ok [.addForeignKey desiredTable.name des]

/-- `generateDDLsForCreateTable`, /repo/schema/generator.go:232-523. -/
def generateDDLsForCreateTable (mode : Mode) (currentTable desiredTable : Table) :
    Except Err (List Stmt) := do
  let cols ← concatMapM (fun pc => columnDDLs mode currentTable desiredTable pc.1 pc.2)
    (withPrev none desiredTable.columns)
  let removeAI ← removeAutoIncrement mode currentTable desiredTable
  let pk ← primaryKeyDDLs mode currentTable desiredTable
  let idx ← concatMapM (tableIndexDDLs mode currentTable desiredTable) desiredTable.indexes
  let addAI ← addAutoIncrement mode currentTable desiredTable
  let fks ← concatMapM (tableForeignKeyDDLs mode currentTable desiredTable) desiredTable.foreignKeys
  return cols ++ removeAI ++ pk ++ idx ++ addAI ++ fks

/-! ### The simulated state -/

/-- `Generator`, /repo/schema/generator.go:34-44. -/
structure Gen where
  mode : Mode
  desiredTables : List Table
  currentTables : List Table
  desiredViews : List View
  currentViews : List View
  desiredTriggers : List Trigger
  currentTriggers : List Trigger
  deriving Repr

/-- Assignment through the pointer returned by `findTableByName`: update of the first table of
that name. -/
def updateTable (tables : List Table) (name : Str) (f : Table → Table) : List Table :=
  match tables with
  | [] => []
  | t :: ts => if t.name = name then f t :: ts else t :: updateTable ts name f

/-- The columns appended by `mergeTable`, /repo/schema/generator.go:1089-1093: those whose name
is already present. -/
def mergeColumns (cols : List Column) : List Column → List Column
  | [] => cols
  | c :: cs =>
    if containsString (columnNames cols) c.name then mergeColumns (cols ++ [c]) cs
    else mergeColumns cols cs

/-- The indexes appended by `mergeTable`, /repo/schema/generator.go:1095-1099. -/
def mergeIndexes (idxs : List Index) : List Index → List Index
  | [] => idxs
  | i :: is =>
    if containsString (indexNames idxs) i.name then mergeIndexes (idxs ++ [i]) is
    else mergeIndexes idxs is

/-- `mergeTable`, /repo/schema/generator.go:1088-1100. -/
def mergeTable (t1 t2 : Table) : Table :=
  { t1 with columns := mergeColumns t1.columns t2.columns,
            indexes := mergeIndexes t1.indexes t2.indexes }

/-- `case *CreateTable` of `generateDDLs`, /repo/schema/generator.go:86-103. -/
def stepCreateTable (g : Gen) (statement : Str) (table : Table) : Except Err (Gen × List Stmt) :=
  match findTableByName g.currentTables table.name with
  | some currentTable => do
    let ddls ← generateDDLsForCreateTable g.mode currentTable table
    return ({ g with
      currentTables := updateTable g.currentTables table.name (mergeTable · table),
      desiredTables := g.desiredTables ++ [table] }, ddls)
  | none =>
    .ok ({ g with
      currentTables := g.currentTables ++ [table],
      desiredTables := g.desiredTables ++ [table] },
      [.user (.createTable statement table)])

/-- `generateDDLsForCreateIndex`, /repo/schema/generator.go:527-569. `d` is the definition whose
statement is emitted (CREATE INDEX or ALTER TABLE ADD INDEX). -/
def stepCreateIndex (g : Gen) (d : DDL) (tableName : Str) (des : Index) : Except Err (Gen × List Stmt) :=
  match findTableByName g.currentTables tableName with
  | none => .error (.inexistentTable tableName)
  | some currentTable =>
    let (newIndexes, ddls) :=
      match findIndexByName currentTable.indexes des.name with
      | none => (currentTable.indexes ++ [des], [Stmt.user d])
      | some cur =>
        if !areSameIndexes cur des then
          (currentTable.indexes.map fun i => if i.name = des.name then des else i,
           [Stmt.dropIndex currentTable.name cur.name, Stmt.user d])
        else (currentTable.indexes, [])
    match findTableByName g.desiredTables tableName with
    | none => .error (.beforeCreateTable tableName)
    | some desiredTable =>
      if containsString (indexNames desiredTable.indexes) des.name then
        .error (.doublyCreated des.name)
      else
        .ok ({ g with
          currentTables := updateTable g.currentTables tableName fun t => { t with indexes := newIndexes },
          desiredTables := updateTable g.desiredTables tableName fun t =>
            { t with indexes := t.indexes ++ [des] } }, ddls)

/-- `generateDDLsForAddForeignKey`, /repo/schema/generator.go:571-587. No statement is generated. -/
def stepAddForeignKey (g : Gen) (tableName : Str) (fk : ForeignKey) : Except Err (Gen × List Stmt) :=
  match findTableByName g.desiredTables tableName with
  | none => .error (.beforeCreateTable tableName)
  | some desiredTable =>
    if containsString (fkConstraintNames desiredTable.foreignKeys) fk.constraintName then
      .error (.doublyCreated fk.constraintName)
    else
      .ok ({ g with
        desiredTables := updateTable g.desiredTables tableName fun t =>
          { t with foreignKeys := t.foreignKeys ++ [fk] } }, [])

/-- `generateDDLsForCreatePolicy`, /repo/schema/generator.go:589-621. -/
def stepCreatePolicy (g : Gen) (d : DDL) (tableName : Str) (des : Policy) : Except Err (Gen × List Stmt) :=
  match findTableByName g.currentTables tableName with
  | none => .error (.inexistentTable tableName)
  | some currentTable =>
    let (newPolicies, ddls) :=
      match findPolicyByName currentTable.policies des.name with
      | none => (currentTable.policies ++ [des], [Stmt.user d])
      | some cur =>
        if !areSamePolicies cur des then
          (currentTable.policies, [Stmt.dropPolicy currentTable.name cur.name, Stmt.user d])
        else (currentTable.policies, [])
    match findTableByName g.desiredTables tableName with
    | none => .error (.beforeCreateTable tableName)
    | some desiredTable =>
      if containsString (policyNames desiredTable.policies) des.name then
        .error (.doublyCreated des.name)
      else
        .ok ({ g with
          currentTables := updateTable g.currentTables tableName fun t => { t with policies := newPolicies },
          desiredTables := updateTable g.desiredTables tableName fun t =>
            { t with policies := t.policies ++ [des] } }, ddls)

/-- `generateDDLsForCreateView`, /repo/schema/generator.go:623-649. -/
def stepCreateView (g : Gen) (des : View) : Except Err (Gen × List Stmt) :=
  let ddls : List Stmt :=
    match findViewByName g.currentViews des.name with
    | none => [.user (.view des)]
    | some cur =>
      if toLower cur.definition ≠ toLower des.definition then
        if g.mode = .sqlite3 || g.mode = .mssql then
          [.dropView des.name, .createView des.name des.definition]
        else [.replaceView des.name des.definition]
      else []
  if containsString (viewNames g.desiredViews) des.name then .error (.doublyCreated des.name)
  else .ok ({ g with desiredViews := g.desiredViews ++ [des] }, ddls)

/-- `generateDDLsForCreateTrigger`, /repo/schema/generator.go:651-684. -/
def stepCreateTrigger (g : Gen) (des : Trigger) : Except Err (Gen × List Stmt) :=
  match g.mode with
  | .mssql =>
    let ddls : List Stmt :=
      match findTriggerByName g.currentTriggers des.name with
      | none => [.createTrigger false des]
      | some cur => if !areSameTriggerDefinition cur des then [.createTrigger true des] else []
    .ok ({ g with desiredTriggers := g.desiredTriggers ++ [des] }, ddls)
  | .mysql =>
    let ddls : List Stmt :=
      match findTriggerByName g.currentTriggers des.name with
      | none => [.createTrigger false des]
      | some cur =>
        if !areSameTriggerDefinition cur des then [.dropTrigger des.name, .createTrigger false des] else []
    .ok ({ g with desiredTriggers := g.desiredTriggers ++ [des] }, ddls)
  | _ => .ok (g, [])

/-- One iteration of the first loop of `generateDDLs`, /repo/schema/generator.go:84-142. -/
def step (g : Gen) (d : DDL) : Except Err (Gen × List Stmt) :=
  match d with
  | .createTable s t => stepCreateTable g s t
  | .createIndex _ t i => stepCreateIndex g d t i
  | .addIndex _ t i => stepCreateIndex g d t i
  | .addForeignKey _ t fk => stepAddForeignKey g t fk
  | .addPolicy _ t p => stepCreatePolicy g d t p
  | .view v => stepCreateView g v
  | .trigger t => stepCreateTrigger g t
  | .addPrimaryKey _ _ _ => .error .unexpectedDDL

/-- The first loop of `generateDDLs`, /repo/schema/generator.go:84-142. -/
def steps (g : Gen) : List DDL → Except Err (Gen × List Stmt)
  | [] => .ok (g, [])
  | d :: ds => do
    let (g, x) ← step g d
    let (g, y) ← steps g ds
    return (g, x ++ y)

/-! ### Cleaning up -/

/-- `generateDDLsForAbsentForeignKey`, /repo/schema/generator.go:688-710. -/
def absentForeignKey (mode : Mode) (fk : ForeignKey) (currentTable desiredTable : Table) : List Stmt :=
  match mode with
  | .mysql => [.dropForeignKey currentTable.name fk.constraintName]
  | .postgres | .mssql =>
    if desiredTable.columns.any (·.references = fk.referenceName) then []
    else [.dropForeignKey currentTable.name fk.constraintName]
  | .sqlite3 => []

/-- `generateDDLsForAbsentIndex`, /repo/schema/generator.go:714-757. `currentIndex.columns[0]`
panics if the index has no column. -/
def absentIndex (mode : Mode) (idx : Index) (currentTable desiredTable : Table) : Except Err (List Stmt) :=
  if idx.primary then
    match desiredTable.columns.find? (·.keyOption = .primary) with
    | none =>
      if mode = .mssql then .ok [.dropPrimaryKey currentTable.name idx.name] else .ok []
    | some pkCol =>
      match idx.columns with
      | [] => .error .panic
      | c :: _ =>
        if pkCol.name ≠ c.column then .error (.primaryKeyColumnMismatch currentTable.name) else .ok []
  else if idx.unique then
    match idx.columns with
    | [] => if desiredTable.columns.isEmpty then .ok [.dropIndex currentTable.name idx.name] else .error .panic
    | c :: _ =>
      if desiredTable.columns.any (fun col => col.name = c.column && col.keyOption.isUnique) then .ok []
      else .ok [.dropIndex currentTable.name idx.name]
  else .ok [.dropIndex currentTable.name idx.name]

/-- `generateDDLsForAbsentColumn`, /repo/schema/generator.go:214-229. -/
def absentColumn (mode : Mode) (currentTable : Table) (columnName : Str) : List Stmt :=
  (if mode = .mssql then
    currentTable.columns.filterMap fun c =>
      match c.defaultDef with
      | none => none
      | some d =>
        if c.name = columnName ∧ d.constraintName ≠ [] then
          some (.dropDefaultConstraint currentTable.name c.name d.constraintName)
        else none
   else []) ++ [.dropColumn currentTable.name columnName]

/-- `removeTableByName`, /repo/schema/generator.go:1556-1572: `log.Fatalf` if the table is absent. -/
def removeTableByName (tables : List Table) (name : Str) : Except Err (List Table) :=
  if tables.any (·.name = name) then .ok (tables.filter (·.name ≠ name)) else .error .fatal

/-- The clean-up of a table that stays, /repo/schema/generator.go:154-200. -/
def cleanupTable (mode : Mode) (currentTable desiredTable : Table) : Except Err (List Stmt) := do
  let fks := (currentTable.foreignKeys.filter fun fk =>
      !containsString (fkConstraintNames desiredTable.foreignKeys) fk.constraintName).flatMap
    fun fk => absentForeignKey mode fk currentTable desiredTable
  let idx ← concatMapM (fun i => absentIndex mode i currentTable desiredTable)
    (currentTable.indexes.filter fun i =>
      !(containsString (indexNames desiredTable.indexes) i.name ||
        containsString (fkIndexNames desiredTable.foreignKeys) i.name))
  let cols := (currentTable.columns.filter fun c =>
      !containsString (columnNames desiredTable.columns) c.name).flatMap
    fun c => absentColumn mode currentTable c.name
  let pols := (currentTable.policies.filter fun p =>
      !containsString (policyNames desiredTable.policies) p.name).map
    fun p => Stmt.dropPolicy currentTable.name p.name
  return fks ++ idx ++ cols ++ pols

/-- The second loop of `generateDDLs`, /repo/schema/generator.go:145-201. It ranges over the tables
as they were at its start; `remaining` is `g.currentTables` as updated by `removeTableByName`. -/
def cleanupTables (mode : Mode) (desiredTables : List Table) (remaining : List Table) :
    List Table → Except Err (List Stmt)
  | [] => .ok []
  | t :: ts =>
    match findTableByName desiredTables t.name with
    | none => do
      let remaining ← removeTableByName remaining t.name
      let rest ← cleanupTables mode desiredTables remaining ts
      return .dropTable t.name :: rest
    | some d => do
      let x ← cleanupTable mode t d
      let rest ← cleanupTables mode desiredTables remaining ts
      return x ++ rest

/-- The third loop of `generateDDLs`, /repo/schema/generator.go:204-209. -/
def cleanupViews (desiredViews currentViews : List View) : List Stmt :=
  (currentViews.filter fun v => !containsString (viewNames desiredViews) v.name).map
    fun v => .dropView v.name

/-- `generateDDLs`, /repo/schema/generator.go:80-212. -/
def generateDDLs (g : Gen) (desired : List DDL) : Except Err (List Stmt) := do
  let (g', ddls) ← steps g desired
  let clean ← cleanupTables g'.mode g'.desiredTables g'.currentTables g'.currentTables
  return ddls ++ clean ++ cleanupViews g'.desiredViews g'.currentViews

/-! ### The current schema -/

/-- One iteration of `convertDDLsToTables`, /repo/schema/generator.go:1104-1150. For ADD PRIMARY KEY
`stmt.index.columns[0]` is evaluated for every column of the table. -/
def convertStep (tables : List Table) (d : DDL) : Except Err (List Table) :=
  match d with
  | .createTable _ t => .ok (tables ++ [t])
  | .createIndex _ t i =>
    match findTableByName tables t with
    | none => .error (.beforeCreateTable t)
    | some _ => .ok (updateTable tables t fun x => { x with indexes := x.indexes ++ [i] })
  | .addPrimaryKey _ t i =>
    match findTableByName tables t with
    | none => .error (.beforeCreateTable t)
    | some tbl =>
      match i.columns with
      | [] => if tbl.columns.isEmpty then .ok tables else .error .panic
      | c :: _ => .ok (updateTable tables t fun x =>
          { x with columns := x.columns.map fun col =>
              if col.name = c.column then { col with keyOption := .primary } else col })
  | .addForeignKey _ t fk =>
    match findTableByName tables t with
    | none => .error (.beforeCreateTable t)
    | some _ => .ok (updateTable tables t fun x => { x with foreignKeys := x.foreignKeys ++ [fk] })
  | .addPolicy _ t p =>
    match findTableByName tables t with
    | none => .error (.beforeCreateTable t)
    | some _ => .ok (updateTable tables t fun x => { x with policies := x.policies ++ [p] })
  | .view _ => .ok tables
  | .trigger _ => .ok tables
  | .addIndex _ _ _ => .error .unexpectedDDL

/-- The loop of `convertDDLsToTables`. -/
def convertFrom (tables : List Table) : List DDL → Except Err (List Table)
  | [] => .ok tables
  | d :: ds => do
    let tables ← convertStep tables d
    convertFrom tables ds

/-- `convertDDLsToTables`, /repo/schema/generator.go:1102-1153. -/
def convertDDLsToTables (ddls : List DDL) : Except Err (List Table) := convertFrom [] ddls

/-- `convertDDLsToViews`, /repo/schema/generator.go:1155-1163. -/
def convertDDLsToViews (ddls : List DDL) : List View :=
  ddls.filterMap fun d => match d with | .view v => some v | _ => none

/-- `convertDDLsToTriggers`, /repo/schema/generator.go:1165-1173. -/
def convertDDLsToTriggers (ddls : List DDL) : List Trigger :=
  ddls.filterMap fun d => match d with | .trigger t => some t | _ => none

/-- `GenerateIdempotentDDLs` after parsing, /repo/schema/generator.go:59-76. -/
def diff (mode : Mode) (desired current : List DDL) : Except Err (List Stmt) := do
  let tables ← convertDDLsToTables current
  generateDDLs
    { mode := mode, desiredTables := [], currentTables := tables,
      desiredViews := [], currentViews := convertDDLsToViews current,
      desiredTriggers := [], currentTriggers := convertDDLsToTriggers current } desired

end Sqldef
