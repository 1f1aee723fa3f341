import Verif.Model.PgQuery
/-
Model of the queries of the adapter for SQL Server, /repo/adapter/mssql/mssql.go:33-51, 184-249, 266-355, 357-393, 407-440
and 442-466: what the server answers, as joins over the system tables, which have flat rows that refer to each other by numbers.

Simplifications: the user may see everything; names are compared as they are (on most servers letter case does not matter);
`OBJECT_ID` takes the names of the schema and of the table as they are (names with dots, quotes or brackets are left out); there are no triggers on the database as a whole.
-/
namespace Sqldef.Ms

/-- A row of `sys.objects`, with the name of its schema: tables (`U`), views (`V`), triggers (`TR`), defaults (`D`), checks
(`C`), foreign keys (`F`) and others. -/
structure SysObject where
  id : Nat
  schema : Str
  name : Str
  /-- `type` -/
  kind : Str
  /-- `OBJECT_DEFINITION`, and the definition in `sys.sql_modules`, which is `NULL` if it is encrypted. -/
  definition : Option Str := none

/-- A row of `sys.columns`. -/
structure SysColumn where
  objectId : Nat
  columnId : Nat
  name : Str
  userTypeId : Nat
  maxLength : Str
  isNullable : Bool := true
  isIdentity : Bool := false
  /-- 0 if there is no default. -/
  defaultObjectId : Nat := 0

/-- A row of `sys.types`. -/
structure SysType where
  userTypeId : Nat
  name : Str

/-- A row of `sys.identity_columns`. -/
structure SysIdentity where
  objectId : Nat
  columnId : Nat
  row : Identity

/-- A row of `sys.check_constraints`; the number of the column is 0 if the check is about the whole table. -/
structure SysCheck where
  parentObjectId : Nat
  parentColumnId : Nat
  row : Check

/-- A row of `sys.indexes`. A table without a clustered index has a row with the number 0 and without a name. -/
structure SysIndex where
  objectId : Nat
  indexId : Nat
  name : Option Str
  isPrimary : Bool := false
  isUnique : Bool := false
  typeDesc : Str
  isPadded : Bool := false
  fillFactor : Str := lit "0"
  ignoreDupKey : Bool := false
  rowLocks : Bool := true
  pageLocks : Bool := true

/-- A row of `sys.stats`. -/
structure SysStats where
  objectId : Nat
  statsId : Nat
  noRecompute : Bool := false
  isIncremental : Bool := false

/-- A row of `sys.index_columns`. -/
structure SysIndexColumn where
  objectId : Nat
  indexId : Nat
  columnId : Nat
  isDescending : Bool := false
  isIncluded : Bool := false

/-- A row of `sys.foreign_keys`. -/
structure SysForeignKey where
  id : Nat
  name : Str
  parentObjectId : Nat
  referencedObjectId : Nat
  updateAction : Str
  deleteAction : Str
  notForReplication : Bool := false

/-- A row of `sys.foreign_key_columns`. -/
structure SysForeignKeyColumn where
  constraintObjectId : Nat
  parentColumnId : Nat
  referencedColumnId : Nat

/-- The system tables. -/
structure Server where
  objects : List SysObject
  columns : List SysColumn
  types : List SysType
  identities : List SysIdentity := []
  checks : List SysCheck := []
  indexes : List SysIndex := []
  stats : List SysStats := []
  indexColumns : List SysIndexColumn := []
  foreignKeys : List SysForeignKey := []
  foreignKeyColumns : List SysForeignKeyColumn := []

/-- `OBJECT_ID(name)`; `NULL` if there is no such object. -/
def objectId (srv : Server) (schema name : Str) : Option Nat :=
  (srv.objects.find? fun o => o.schema = schema ∧ o.name = name).map (·.id)

/-- `OBJECT_ID(name, 'U')`. -/
def tableId (srv : Server) (schema name : Str) : Option Nat :=
  (srv.objects.find? fun o => o.schema = schema ∧ o.name = name ∧ o.kind = lit "U").map (·.id)

/-- `OBJECT_NAME(id)`. -/
def objectName (srv : Server) (id : Nat) : Option Str := (srv.objects.find? fun o => o.id = id).map (·.name)

/-- `OBJECT_DEFINITION(id)`. -/
def objectDefinition (srv : Server) (id : Nat) : Option Str := (srv.objects.find? fun o => o.id = id).bind (·.definition)

/-- `COL_NAME(id, column)`. -/
def colName (srv : Server) (id column : Nat) : Option Str :=
  (srv.columns.find? fun c => c.objectId = id ∧ c.columnId = column).map (·.name)

/-- The query of `TableNames`, /repo/adapter/mssql/mssql.go:35. -/
def tablesQuery (srv : Server) : List (Str × Str) := (srv.objects.filter fun o => o.kind = lit "U").map fun o => (o.schema, o.name)

/-- The default of a column, /repo/adapter/mssql/mssql.go:195-197 and 225-228. There is nothing if the loop follows a `NULL`. -/
def columnDefault (srv : Server) (c : SysColumn) : Option (Str × Str) :=
  if c.defaultObjectId = 0 then some ([], [])
  else
    match objectName srv c.defaultObjectId, objectDefinition srv c.defaultObjectId with
    | some name, some value => some (name, value)
    | _, _ => none

/-- The identity of a column, /repo/adapter/mssql/mssql.go:191-194 and 231-237. There is nothing if the loop follows a `NULL`. -/
def columnIdentity (c : SysColumn) (ic : Option SysIdentity) : Option (Option Identity) :=
  if c.isIdentity then ic.map fun i => some i.row else some none

/-- A row of the query of `getColumns` and what the loop makes of it, /repo/adapter/mssql/mssql.go:186-200 and 214-247. -/
def columnsRow (srv : Server) (c : SysColumn) (tp : SysType) (cc : Option SysCheck) (ic : Option SysIdentity) : Option Column :=
  match columnDefault srv c, columnIdentity c ic with
  | some default, some identity =>
    some { name := c.name, dataType := tp.name, length := c.maxLength, nullable := c.isNullable, identity := identity,
           defaultName := default.1, defaultVal := default.2, check := cc.map (·.row) }
  | _, _ => none

/-- The query of `getColumns`, /repo/adapter/mssql/mssql.go:186-205. -/
def columnsQuery (srv : Server) (schema table : Str) : List (Option Column) :=
  (srv.columns.filter fun c => tableId srv schema table = some c.objectId).flatMap fun c =>
    (srv.types.filter fun tp => c.userTypeId = tp.userTypeId).flatMap fun tp =>
      (Pg.leftJoin (srv.checks.filter fun cc => c.objectId = cc.parentObjectId ∧ cc.parentColumnId = c.columnId)).flatMap fun cc =>
        (Pg.leftJoin (srv.identities.filter fun ic => c.objectId = ic.objectId ∧ ic.columnId = c.columnId)).map fun ic =>
          columnsRow srv c tp cc ic

/-- A row of the first query of `getIndexDefs`, /repo/adapter/mssql/mssql.go:268-279. A missing name cannot be scanned into a
string. -/
def indexesRow (ind : SysIndex) (st : SysStats) : Option IndexRow :=
  ind.name.map fun n =>
    { name := n, isPrimary := ind.isPrimary, isUnique := ind.isUnique, typeDesc := ind.typeDesc, padIndex := ind.isPadded,
      fillfactor := ind.fillFactor, ignoreDupKey := ind.ignoreDupKey, noRecompute := st.noRecompute, incremental := st.isIncremental,
      rowLocks := ind.rowLocks, pageLocks := ind.pageLocks }

/-- The first query of `getIndexDefs`, /repo/adapter/mssql/mssql.go:268-282. -/
def indexesQuery (srv : Server) (schema table : Str) : List (Option IndexRow) :=
  (srv.indexes.filter fun ind => objectId srv schema table = some ind.objectId).flatMap fun ind =>
    (srv.stats.filter fun st => ind.objectId = st.objectId ∧ ind.indexId = st.statsId).map fun st => indexesRow ind st

/-- A row of the second query of `getIndexDefs`, /repo/adapter/mssql/mssql.go:314-318. -/
def indexColumnsRow (srv : Server) (ind : SysIndex) (ic : SysIndexColumn) : Option IndexColumnRow := do
  let index ← ind.name
  let column ← colName srv ic.objectId ic.columnId
  pure { indexName := index, columnName := column, isDescending := ic.isDescending, isIncluded := ic.isIncluded }

/-- The second query of `getIndexDefs`, /repo/adapter/mssql/mssql.go:314-321. -/
def indexColumnsQuery (srv : Server) (schema table : Str) : List (Option IndexColumnRow) :=
  (srv.indexes.filter fun ind => objectId srv schema table = some ind.objectId).flatMap fun ind =>
    (srv.indexColumns.filter fun ic => ind.objectId = ic.objectId ∧ ind.indexId = ic.indexId).map fun ic => indexColumnsRow srv ind ic

/-- A row of the query of `getForeignDefs`, /repo/adapter/mssql/mssql.go:359-366. -/
def foreignKeysRow (srv : Server) (f : SysForeignKey) (fc : SysForeignKeyColumn) : Option FkRow := do
  let column ← colName srv f.parentObjectId fc.parentColumnId
  let table ← objectName srv f.referencedObjectId
  let foreign ← colName srv f.referencedObjectId fc.referencedColumnId
  pure { constraintName := f.name, columnName := column, foreignTableName := table, foreignColumnName := foreign,
         foreignUpdateRule := f.updateAction, foreignDeleteRule := f.deleteAction, notForReplication := f.notForReplication }

/-- The query of `getForeignDefs`, /repo/adapter/mssql/mssql.go:359-368. -/
def foreignKeysQuery (srv : Server) (schema table : Str) : List (Option FkRow) :=
  (srv.foreignKeys.filter fun f => objectId srv schema table = some f.parentObjectId).flatMap fun f =>
    (srv.foreignKeyColumns.filter fun fc => f.id = fc.constraintObjectId).map fun fc => foreignKeysRow srv f fc

/-- The query of `Views`, /repo/adapter/mssql/mssql.go:408-418. A definition that is encrypted cannot be scanned into a string. -/
def viewsQuery (srv : Server) : List (Option Str) := (srv.objects.filter fun o => o.kind = lit "V").map (·.definition)

/-- The query of `Triggers`, /repo/adapter/mssql/mssql.go:443-446. -/
def triggersQuery (srv : Server) : List (Option Str) := (srv.objects.filter fun o => o.kind = lit "TR").map (·.definition)

/-- What the server may answer. No query has an `ORDER BY`, so rows come in any order. -/
structure Answers (srv : Server) (cat : Catalog) : Prop where
  tables : cat.tables.Perm (tablesQuery srv)
  columns : ∀ schema table, ((cat.columns schema table).map some).Perm (columnsQuery srv schema table)
  indexes : ∀ schema table, ((cat.indexes schema table).map some).Perm (indexesQuery srv schema table)
  indexColumns : ∀ schema table, ((cat.indexColumns schema table).map some).Perm (indexColumnsQuery srv schema table)
  foreignKeys : ∀ schema table, ((cat.foreignKeys schema table).map some).Perm (foreignKeysQuery srv schema table)
  views : (cat.views.map some).Perm (viewsQuery srv)
  triggers : (cat.triggers.map some).Perm (triggersQuery srv)

end Sqldef.Ms
