import Verif.Model.Run
/-
Model of the database adapters: how the rows that a server returns for the queries of the adapter become the text of a
dump, /repo/adapter/postgres/postgres.go, /repo/adapter/mssql/mssql.go, /repo/adapter/mysql/mysql.go and
/repo/adapter/sqlite3/sqlite3.go.

The queries themselves are not modelled here (those of Postgres are in `Model/PgQuery.lean`): what the server returns is
given, as a function of the parameters of the query.
A query that fails, and a row that cannot be scanned, make the dump fail; these are left out.
-/
namespace Sqldef

/-- `const indent`, /repo/adapter/postgres/postgres.go:16 and /repo/adapter/mssql/mssql.go:14. -/
def dumpIndent : Str := lit "    "

/-- `strings.TrimSuffix(s, suffix)`. -/
def trimSuffix (suffix s : Str) : Str := if suffix.isSuffixOf s then s.take (s.length - suffix.length) else s

/-- `strings.Trim(s, cutset)`. -/
def trimSet (cutset : List Char) (s : Str) : Str :=
  ((s.dropWhile (· ∈ cutset)).reverse.dropWhile (· ∈ cutset)).reverse

/-- `spaces.ReplaceAllString(s, " ")` with the regular expression `[ ]+`: every run of spaces becomes one space.
`run`: the character before was a space. -/
def squeezeSpaces (run : Bool) : Str → Str
  | [] => []
  | c :: s => if c = ' ' then (if run then squeezeSpaces true s else ' ' :: squeezeSpaces true s) else c :: squeezeSpaces false s

/-- The text of a view as the adapters for Postgres and SQL Server normalize it,
/repo/adapter/postgres/postgres.go:82-85 and /repo/adapter/mssql/mssql.go:433-436. -/
def viewText (definition : Str) : Str :=
  squeezeSpaces false (trimSuffix (lit ";") ((trimSpace definition).filter (· ≠ '\n')))

/-- `splitTableName`, /repo/adapter/postgres/postgres.go:438-446 (`public`) and /repo/adapter/mssql/mssql.go:488-496
(`dbo`). -/
def splitTableName (schema table : Str) : Str × Str := (splitDot table).getD (schema, table)

/-! ### Postgres -/
namespace Pg

/-- A row of the query of `getColumns`, /repo/adapter/postgres/postgres.go:211-224. -/
structure Row where
  name : Str
  default : Option Str := none
  isNullable : Str := lit "YES"
  maxLength : Option Str := none
  dataType : Str
  isUnique : Bool := false
  check : Option Str := none
  identity : Option Str := none

/-- `column`, /repo/adapter/postgres/postgres.go:168-178. -/
structure Column where
  name : Str
  dataType : Str
  length : Int
  nullable : Bool
  default : Str
  isAutoIncrement : Bool
  isUnique : Bool
  check : Str
  identityGeneration : Str

/-- `GetDataType`, /repo/adapter/postgres/postgres.go:180-208. -/
def Column.getDataType (c : Column) : Str :=
  if c.dataType = lit "smallint" then if c.isAutoIncrement then lit "smallserial" else c.dataType
  else if c.dataType = lit "integer" then if c.isAutoIncrement then lit "serial" else c.dataType
  else if c.dataType = lit "bigint" then if c.isAutoIncrement then lit "bigserial" else c.dataType
  else if c.dataType = lit "timestamp without time zone" then lit "timestamp"
  else if c.dataType = lit "time without time zone" then lit "time"
  else c.dataType

/-- `isAutoIncrement` in `getColumns`, /repo/adapter/postgres/postgres.go:255. -/
def nextvalDefault : Option Str → Bool
  | none => false
  | some d => hasPrefix (lit "nextval(") d

/-- One turn of the loop of `getColumns`, /repo/adapter/postgres/postgres.go:233-267. -/
def columnOf (r : Row) : Except Str Column := do
  let length ← match r.maxLength with
    | none => .ok 0
    | some s => match atoi s with
      | (n, none) => .ok n
      | (_, some _) => .error (lit "strconv.Atoi")
  return { name := trimSet ['"', ' '] r.name, dataType := r.dataType, length := length, nullable := r.isNullable = lit "YES",
           default := r.default.getD [], isAutoIncrement := nextvalDefault r.default,
           isUnique := r.isUnique, check := r.check.getD [], identityGeneration := r.identity.getD [] }

/-- `getColumns`, /repo/adapter/postgres/postgres.go:210-269. -/
def getColumns : List Row → Except Str (List Column)
  | [] => .ok []
  | r :: rs => do
    let c ← columnOf r
    let cs ← getColumns rs
    return c :: cs

/-- `getIndexDefs`, /repo/adapter/postgres/postgres.go:271-294. A row is the name and the definition of an index. -/
def getIndexDefs (rows : List (Str × Str)) : List Str :=
  (rows.filter fun r => !(lit "_pkey").isSuffixOf (trimSet ['"', ' '] r.1)).map (·.2)

/-- A row of the query of `getForeginDefs`, /repo/adapter/postgres/postgres.go:326-341. -/
structure FkRow where
  tableSchema : Str
  constraintName : Str
  tableName : Str
  columnName : Str
  foreignTableSchema : Str
  foreignTableName : Str
  foreignColumnName : Str
  foreignUpdateRule : Str
  foreignDeleteRule : Str

/-- One turn of the loop of `getForeginDefs`, /repo/adapter/postgres/postgres.go:350-360. -/
def FkRow.text (r : FkRow) : Str :=
  lit "ALTER TABLE ONLY " ++ r.tableSchema ++ lit "." ++ r.tableName ++ lit " ADD CONSTRAINT " ++ r.constraintName ++
    lit " FOREIGN KEY (" ++ r.columnName ++ lit ") REFERENCES " ++ r.foreignTableSchema ++ lit "." ++ r.foreignTableName ++
    lit "(" ++ r.foreignColumnName ++ lit ") ON UPDATE " ++ r.foreignUpdateRule ++ lit " ON DELETE " ++ r.foreignDeleteRule

/-- A row of the query of `getPolicyDefs`, /repo/adapter/postgres/postgres.go:371. -/
structure PolicyRow where
  policyName : Str
  permissive : Str
  roles : Str
  cmd : Str
  qual : Option Str := none
  withCheck : Option Str := none

/-- The roles without the braces around them, /repo/adapter/postgres/postgres.go:365-368 and 388-389. -/
def stripBraces (s : Str) : Str :=
  trimSuffix (lit "}") (match s with | '{' :: s => s | s => s)

/-- One turn of the loop of `getPolicyDefs`, /repo/adapter/postgres/postgres.go:380-402. `table` is the name without the
schema. -/
def PolicyRow.text (table : Str) (r : PolicyRow) : Str :=
  lit "CREATE POLICY " ++ r.policyName ++ lit " ON " ++ table ++ lit " AS " ++ r.permissive ++ lit " FOR " ++ r.cmd ++ lit " TO " ++
    stripBraces r.roles ++ (match r.qual with | none => [] | some e => lit " USING " ++ e) ++
    (match r.withCheck with | none => [] | some e => lit " WITH CHECK " ++ e)

/-- The text of a column in `buildDumpTableDDL`, /repo/adapter/postgres/postgres.go:131-149. -/
def Column.text (c : Column) : Str :=
  lit "\"" ++ c.name ++ lit "\" " ++ c.getDataType ++
    (if c.length > 0 then lit "(" ++ showInt c.length ++ lit ")" else []) ++
    (if c.isUnique then lit " UNIQUE" else []) ++
    (if c.nullable then [] else lit " NOT NULL") ++
    (if c.default ≠ [] ∧ c.isAutoIncrement = false then lit " DEFAULT " ++ c.default else []) ++
    (if c.identityGeneration ≠ [] then lit " GENERATED " ++ c.identityGeneration ++ lit " AS IDENTITY" else []) ++
    (if c.check ≠ [] then lit " " ++ c.check else [])

/-- The CREATE TABLE of `buildDumpTableDDL` without the semicolon at its end, /repo/adapter/postgres/postgres.go:125-155. -/
def createText (table : Str) (columns : List Column) (pkeyCols : List Str) : Str :=
  lit "CREATE TABLE " ++ table ++ lit " (" ++ join (lit ",") (columns.map fun c => lit "\n" ++ dumpIndent ++ c.text) ++
    (if pkeyCols = [] then [] else
      lit ",\n" ++ dumpIndent ++ lit "PRIMARY KEY (\"" ++ join (lit "\", \"") pkeyCols ++ lit "\")") ++
    lit "\n)"

/-- `buildDumpTableDDL`, /repo/adapter/postgres/postgres.go:123-166. -/
def buildDumpTableDDL (table : Str) (columns : List Column) (pkeyCols indexDefs foreignDefs policyDefs : List Str) : Str :=
  trimSuffix (lit ";\n") (createText table columns pkeyCols ++ lit ";\n" ++
    (indexDefs ++ foreignDefs ++ policyDefs).flatMap fun v => v ++ lit ";\n")

/-- What the server returns for the queries of the adapter; the first argument is the schema, the second the table. -/
structure Catalog where
  tables : List (Str × Str)
  columns : Str → Str → List Row
  primaryKey : Str → Str → List Str
  indexes : Str → Str → List (Str × Str)
  foreignKeys : Str → Str → List FkRow
  policies : Str → Str → List PolicyRow
  /-- Schema, name and definition of each view. -/
  views : List (Str × Str × Str)

/-- `TableNames`, /repo/adapter/postgres/postgres.go:35-56. -/
def tableNames (cat : Catalog) : List Str := cat.tables.map fun t => t.1 ++ lit "." ++ t.2

/-- `DumpTableDDL`, /repo/adapter/postgres/postgres.go:99-121. -/
def dumpTableDDL (cat : Catalog) (table : Str) : Except Str Str := do
  let (schema, name) := splitTableName (lit "public") table
  let cols ← getColumns (cat.columns schema name)
  return buildDumpTableDDL table cols (cat.primaryKey schema name) (getIndexDefs (cat.indexes schema name))
    ((cat.foreignKeys schema name).map FkRow.text) ((cat.policies schema name).map (PolicyRow.text name))

/-- `Views`, /repo/adapter/postgres/postgres.go:63-93. -/
def views (cat : Catalog) : List Str :=
  cat.views.map fun v => lit "CREATE VIEW " ++ v.1 ++ lit "." ++ v.2.1 ++ lit " AS " ++ viewText v.2.2

/-- The database as the adapter shows it to the tool, /repo/adapter/postgres/postgres.go:35-121. (There are no
triggers.) -/
def database {σ : Type} (db : Db σ) (cat : σ → Catalog) : Db σ :=
  { db with
    tableNames := fun s => .ok (tableNames (cat s))
    dumpTableDDL := fun s t => dumpTableDDL (cat s) t
    views := fun s => .ok (views (cat s))
    triggers := fun _ => .ok [] }

end Pg

/-! ### SQL Server -/
namespace Ms

/-- `identity`, /repo/adapter/mssql/mssql.go:172-176. -/
structure Identity where
  seedValue : Str
  incrementValue : Str
  notForReplication : Bool

/-- `check`, /repo/adapter/mssql/mssql.go:178-182. -/
structure Check where
  name : Str
  definition : Str
  notForReplication : Bool

/-- A row of the query of `getColumns` as the loop keeps it, `column`, /repo/adapter/mssql/mssql.go:161-170 and
214-247. Simplification: `defaultName` is empty if there is no default. -/
structure Column where
  name : Str
  dataType : Str
  length : Str
  nullable : Bool
  identity : Option Identity := none
  defaultName : Str := []
  defaultVal : Str := []
  check : Option Check := none

/-- `indexDef`, /repo/adapter/mssql/mssql.go:251-264; options are pairs of a name and a value. -/
structure IndexDef where
  name : Str
  columns : List Str
  primary : Bool
  unique : Bool
  indexType : Str
  included : List Str
  options : List (Str × Str)

/-- `boolToOnOff`, /repo/adapter/mssql/mssql.go:395-401. -/
def boolToOnOff (b : Bool) : Str := if b then lit "ON" else lit "OFF"

/-- A row of the first query of `getIndexDefs`, /repo/adapter/mssql/mssql.go:268-283. -/
structure IndexRow where
  name : Str
  isPrimary : Bool
  isUnique : Bool
  typeDesc : Str
  padIndex : Bool
  fillfactor : Str
  ignoreDupKey : Bool
  noRecompute : Bool
  incremental : Bool
  rowLocks : Bool
  pageLocks : Bool

/-- A row of the second query of `getIndexDefs`, /repo/adapter/mssql/mssql.go:314-321. -/
structure IndexColumnRow where
  indexName : Str
  columnName : Str
  isDescending : Bool
  isIncluded : Bool

/-- One turn of the first loop of `getIndexDefs`, /repo/adapter/mssql/mssql.go:298-308. -/
def IndexRow.start (r : IndexRow) : IndexDef :=
  { name := r.name, columns := [], primary := r.isPrimary, unique := r.isUnique, indexType := r.typeDesc, included := [],
    options := [(lit "PAD_INDEX", boolToOnOff r.padIndex), (lit "FILLFACTOR", r.fillfactor),
      (lit "IGNORE_DUP_KEY", boolToOnOff r.ignoreDupKey), (lit "STATISTICS_NORECOMPUTE", boolToOnOff r.noRecompute),
      (lit "STATISTICS_INCREMENTAL", boolToOnOff r.incremental), (lit "ALLOW_ROW_LOCKS", boolToOnOff r.rowLocks),
      (lit "ALLOW_PAGE_LOCKS", boolToOnOff r.pageLocks)] }

/-- One turn of the second loop of `getIndexDefs` for one index, /repo/adapter/mssql/mssql.go:337-346. -/
def IndexDef.add (d : IndexDef) (r : IndexColumnRow) : IndexDef :=
  let c := lit "[" ++ r.columnName ++ lit "]"
  if r.isIncluded then { d with included := d.included ++ [c] }
  else { d with columns := d.columns ++ [if r.isDescending then c ++ lit " DESC" else c] }

/-- The map of `getIndexDefs` from names to indexes, /repo/adapter/mssql/mssql.go:289-347, in the order of the first query.
Simplification: the names of the indexes are different, and every column belongs to one of them. -/
def indexDefMap (rows : List IndexRow) (columns : List IndexColumnRow) : List IndexDef :=
  rows.map fun r => (columns.filter fun c => c.indexName = r.name).foldl IndexDef.add r.start

/-- A row of the query of `getForeignDefs`, /repo/adapter/mssql/mssql.go:358-368. -/
structure FkRow where
  constraintName : Str
  columnName : Str
  foreignTableName : Str
  foreignColumnName : Str
  foreignUpdateRule : Str
  foreignDeleteRule : Str
  notForReplication : Bool

/-- `strings.Replace(s, "_", " ", -1)`. -/
def underscoresToSpaces (s : Str) : Str := s.map fun c => if c = '_' then ' ' else c

/-- One turn of the loop of `getForeignDefs`, /repo/adapter/mssql/mssql.go:377-390. -/
def FkRow.text (r : FkRow) : Str :=
  lit "CONSTRAINT [" ++ r.constraintName ++ lit "] FOREIGN KEY ([" ++ r.columnName ++ lit "]) REFERENCES [" ++ r.foreignTableName ++
    lit "] ([" ++ r.foreignColumnName ++ lit "]) ON UPDATE " ++ underscoresToSpaces r.foreignUpdateRule ++ lit " ON DELETE " ++
    underscoresToSpaces r.foreignDeleteRule ++ (if r.notForReplication then lit " NOT FOR REPLICATION" else [])

/-- The types that are written with their length, /repo/adapter/mssql/mssql.go:78. -/
def sizedTypes : List Str := [lit "char", lit "varchar", lit "binary", lit "varbinary"]

/-- The text of a column in `buildDumpTableDDL`, /repo/adapter/mssql/mssql.go:77-99. -/
def Column.text (c : Column) : Str :=
  c.name ++ lit " " ++ c.dataType ++ (if c.dataType ∈ sizedTypes then lit "(" ++ c.length ++ lit ")" else []) ++
    (if c.nullable then [] else lit " NOT NULL") ++
    (if c.defaultName ≠ [] then lit " CONSTRAINT " ++ c.defaultName ++ lit " DEFAULT " ++ c.defaultVal else []) ++
    (match c.identity with
      | none => []
      | some i => lit " IDENTITY(" ++ i.seedValue ++ lit "," ++ i.incrementValue ++ lit ")" ++
        (if i.notForReplication then lit " NOT FOR REPLICATION" else [])) ++
    (match c.check with
      | none => []
      | some k => lit " CONSTRAINT [" ++ k.name ++ lit "] CHECK" ++ (if k.notForReplication then lit " NOT FOR REPLICATION" else []) ++
        lit " " ++ k.definition)

/-- `CLUSTERED` or `NONCLUSTERED`, /repo/adapter/mssql/mssql.go:110-112 and 140-142. -/
def typeText (t : Str) : Str := if t = lit "CLUSTERED" ∨ t = lit "NONCLUSTERED" then lit " " ++ t else []

/-- The options of an index, /repo/adapter/mssql/mssql.go:114-123 and 147-156. -/
def optionsText (options : List (Str × Str)) : Str :=
  if options = [] then [] else
    lit " WITH (" ++ join (lit ",") (options.map fun o => lit " " ++ o.1 ++ lit " = " ++ o.2) ++ lit " )"

/-- A primary key, /repo/adapter/mssql/mssql.go:108-123. -/
def IndexDef.primaryText (d : IndexDef) : Str :=
  lit "CONSTRAINT [" ++ d.name ++ lit "] PRIMARY KEY" ++ typeText d.indexType ++ lit " (" ++ join (lit ", ") d.columns ++ lit ")" ++
    optionsText d.options

/-- Another index, /repo/adapter/mssql/mssql.go:136-156. -/
def IndexDef.createText (table : Str) (d : IndexDef) : Str :=
  lit "CREATE" ++ (if d.unique then lit " UNIQUE" else []) ++ typeText d.indexType ++ lit " INDEX [" ++ d.name ++ lit "] ON " ++ table ++
    lit " (" ++ join (lit ", ") d.columns ++ lit ")" ++
    (if d.included = [] then [] else lit " INCLUDE (" ++ join (lit ", ") d.included ++ lit ")") ++ optionsText d.options

/-- The CREATE TABLE of `buildDumpTableDDL` without the semicolon at its end, /repo/adapter/mssql/mssql.go:71-130. -/
def createText (table : Str) (columns : List Column) (indexDefs : List IndexDef) (foreignDefs : List Str) : Str :=
  lit "CREATE TABLE " ++ table ++ lit " (" ++ join (lit ",") (columns.map fun c => lit "\n" ++ dumpIndent ++ c.text) ++
    ((indexDefs.filter (·.primary)).flatMap fun d => lit ",\n" ++ dumpIndent ++ d.primaryText) ++
    (foreignDefs.flatMap fun v => lit ",\n" ++ dumpIndent ++ v) ++ lit "\n)"

/-- `buildDumpTableDDL`, /repo/adapter/mssql/mssql.go:69-159. (Nothing is written between the statements that create
indexes.) -/
def buildDumpTableDDL (table : Str) (columns : List Column) (indexDefs : List IndexDef) (foreignDefs : List Str) : Str :=
  trimSuffix (lit ";\n") (createText table columns indexDefs foreignDefs ++ lit ";\n" ++
    (indexDefs.filter fun d => !d.primary).flatMap (IndexDef.createText table))

/-- What the server returns for the queries of the adapter; the first argument is the schema, the second the table. -/
structure Catalog where
  tables : List (Str × Str)
  columns : Str → Str → List Column
  indexes : Str → Str → List IndexRow
  indexColumns : Str → Str → List IndexColumnRow
  foreignKeys : Str → Str → List FkRow
  views : List Str
  triggers : List Str

/-- `TableNames`, /repo/adapter/mssql/mssql.go:33-51. -/
def tableNames (cat : Catalog) : List Str := cat.tables.map fun t => t.1 ++ lit "." ++ t.2

/-- `DumpTableDDL`, /repo/adapter/mssql/mssql.go:53-67. The order in which `range` visits the map of the indexes is
arbitrary (lines 350-352): `IsDump` holds of the text for every order. -/
def IsDump (cat : Catalog) (table text : Str) : Prop :=
  let (schema, name) := splitTableName (lit "dbo") table
  ∃ defs, defs.Perm (indexDefMap (cat.indexes schema name) (cat.indexColumns schema name)) ∧
    text = buildDumpTableDDL table (cat.columns schema name) defs ((cat.foreignKeys schema name).map FkRow.text)

/-- `Views`, /repo/adapter/mssql/mssql.go:408-440. -/
def views (cat : Catalog) : List Str := cat.views.map viewText

end Ms

/-! ### MySQL -/
namespace My

/-- A row of `show triggers`, /repo/adapter/mysql/mysql.go:82-91: the columns that are used. -/
structure TriggerRow where
  trigger : Str
  event : Str
  table : Str
  statement : Str
  timing : Str

/-- One turn of the loop of `Triggers`, /repo/adapter/mysql/mysql.go:94. -/
def TriggerRow.text (r : TriggerRow) : Str :=
  lit "CREATE TRIGGER " ++ r.trigger ++ lit " " ++ r.timing ++ lit " " ++ r.event ++ lit " ON " ++ r.table ++ lit " FOR EACH ROW " ++
    r.statement ++ lit ";"

/-- One turn of the loop of `Views`, /repo/adapter/mysql/mysql.go:76. A row is the name and the definition of a view. -/
def viewText (r : Str × Str) : Str := lit "CREATE VIEW " ++ r.1 ++ lit " AS " ++ r.2

/-- What the server returns for the queries of the adapter; `createTable` is the answer to `show create table`. -/
structure Catalog where
  tables : List Str
  createTable : Str → Str
  views : List (Str × Str)
  triggers : List TriggerRow

/-- The database as the adapter shows it to the tool, /repo/adapter/mysql/mysql.go:28-97. -/
def database {σ : Type} (db : Db σ) (cat : σ → Catalog) : Db σ :=
  { db with
    tableNames := fun s => .ok (cat s).tables
    dumpTableDDL := fun s t => .ok ((cat s).createTable t)
    views := fun s => .ok ((cat s).views.map viewText)
    triggers := fun s => .ok ((cat s).triggers.map TriggerRow.text) }

end My

/-! ### SQLite -/
namespace Lite

/-- A row of `sqlite_master`, /repo/adapter/sqlite3/sqlite3.go:29, 48 and 56: the kind of the object, the table it belongs
to, and its SQL (the indexes that SQLite makes itself have none). -/
structure Object where
  type : Str
  tblName : Str
  sql : Option Str

/-- `TableNames`, /repo/adapter/sqlite3/sqlite3.go:27-45. In `like`, `_` stands for any character. -/
def tableNames (objects : List Object) : List Str :=
  (objects.filter fun o => o.type = lit "table" ∧ ¬ (hasPrefix (lit "sqlite") (toLower o.tblName) = true ∧ 7 ≤ o.tblName.length)).map (·.tblName)

/-- `DumpTableDDL`, /repo/adapter/sqlite3/sqlite3.go:47-52: the first row only, whatever its kind. -/
def dumpTableDDL (objects : List Object) (table : Str) : Except Str Str :=
  match objects.find? fun o => o.tblName = table with
  | none => .error (lit "sql: no rows in result set")
  | some o => match o.sql with
    | none => .error (lit "converting NULL to string is unsupported")
    | some sql => .ok sql

/-- `Views`, /repo/adapter/sqlite3/sqlite3.go:54-72. -/
def views (objects : List Object) : List Str := (objects.filter fun o => o.type = lit "view").filterMap (·.sql)

/-- The database as the adapter shows it to the tool, /repo/adapter/sqlite3/sqlite3.go:27-76. -/
def database {σ : Type} (db : Db σ) (cat : σ → List Object) : Db σ :=
  { db with
    tableNames := fun s => .ok (tableNames (cat s))
    dumpTableDDL := fun s t => dumpTableDDL (cat s) t
    views := fun s => .ok (views (cat s))
    triggers := fun _ => .ok [] }

end Lite

end Sqldef
