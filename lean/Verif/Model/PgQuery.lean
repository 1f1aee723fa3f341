import Verif.Model.Adapter
/-
Model of the queries of the adapter for Postgres, /repo/adapter/postgres/postgres.go:35-71, 210-345 and 369-371: what the
server answers, as joins over the relations of the database and what belongs to them.

Simplifications: the user may see everything (the views of `information_schema` leave out what they have no right to see);
system columns (`attnum` at most 0) are left out; temporary tables are left out.
-/
namespace Sqldef.Pg

/-- A row of `pg_attribute` together with what `information_schema.columns` says about it. -/
structure Attribute where
  /-- `attnum` -/
  num : Nat
  /-- `attname` -/
  name : Str
  /-- A dropped column stays in `pg_attribute`, with a type that is not in `pg_type`. -/
  dropped : Bool := false
  /-- `data_type` -/
  dataType : Str
  /-- `format_type(atttypid, atttypmod)` -/
  formatted : Str
  /-- `column_default` -/
  default : Option Str := none
  /-- `is_nullable` -/
  isNullable : Str := lit "YES"
  /-- `character_maximum_length` -/
  maxLength : Option Str := none
  /-- `identity_generation` -/
  identity : Option Str := none

/-- `contype` -/
inductive Kind | primary | unique | check | foreign
  deriving DecidableEq

/-- A row of `pg_constraint`. -/
structure Constraint where
  /-- `conname` -/
  name : Str
  kind : Kind
  /-- `conkey`: the numbers of the columns. -/
  key : List Nat
  /-- `pg_get_constraintdef(oid, true)` -/
  definition : Str := []
  /-- The table and the columns that a foreign key points to. -/
  refSchema : Str := []
  refTable : Str := []
  refColumns : List Str := []
  updateRule : Str := []
  deleteRule : Str := []

/-- A row of `pg_class`, with what belongs to it. -/
structure Relation where
  schema : Str
  name : Str
  /-- `relkind`: `r` a table, `p` a partitioned table, `v` a view, `f` a foreign table. -/
  kind : Char := 'r'
  attributes : List Attribute
  constraints : List Constraint := []
  /-- The names and the definitions of the indexes. -/
  indexes : List (Str × Str) := []
  policies : List PolicyRow := []
  /-- The query of a view, as `pg_views` shows it. -/
  definition : Str := []

/-- `LEFT JOIN`: one row without a partner if there is no partner. -/
def leftJoin {α : Type} (l : List α) : List (Option α) := if l.isEmpty then [none] else l.map some

/-- `information_schema.columns`: the name of the table and the attribute. -/
def infoColumns (db : List Relation) : List (Str × Attribute) :=
  (db.filter fun c => c.kind = 'r' ∨ c.kind = 'v' ∨ c.kind = 'f' ∨ c.kind = 'p').flatMap fun c =>
    (c.attributes.filter fun a => a.dropped = false).map fun a => (c.name, a)

/-- A row of the query of `getColumns`, /repo/adapter/postgres/postgres.go:211-215: `s` is the row of
`information_schema.columns`, `p` and `pc` are the rows of `pg_constraint`. Without `s` the name is `NULL`, which cannot be
scanned into a string. -/
def columnsRow (f : Attribute) (p pc : Option Constraint) (s : Option (Str × Attribute)) : Option Row :=
  s.map fun s =>
    { name := s.2.name, default := s.2.default, isNullable := s.2.isNullable, maxLength := s.2.maxLength,
      dataType := if s.2.dataType = lit "ARRAY" ∨ s.2.dataType = lit "USER-DEFINED" then f.formatted else s.2.dataType,
      isUnique := p.isSome, check := pc.map (·.definition), identity := s.2.identity }

/-- The query of `getColumns` without its `ORDER BY`, /repo/adapter/postgres/postgres.go:211-224: `attnum` and the row. -/
def columnsQuery (db : List Relation) (schema table : Str) : List (Nat × Option Row) :=
  (db.filter fun c => c.kind = 'r' ∧ c.schema = schema ∧ c.name = table).flatMap fun c =>
    (c.attributes.filter fun f => f.dropped = false).flatMap fun f =>
      (leftJoin (c.constraints.filter fun p => f.num ∈ p.key ∧ p.kind = .unique)).flatMap fun p =>
        (leftJoin (c.constraints.filter fun pc => f.num ∈ pc.key ∧ pc.kind = .check)).flatMap fun pc =>
          (leftJoin ((infoColumns db).filter fun s => s.2.name = f.name ∧ s.1 = c.name)).map fun s =>
            (f.num, columnsRow f p pc s)

/-- The names of the columns with these numbers. -/
def Relation.columnNames (c : Relation) (nums : List Nat) : List Str :=
  nums.flatMap fun n => (c.attributes.filter fun a => a.num = n).map (·.name)

/-- `information_schema.key_column_usage`: the name of the constraint, the column and its position. -/
def keyColumnUsage (db : List Relation) : List (Str × Str × Nat) :=
  db.flatMap fun c => (c.constraints.filter fun k => k.kind ≠ .check).flatMap fun k =>
    (c.columnNames k.key).zipIdx.map fun n => (k.name, n.1, n.2)

/-- The query of `getPrimaryKeyColumns` without its `ORDER BY`, /repo/adapter/postgres/postgres.go:297-303: the column and
its position. -/
def primaryKeyQuery (db : List Relation) (schema table : Str) : List (Str × Nat) :=
  (db.filter fun c => c.schema = schema ∧ c.name = table).flatMap fun c =>
    (c.constraints.filter fun tc => tc.kind = .primary).flatMap fun tc =>
      ((keyColumnUsage db).filter fun kcu => tc.name = kcu.1).map fun kcu => kcu.2

/-- `information_schema.constraint_column_usage`: the name of the constraint, and the schema, the table and the column that
it uses. -/
def constraintColumnUsage (db : List Relation) : List (Str × Str × Str × Str) :=
  db.flatMap fun c => c.constraints.flatMap fun k =>
    if k.kind = .foreign then k.refColumns.map fun n => (k.name, k.refSchema, k.refTable, n)
    else (c.columnNames k.key).map fun n => (k.name, c.schema, c.name, n)

/-- `information_schema.referential_constraints`: the name of the constraint and its rules. -/
def referentialConstraints (db : List Relation) : List (Str × Str × Str) :=
  db.flatMap fun c => (c.constraints.filter fun k => k.kind = .foreign).map fun k => (k.name, k.updateRule, k.deleteRule)

/-- The query of `getForeginDefs`, /repo/adapter/postgres/postgres.go:326-341. -/
def foreignKeysQuery (db : List Relation) (schema table : Str) : List FkRow :=
  (db.filter fun c => c.schema = schema ∧ c.name = table).flatMap fun c =>
    (c.constraints.filter fun tc => tc.kind = .foreign).flatMap fun tc =>
      ((keyColumnUsage db).filter fun kcu => tc.name = kcu.1).flatMap fun kcu =>
        ((constraintColumnUsage db).filter fun ccu => tc.name = ccu.1).flatMap fun ccu =>
          ((referentialConstraints db).filter fun rc => tc.name = rc.1).map fun rc =>
            { tableSchema := c.schema, constraintName := tc.name, tableName := c.name, columnName := kcu.2.1,
              foreignTableSchema := ccu.2.1, foreignTableName := ccu.2.2.1, foreignColumnName := ccu.2.2.2,
              foreignUpdateRule := rc.2.1, foreignDeleteRule := rc.2.2 }

/-- The query of `TableNames`, /repo/adapter/postgres/postgres.go:37-40. -/
def tablesQuery (db : List Relation) : List (Str × Str) :=
  (db.filter fun c => c.schema ∉ [lit "information_schema", lit "pg_catalog"] ∧
    (c.schema ≠ lit "public" ∨ c.name ≠ lit "pg_buffercache") ∧ (c.kind = 'r' ∨ c.kind = 'p')).map fun c => (c.schema, c.name)

/-- The query of `getIndexDefs`, /repo/adapter/postgres/postgres.go:272. -/
def indexesQuery (db : List Relation) (schema table : Str) : List (Str × Str) :=
  (db.filter fun c => c.schema = schema ∧ c.name = table).flatMap (·.indexes)

/-- The query of `getPolicyDefs`, /repo/adapter/postgres/postgres.go:371. -/
def policiesQuery (db : List Relation) (schema table : Str) : List PolicyRow :=
  (db.filter fun c => c.schema = schema ∧ c.name = table).flatMap (·.policies)

/-- What the server may answer: rows that no `ORDER BY` puts into an order come in any order. -/
structure Answers (db : List Relation) (cat : Catalog) : Prop where
  tables : cat.tables.Perm (tablesQuery db)
  columns : ∀ schema table, ∃ rows : List (Nat × Option Row), rows.Perm (columnsQuery db schema table) ∧
    rows.Pairwise (fun a b => a.1 ≤ b.1) ∧ (cat.columns schema table).map some = rows.map (·.2)
  primaryKey : ∀ schema table, ∃ rows : List (Str × Nat), rows.Perm (primaryKeyQuery db schema table) ∧
    rows.Pairwise (fun a b => a.2 ≤ b.2) ∧ cat.primaryKey schema table = rows.map (·.1)
  indexes : ∀ schema table, (cat.indexes schema table).Perm (indexesQuery db schema table)
  foreignKeys : ∀ schema table, (cat.foreignKeys schema table).Perm (foreignKeysQuery db schema table)
  policies : ∀ schema table, (cat.policies schema table).Perm (policiesQuery db schema table)

/-- The query of `Views`, /repo/adapter/postgres/postgres.go:64-70: `pg_views` has the views of all schemas, and is joined by
the name alone. -/
def viewsQuery (db : List Relation) : List (Str × Str × Str) :=
  (db.filter fun c => c.schema ∉ [lit "information_schema", lit "pg_catalog"] ∧
    (c.schema ≠ lit "public" ∨ c.name ≠ lit "pg_buffercache") ∧ c.kind = 'v').flatMap fun c =>
      (db.filter fun v => v.kind = 'v' ∧ c.name = v.name).map fun v => (c.schema, c.name, v.definition)

/-- What the server may answer, with its answer to the query for views. -/
structure AnswersAll (db : List Relation) (cat : Catalog) : Prop extends Answers db cat where
  views : cat.views.Perm (viewsQuery db)

end Sqldef.Pg
