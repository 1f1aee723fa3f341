import Verif.Spec.Columns
/-!
Specification vocabulary: when the current schema already is what the desired schema asks for.
-/
namespace Sqldef.Spec

/-- MySQL: the column `cur` of the table `x` is the desired column `c` of the table `d`. A column that is behind its
place is only tolerated as far as the difference of the numbers of columns explains it. -/
structure MysqlAgrees (x d : Table) (cur c : Column) : Prop where
  definition : SameDefinition .mysql cur c
  default : SameDefault cur.defaultDef c.defaultDef
  place : cur.position > c.position → cur.position - c.position ≤ (x.columns.length : Int) - d.columns.length
  unique : c.keyOption.isUnique = true → cur.keyOption.isUnique = true ∨ c.name ∈ x.indexes.map (·.name)

/-- Postgres: the column `cur` of the table `x` is the desired column `c`. NOT NULL does not count for the columns of
the primary key. -/
structure PostgresAgrees (x : Table) (cur c : Column) : Prop where
  type : SameDataType .postgres cur c
  notNull : inPrimaryKey x cur = false → (Required .postgres cur ↔ Required .postgres c)
  identity : cur.identity = c.identity
  default : SameDefault cur.defaultDef c.defaultDef
  check : SameCheck cur.check c.check
  noInherit : c.check ≠ none → cur.checkNoInherit = c.checkNoInherit

/-- SQL Server: the column `cur` is the desired column `c`. Neither the type nor NOT NULL counts. -/
structure MssqlAgrees (cur c : Column) : Prop where
  identity : cur.identity = c.identity
  default : SameDefault cur.defaultDef c.defaultDef
  check : SameCheck cur.check c.check
  noInherit : c.check ≠ none → cur.checkNoInherit = c.checkNoInherit

/-- The column `cur` of the table `x` is the desired column `c` of the table `d`. For SQLite only the name counts. -/
structure ColumnAgrees (mode : Mode) (x d : Table) (cur c : Column) : Prop where
  mysql : mode = .mysql → MysqlAgrees x d cur c
  postgres : mode = .postgres → PostgresAgrees x cur c
  mssql : mode = .mssql → MssqlAgrees cur c

/-- The roles, sorted with their letter case, are the same up to letter case. -/
def SortedRolesAgree (a b : List Str) : Prop :=
  ∃ a' b' : List Str, a'.Perm a ∧ b'.Perm b ∧ a'.Pairwise (· ≤ ·) ∧ b'.Pairwise (· ≤ ·) ∧ a'.map toLower = b'.map toLower

/-- The policy `cur` is the desired policy `des`. -/
structure PolicyAgrees (cur des : Policy) : Prop extends SamePolicy cur des where
  sorted : toLower cur.using_ = toLower des.using_ → toLower cur.withCheck = toLower des.withCheck →
    SortedRolesAgree cur.roles des.roles

/-- The foreign key `f` has an index of the name `n`. -/
def BackedBy (f : ForeignKey) (n : Str) : Prop :=
  n ≠ [] ∧ (n = f.indexName ∨ (f.indexName = [] ∧ n = f.constraintName))

/-- The index `j` may stay although no index of its name is desired: it backs a foreign key; or it is the primary key,
and the first column declared PRIMARY KEY is its first one (if no column is declared so, it may stay except for SQL
Server); or it is unique and its first column is declared UNIQUE. -/
def MayStay (mode : Mode) (D : Table) (j : Index) : Prop :=
  (∃ f ∈ D.foreignKeys, BackedBy f j.name) ∨
  (j.primary = true ∧
    match D.columns.find? (·.keyOption = .primary) with
    | none => mode ≠ .mssql
    | some c => j.columns.head?.map (·.column) = some c.name) ∨
  (j.primary = false ∧ j.unique = true ∧
    ∃ c ∈ D.columns, c.keyOption.isUnique = true ∧ j.columns.head?.map (·.column) = some c.name)

/-- The current table `x` is the table of the desired schema with the CREATE TABLE `d`. For SQL Server and SQLite a
primary key may be there although none is desired (`noOtherIndex` restricts that for SQL Server). -/
structure TableAgrees (mode : Mode) (desired : List DDL) (x d : Table) : Prop where
  columns : ∀ c ∈ d.columns, ∃ cur, x.columns.find? (·.name = c.name) = some cur ∧ ColumnAgrees mode x d cur c
  noOtherColumn : ∀ cur ∈ x.columns, cur.name ∈ d.columns.map (·.name)
  autoIncrement : mode = .mysql → ∀ c ∈ d.columns, c.autoIncrement = true →
    ∃ cur, x.columns.find? (·.name = c.name) = some cur ∧ cur.autoIncrement = true
  noOtherAutoIncrement : mode = .mysql → ∀ cur ∈ x.columns, cur.autoIncrement = true →
    ∃ c, d.columns.find? (·.name = cur.name) = some c ∧ c.autoIncrement = true
  key : SameKey x.primaryKey d.primaryKey ∨ ((mode = .mssql ∨ mode = .sqlite3) ∧ d.primaryKey = none)
  indexes : ∀ i ∈ d.indexes, i.primary = false → ∃ j, x.indexes.find? (·.name = i.name) = some j ∧ SameIndex j i
  separateIndexes : ∀ i ∈ indexesFor d.name desired, ∃ j, x.indexes.find? (·.name = i.name) = some j ∧ SameIndex j i
  noOtherIndex : ∀ j ∈ x.indexes,
    j.name ∈ (d.indexes ++ indexesFor d.name desired).map (·.name) ∨ MayStay mode (complete desired d) j
  foreignKeys : ∀ f ∈ d.foreignKeys, f.constraintName ≠ [] ∧
    ∃ g, x.foreignKeys.find? (·.constraintName = f.constraintName) = some g ∧ SameForeignKey mode g f
  noOtherForeignKey : mode ≠ .sqlite3 → ∀ g ∈ x.foreignKeys,
    g.constraintName ∈ (d.foreignKeys ++ foreignKeysFor d.name desired).map (·.constraintName) ∨
    (mode ≠ .mysql ∧ ∃ c ∈ d.columns, c.references = g.referenceName)
  policies : ∀ p ∈ policiesFor d.name desired, ∃ q, x.policies.find? (·.name = p.name) = some q ∧ PolicyAgrees q p
  noOtherPolicy : ∀ q ∈ x.policies, q.name ∈ (d.policies ++ policiesFor d.name desired).map (·.name)

/-- The current schema is what the desired schema asks for. -/
structure Agrees (mode : Mode) (desired current : List DDL) : Prop where
  tables : ∀ d ∈ created desired, ∃ x, tableIn current d.name = some x ∧ TableAgrees mode desired x d
  noOtherTable : ∀ x ∈ tablesOf current, x.name ∈ createdNames desired
  views : ∀ v ∈ viewsOf desired, ∃ w, (viewsOf current).find? (·.name = v.name) = some w ∧
    toLower w.definition = toLower v.definition
  noOtherView : ∀ w ∈ viewsOf current, w.name ∈ (viewsOf desired).map (·.name)
  triggers : mode = .mysql ∨ mode = .mssql → ∀ t ∈ triggersOf desired,
    ∃ u, (triggersOf current).find? (·.name = t.name) = some u ∧ SameTrigger u t

end Sqldef.Spec
