import Verif.Spec.Agrees
import Verif.Spec.Runs
/-!
Specification vocabulary: the desired schemas and the changes after which a second run has nothing to do.
-/
namespace Sqldef.Spec

/-- A desired table that is compared as equal to what the server makes of it. -/
structure SettledTable (mode : Mode) (desired : List DDL) (t : Table) : Prop where
  /-- There is one primary key: a column declared PRIMARY KEY or listed in a PRIMARY KEY is a column of it. -/
  oneKey : ∀ c ∈ t.columns, inPrimaryKey t c = true → c.name ∈ keyColumns t
  /-- No index has two options of the same name. -/
  options : ∀ i ∈ (complete desired t).indexes ++ t.primaryKey.toList, (i.options.map (·.optionName)).Nodup
  /-- No other index has the name of the primary key. -/
  keyName : ∀ i ∈ (complete desired t).indexes, ∀ j ∈ t.indexes ++ t.primaryKey.toList,
    i.primary = false → j.primary = true → i.name ≠ j.name
  /-- Foreign keys have names. -/
  named : ∀ f ∈ t.foreignKeys, f.constraintName ≠ []
  /-- MySQL: the columns are numbered in their order. -/
  numbered : mode = .mysql → Numbered t.columns
  /-- MySQL: the columns of the primary key are declared NOT NULL, or PRIMARY KEY. -/
  keyRequired : mode = .mysql → ∀ c ∈ t.columns, c.name ∈ keyColumns t → c.notNull = some true ∨ c.keyOption = .primary
  /-- MySQL: no column has a CHECK. -/
  noCheck : mode = .mysql → ∀ c ∈ t.columns, c.check = none
  /-- Postgres: no serial column is declared NULL, and no identity is NOT FOR REPLICATION. -/
  serial : mode = .postgres → ∀ c ∈ t.columns, c.typeName = lit "serial" ∨ c.typeName = lit "bigserial" → c.notNull ≠ some false
  identity : mode = .postgres → ∀ c ∈ t.columns, c.identity.map (·.notForReplication) ≠ some true
  /-- SQL Server: no CHECK is NO INHERIT. -/
  inherited : mode = .mssql → ∀ c ∈ t.columns, c.checkNoInherit = false

/-- A change of the current table `x` to the desired table `t` that one run completes. -/
structure SettledChange (mode : Mode) (x t : Table) : Prop where
  /-- MySQL and Postgres: a column that was in the primary key is in it, or is declared NOT NULL. -/
  formerKey : mode = .mysql ∨ mode = .postgres → ∀ cur ∈ x.columns, inPrimaryKey x cur = true → ∀ c ∈ t.columns,
    c.name = cur.name → Required mode c ∨ c.name ∈ keyColumns t
  /-- MySQL: the common columns keep their relative order. -/
  order : mode = .mysql →
    (x.columns.map (·.name)).filter (· ∈ t.columns.map (·.name)) = (t.columns.map (·.name)).filter (· ∈ x.columns.map (·.name))
  /-- MySQL: a column that loses AUTO_INCREMENT does not change otherwise. -/
  autoIncrement : mode = .mysql → ∀ cur ∈ x.columns, cur.autoIncrement = true → ∀ c ∈ t.columns, cur.name = c.name →
    c.autoIncrement = false → SameDefinition .mysql cur c ∧ SameDefault cur.defaultDef c.defaultDef
  /-- MySQL: an index that has the name of a UNIQUE column is a unique index that begins with that column. -/
  unique : mode = .mysql → ∀ c ∈ t.columns, c.keyOption.isUnique = true → ∀ i ∈ x.indexes, i.name = c.name →
    i.unique = true ∧ i.primary = false ∧ i.columns.head?.map (·.column) = some c.name
  /-- Postgres: no identity is NOT FOR REPLICATION. -/
  identity : mode = .postgres → ∀ c ∈ x.columns, c.identity.map (·.notForReplication) ≠ some true
  /-- SQL Server: no CHECK is NO INHERIT. -/
  inherited : mode = .mssql → ∀ c ∈ x.columns, c.checkNoInherit = false

/-- One run completes the change from `current` to `desired`. -/
structure Settles (mode : Mode) (desired current : List DDL) : Prop where
  tables : ∀ t ∈ created desired, SettledTable mode desired t
  changes : ∀ t ∈ created desired, ∀ x ∈ tablesOf current, x.name = t.name → SettledChange mode x t

end Sqldef.Spec
