import Verif.Spec.Catalog
import Verif.Spec.Same
/-!
Specification vocabulary: the changes the generator can carry out in one run, and what it means that a
database has reached the desired schema.
-/
namespace Sqldef.Spec

/-- A table a server can have: no name is used twice, at most one column is declared PRIMARY KEY, and the
columns of the primary key exist. -/
structure Tidy (t : Table) : Prop where
  columns : (t.columns.map (·.name)).Nodup
  indexes : (secondaryNames t).Nodup
  foreignKeys : (t.foreignKeys.map (·.constraintName)).Nodup
  policies : (t.policies.map (·.name)).Nodup
  oneKey : (t.columns.filter fun c => decide (c.keyOption = .primary)).length ≤ 1
  keyColumns : ∀ i ∈ t.indexes, i.primary = true → ∀ k ∈ i.columns, k.column ∈ t.columns.map (·.name)

instance (t : Table) : Decidable (Tidy t) :=
  decidable_of_iff
    ((t.columns.map (·.name)).Nodup ∧ (secondaryNames t).Nodup ∧ (t.foreignKeys.map (·.constraintName)).Nodup ∧
      (t.policies.map (·.name)).Nodup ∧ (t.columns.filter fun c => decide (c.keyOption = .primary)).length ≤ 1 ∧
      ∀ i ∈ t.indexes, i.primary = true → ∀ k ∈ i.columns, k.column ∈ t.columns.map (·.name))
    ⟨fun ⟨a, b, c, d, e, f⟩ => ⟨a, b, c, d, e, f⟩, fun h => ⟨h.1, h.2, h.3, h.4, h.5, h.6⟩⟩

/-- Changes of a table that work for SQL Server: no column gains, loses or changes its IDENTITY, the primary
key is not changed, and either its index keeps its name or a desired column is declared PRIMARY KEY. -/
structure MssqlChange (x D : Table) : Prop where
  identity : ∀ c ∈ D.columns, ∀ e ∈ x.columns, e.name = c.name → e.identity = c.identity
  key : SameKey x.primaryKey D.primaryKey ∨ x.primaryKey = none
  keyName : ∀ i ∈ x.indexes, i.primary = true →
    i.name ∈ D.indexes.map (·.name) ∨ ∃ c ∈ D.columns, c.keyOption = .primary

/-- Changes of a table that work for SQLite (`d` is the desired CREATE TABLE, `D` the desired table with its
separately defined indexes): the primary key does not change; indexes and foreign keys written in the CREATE
TABLE exist already; existing indexes do not change; nothing but columns is obsolete; there are no policies. -/
structure SqliteChange (x d D : Table) : Prop where
  key : SameKey x.primaryKey D.primaryKey
  inner : ∀ i ∈ d.indexes, i.primary = false → i.name ∈ secondaryNames x
  same : ∀ i ∈ D.indexes, ∀ j ∈ x.indexes, j.name = i.name → SameIndex j i
  foreignKeys : ∀ f ∈ d.foreignKeys, ∃ g ∈ x.foreignKeys, g.constraintName = f.constraintName ∧
    SameForeignKey .sqlite3 g f
  obsolete : ∀ i ∈ x.indexes, i.primary = false → i.name ∈ D.indexes.map (·.name)
  obsoleteKeys : ∀ f ∈ x.foreignKeys, f.constraintName ∈ D.foreignKeys.map (·.constraintName)
  policies : x.policies = [] ∧ D.policies = []

/-- Changes of the current table `x` that can be carried out. A primary key does not share its index name with
another index of the other schema; for MySQL no index has the name of a UNIQUE column. -/
structure SupportedChange (mode : Mode) (x d D : Table) : Prop where
  keyNames : ∀ i ∈ D.indexes, ∀ j ∈ x.indexes, i.primary ≠ j.primary → i.name ≠ j.name
  mysql : mode = .mysql → ∀ c ∈ D.columns, c.keyOption.isUnique = true → c.name ∉ secondaryNames D
  mssql : mode = .mssql → MssqlChange x D
  sqlite : mode = .sqlite3 → SqliteChange x d D

/-- The definition is an ALTER TABLE ... ADD INDEX. -/
def isAddIndex : DDL → Bool
  | .addIndex _ _ _ => true
  | _ => false

/-- The generator can carry out the change from `current` to `desired`. -/
structure Supported (mode : Mode) (desired current : List DDL) : Prop where
  desiredTidy : ∀ t ∈ created desired, Tidy (complete desired t) ∧ t.policies = []
  currentTidy : ∀ x ∈ tablesOf current, Tidy x
  separate : ∀ t ∈ created desired, ∀ i ∈ indexesFor t.name desired, i.primary = false
  tables : ∀ t ∈ created desired, ∀ x ∈ tablesOf current, x.name = t.name → SupportedChange mode x t (complete desired t)
  views : ((viewsOf current).map (·.name)).Nodup
  triggers : ((triggersOf desired).map (·.name)).Nodup
  sqlite : mode = .sqlite3 → (∀ d ∈ desired, isAddIndex d = false) ∧ ∀ t ∈ created desired, policiesFor t.name desired = []

/-! ### Having reached the desired schema -/

/-- The table `T` of a database is the desired table: `d` is the CREATE TABLE and `D` the desired table with its
separate definitions.

It has exactly the desired columns, the desired primary key, every desired index and no others except those that
back a foreign key or a UNIQUE column, every foreign key of the CREATE TABLE and no others except those of the
schema or of a `REFERENCES` clause of a column, and exactly the desired policies. -/
structure ReachedTable (mode : Mode) (d D T : Table) : Prop where
  name : T.name = D.name
  columns : (T.columns.map (·.name)).Perm (D.columns.map (·.name))
  key : T.primaryKey = D.primaryKey ∨ SameKey T.primaryKey D.primaryKey
  indexes : ∀ i ∈ D.indexes, i.primary = false →
    ∃ j ∈ T.indexes, j.primary = false ∧ j.name = i.name ∧ (j = i ∨ SameIndex j i)
  indexNames : (secondaryNames T).Nodup
  noOtherIndex : ∀ j ∈ T.indexes, j.primary = false →
    j.name ∈ secondaryNames D ∨ (∃ f ∈ D.foreignKeys, j.name = f.indexName ∨ j.name = f.constraintName) ∨
    (j.unique = true ∧ ∃ c ∈ D.columns, c.keyOption.isUnique = true ∧ j.columns.head?.map (·.column) = some c.name)
  foreignKeys : ∀ f ∈ d.foreignKeys,
    ∃ g ∈ T.foreignKeys, g.constraintName = f.constraintName ∧ (g = f ∨ SameForeignKey mode g f)
  foreignKeyNames : (T.foreignKeys.map (·.constraintName)).Nodup
  noOtherForeignKey : ∀ g ∈ T.foreignKeys, g.constraintName ∈ D.foreignKeys.map (·.constraintName) ∨
    ((mode = .postgres ∨ mode = .mssql) ∧ ∃ c ∈ D.columns, c.references = g.referenceName)
  policies : ∀ p ∈ D.policies, ∃ q ∈ T.policies, q.name = p.name ∧ (q = p ∨ SamePolicy q p)
  policyNames : (T.policies.map (·.name)).Perm (D.policies.map (·.name))

/-- The database `c` has reached the desired schema: exactly the desired tables and views, and for MySQL and SQL
Server the desired triggers. -/
structure Reached (mode : Mode) (desired : List DDL) (c : Catalog) : Prop where
  tables : ∀ n, (∃ T, c.table n = some T) ↔ n ∈ createdNames desired
  table : ∀ t ∈ created desired, ∃ T, c.table t.name = some T ∧ ReachedTable mode t (complete desired t) T
  views : ∀ n, (∃ v, c.view n = some v) ↔ n ∈ (viewsOf desired).map (·.name)
  view : ∀ v ∈ viewsOf desired, ∃ w, c.view v.name = some w ∧ w.name = v.name ∧ toLower w.definition = toLower v.definition
  trigger : (mode = .mysql ∨ mode = .mssql) → ∀ t ∈ triggersOf desired,
    ∃ u, c.trigger t.name = some u ∧ (u = t ∨ SameTrigger u t)

end Sqldef.Spec
