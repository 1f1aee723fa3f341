import Verif.Spec.Schema
import Verif.Spec.Statements
/-!
Specification vocabulary: schemas in dump-normal form, the form in which a database describes itself.
-/
namespace Sqldef.Spec

/-- The CREATE TABLE `t` of a schema `ds` is in the form a dump has: no name is used twice for columns, indexes,
foreign keys or policies of the table; foreign keys have names; no index option is repeated; separately
created indexes are not primary keys; and for MySQL, columns have no CHECK and columns declared PRIMARY KEY
are declared NOT NULL. -/
structure NormalTable (mode : Mode) (ds : List DDL) (t : Table) : Prop where
  columns : (t.columns.map (·.name)).Nodup
  indexes : ((t.indexes ++ indexesFor t.name ds).map (·.name)).Nodup
  options : ∀ i ∈ t.indexes ++ indexesFor t.name ds, (i.options.map (·.optionName)).Nodup
  secondary : ∀ i ∈ indexesFor t.name ds, i.primary = false
  foreignKeys : ((t.foreignKeys ++ foreignKeysFor t.name ds).map (·.constraintName)).Nodup
  named : ∀ f ∈ t.foreignKeys, f.constraintName ≠ []
  policies : ((t.policies ++ policiesFor t.name ds).map (·.name)).Nodup
  mysql : mode = .mysql → ∀ c ∈ t.columns, c.check = none ∧ (c.keyOption = .primary → c.notNull = some true)

/-- A schema in dump-normal form: every definition may follow the ones before it (`WellFormed`), nothing is
created twice, indexes are created by CREATE INDEX, and every table is in normal form. -/
structure Normal (mode : Mode) (ds : List DDL) : Prop where
  unique : UniqueTables ds
  wellFormed : WellFormed ds
  noAddIndex : ∀ s n i, .addIndex s n i ∉ ds
  tables : ∀ s t, .createTable s t ∈ ds → NormalTable mode ds t
  triggers : ((triggersOf ds).map (·.name)).Nodup

end Sqldef.Spec
