import Verif.Model.PgQuery
import Verif.Spec.Adapter
/-
What belongs to a table of a Postgres server, and when nothing else is mixed up with it.  Nothing here refers to the joins
of the queries.
-/
namespace Sqldef.Spec.PgServer
open Pg Dumped

/-- The columns of the table. -/
def live (r : Relation) : List Attribute := r.attributes.filter fun a => a.dropped = false

/-- The name of the column with this number. -/
def nameOf (r : Relation) (n : Nat) : Str := ((live r).find? fun a => a.num = n).elim [] (·.name)

/-- What the server knows about a column: its own values, whether there is a unique constraint on it alone, and the check on
it alone. -/
def ownRow (r : Relation) (a : Attribute) : Row where
  name := a.name
  default := a.default
  isNullable := a.isNullable
  maxLength := a.maxLength
  dataType := if a.dataType = lit "ARRAY" ∨ a.dataType = lit "USER-DEFINED" then a.formatted else a.dataType
  isUnique := r.constraints.any fun k => k.kind = .unique ∧ k.key = [a.num]
  check := (r.constraints.find? fun k => k.kind = .check ∧ k.key = [a.num]).map (·.definition)
  identity := a.identity

/-- The columns of the primary key. -/
def ownKey (r : Relation) : List Str :=
  match r.constraints.find? fun k => k.kind = .primary with
  | none => []
  | some k => k.key.map (nameOf r)

/-- A foreign key of one column. -/
def ownForeignKey (r : Relation) (k : Constraint) : FkRow where
  tableSchema := r.schema
  constraintName := k.name
  tableName := r.name
  columnName := join [] (k.key.map (nameOf r))
  foreignTableSchema := k.refSchema
  foreignTableName := k.refTable
  foreignColumnName := join [] k.refColumns
  foreignUpdateRule := k.updateRule
  foreignDeleteRule := k.deleteRule

/-- The foreign keys of the table. -/
def ownForeignKeys (r : Relation) : List FkRow := (r.constraints.filter fun k => k.kind = .foreign).map (ownForeignKey r)

/-- What Postgres guarantees: relations have different names within a schema, constraints within a table; the columns of a
table are numbered in order, and constraints are about columns of the table. -/
structure Sound (db : List Relation) : Prop where
  relations : (db.map fun r => (r.schema, r.name)).Nodup
  numbers : ∀ r ∈ db, r.attributes.Pairwise fun a b => a.num < b.num
  columns : ∀ r ∈ db, ((live r).map (·.name)).Nodup
  keys : ∀ r ∈ db, ∀ k ∈ r.constraints, ∀ n ∈ k.key, n ∈ (live r).map (·.num)
  constraints : ∀ r ∈ db, (r.constraints.map (·.name)).Nodup
  onePrimary : ∀ r ∈ db, (r.constraints.filter fun k => k.kind = .primary).length ≤ 1

/-- Nothing elsewhere in the database is called like something in this table: no relation of the same name in another schema
has a column of the same name, and no other table has a constraint with the name of a primary or foreign key of the
table. -/
structure Apart (db : List Relation) (r : Relation) : Prop where
  columns : ∀ c ∈ db, c.name = r.name → c.schema ≠ r.schema → ∀ a ∈ live r, ∀ b ∈ live c, b.name ≠ a.name
  constraints : ∀ c ∈ db, (c.schema, c.name) ≠ (r.schema, r.name) → ∀ k ∈ r.constraints, k.kind = .primary ∨ k.kind = .foreign →
    ∀ l ∈ c.constraints, l.name ≠ k.name

/-- Unique constraints, checks and foreign keys are about one column each, and no column has two of a kind. -/
structure Simple (r : Relation) : Prop where
  one : ∀ k ∈ r.constraints, k.kind ≠ .primary → ∃ n, k.key = [n]
  once : r.constraints.Pairwise fun k l => k.kind = l.kind → k.kind = .unique ∨ k.kind = .check → k.key ≠ l.key
  target : ∀ k ∈ r.constraints, k.kind = .foreign → ∃ n, k.refColumns = [n]

/-- The tables that the tool is about: those outside the schemas of the system. -/
def Shown (r : Relation) : Prop :=
  (r.kind = 'r' ∨ r.kind = 'p') ∧ r.schema ≠ lit "information_schema" ∧ r.schema ≠ lit "pg_catalog" ∧
    ¬ (r.schema = lit "public" ∧ r.name = lit "pg_buffercache")

instance (r : Relation) : Decidable (Shown r) := by unfold Shown; infer_instance

/-- The schemas and the names of these tables. -/
def ownTables (db : List Relation) : List (Str × Str) := (db.filter fun r => Shown r).map fun r => (r.schema, r.name)

/-- The catalog of a server with nothing else than this table. -/
def ownCatalog (r : Relation) : Pg.Catalog where
  tables := [(r.schema, r.name)]
  columns _ _ := (live r).map (ownRow r)
  primaryKey _ _ := ownKey r
  indexes _ _ := r.indexes
  foreignKeys _ _ := ownForeignKeys r
  policies _ _ := r.policies
  views := []

/-- The same statements but for the order of the indexes, the foreign keys and the policies. -/
structure SameDescribed (d e : Described) : Prop where
  table : d.table = e.table
  indexes : d.indexes.Perm e.indexes
  foreignKeys : d.foreignKeys.Perm e.foreignKeys
  policies : d.policies.Perm e.policies

/-- The tables of the server are ordinary tables that are not mixed up with others, and `own` gives the statements that each
of them stands for on its own. -/
structure ServerSays (db : List Relation) (own : Str × Str → Described) : Prop where
  kind : ∀ r ∈ db, Shown r → r.kind = 'r'
  apart : ∀ r ∈ db, Shown r → Apart db r
  simple : ∀ r ∈ db, Shown r → Simple r
  described : ∀ r ∈ db, Shown r → CatalogSays (ownCatalog r) r.schema r.name (own (r.schema, r.name)) ∧
    Orderly (ownCatalog r) r.schema r.name (own (r.schema, r.name))

end Sqldef.Spec.PgServer
