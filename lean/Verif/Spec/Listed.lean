import Mathlib.Data.List.Forall2
import Verif.Spec.Schema
import Verif.Model.Render
/-
Schemas that are the same but for the order in which a database lists them.
-/
namespace Sqldef.Spec

/-- The same table with the same columns; its indexes, foreign keys and policies are listed in any order. Of several primary keys,
if that were possible, the first one stays the first. -/
structure TableListed (t u : Table) : Prop where
  name : u.name = t.name
  columns : u.columns = t.columns
  indexes : t.indexes.Perm u.indexes
  foreignKeys : t.foreignKeys.Perm u.foreignKeys
  policies : t.policies.Perm u.policies
  keys : u.indexes.filter (·.primary) = t.indexes.filter (·.primary)

/-- The same definition, but the parts of a table are listed in any order. -/
inductive SameListed : DDL → DDL → Prop
  | table (s : Str) {t u : Table} (same : TableListed t u) : SameListed (.createTable s t) (.createTable s u)
  | same (d : DDL) : SameListed d d

/-- The same definitions in any order. -/
def ListedAgain (ds ds' : List DDL) : Prop := ∃ es, List.Forall₂ SameListed ds es ∧ es.Perm ds'

/-- Everything in the table can be told apart by its name. -/
structure PartsDiffer (t : Table) : Prop where
  indexes : (t.indexes.map (·.name)).Nodup
  foreignKeys : (t.foreignKeys.map (·.constraintName)).Nodup
  policies : (t.policies.map (·.name)).Nodup

/-- Everything in the schema can be told apart by its name, and a primary key is defined with its table. -/
structure NamesDiffer (ds : List DDL) : Prop where
  tables : UniqueTables ds
  parts : ∀ t ∈ tablesOf ds, PartsDiffer t
  secondary : ∀ n, ∀ i ∈ indexesFor n ds, i.primary = false
  views : ((viewsOf ds).map (·.name)).Nodup
  triggers : ((triggersOf ds).map (·.name)).Nodup

/-- The statement removes something from the database. -/
def TakesAway : Stmt → Prop
  | .dropTable _ | .dropView _ | .dropColumn _ _ | .dropIndex _ _ | .dropPrimaryKey _ _ | .dropForeignKey _ _ | .dropPolicy _ _
  | .dropDefaultConstraint _ _ _ => True
  | _ => False

/-- Two scripts that begin alike and end with the same removals, in any order. -/
def SameButRemovals (mode : Mode) (script script' : List Str) : Prop :=
  ∃ (same : List Str) (rest rest' : List Stmt), (∀ s ∈ rest, TakesAway s) ∧ rest.Perm rest' ∧ script = same ++ rest.map (Stmt.render mode) ∧
    script' = same ++ rest'.map (Stmt.render mode)

end Sqldef.Spec
