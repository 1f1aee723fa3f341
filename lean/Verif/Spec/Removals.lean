import Verif.Spec.Schema
import Verif.Model.Run
import Verif.Model.Render
/-
What the order of removals across tables and views should be.
-/
namespace Sqldef.Spec
open Sqldef

/-- The table that a statement drops. -/
def droppedTable : Stmt → Option Str
  | .dropTable n => some n
  | _ => none

/-- The table `a` of a schema has a foreign key to the table `b`. -/
def References (schema : List DDL) (a b : Str) : Prop :=
  ∃ t, tableIn schema a = some t ∧ ∃ k ∈ t.foreignKeys, k.referenceName = b

/-- A server that does not drop the table `t` as long as something depends on it; among the statements of a script, only `release`
ends the dependency. Postgres is such a server for views and foreign keys, MySQL and SQL Server are for foreign keys. -/
structure Guards {σ : Type} (db : Db σ) (mode : Mode) (script : List Stmt) (release : Stmt) (t : Str) (depends : σ → Prop) : Prop where
  begin : ∀ s, depends s → depends (db.begin s).2
  refuses : ∀ s, depends s → (db.exec (lit "DROP TABLE " ++ escapeTableName mode t) s).1 ≠ none
  kept : ∀ s, ∀ st ∈ script, st ≠ release → depends s → depends (db.exec (st.render mode) s).2

end Sqldef.Spec
