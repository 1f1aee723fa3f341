import Verif.Spec.Schema
import Verif.Model.Render
/-
What a statement of a file needs.
-/
namespace Sqldef.Spec
open Sqldef

/-- Every statement of a file comes after the CREATE TABLE of all tables that it needs, whatever it is that statements need. -/
def Workable (needs : DDL → List Str) (file : List DDL) : Prop :=
  ∀ before d after, file = before ++ d :: after → ∀ n ∈ needs d, n ∈ createdNames before

/-- A generated statement that brings what a statement of the file asks for: the statement itself, a foreign key of its table, or its view or
trigger in the place of another one. -/
inductive MadeFor : Stmt → DDL → Prop
  | itself (d : DDL) : MadeFor (.user d) d
  | key (s : Str) (t : Table) (k : ForeignKey) : k ∈ t.foreignKeys → MadeFor (.addForeignKey t.name k) (.createTable s t)
  | view (v : View) : MadeFor (.createView v.name v.definition) (.view v)
  | replacedView (v : View) : MadeFor (.replaceView v.name v.definition) (.view v)
  | trigger (b : Bool) (t : Trigger) : MadeFor (.createTrigger b t) (.trigger t)

/-- Every statement of a file comes after all views that it needs. -/
def WorkableViews (needs : DDL → List Str) (file : List DDL) : Prop :=
  ∀ before d after, file = before ++ d :: after → ∀ n ∈ needs d, n ∈ (viewsOf before).map (·.name)

/-- Whether there is a view `n` after a statement, if `there` says so before. -/
def afterStmt (n : Str) (there : Bool) : Stmt → Bool
  | .user (.view v) => if v.name = n then true else there
  | .createView m _ => if m = n then true else there
  | .dropView m => if m = n then false else there
  | _ => there

/-- Whether there is a view `n` after some statements on a database. -/
def viewThere (database : List DDL) (n : Str) (script : List Stmt) : Bool :=
  script.foldl (afterStmt n) (decide (n ∈ (viewsOf database).map (·.name)))

end Sqldef.Spec
