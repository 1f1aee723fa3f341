import Verif.Spec.PgServer
import Verif.Spec.ViewRows
/-
The views of a Postgres server.  Nothing here refers to the joins of the queries.
-/
namespace Sqldef.Spec.PgServer
open Pg Dumped Written

/-- The views that the tool is about: those outside the schemas of the system. -/
def ShownView (r : Relation) : Prop :=
  r.kind = 'v' ∧ r.schema ≠ lit "information_schema" ∧ r.schema ≠ lit "pg_catalog" ∧ ¬ (r.schema = lit "public" ∧ r.name = lit "pg_buffercache")

instance (r : Relation) : Decidable (ShownView r) := by unfold ShownView; infer_instance

/-- The schemas, the names and the queries of these views. -/
def ownViews (db : List Relation) : List (Str × Str × Str) := (db.filter fun r => ShownView r).map fun r => (r.schema, r.name, r.definition)

/-- No other view has the name of one of them, be it a view of the system. -/
def ViewsApart (db : List Relation) : Prop := ∀ r ∈ db, ShownView r → ∀ c ∈ db, c.kind = 'v' → c.name = r.name → c.schema = r.schema

/-- What the views stand for. -/
def ViewsSay (db : List Relation) (vs : List NewView) : Prop := List.Forall₂ (fun r v => PgViewSays r.1 r.2.1 r.2.2 v) (ownViews db) vs

end Sqldef.Spec.PgServer
