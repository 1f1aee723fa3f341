import Verif.Model.MyQuery
import Verif.Spec.AnyOrder
/-
What is in a database on a MySQL server.
-/
namespace Sqldef.Spec.MyServer

/-- In a database no two tables or views have the same name. -/
def Sound (srv : My.Server) : Prop := (srv.relations.map fun r => (r.database, r.name)).Nodup

/-- The relation is in the database that the tool is connected to. -/
def Own (srv : My.Server) (r : My.Relation) : Prop := r ∈ srv.relations ∧ r.database = srv.database

/-- The names of the tables and views can be put into quotes. -/
def Quotable (srv : My.Server) : Prop := ∀ r, Own srv r → '`' ∉ r.name ∧ '\'' ∉ r.name ∧ '\\' ∉ r.name

/-- No other database on the server has a view with the name of a view of this one. -/
def ViewsApart (srv : My.Server) : Prop :=
  ∀ r, Own srv r → r.type = lit "VIEW" → ∀ q ∈ srv.relations, q.type = lit "VIEW" → q.name = r.name → q.database = srv.database

/-- What a relation is, apart from the database it is in. -/
def content (r : My.Relation) : Str × Str × Str × Str := (r.name, r.type, r.createTable, r.definition)

/-- Two servers on which the databases that the tool is connected to have the same content; the other databases may differ. -/
structure SameDatabase (srv srv' : My.Server) : Prop where
  relations : ((srv.relations.filter fun r => r.database = srv.database).map content).Perm
    ((srv'.relations.filter fun r => r.database = srv'.database).map content)
  triggers : ((srv.triggers.filter fun t => t.1 = srv.database).map (·.2)).Perm ((srv'.triggers.filter fun t => t.1 = srv'.database).map (·.2))

/-- The content of the database that the tool is connected to, as the adapter should see it. -/
def ownCatalog (srv : My.Server) : My.Catalog where
  tables := (srv.relations.filter fun r => r.database = srv.database ∧ r.type ≠ lit "VIEW").map (·.name)
  createTable n := ((srv.relations.find? fun r => r.database = srv.database ∧ r.name = n).map (·.createTable)).getD []
  views := (srv.relations.filter fun r => r.database = srv.database ∧ r.type = lit "VIEW").map fun r => (r.name, r.definition)
  triggers := (srv.triggers.filter fun t => t.1 = srv.database).map (·.2)

end Sqldef.Spec.MyServer
