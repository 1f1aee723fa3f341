import Verif.Spec.TriggerRows
/-
Databases that are the same but for the order in which the server lists what is in them.
-/
namespace Sqldef.Spec
open Written Dumped

/-- Two MySQL servers with the same tables, views and triggers, listed in any order. -/
structure MyListsTheSame (cat cat' : My.Catalog) : Prop where
  tables : cat.tables.Perm cat'.tables
  texts : ∀ n ∈ cat.tables, cat'.createTable n = cat.createTable n
  views : cat.views.Perm cat'.views
  triggers : cat.triggers.Perm cat'.triggers

/-- Two SQLite databases with the same rows of `sqlite_master` in any order in which the row of a table comes before all other
rows that belong to it. -/
structure LiteListsTheSame (objects objects' : List Lite.Object) : Prop where
  rows : objects.Perm objects'
  first : ∀ o ∈ objects', o.type = lit "table" → objects'.find? (fun p => p.tblName = o.tblName) = some o

end Sqldef.Spec
