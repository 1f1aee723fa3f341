import Verif.Spec.Query
/-
Where a view is.
-/
namespace Sqldef.Spec
open Written

/-- How the dialects call a view: with its schema for Postgres and SQL Server, where a view without one is in the schema `public` or `dbo`, and
by its name alone for MySQL and SQLite. -/
def viewPlace (mode : Mode) (v : TableRef) : Str :=
  match mode with
  | .postgres => '"' :: v.schema.getD (lit "public") ++ lit "\".\"" ++ v.name ++ lit "\""
  | .mssql => '[' :: v.schema.getD (lit "dbo") ++ lit "].[" ++ v.name ++ lit "]"
  | _ => '`' :: v.name ++ lit "`"

/-- The view is in the schema that is meant if none is given, and its name is in small letters and has no dot. -/
structure InDefaultSchema (mode : Mode) (v : TableRef) : Prop where
  small : toLower v.name = v.name
  dot : '.' ∉ v.name
  postgres : mode = .postgres → v.schema = none ∨ v.schema = some (lit "public")
  mssql : mode = .mssql → v.schema = none ∨ v.schema = some (lit "dbo")

end Sqldef.Spec
