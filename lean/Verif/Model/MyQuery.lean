import Verif.Model.Adapter
/-
Model of the queries of the adapter for MySQL, /repo/adapter/mysql/mysql.go:29, 48, 59, 72 and 82: what a server with several
databases answers.

Simplifications: the user may see everything; names are compared as they are (whether letter case matters depends on the server);
nothing is said about the answer to a query if the name that is put into it has a quote or, for the query for a view, a backslash.
-/
namespace Sqldef.My

/-- A table or view of one of the databases on the server. -/
structure Relation where
  database : Str
  name : Str
  /-- `Table_type`: `BASE TABLE`, `VIEW` or something else. -/
  type : Str
  /-- What `show create table` answers. -/
  createTable : Str := []
  /-- `VIEW_DEFINITION` in `INFORMATION_SCHEMA.VIEWS` -/
  definition : Str := []

/-- A server, and the database that the tool is connected to. -/
structure Server where
  database : Str
  relations : List Relation
  /-- The triggers and the databases they are in. -/
  triggers : List (Str × TriggerRow)

/-- `show full tables where Table_Type != 'VIEW'`, /repo/adapter/mysql/mysql.go:29: tables of the database that is connected. -/
def tablesQuery (srv : Server) : List Str :=
  (srv.relations.filter fun r => r.database = srv.database ∧ r.type ≠ lit "VIEW").map (·.name)

/-- "show create table `%s`", /repo/adapter/mysql/mysql.go:48: the table of that name in the database that is connected. -/
def createTableQuery (srv : Server) (name : Str) : List Str :=
  (srv.relations.filter fun r => r.database = srv.database ∧ r.name = name).map (·.createTable)

/-- `show full tables where TABLE_TYPE = 'VIEW'`, /repo/adapter/mysql/mysql.go:59. -/
def viewNamesQuery (srv : Server) : List Str :=
  (srv.relations.filter fun r => r.database = srv.database ∧ r.type = lit "VIEW").map (·.name)

/-- `select VIEW_DEFINITION from INFORMATION_SCHEMA.VIEWS where TABLE_NAME = '%s'`, /repo/adapter/mysql/mysql.go:72: the views of
that name in all databases. -/
def definitionQuery (srv : Server) (name : Str) : List Str :=
  (srv.relations.filter fun r => r.type = lit "VIEW" ∧ r.name = name).map (·.definition)

/-- `show triggers`, /repo/adapter/mysql/mysql.go:82. -/
def triggersQuery (srv : Server) : List TriggerRow := (srv.triggers.filter fun t => t.1 = srv.database).map (·.2)

/-- The server may answer the queries like this, in any order. Where the adapter calls `QueryRow`, it gets one of the rows. -/
structure Answers (srv : Server) (cat : Catalog) : Prop where
  tables : cat.tables.Perm (tablesQuery srv)
  texts : ∀ n ∈ cat.tables, '`' ∉ n → cat.createTable n ∈ createTableQuery srv n
  views : (cat.views.map (·.1)).Perm (viewNamesQuery srv)
  definitions : ∀ v ∈ cat.views, '\'' ∉ v.1 → '\\' ∉ v.1 → v.2 ∈ definitionQuery srv v.1
  triggers : cat.triggers.Perm (triggersQuery srv)

end Sqldef.My
