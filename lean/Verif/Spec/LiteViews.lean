import Verif.Spec.ViewRows
/-
SQLite databases with tables and views, and what SQLite does with the statements that make and drop them.
-/
namespace Sqldef.Spec
open Written Dumped

/-- What is in the database, going by `sqlite_master`: these tables (but for those that SQLite keeps for itself) and these views, each with a
text of its statement. The row of a table comes before all other rows that belong to it, everything but the views belongs to a table, and
nothing else is called like a view. -/
structure LiteHolds (objects : List Lite.Object) (ts : List Written.Table) (vs : List NewView) : Prop where
  tables : List.Forall₂ (fun (o : Lite.Object) t => o.tblName = t.name.name ∧ ∃ text, o.sql = some text ∧ TextStands .sqlite3 text (Written.Table.tokens t))
    (objects.filter fun o => o.type = lit "table" ∧ ¬ Reserved o.tblName) ts
  views : List.Forall₂ (fun (o : Lite.Object) v => o.tblName = v.name.name ∧ ∃ text, o.sql = some text ∧ TextStands .sqlite3 text v.tokens)
    (objects.filter fun o => o.type = lit "view") vs
  first : ∀ o ∈ objects, o.type = lit "table" → objects.find? (fun p => p.tblName = o.tblName) = some o
  owned : ∀ o ∈ objects, o.type ≠ lit "view" → ∃ p ∈ objects, p.type = lit "table" ∧ p.tblName = o.tblName
  apart : ∀ o ∈ objects, ∀ p ∈ objects, o.type = lit "view" → p.tblName = o.tblName → p.type = lit "view"

/-- What SQLite does: a transaction begins and ends without a change of the schema; a CREATE TABLE that succeeds adds a row for the table with
a text of the statement, and maybe rows for the indexes that the table needs; a CREATE VIEW that succeeds adds a row for the view with a text
of the statement; a DROP TABLE or DROP VIEW that succeeds removes all the rows that belong to the table or the view. -/
structure LiteKeeps {σ : Type} (db : Db σ) (master : σ → List Lite.Object) : Prop where
  begins : ∀ s, master (db.begin s).2 = master s
  commits : ∀ s, master (db.commit s).2 = master s
  createsTable : ∀ s text t, TextStands .sqlite3 text (Written.Table.tokens t) → t.ifNotExists = false → t.name.schema = none →
    (db.exec text s).1 = none →
    ∃ sql indexes, master (db.exec text s).2 = master s ++ { type := lit "table", tblName := t.name.name, sql := some sql } :: indexes ∧
      TextStands .sqlite3 sql (Written.Table.tokens t) ∧ ∀ o ∈ indexes, o.type = lit "index" ∧ o.tblName = t.name.name
  createsView : ∀ s text (v : NewView), TextStands .sqlite3 text v.tokens → v.orReplace = false → v.name.schema = none → (db.exec text s).1 = none →
    ∃ sql, master (db.exec text s).2 = master s ++ [{ type := lit "view", tblName := v.name.name, sql := some sql }] ∧
      TextStands .sqlite3 sql v.tokens
  dropsTable : ∀ s n, n ≠ [] → '`' ∉ n → (∃ o ∈ master s, o.type = lit "table" ∧ o.tblName = n) →
    (db.exec (lit "DROP TABLE `" ++ n ++ lit "`") s).1 = none →
    master (db.exec (lit "DROP TABLE `" ++ n ++ lit "`") s).2 = (master s).filter fun o => o.tblName ≠ n
  dropsView : ∀ s n, n ≠ [] → '`' ∉ n → (∃ o ∈ master s, o.type = lit "view" ∧ o.tblName = n) →
    (db.exec (lit "DROP VIEW `" ++ n ++ lit "`") s).1 = none →
    master (db.exec (lit "DROP VIEW `" ++ n ++ lit "`") s).2 = (master s).filter fun o => o.tblName ≠ n

/-- Views of a file or a database: their queries are in the language of C67, their names are different, in small letters, without a schema, can
be quoted, and are not kept by SQLite for itself. -/
structure OrderlyViews (vs : List NewView) : Prop where
  clear : ∀ v ∈ vs, v.query.Clear
  names : (vs.map (·.name.name)).Nodup
  plain : ∀ v ∈ vs, v.orReplace = false ∧ v.name.schema = none
  small : ∀ v ∈ vs, toLower v.name.name = v.name.name
  quotable : ∀ v ∈ vs, v.name.name ≠ [] ∧ '`' ∉ v.name.name ∧ ¬ Reserved v.name.name

end Sqldef.Spec
