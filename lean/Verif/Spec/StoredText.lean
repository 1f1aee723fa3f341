import Verif.Spec.Adapter
import Verif.Spec.Text
import Verif.Props.Statements
/-
What it means that a server keeps the text of the statements that define its tables: MySQL answers `show create table`
with a statement, SQLite keeps the statements in `sqlite_master`.
-/
namespace Sqldef.Spec.Dumped
open Written

/-- The text consists of the tokens of the statement (for ways to write them see Spec/Layout.lean and C57); it has no
semicolon, no line of it is a comment, and there is no white space around it. -/
structure TextSays (mode : Mode) (text : Str) (s : Sentence) : Prop where
  tokens : tokenize mode text = .ok s.tokens
  semicolon : ';' ∉ text
  comment : NoComment text
  trimmed : trimSpace text = text

/-- The names within the table are different, foreign keys have names, no option of an index is repeated; for MySQL, columns
have no CHECK and columns of an inline primary key are NOT NULL. -/
structure OrderlyTable (mode : Mode) (t : Written.Table) : Prop where
  columns : (t.spec.columns.map (·.name)).Nodup
  indexes : (t.spec.indexes.map (·.name)).Nodup
  options : ∀ i ∈ t.spec.indexes, (i.options.map (·.name)).Nodup
  foreignKeys : (t.spec.foreignKeys.map (·.constraintName)).Nodup
  named : ∀ f ∈ t.spec.foreignKeys, f.constraintName ≠ []
  mysql : mode = .mysql → ∀ c ∈ t.spec.columns, c.type.check = none ∧ (c.type.keyOpt = .primary → c.type.notNull = some true)

/-- The tables can be described one after the other: every statement is one of the language, the names of the tables are
different, and every table is orderly. -/
structure OrderlyTables (mode : Mode) (ts : List Written.Table) : Prop where
  clear : ∀ t ∈ ts, (Sentence.table t).Clear ∧ (Sentence.table t).InRange
  names : (ts.map (·.name.name)).Nodup
  tables : ∀ t ∈ ts, OrderlyTable mode t

/-- What `show create table` says about the tables of a MySQL database. There are no views and no triggers. -/
structure MyCatalogSays (cat : My.Catalog) (ts : List Written.Table) : Prop where
  tables : List.Forall₂ (fun n t => TextSays .mysql (cat.createTable n) (.table t)) cat.tables ts
  views : cat.views = []
  triggers : cat.triggers = []

/-- A name that SQLite keeps for itself, going by how it begins. (In the pattern `sqlite_%` the underscore stands for any
character.) -/
def Reserved (n : Str) : Prop := lit "sqlite" <+: toLower n ∧ 7 ≤ n.length

instance (n : Str) : Decidable (Reserved n) := inferInstanceAs (Decidable (_ ∧ _))

/-- What `sqlite_master` says about the tables: every row belongs to a table, and the row of a table comes before all other
rows that belong to it. There are no views. -/
structure LiteCatalogSays (objects : List Lite.Object) (ts : List Written.Table) : Prop where
  tables : List.Forall₂ (fun (o : Lite.Object) t => o.tblName = t.name.name ∧ ∃ text, o.sql = some text ∧ TextSays .sqlite3 text (.table t))
    (objects.filter fun o => o.type = lit "table" ∧ ¬ Reserved o.tblName) ts
  first : ∀ o ∈ objects, o.type = lit "table" → objects.find? (fun p => p.tblName = o.tblName) = some o
  owned : ∀ o ∈ objects, ∃ p ∈ objects, p.type = lit "table" ∧ p.tblName = o.tblName
  views : ∀ o ∈ objects, o.type ≠ lit "view"

/-- What SQLite does: a transaction begins and ends without a change of the schema; a CREATE TABLE that succeeds adds a row
for the table with a text of the statement, and maybe rows for the indexes that the table needs; a DROP TABLE that succeeds
removes all the rows that belong to the table. -/
structure LiteServer {σ : Type} (db : Db σ) (master : σ → List Lite.Object) : Prop where
  begins : ∀ s, master (db.begin s).2 = master s
  commits : ∀ s, master (db.commit s).2 = master s
  creates : ∀ s text t, TextSays .sqlite3 text (.table t) → t.ifNotExists = false → t.name.schema = none → (db.exec text s).1 = none →
    ∃ sql indexes, master (db.exec text s).2 = master s ++ { type := lit "table", tblName := t.name.name, sql := some sql } :: indexes ∧
      TextSays .sqlite3 sql (.table t) ∧ ∀ o ∈ indexes, o.type = lit "index" ∧ o.tblName = t.name.name
  drops : ∀ s n, n ≠ [] → '`' ∉ n → (∃ o ∈ master s, o.type = lit "table" ∧ o.tblName = n) →
    (db.exec (lit "DROP TABLE `" ++ n ++ lit "`") s).1 = none →
    master (db.exec (lit "DROP TABLE `" ++ n ++ lit "`") s).2 = (master s).filter fun o => o.tblName ≠ n

end Sqldef.Spec.Dumped
