import Verif.Spec.Query
import Verif.Spec.StoredText
/-
How the servers keep views: as texts of their queries (Postgres, MySQL) or of the whole statement (SQLite).
-/
namespace Sqldef.Spec
open Written Dumped

/-! ### Texts that are written tidily -/

/-- Every line break is followed by a space. -/
def Indented (w : Str) : Prop := ∀ a b, w = a ++ '\n' :: b → ∃ c, b = ' ' :: c

/-- The text is a way to write the tokens, such that lines are indented, and line breaks and runs of spaces only occur between
tokens, not within a string or a quoted name. This is how Postgres shows the query of a view. -/
inductive IndentedText (mode : Mode) : Str → List Token → Prop
  | nil {w : Str} : (∀ c ∈ w, c = ' ' ∨ c = '\n' ∨ c = '\r' ∨ c = '\t') → Indented w → IndentedText mode w []
  | cons {w a rest : Str} {t : Token} {ts : List Token} : (∀ c ∈ w, c = ' ' ∨ c = '\n' ∨ c = '\r' ∨ c = '\t') → Indented w →
    Spells mode t a rest → '\n' ∉ a → ¬ [' ', ' '] <:+: a → IndentedText mode rest ts → IndentedText mode (w ++ a ++ rest) (t :: ts)

/-! ### Rows -/

/-- A text that the server keeps for a statement. -/
structure TextStands (mode : Mode) (text : Str) (ts : List Token) : Prop where
  layout : Layout mode text ts
  semicolon : ';' ∉ text
  comment : NoComment text
  trimmed : trimSpace text = text

/-- What a row of `pg_views` says: schema, name, and the query as the server shows it, with or without a semicolon. -/
structure PgViewSays (schema name definition : Str) (v : NewView) : Prop where
  bare : BareName schema ∧ BareName name
  view : v.name = { schema := some schema, name := name } ∧ v.orReplace = false
  query : v.query.Clear
  text : ∃ body, (trimSpace definition = body ∨ trimSpace definition = body ++ [';']) ∧ IndentedText .postgres body v.query.tokens ∧
    ';' ∉ body ∧ trimSpace body = body

/-- What a row of the views of MySQL says: name and query. -/
structure MyViewSays (name definition : Str) (v : NewView) : Prop where
  bare : BareName name
  view : v.name = { name := name } ∧ v.orReplace = false
  query : v.query.Clear
  text : TextStands .mysql definition v.query.tokens
  oneLine : '\n' ∉ definition

/-- No two views have the same name, in whatever schemas and whatever the case of the letters. -/
def ViewsDiffer (vs : List NewView) : Prop := (vs.map fun v => toLower v.name.name).Nodup

/-- What a MySQL database says about its tables and views. There are no triggers. -/
structure MyDatabaseSays (cat : My.Catalog) (ts : List Written.Table) (vs : List NewView) : Prop where
  tables : List.Forall₂ (fun n t => TextStands .mysql (cat.createTable n) (Written.Table.tokens t)) cat.tables ts
  views : List.Forall₂ (fun r v => MyViewSays r.1 r.2 v) cat.views vs
  triggers : cat.triggers = []

/-- What `sqlite_master` says about the tables and the views. The row of a table comes before all other rows that belong to
it. -/
structure LiteDatabaseSays (objects : List Lite.Object) (ts : List Written.Table) (vs : List NewView) : Prop where
  tables : List.Forall₂ (fun (o : Lite.Object) t => ∃ text, o.sql = some text ∧ TextStands .sqlite3 text (Written.Table.tokens t))
    (objects.filter fun o => o.type = lit "table" ∧ ¬ Reserved o.tblName) ts
  first : ∀ o ∈ objects, o.type = lit "table" → objects.find? (fun p => p.tblName = o.tblName) = some o
  views : List.Forall₂ (fun (o : Lite.Object) v => (∃ text, o.sql = some text ∧ TextStands .sqlite3 text v.tokens) ∧ v.query.Clear)
    (objects.filter fun o => o.type = lit "view") vs

end Sqldef.Spec
