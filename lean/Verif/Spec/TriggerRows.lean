import Verif.Spec.Change
import Verif.Spec.ViewRows
/-
How MySQL keeps triggers: one row each, with the text of the statement.
-/
namespace Sqldef.Spec
open Written Dumped

/-- What a row of `show triggers` says: the name of the trigger and the one of its table, when it fires, and the text of its
statement, which may have several lines. -/
structure MyTriggerSays (row : My.TriggerRow) (t : NewTrigger) : Prop where
  bare : BareName row.trigger ∧ BareName row.table
  trigger : t.name = row.trigger ∧ t.table = { name := row.table } ∧ t.more = none
  fires : row.timing = lit t.moment.word ∧ row.event = lit t.cause.word
  body : t.body.Clear
  text : TextStands .mysql row.statement t.body.tokens

/-- What a MySQL database says about its tables, views and triggers. -/
structure MyDatabaseSaysAll (cat : My.Catalog) (ts : List Written.Table) (vs : List NewView) (gs : List NewTrigger) : Prop where
  rest : MyDatabaseSays { cat with triggers := [] } ts vs
  triggers : List.Forall₂ MyTriggerSays cat.triggers gs

/-- No two triggers have the same name. -/
def TriggersDiffer (gs : List NewTrigger) : Prop := (gs.map (·.name)).Nodup

/-- A statement of a trigger without spaces and in small letters. -/
def Written.Change.bare (c : Change) : Str := toLower (c.text.filter (· ≠ ' '))

/-- The two triggers fire at the same moment, for the same cause and for tables with the same name, and their statements,
as they are shown, are the same up to spaces and letter case. -/
structure Alike (a b : NewTrigger) : Prop where
  moment : a.moment = b.moment
  cause : a.cause = b.cause
  table : a.table.name = b.table.name
  changes : a.changes.map Change.bare = b.changes.map Change.bare

end Sqldef.Spec
