import Verif.Spec.MsAdapter
import Verif.Spec.TriggerRows
/-
How SQL Server keeps views and triggers: as the texts of the statements that have created them.
-/
namespace Sqldef.Spec
open Written Dumped

/-- What the definition of a view says. It is a whole statement, with or without a semicolon. After every line break there is
a space, and there are no line breaks and no runs of spaces within a string or a quoted name. -/
structure MsViewSays (definition : Str) (v : NewView) : Prop where
  query : v.query.Clear
  text : ∃ body, (trimSpace definition = body ∨ trimSpace definition = body ++ [';']) ∧ IndentedText .mssql body v.tokens ∧
    ';' ∉ body ∧ trimSpace body = body

/-- What the definition of a trigger says. It is a whole statement, with or without a semicolon at its end. -/
structure MsTriggerSays (definition : Str) (t : NewTrigger) : Prop where
  body : t.Clear
  text : ∃ body, (definition = body ∨ definition = body ++ [';']) ∧ TextStands .mssql body t.tokens

/-- What a SQL Server database says about its tables, views and triggers. -/
structure MsDatabaseSays (cat : Ms.Catalog) (ds : List MsDescribed) (vs : List NewView) (gs : List NewTrigger) : Prop where
  tables : List.Forall₂ (fun t d => MsCatalogSays cat t.1 t.2 d) cat.tables ds
  views : List.Forall₂ MsViewSays cat.views vs
  triggers : List.Forall₂ MsTriggerSays cat.triggers gs

end Sqldef.Spec
