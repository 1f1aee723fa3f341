import Verif.Model.Parser
import Verif.Spec.Schema
import Verif.Spec.Text
/-! What a run says when one of the two sides is empty. -/
namespace Sqldef.Spec
open Sqldef

/-- The statements that build one definition in an empty database: the statement of the user, verbatim. A separate
foreign key gives nothing, and triggers are built for MySQL and SQL Server only, from their parts. -/
def buildStatements (mode : Mode) : DDL → List Stmt
  | .addForeignKey _ _ _ => []
  | .addPrimaryKey _ _ _ => []
  | .trigger t => match mode with
    | .mysql => [.createTrigger false t]
    | .mssql => [.createTrigger false t]
    | _ => []
  | d => [.user d]

/-- A definition whose statement is passed on as it is. -/
def PassedOn : DDL → Prop
  | .addForeignKey _ _ _ => False
  | .addPrimaryKey _ _ _ => False
  | .trigger _ => False
  | _ => True

instance (d : DDL) : Decidable (PassedOn d) := by cases d <;> unfold PassedOn <;> infer_instance

end Sqldef.Spec
