import Verif.Spec.Statements
import Verif.Spec.Listed
/-
The order of the statements of a file.
-/
namespace Sqldef.Spec

/-- Every statement about a table comes after the one that creates it. -/
def TablesFirst (ds : List DDL) : Prop :=
  ∀ pre d post n, ds = pre ++ d :: post → DDL.table d = some n → n ∈ createdNames (pre ++ [d])

end Sqldef.Spec
