import Verif.Model.Ast
/-
What the documentation of the commands says about their environment.
-/
namespace Sqldef.Spec

/-- The variable with the password, as the help texts of the commands have it ("overridden by"). -/
inductive PasswordIn : Mode → Str → Prop
  | mysql : PasswordIn .mysql (lit "MYSQL_PWD")
  | postgres : PasswordIn .postgres (lit "PGPASSWORD")
  | mssql : PasswordIn .mssql (lit "MSSQL_PWD")

end Sqldef.Spec
