import Verif.Model.Ast
/-!
Specification vocabulary for comparisons: which type names are documented to mean the same.
-/
namespace Sqldef.Spec

/-- Two names of the same type: the aliases of the documentation, closed under equivalence. `boolean` and
`tinyint` are the same in MySQL only. -/
inductive SameType (mode : Mode) : Str → Str → Prop
  | refl t : SameType mode t t
  | symm {a b} : SameType mode a b → SameType mode b a
  | trans {a b c} : SameType mode a b → SameType mode b c → SameType mode a c
  | bool : SameType mode (lit "bool") (lit "boolean")
  | int : SameType mode (lit "int") (lit "integer")
  | char : SameType mode (lit "char") (lit "character")
  | varchar : SameType mode (lit "varchar") (lit "character varying")
  | tinyint : mode = .mysql → SameType mode (lit "boolean") (lit "tinyint")

/-- The same direction: no direction means ascending. -/
def SameDirection (a b : Str) : Prop :=
  a = b ∨ (a = [] ∧ b = lit "asc") ∨ (a = lit "asc" ∧ b = [])

end Sqldef.Spec
