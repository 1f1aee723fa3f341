import Verif.Spec.Supported
import Verif.Model.Generator
/-!
Specification vocabulary: running the command several times with the same desired schema.
-/
namespace Sqldef.Spec

/-- A database with the schema `current` has the schema `current'` after one run: the statements generated for
the desired schema are executed, and the database is read again. -/
def RunOnce (mode : Mode) (desired current current' : List DDL) : Prop :=
  ∃ out c, diff mode desired current = .ok out ∧ execAll mode out (catalogOf current) = some c ∧ Describes c current'

/-- A database with the schema `current` has the schema `current'` after the given number of runs; every run is a
change that the generator can carry out. -/
inductive Runs (mode : Mode) (desired : List DDL) : Nat → List DDL → List DDL → Prop
  | none (current : List DDL) : Runs mode desired 0 current current
  | more {n : Nat} {current current' current'' : List DDL} (hu : UniqueTables current) (hs : Supported mode desired current)
    (h : RunOnce mode desired current current') (hr : Runs mode desired n current' current'') :
    Runs mode desired (n + 1) current current''

/-- The columns are numbered in their order, as the parser numbers them. -/
def Numbered (cs : List Column) : Prop := ∀ (i : Nat) (c : Column), cs[i]? = some c → c.position = i

end Sqldef.Spec
