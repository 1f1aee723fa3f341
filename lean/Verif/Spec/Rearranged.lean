import Verif.Spec.Normal
import Verif.Spec.WrittenMore
/-!
Specification vocabulary: schemas that differ only in the order in which they are written, also within a CREATE TABLE.
-/
namespace Sqldef.Spec

/-- The column without its place in the table. -/
def unplaced (c : Column) : Column := { c with position := 0 }

/-- The same table, with its columns, indexes, foreign keys and policies in any order. -/
structure SameUpToOrder (t u : Table) : Prop where
  name : u.name = t.name
  columns : (t.columns.map unplaced).Perm (u.columns.map unplaced)
  indexes : t.indexes.Perm u.indexes
  foreignKeys : t.foreignKeys.Perm u.foreignKeys
  policies : t.policies.Perm u.policies

/-- The same definition; the text of the statement does not count, and neither does the order within a CREATE TABLE. -/
def SameButOrder : DDL → DDL → Prop
  | .createTable _ t, .createTable _ u => SameUpToOrder t u
  | .createIndex _ n i, .createIndex _ m j => m = n ∧ j = i
  | .addIndex _ n i, .addIndex _ m j => m = n ∧ j = i
  | .addPrimaryKey _ n i, .addPrimaryKey _ m j => m = n ∧ j = i
  | .addForeignKey _ n f, .addForeignKey _ m g => m = n ∧ g = f
  | .addPolicy _ n p, .addPolicy _ m q => m = n ∧ q = p
  | .view v, .view w => w = { v with statement := w.statement }
  | .trigger s, .trigger t => t = { s with statement := t.statement }
  | _, _ => False

/-- A table has at most one primary key: at most one PRIMARY KEY clause and at most one column declared PRIMARY KEY. -/
structure OneKey (t : Table) : Prop where
  indexes : (t.indexes.filter (·.primary)).length ≤ 1
  columns : (t.columns.filter (·.keyOption = .primary)).length ≤ 1

namespace Written

/-- What is written between the parentheses of the CREATE TABLE. -/
def Table.items (t : Table) : List Item := .column t.first :: t.rest

/-- The same statement; what is between the parentheses of a CREATE TABLE may be in another order. -/
inductive SameItems : Sentence → Sentence → Prop
  | table {t u : Table} (name : u.name = t.name) (items : t.items.Perm u.items) (options : u.options = t.options) :
      SameItems (.table t) (.table u)
  | same (s : Sentence) : SameItems s s

end Written
end Sqldef.Spec
