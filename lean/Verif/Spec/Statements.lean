import Verif.Model.Render
/-!
Specification vocabulary: what a generated statement is about.
-/
namespace Sqldef.Spec

/-- The table that a definition is about; `none` for views and triggers. -/
def DDL.table : DDL → Option Str
  | .createTable _ t => some t.name
  | .createIndex _ n _ => some n
  | .addIndex _ n _ => some n
  | .addPrimaryKey _ n _ => some n
  | .addForeignKey _ n _ => some n
  | .addPolicy _ n _ => some n
  | .view _ => none
  | .trigger _ => none

/-- The table that a generated statement is about; `none` for views and triggers. -/
def Stmt.table : Stmt → Option Str
  | .user d => DDL.table d
  | .dropTable t => some t
  | .dropPolicy t _ => some t
  | .dropView _ => none
  | .createView _ _ => none
  | .replaceView _ _ => none
  | .dropTrigger _ => none
  | .createTrigger _ _ => none
  | .addColumn t _ _ => some t
  | .changeColumn t _ _ _ => some t
  | .addUniqueKey t _ => some t
  | .dropColumn t _ => some t
  | .alterType t _ _ => some t
  | .dropNotNull t _ => some t
  | .setNotNull t _ => some t
  | .addIdentity t _ _ _ => some t
  | .dropIdentity t _ => some t
  | .setGenerated t _ _ => some t
  | .dropDefault t _ => some t
  | .setDefault t _ _ => some t
  | .dropCheck t _ _ => some t
  | .addCheck t _ _ _ _ => some t
  | .dropDefaultConstraint t _ _ => some t
  | .addDefaultConstraint t _ _ _ => some t
  | .dropPrimaryKey t _ => some t
  | .addIndex t _ => some t
  | .dropIndex t _ => some t
  | .dropForeignKey t _ => some t
  | .addForeignKey t _ => some t

/-- The statement adds column `c` to table `t`. -/
def addsColumn (t c : Str) : Stmt → Bool
  | .addColumn t' col _ => t' = t && col.name = c
  | _ => false

/-- Every element of the list satisfying `P` is immediately followed by one that `Q` relates to it. -/
def FollowedBy {α : Type} (P : α → Prop) (Q : α → α → Prop) (l : List α) : Prop :=
  ∀ before a after, l = before ++ a :: after → P a → ∃ b rest, after = b :: rest ∧ Q a b

/-- The definition is a separate statement that defines index `i` on table `n`. -/
def DefinesIndex (n : Str) (i : Index) (d : DDL) : Prop :=
  ∃ s, d = .createIndex s n i ∨ d = .addIndex s n i

/-- The statement creates index `i` on table `n`. -/
def CreatesIndex (n : Str) (i : Index) : Stmt → Prop
  | .addIndex t j => t = n ∧ j = i
  | .user d => DefinesIndex n i d
  | _ => False

/-- A foreign key of the table brings an index of this name along: the one named in the foreign key, or
else one named like the constraint. -/
def ImpliedByForeignKey (d : Table) (i : Str) : Prop :=
  i ≠ [] ∧ ∃ f ∈ d.foreignKeys, f.indexName = i ∨ (f.indexName = [] ∧ f.constraintName = i)

/-- A unique index is implied by a column of the table that is declared unique: its first column. -/
def ImpliedByUniqueColumn (d : Table) (i : Index) : Prop :=
  i.unique = true ∧ ∃ k, i.columns.head? = some k ∧
    ∃ c ∈ d.columns, c.name = k.column ∧ (c.keyOption = .unique ∨ c.keyOption = .uniqueKey)

/-- The view that a generated statement is about. -/
def Stmt.view : Stmt → Option Str
  | .user (.view v) => some v.name
  | .dropView v => some v
  | .createView v _ => some v
  | .replaceView v _ => some v
  | _ => none

/-- The trigger that a generated statement is about. -/
def Stmt.trigger : Stmt → Option Str
  | .user (.trigger t) => some t.name
  | .dropTrigger t => some t
  | .createTrigger _ t => some t.name
  | _ => none

/-- The action of a foreign key: for Postgres and SQL Server no action means `NO ACTION`. -/
def action (mode : Mode) (a : Str) : Str :=
  match mode with
  | .postgres | .mssql => if a = [] then lit "NO ACTION" else a
  | _ => a

/-- Two foreign keys have the same actions. -/
def SameActions (mode : Mode) (a b : ForeignKey) : Prop :=
  action mode a.onUpdate = action mode b.onUpdate ∧ action mode a.onDelete = action mode b.onDelete ∧
  a.notForReplication = b.notForReplication

/-- The stage of a statement about a table that stays, for the desired definition `d` of the table: additions
of columns, the primary key, indexes and foreign keys of the CREATE TABLE, the user's separate
definitions, removals of obsolete foreign keys, indexes, columns and policies. Other statements (changes of
columns, and the first half of a replacement) have no stage. -/
def stage (mode : Mode) (d : Table) : Stmt → Option Nat
  | .addColumn _ _ _ => some 1
  | .addIndex _ i => if i.primary then some 2 else some 3
  | .addForeignKey _ _ => some 4
  | .user _ => some 5
  | .dropForeignKey _ k => if k ∈ d.foreignKeys.map (·.constraintName) then none else some 6
  | .dropIndex _ i => if i ∈ d.indexes.map (·.name) then none else some 7
  | .dropPrimaryKey _ _ => if mode = .mssql then some 7 else some 2
  | .dropColumn _ c => if c ∈ d.columns.map (·.name) then none else some 8
  | .dropPolicy _ p => if p ∈ d.policies.map (·.name) then none else some 9
  | _ => none

/-- The statement takes AUTO_INCREMENT from a column of table `x` that has it. -/
def ClearsAutoIncrement (x : Table) (s : Stmt) : Prop :=
  ∃ old c p, s = .changeColumn x.name old c p ∧ c.autoIncrement = false ∧
    ∃ cur ∈ x.columns, cur.name = old ∧ cur.autoIncrement = true

/-- The statement gives AUTO_INCREMENT to a column of table `x` that has not got it, or is not in `x`. -/
def SetsAutoIncrement (x : Table) (s : Stmt) : Prop :=
  ∃ old c p, s = .changeColumn x.name old c p ∧ c.autoIncrement = true ∧
    ∀ cur ∈ x.columns, cur.name = old → cur.autoIncrement = false

/-- The definitions that are about table `n`, in their order. -/
def about (n : Str) (ds : List DDL) : List DDL := ds.filter fun d => decide (DDL.table d = some n)

/-- `ds'` lists the definitions of `ds` in another order, in which the definitions about the same table, and
the definitions about no table (views and triggers), keep their order. -/
def Rearranged (ds ds' : List DDL) : Prop :=
  ∀ k : Option Str, (ds.filter fun d => decide (DDL.table d = k)) = ds'.filter fun d => decide (DDL.table d = k)

end Sqldef.Spec
