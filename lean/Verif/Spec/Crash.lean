import Verif.Model.SqlAst
import Verif.Model.Render
import Verif.Spec.Schema
/-
What it means that the generator crashes, and which definitions are complete: nothing is missing that the
generator takes for granted.
-/
namespace Sqldef.Spec

/-- The call ended neither with a value nor with an error: the program panicked or exited. -/
def Crashes {α : Type} (r : Except Err α) : Prop := r = .error .panic ∨ r = .error .fatal

/-- An index has at least one column. -/
def HasColumns (i : Index) : Prop := i.columns ≠ []

/-- In MySQL and SQL Server every option of the index has a value (elsewhere the generator does not look at it). -/
def HasOptionValues (mode : Mode) (i : Index) : Prop :=
  mode = .mysql ∨ mode = .mssql → ∀ o ∈ i.options, o.value ≠ none

/-- The DEFAULT clause has a value. In SQL Server a column with a sequence is an identity column, and the start and
the increment of the sequence are known unless the column is a standard `GENERATED ... AS IDENTITY`. -/
structure CompleteColumn (mode : Mode) (c : Column) : Prop where
  default : ∀ d, c.defaultDef = some d → d.value ≠ none
  sequence : mode = .mssql → ∀ s, c.sequence = some s →
    ∃ i, c.identity = some i ∧ (i.behavior ≠ [] ∨ s.startWith ≠ none ∧ s.incrementBy ≠ none)

/-- A table of the desired schema. In Postgres the name carries its schema. -/
structure CompleteTable (mode : Mode) (t : Table) : Prop where
  name : mode = .postgres → '.' ∈ t.name
  columns : ∀ c ∈ t.columns, CompleteColumn mode c
  indexColumns : ∀ i ∈ t.indexes, HasColumns i
  indexOptions : ∀ i ∈ t.indexes, HasOptionValues mode i

/-- A definition of the desired schema. -/
def CompleteDesired (mode : Mode) : DDL → Prop
  | .createTable _ t => CompleteTable mode t
  | .createIndex _ _ i => HasColumns i
  | .addIndex _ _ i => HasColumns i
  | _ => True

/-- A definition of the current schema. -/
def CompleteCurrent : DDL → Prop
  | .createTable _ t => ∀ i ∈ t.indexes, HasColumns i
  | .createIndex _ _ i => HasColumns i
  | .addPrimaryKey _ _ i => HasColumns i
  | _ => True

/-- No table that is to be dropped is created twice by the current schema. -/
def ObsoleteOnce (desired current : List DDL) : Prop :=
  ((createdNames current).filter (· ∉ createdNames desired)).Nodup

instance (desired current : List DDL) : Decidable (ObsoleteOnce desired current) :=
  inferInstanceAs (Decidable (List.Nodup _))

/-! ### The same for syntax trees -/

/-- The syntax tree of a column: in SQL Server, the sequence of an identity column has a start and an increment. -/
def WholeColumn (mode : Mode) (c : SqlColumn) : Prop :=
  mode = .mssql → ∀ i s, c.type.identity = some i → i.sequence = some s →
    i.behavior ≠ [] ∨ s.startWith ≠ none ∧ s.incrementBy ≠ none

/-- Every option of an index has a value. -/
def WholeOptions (mode : Mode) (os : List SqlIndexOption) : Prop :=
  mode = .mysql ∨ mode = .mssql → ∀ o ∈ os, o.value ≠ none

/-- The syntax tree of a statement has the parts that its kind of statement needs, and they are complete. -/
structure WholeStatement (mode : Mode) (a : SqlDDL) : Prop where
  table : a.action = lit "create" → ∃ spec, a.tableSpec = some spec ∧
    (∀ c ∈ spec.columns, WholeColumn mode c ∧ ∀ k, c.type.check = some k → k.whereExpr.panics = false) ∧
    ∀ i ∈ spec.indexes, i.columns ≠ [] ∧ WholeOptions mode i.options
  indexColumns : a.action ∈ [lit "create index", lit "add index", lit "add primary key"] → a.indexCols ≠ []
  condition : a.action ∈ [lit "create index", lit "add index", lit "add primary key"] →
    ∀ s w, a.indexSpec = some s → s.whereClause = some w → w.expr.panics = false
  foreignKey : a.action = lit "add foreign key" → a.foreignKey ≠ none
  policy : a.action = lit "create policy" → ∃ p, a.policy = some p ∧
    (∀ e, p.using_ = some e → e.panics = false) ∧ ∀ e, p.withCheck = some e → e.panics = false
  view : a.action = lit "create view" → ∃ v, a.view = some v ∧ v.panics = false
  trigger : a.action = lit "create trigger" → ∃ t, a.trigger = some t ∧ t.panics = false

end Sqldef.Spec

namespace Sqldef

/-- The parts of the statement that the code computes with a function that can fail did not fail. -/
def Stmt.Written (mode : Mode) : Stmt → Prop
  | .addColumn _ c _ => ∃ u, generateColumnDefinition mode c true = .ok u
  | .changeColumn _ _ c _ => ∃ u, generateColumnDefinition mode c false = .ok u
  | .setDefault _ _ v => ∃ u, generateDefaultDefinition v = .ok u
  | .addDefaultConstraint _ _ _ v => ∃ u, generateDefaultDefinition v = .ok u
  | .addIndex t i => ∃ u, generateAddIndex mode t i = .ok u
  | _ => True

end Sqldef
