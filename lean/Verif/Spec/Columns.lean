import Verif.Spec.Catalog
import Verif.Spec.Same
/-!
Specification vocabulary: a column of the database has the attributes of the desired column.
-/
namespace Sqldef.Spec

/-- The names of the columns of the primary key. -/
def keyColumns (t : Table) : List Str :=
  match t.primaryKey with
  | none => []
  | some pk => pk.columns.map (·.column)

/-- What servers report: the columns of the primary key are NOT NULL, and so are, for Postgres, those with a type that
implies it. -/
structure Reported (mode : Mode) (t : Table) : Prop where
  key : ∀ c ∈ t.columns, inPrimaryKey t c = true → c.notNull = some true
  serial : mode = .postgres → ∀ c ∈ t.columns, c.typeName = lit "serial" ∨ c.typeName = lit "bigserial" → c.notNull ≠ none

instance (mode : Mode) (t : Table) : Decidable (Reported mode t) :=
  decidable_of_iff ((∀ c ∈ t.columns, inPrimaryKey t c = true → c.notNull = some true) ∧
    (mode = .postgres → ∀ c ∈ t.columns, c.typeName = lit "serial" ∨ c.typeName = lit "bigserial" → c.notNull ≠ none))
    ⟨fun ⟨a, b⟩ => ⟨a, b⟩, fun h => ⟨h.1, h.2⟩⟩

/-- The table, if it existed, had a column of that name in its primary key. -/
def WasKey (x : Option Table) (n : Str) : Prop := ∃ y, x = some y ∧ ∃ cur ∈ y.columns, cur.name = n ∧ inPrimaryKey y cur = true

/-- The table did not have a column of that name. -/
def IsNew (x : Option Table) (n : Str) : Prop := ∀ y, x = some y → n ∉ y.columns.map (·.name)

/-- NOT NULL, declared or, for Postgres, implied by the type. -/
def Required (mode : Mode) (c : Column) : Prop :=
  c.notNull = some true ∨ (mode = .postgres ∧ c.notNull = none ∧ (c.typeName = lit "serial" ∨ c.typeName = lit "bigserial"))

/-- The column `e` has everything that the definition `c` says, except for keys, NOT NULL and AUTO_INCREMENT. -/
def Verbatim (c e : Column) : Prop :=
  { e with keyOption := c.keyOption, notNull := c.notNull, autoIncrement := c.autoIncrement } = c

/-- MySQL: the column `e` has the attributes of the desired column `c`. -/
structure MysqlReached (c e : Column) : Prop where
  type : SameDataType .mysql e c
  unsigned : e.unsigned = c.unsigned
  timezone : e.timezone = c.timezone
  check : e.check = c.check
  charset : c.charset = [] ∨ e.charset = c.charset
  collate : c.collate = [] ∨ e.collate = c.collate
  onUpdate : e.onUpdate = c.onUpdate
  default : SameDefault e.defaultDef c.defaultDef
  autoIncrement : e.autoIncrement = c.autoIncrement

/-- Postgres: the column `e` has the attributes of the desired column `c`. -/
structure PostgresReached (c e : Column) : Prop where
  type : SameDataType .postgres e c
  identity : e.identity.map (·.behavior) = c.identity.map (·.behavior)
  default : SameDefault e.defaultDef c.defaultDef
  check : SameCheck e.check c.check
  noInherit : c.check ≠ none → e.checkNoInherit = c.checkNoInherit

/-- SQL Server: the column `e` has the attributes of the desired column `c` that the command can change. -/
structure MssqlReached (c e : Column) : Prop where
  identity : e.identity = c.identity
  default : SameDefault e.defaultDef c.defaultDef
  check : SameCheck e.check c.check

/-- MySQL: the column loses AUTO_INCREMENT, and that is not its only change. -/
def LosesAndChanges (mode : Mode) (x : Option Table) (c : Column) : Prop :=
  mode = .mysql ∧ ∃ y, x = some y ∧ ∃ cur ∈ y.columns, cur.name = c.name ∧ cur.autoIncrement = true ∧ c.autoIncrement = false ∧
    ¬ (SameDefinition .mysql cur c ∧ SameDefault cur.defaultDef c.defaultDef)

/-- The column `e` of the database has the attributes of the desired column `c` of the table `d`, as far as the command
changes them. `x` is the table before the change, if it existed. -/
structure ColumnReached (mode : Mode) (x : Option Table) (d : Table) (c e : Column) : Prop where
  /-- A new column is as it was defined. -/
  new : IsNew x c.name → Verbatim c e ∧ (c.keyOption.isUnique = true → e.keyOption = c.keyOption)
  /-- The columns of the primary key are NOT NULL. -/
  key : c.name ∈ keyColumns d → e.notNull = some true
  /-- A new column, and every column for MySQL and Postgres, is NOT NULL if that was asked for. -/
  required : (mode = .mysql ∨ mode = .postgres ∨ IsNew x c.name) → ¬ LosesAndChanges mode x c → Required mode c → Required mode e
  /-- It is NULL otherwise, except that columns that were in the primary key may stay NOT NULL. -/
  nullable : (mode = .mysql ∨ mode = .postgres ∨ IsNew x c.name) → ¬ LosesAndChanges mode x c → e.notNull = some true →
    Required mode c ∨ inPrimaryKey d c = true ∨ WasKey x c.name
  mysql : mode = .mysql → ¬ LosesAndChanges mode x c → MysqlReached c e
  postgres : mode = .postgres → PostgresReached c e
  mssql : mode = .mssql → MssqlReached c e

end Sqldef.Spec
