import Verif.Proofs.Agrees
import Verif.Props.Columns
/-!
When there is nothing to do: C48.

`Agrees` (Verif/Spec/Agrees.lean) says what it means that the current schema already is what the desired schema asks
for. The theorem says that the generator emits no statement exactly then.
-/
namespace Sqldef
open Spec

variable {mode : Mode} {desired current : List DDL}

/-- **C48.** The command generates no statement exactly if both schemas are well formed and the current schema is what
the desired schema asks for. -/
theorem C48_no_statements_iff (hd : UniqueTables desired) (hc : UniqueTables current) :
    diff mode desired current = .ok [] ↔ WellFormed desired ∧ WellFormedCurrent current ∧ Agrees mode desired current :=
  diff_silent hd hc

/-- **C48.** If the current schema is not what the desired schema asks for, the command generates a statement or reports
an error. -/
theorem C48_difference_is_noticed (hd : UniqueTables desired) (hc : UniqueTables current) (h : ¬ Agrees mode desired current) :
    (∃ s out, diff mode desired current = .ok (s :: out)) ∨ ∃ e, diff mode desired current = .error e := by
  cases hr : diff mode desired current with
  | error e => exact .inr ⟨e, rfl⟩
  | ok l =>
    cases l with
    | nil => exact absurd ((C48_no_statements_iff hd hc).1 hr).2.2 h
    | cons s out => exact .inl ⟨s, out, rfl⟩

/-- A desired schema: aliases of types, keys in a separate definition, a column declared PRIMARY KEY. -/
def exAgreesTo : List DDL :=
  [exCreate {
      name := lit "public.t"
      columns := [{ exInt "id" 0 with typeName := lit "int", keyOption := .primary, notNull := some true },
        { exInt "ok" 1 with typeName := lit "bool" }] },
   .createIndex (lit "CREATE INDEX k ON public.t (ok)") (lit "public.t") (exKeyOn "k" "ok")]

/-- The schema as the server reports it. -/
def exAgreesFrom : List DDL :=
  [exCreate {
      name := lit "public.t"
      columns := [{ exInt "id" 0 with typeName := lit "integer", notNull := some true },
        { exInt "ok" 1 with typeName := lit "boolean" }]
      indexes := [exPkOn "id", exKeyOn "k" "ok"] }]

/-- Two different schemas that agree. -/
example : UniqueTables exAgreesTo ∧ UniqueTables exAgreesFrom ∧ exAgreesTo ≠ exAgreesFrom ∧
    diff .postgres exAgreesTo exAgreesFrom = .ok [] := by decide +kernel

/-- So `Agrees` has instances. -/
example : Agrees .postgres exAgreesTo exAgreesFrom :=
  ((C48_no_statements_iff (by decide) (by decide)).1 (by decide +kernel)).2.2

/-- A column of another type: the schemas do not agree. -/
example : ¬ Agrees .mysql [exCreate { name := lit "t", columns := [{ exInt "a" 0 with typeName := lit "bigint" }] }]
    [exCreate { name := lit "t", columns := [exInt "a" 0] }] := by
  intro h
  obtain ⟨x, hx, ht⟩ := h.tables _ (List.mem_cons_self ..)
  obtain ⟨cur, hcur, hm⟩ := ht.columns _ (List.mem_cons_self ..)
  have hx' : x = { name := lit "t", columns := [exInt "a" 0] } := by
    have : tableIn [exCreate { name := lit "t", columns := [exInt "a" 0] }] (lit "t") =
      some { name := lit "t", columns := [exInt "a" 0] } := by decide
    exact Option.some.inj (hx.symm.trans this)
  subst hx'
  cases hcur
  exact absurd ((same_type_iff .mysql _ _).2 (hm.mysql rfl).definition.type.name) (by decide)

/-! ### Differences that do not count -/

/-- **The code's notion of agreement is not the user's for SQL Server and SQLite**: a primary key that the desired schema
lacks stays, and no statement is generated. -/
theorem C48_undesired_key_is_not_noticed : ∀ mode, mode = .mssql ∨ mode = .sqlite3 → ∃ desired current,
    UniqueTables desired ∧ UniqueTables current ∧ (created desired).map keyColumns = [[]] ∧
    (created current).map keyColumns = [[lit "id"]] ∧ diff mode desired current = .ok [] := by
  rintro mode (rfl | rfl) <;>
  exact ⟨[exCreate { name := lit "t", columns := [{ exInt "id" 0 with notNull := some true }] }],
    [exCreate { name := lit "t", columns := [{ exInt "id" 0 with notNull := some true, keyOption := .primary }] }],
    by decide, by decide, by decide, by decide, by decide +kernel⟩

/-- Neither does any attribute of an existing SQLite column count: only the names of the columns do. -/
theorem C48_sqlite_attributes_do_not_count (hd : UniqueTables desired) (hc : UniqueTables current)
    (h : diff .sqlite3 desired current = .ok []) {t x : Table} (ht : t ∈ created desired) (hx : tableIn current t.name = some x) :
    ∀ n, n ∈ x.columns.map (·.name) ↔ n ∈ t.columns.map (·.name) := by
  obtain ⟨-, -, ha⟩ := (C48_no_statements_iff hd hc).1 h
  obtain ⟨y, hy, hA⟩ := ha.tables t ht
  rw [hx] at hy
  cases hy
  intro n
  constructor
  · intro hn
    obtain ⟨c, hc, rfl⟩ := List.mem_map.1 hn
    exact hA.noOtherColumn c hc
  · intro hn
    obtain ⟨c, hc, rfl⟩ := List.mem_map.1 hn
    obtain ⟨cur, hcur, -⟩ := hA.columns c hc
    exact List.mem_map.2 ⟨cur, List.mem_of_find?_eq_some hcur, by simpa using List.find?_some hcur⟩

end Sqldef
