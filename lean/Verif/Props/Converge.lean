import Verif.Proofs.Assemble
import Verif.Props.Tables
/-!
Executing the script: C20.

`execAll mode out c` executes the statements `out` in turn on a database with the contents `c`; it is `none`
if a statement fails. `catalogOf current` is a database with the schema `current`.
-/
namespace Sqldef
open Spec

variable {mode : Mode} {desired current : List DDL} {out : List Stmt}

/-- **C20 (partial: for the changes described by `Supported`).** The script for a supported change runs without
failure, and afterwards the database has reached the desired schema: it has exactly the desired tables and
views, and every table has the desired columns, primary key, indexes, foreign keys and policies.

What is missing are the changes that are not `Supported`; the theorems below show that the claim is false for
them. -/
theorem C20_script_runs_and_reaches_partial (hd : UniqueTables desired) (hc : UniqueTables current)
    (hs : Supported mode desired current) (h : diff mode desired current = .ok out) :
    ∃ c, execAll mode out (catalogOf current) = some c ∧ Reached mode desired c := by
  obtain ⟨_, _, sc⟩ := script hd hc h
  exact script_reaches sc hs

/-! ### A supported change -/

def exPkOn (n : String) : Index := { name := lit "PRIMARY", columns := [{ column := lit n }], primary := true, unique := true }
def exKeyOn (n c : String) : Index := { name := lit n, columns := [{ column := lit c }] }
def exFkOn (n c r : String) : ForeignKey :=
  { constraintName := lit n, indexColumns := [lit c], referenceName := lit r, referenceColumns := [lit "id"] }

/-- current: `users(id, age, old)` with primary key `id` and key `k_age`, and `logs` -/
def exFrom : List DDL :=
  [exCreate { name := lit "public.users",
              columns := [{ exInt "id" 0 with notNull := some true }, exInt "age" 1, exInt "old" 2],
              indexes := [exPkOn "id", exKeyOn "k_age" "age"] },
   exCreate { name := lit "public.logs", columns := [exInt "id" 0] }]
/-- desired: `users(id, name, age)` with primary key `name`, key `k_name`, a foreign key and a view, and the new
table `books` with an index. -/
def exTo : List DDL :=
  [exCreate { name := lit "public.books", columns := [exInt "id" 0], indexes := [exPkOn "id"] },
   .createIndex (lit "CREATE INDEX i ON books (id)") (lit "public.books") (exKeyOn "i" "id"),
   exCreate { name := lit "public.users",
              columns := [{ exInt "id" 0 with notNull := some true }, { exInt "name" 1 with notNull := some true },
                { exInt "age" 2 with typeName := lit "bigint", notNull := some true }],
              indexes := [exPkOn "name", exKeyOn "k_name" "name"],
              foreignKeys := [exFkOn "f" "age" "books"] },
   .view { statement := lit "CREATE VIEW v AS select 1", name := lit "v", definition := lit "select 1" }]

example : UniqueTables exTo ∧ UniqueTables exFrom ∧ Supported .mysql exTo exFrom ∧ Supported .postgres exTo exFrom := by
  decide +kernel

example : diff .postgres exTo exFrom = .ok
    [.user exTo[0], .user exTo[1],
     .addColumn (lit "public.users") { exInt "name" 1 with notNull := some true } .none,
     .alterType (lit "public.users") (lit "age") { exInt "age" 2 with typeName := lit "bigint", notNull := some true },
     .setNotNull (lit "public.users") (lit "age"),
     .dropPrimaryKey (lit "public.users") (lit "users_pkey"),
     .addIndex (lit "public.users") (exPkOn "name"),
     .addIndex (lit "public.users") (exKeyOn "k_name" "name"),
     .addForeignKey (lit "public.users") (exFkOn "f" "age" "books"),
     .user exTo[3],
     .dropIndex (lit "public.users") (lit "k_age"),
     .dropColumn (lit "public.users") (lit "old"),
     .dropTable (lit "public.logs")] := by decide +kernel

example : ∃ out, diff .mysql exTo exFrom = .ok out ∧ ∃ c, execAll .mysql out (catalogOf exFrom) = some c ∧ Reached .mysql exTo c := by
  have h : ∃ out, diff .mysql exTo exFrom = .ok out := by
    have : (diff .mysql exTo exFrom).isOk = true := by decide +kernel
    cases h : diff .mysql exTo exFrom with
    | ok out => exact ⟨out, rfl⟩
    | error e => rw [h] at this; cases this
  obtain ⟨out, h⟩ := h
  exact ⟨out, h, C20_script_runs_and_reaches_partial (by decide) (by decide) (by decide +kernel) h⟩

/-- A supported change for SQL Server and for SQLite. -/
example :
    let before := [exCreate { name := lit "dbo.users", columns := [exInt "id" 0, exInt "old" 1] }]
    let after := [exCreate { name := lit "dbo.users", columns := [exInt "id" 0, exInt "name" 1] },
      .createIndex (lit "CREATE INDEX i ON users (id)") (lit "dbo.users") (exKeyOn "i" "id")]
    Supported .mssql after before ∧ Supported .sqlite3 after before ∧
    (∃ out, diff .sqlite3 after before = .ok out ∧ out.length = 3) := by
  refine ⟨by decide +kernel, by decide +kernel,
    [.addColumn (lit "dbo.users") (exInt "name" 1) .none,
     .user (.createIndex (lit "CREATE INDEX i ON users (id)") (lit "dbo.users") (exKeyOn "i" "id")),
     .dropColumn (lit "dbo.users") (lit "old")], by decide +kernel, rfl⟩

/-! ### Where the claim is false -/

/-- The script fails when it is executed. -/
def ScriptFails (mode : Mode) (desired current : List DDL) : Prop :=
  ∃ out, diff mode desired current = .ok out ∧ execAll mode out (catalogOf current) = none

/-- The script can be executed but does not reach the desired schema. -/
def ScriptMisses (mode : Mode) (desired current : List DDL) : Prop :=
  ∃ out c, diff mode desired current = .ok out ∧ execAll mode out (catalogOf current) = some c ∧ ¬ Reached mode desired c

/-- Decides `ScriptFails`. -/
def scriptFails (mode : Mode) (desired current : List DDL) : Bool :=
  match diff mode desired current with
  | .ok out => (execAll mode out (catalogOf current)).isNone
  | .error _ => false

theorem scriptFails_of {mode : Mode} {desired current : List DDL} (h : scriptFails mode desired current = true) :
    ScriptFails mode desired current := by
  unfold scriptFails at h
  split at h
  · next out ho => exact ⟨out, ho, by simpa using h⟩
  · cases h

/-- **C20 is violated for SQL Server when a column becomes IDENTITY**: the script adds a column that exists. -/
theorem C20_mssql_identity_fails : ∃ desired current, UniqueTables desired ∧ UniqueTables current ∧ ScriptFails .mssql desired current :=
  ⟨[exCreate { name := lit "dbo.t", columns := [{ exInt "id" 0 with identity := some ⟨lit "ALWAYS", false⟩ }] }],
   [exCreate { name := lit "dbo.t", columns := [exInt "id" 0] }], by decide, by decide, scriptFails_of (by decide +kernel)⟩

/-- **C20 is violated for SQL Server when the primary key changes**: the script adds a primary key while the old
one exists. -/
theorem C20_mssql_primary_key_fails : ∃ desired current, UniqueTables desired ∧ UniqueTables current ∧ ScriptFails .mssql desired current :=
  ⟨[exCreate { name := lit "dbo.t", columns := [exInt "id" 0, exInt "a" 1], indexes := [exPkOn "a"] }],
   [exCreate { name := lit "dbo.t", columns := [exInt "id" 0, exInt "a" 1], indexes := [exPkOn "id"] }],
   by decide, by decide, scriptFails_of (by decide +kernel)⟩

/-- **C20 is violated for SQLite when CREATE TABLE gains a primary key, an index or a foreign key**: SQLite does
not know ALTER TABLE ... ADD CONSTRAINT. -/
theorem C20_sqlite_alter_table_fails :
    (∃ desired current, UniqueTables desired ∧ UniqueTables current ∧ ScriptFails .sqlite3 desired current ∧
      desired.length = 1 ∧ (tablesOf desired).all (fun t => t.foreignKeys ≠ []) = true) ∧
    (∃ desired current, UniqueTables desired ∧ UniqueTables current ∧ ScriptFails .sqlite3 desired current ∧
      (tablesOf desired).all (fun t => t.foreignKeys = []) = true) :=
  ⟨⟨[exCreate { name := lit "t", columns := [exInt "id" 0], foreignKeys := [exFkOn "f" "id" "u"] }],
    [exCreate { name := lit "t", columns := [exInt "id" 0] }], by decide, by decide, scriptFails_of (by decide +kernel), rfl, by decide⟩,
   ⟨[exCreate { name := lit "t", columns := [exInt "id" 0], indexes := [exPkOn "id"] }],
    [exCreate { name := lit "t", columns := [exInt "id" 0] }], by decide, by decide, scriptFails_of (by decide +kernel), by decide⟩⟩

/-- **C20 is violated for MySQL when a column becomes UNIQUE and a new index has the name of the column**: both
statements add a key of that name. -/
theorem C20_mysql_unique_column_fails : ∃ desired current, UniqueTables desired ∧ UniqueTables current ∧ ScriptFails .mysql desired current :=
  ⟨[exCreate { name := lit "t", columns := [{ exInt "a" 0 with keyOption := .unique }, exInt "b" 1], indexes := [exKeyOn "a" "b"] }],
   [exCreate { name := lit "t", columns := [exInt "a" 0, exInt "b" 1] }], by decide, by decide, scriptFails_of (by decide +kernel)⟩

/-- What a table looks like after the script. -/
def tableAfter (mode : Mode) (desired current : List DDL) (n : Str) : Option (Option Table) :=
  match diff mode desired current with
  | .ok out => (execAll mode out (catalogOf current)).map fun c => c.table n
  | .error _ => none

theorem scriptMisses_of {n : Str} {T : Table} (hT : tableAfter mode desired current n = some (some T))
    (h : ∀ c : Catalog, c.table n = some T → ¬ Reached mode desired c) : ScriptMisses mode desired current := by
  unfold tableAfter at hT
  split at hT
  · next out ho =>
    cases he : execAll mode out (catalogOf current) with
    | none => rw [he] at hT; cases hT
    | some c =>
      rw [he] at hT
      simp only [Option.map_some, Option.some.injEq] at hT
      exact ⟨out, c, ho, he, h c hT⟩
  · cases hT

theorem not_reached {n : Str} {T t : Table} (ht : t ∈ created desired) (hn : t.name = n)
    (h : ¬ ReachedTable mode t (complete desired t) T) : ∀ c : Catalog, c.table n = some T → ¬ Reached mode desired c := by
  intro c hc hr
  obtain ⟨T', hT', hrt⟩ := hr.table t ht
  rw [hn, hc] at hT'
  cases hT'
  exact h hrt

/-- **C20 is violated for SQL Server when a column loses IDENTITY**: the column is dropped and not added again. -/
theorem C20_mssql_identity_column_lost : ∃ desired current, UniqueTables desired ∧ UniqueTables current ∧
    ScriptMisses .mssql desired current := by
  refine ⟨[exCreate { name := lit "dbo.t", columns := [exInt "id" 0, exInt "a" 1] }],
    [exCreate { name := lit "dbo.t", columns := [{ exInt "id" 0 with identity := some ⟨lit "ALWAYS", false⟩ }, exInt "a" 1] }],
    by decide, by decide, scriptMisses_of (n := lit "dbo.t") (T := { name := lit "dbo.t", columns := [exInt "a" 1] })
      (by decide +kernel) (not_reached (t := { name := lit "dbo.t", columns := [exInt "id" 0, exInt "a" 1] }) (by simp [created, exCreate]) rfl ?_)⟩
  intro h
  exact absurd h.columns.length_eq (by decide)

/-- **C20 is violated for SQLite when an index is obsolete**: it stays, because the statement that should drop it is
empty. -/
theorem C20_sqlite_index_stays : ∃ desired current, UniqueTables desired ∧ UniqueTables current ∧
    ScriptMisses .sqlite3 desired current := by
  refine ⟨[exCreate { name := lit "t", columns := [exInt "id" 0] }],
    [exCreate { name := lit "t", columns := [exInt "id" 0] }, .createIndex [] (lit "t") (exKeyOn "i" "id")],
    by decide, by decide, scriptMisses_of (n := lit "t") (T := { name := lit "t", columns := [exInt "id" 0], indexes := [exKeyOn "i" "id"] })
      (by decide +kernel) (not_reached (t := { name := lit "t", columns := [exInt "id" 0] }) (by simp [created, exCreate]) rfl ?_)⟩
  intro h
  rcases h.noOtherIndex (exKeyOn "i" "id") (by simp) rfl with h | ⟨f, hf, -⟩ | ⟨h, -⟩
  · exact absurd h (by decide)
  · cases hf
  · cases h

/-- **C20 is violated for SQL Server when the primary key gets another name** and no column is declared PRIMARY KEY:
the comparison ignores the names, and the clean-up drops the old key. -/
theorem C20_mssql_primary_key_lost : ∃ desired current, UniqueTables desired ∧ UniqueTables current ∧
    ScriptMisses .mssql desired current := by
  refine ⟨[exCreate { name := lit "dbo.t", columns := [exInt "id" 0], indexes := [{ exPkOn "id" with name := lit "PK_new" }] }],
    [exCreate { name := lit "dbo.t", columns := [exInt "id" 0], indexes := [{ exPkOn "id" with name := lit "PK_old" }] }],
    by decide, by decide, scriptMisses_of (n := lit "dbo.t") (T := { name := lit "dbo.t", columns := [exInt "id" 0] })
      (by decide +kernel) (not_reached (t := { name := lit "dbo.t", columns := [exInt "id" 0], indexes := [{ exPkOn "id" with name := lit "PK_new" }] })
        (by simp [created, exCreate]) rfl ?_)⟩
  intro h
  exact absurd h.key (by decide)

theorem noFk {x y : List Stmt} (sc : Script mode desired current out x y) {n : Str} {f : ForeignKey}
    (hf : ∀ t ∈ created desired, f ∉ t.foreignKeys) : .addForeignKey n f ∉ out := by
  intro hm
  cases sc.origin hm with
  | definition d s hdd hs =>
    cases hs with
    | table s t x st hx ht =>
      cases ht with
      | column prev c st hm hc =>
        cases hc with
        | alter cur s h1 h2 h3 => rcases h3 with h3 | h3 | h3 | ⟨_, _, h3⟩ | h3 | ⟨_, _, h3⟩ | h3 | ⟨_, h3⟩ <;> cases h3
      | addFk f hf' _ => exact hf t (mem_created.2 ⟨s, hdd⟩) hf'
  | clean x d s h1 h2 h3 => cases h3

/-- **C20 is violated for foreign keys defined by ALTER TABLE**: whatever the schemas and the dialect, no statement
is generated for a foreign key that is not written in a CREATE TABLE. -/
theorem C20_separate_foreign_key_ignored (hd : UniqueTables desired) (hc : UniqueTables current)
    (h : diff mode desired current = .ok out) {n : Str} {f : ForeignKey}
    (hf : ∀ t ∈ created desired, f ∉ t.foreignKeys) :
    .addForeignKey n f ∉ out ∧ ∀ s, .user (.addForeignKey s n f) ∉ out := by
  obtain ⟨_, _, sc⟩ := script hd hc h
  constructor
  · exact noFk sc hf
  · intro s hm
    cases sc.origin hm with
    | definition d s hdd hs =>
      cases hs with
      | table s t x st hx ht =>
        cases ht with
        | column prev c st hm hc =>
          cases hc with
          | alter cur s h1 h2 h3 => rcases h3 with h3 | h3 | h3 | ⟨_, _, h3⟩ | h3 | ⟨_, _, h3⟩ | h3 | ⟨_, h3⟩ <;> cases h3
      | newIndex d n i hi _ => obtain ⟨_, hi | hi⟩ := hi <;> cases hi
      | recreateIndex d n i c hi _ _ => obtain ⟨_, hi | hi⟩ := hi <;> cases hi
    | clean x d s h1 h2 h3 => cases h3

/-- A foreign key that is ignored. -/
example : diff .mysql [exCreate exBooks, .addForeignKey (lit "ALTER TABLE books ADD FOREIGN KEY ...") (lit "books") (exFkOn "f" "id" "users")]
    [exCreate exBooks] = .ok [] := by decide +kernel

end Sqldef
