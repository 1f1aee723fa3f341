import Verif.Proofs.Settles
/-!
A second run has nothing to do: C19.

`RunOnce mode desired current current'` (Verif/Spec/Runs.lean): the statements generated for `desired` and `current` are
executed, and `current'` is read from the database afterwards. `Settles` (Verif/Spec/Settles.lean) lists what is needed
for one run to be enough; the theorems at the end show that it is needed.
-/
namespace Sqldef
open Spec

variable {mode : Mode} {desired current current' : List DDL}

/-- **C19 (partial: for the changes described by `Supported` and `Settles`).** After one run, generating again with the
same desired schema yields nothing. -/
theorem C19_second_run_is_empty_partial (hd : UniqueTables desired) (hc : UniqueTables current)
    (hs : Supported mode desired current) (hr : ∀ x ∈ tablesOf current, Reported mode x) (hst : Settles mode desired current)
    (h : RunOnce mode desired current current') : diff mode desired current' = .ok [] := by
  obtain ⟨out, c, h1, h2, h3⟩ := h
  obtain ⟨hw, ha⟩ := agrees_after hd hc hs hr hst h1 h2 h3
  exact (diff_silent hd h3.unique).2 ⟨hw, h3.wellFormed, ha⟩

/-- **C19.** Once nothing is generated the database is not changed any more: after any further number of runs it has the same
tables, views and triggers. -/
theorem C19_stays_empty (h : diff mode desired current' = .ok []) {current'' : List DDL} (hr : RunOnce mode desired current' current'') :
    (∀ n, tableIn current'' n = (tableIn current' n).map fun t => { t with columns := renumber 0 t.columns }) ∧
    ∀ n, (viewsOf current'').find? (·.name = n) = (viewsOf current').find? (·.name = n) := by
  obtain ⟨out, c, h1, h2, h3⟩ := hr
  rw [h] at h1
  cases h1
  cases h2
  exact ⟨h3.tables, h3.views⟩

/-! ### Non-vacuity -/

instance (cs : List Column) : Decidable (Numbered cs) :=
  decidable_of_iff (∀ p ∈ cs.zipIdx, p.1.position = p.2)
    ⟨fun h i c hc => h (c, i) (List.mem_zipIdx_iff_getElem?.2 hc), fun h p hp => h p.2 p.1 (List.mem_zipIdx_iff_getElem?.1 hp)⟩

instance (mode : Mode) (c : Column) : Decidable (Required mode c) := inferInstanceAs (Decidable (_ ∨ _))
instance (a b : Column) : Decidable (SameDefinition .mysql a b) := decidable_of_iff _ (same_definition_iff .mysql a b)
instance (a b : Option DefaultDefinition) : Decidable (SameDefault a b) := decidable_of_iff _ (same_default_iff a b)

set_option synthInstance.maxSize 1024 in
instance (mode : Mode) (desired : List DDL) (t : Table) : Decidable (SettledTable mode desired t) :=
  decidable_of_iff
    ((∀ c ∈ t.columns, inPrimaryKey t c = true → c.name ∈ keyColumns t) ∧
      (∀ i ∈ (complete desired t).indexes ++ t.primaryKey.toList, (i.options.map (·.optionName)).Nodup) ∧
      (∀ i ∈ (complete desired t).indexes, ∀ j ∈ t.indexes ++ t.primaryKey.toList, i.primary = false → j.primary = true → i.name ≠ j.name) ∧
      (∀ f ∈ t.foreignKeys, f.constraintName ≠ []) ∧ (mode = .mysql → Numbered t.columns) ∧
      (mode = .mysql → ∀ c ∈ t.columns, c.name ∈ keyColumns t → c.notNull = some true ∨ c.keyOption = .primary) ∧
      (mode = .mysql → ∀ c ∈ t.columns, c.check = none) ∧
      (mode = .postgres → ∀ c ∈ t.columns, c.typeName = lit "serial" ∨ c.typeName = lit "bigserial" → c.notNull ≠ some false) ∧
      (mode = .postgres → ∀ c ∈ t.columns, c.identity.map (·.notForReplication) ≠ some true) ∧
      (mode = .mssql → ∀ c ∈ t.columns, c.checkNoInherit = false))
    ⟨fun ⟨a, b, c, d, e, f, g, h, i, j⟩ => ⟨a, b, c, d, e, f, g, h, i, j⟩,
     fun h => ⟨h.1, h.2, h.3, h.4, h.5, h.6, h.7, h.8, h.9, h.10⟩⟩

set_option synthInstance.maxSize 1024 in
instance (mode : Mode) (x t : Table) : Decidable (SettledChange mode x t) :=
  decidable_of_iff
    ((mode = .mysql ∨ mode = .postgres → ∀ cur ∈ x.columns, inPrimaryKey x cur = true → ∀ c ∈ t.columns,
        c.name = cur.name → Required mode c ∨ c.name ∈ keyColumns t) ∧
      (mode = .mysql →
        (x.columns.map (·.name)).filter (· ∈ t.columns.map (·.name)) = (t.columns.map (·.name)).filter (· ∈ x.columns.map (·.name))) ∧
      (mode = .mysql → ∀ cur ∈ x.columns, cur.autoIncrement = true → ∀ c ∈ t.columns, cur.name = c.name →
        c.autoIncrement = false → SameDefinition .mysql cur c ∧ SameDefault cur.defaultDef c.defaultDef) ∧
      (mode = .mysql → ∀ c ∈ t.columns, c.keyOption.isUnique = true → ∀ i ∈ x.indexes, i.name = c.name →
        i.unique = true ∧ i.primary = false ∧ i.columns.head?.map (·.column) = some c.name) ∧
      (mode = .postgres → ∀ c ∈ x.columns, c.identity.map (·.notForReplication) ≠ some true) ∧
      (mode = .mssql → ∀ c ∈ x.columns, c.checkNoInherit = false))
    ⟨fun ⟨a, b, c, d, e, f⟩ => ⟨a, b, c, d, e, f⟩, fun h => ⟨h.1, h.2, h.3, h.4, h.5, h.6⟩⟩

instance (mode : Mode) (desired current : List DDL) : Decidable (Settles mode desired current) :=
  decidable_of_iff
    ((∀ t ∈ created desired, SettledTable mode desired t) ∧
      ∀ t ∈ created desired, ∀ x ∈ tablesOf current, x.name = t.name → SettledChange mode x t)
    ⟨fun ⟨a, b⟩ => ⟨a, b⟩, fun h => ⟨h.1, h.2⟩⟩

/-- The example of C20 meets the hypotheses for Postgres. -/
example : Settles .postgres exTo exFrom := by decide +kernel

/-- A table as it is and as it should be: a column is dropped, one added, one changed; AUTO_INCREMENT, a UNIQUE column,
indexes and the primary key change, too. -/
def exOld : Table :=
  { name := lit "t"
    columns := [{ exInt "id" 0 with notNull := some true, autoIncrement := true }, exInt "old" 1, exInt "a" 2, exInt "u" 3]
    indexes := [exPkOn "id", exKeyOn "k" "a"] }
def exNew : Table :=
  { name := lit "t"
    columns := [{ exInt "id" 0 with notNull := some true }, { exInt "a" 1 with typeName := lit "bigint", notNull := some true },
      { exInt "u" 2 with keyOption := .unique }, exInt "new" 3]
    indexes := [exPkOn "a", exKeyOn "j" "new"] }
/-- The table after the run. -/
def exRead : Table :=
  { name := lit "t"
    columns := [{ exInt "id" 0 with notNull := some true }, { exInt "a" 1 with typeName := lit "bigint", notNull := some true },
      exInt "u" 2, exInt "new" 3]
    indexes := [uniqueIndex (lit "u"), exPkOn "a", exKeyOn "j" "new"] }

/-- It meets the hypotheses, and the run is not empty. -/
example : UniqueTables [exCreate exNew] ∧ UniqueTables [exCreate exOld] ∧ Supported .mysql [exCreate exNew] [exCreate exOld] ∧
    (∀ x ∈ tablesOf [exCreate exOld], Reported .mysql x) ∧ Settles .mysql [exCreate exNew] [exCreate exOld] ∧
    diff .mysql [exCreate exNew] [exCreate exOld] ≠ .ok [] ∧ exRead ≠ exNew := by decide +kernel

example : RunOnce .mysql [exCreate exNew] [exCreate exOld] [exCreate exRead] :=
  runOnce_one (x := exOld) (T := exRead) (by decide +kernel) (by decide) (by decide +kernel)

/-! ### What is not settled by one run -/

/-- Schemas for which the first run succeeds and the second one is not empty. -/
def NeedsAnotherRun (mode : Mode) (desired current : List DDL) : Prop :=
  UniqueTables desired ∧ UniqueTables current ∧ Supported mode desired current ∧ (∀ x ∈ tablesOf current, Reported mode x) ∧
  ∃ current', RunOnce mode desired current current' ∧ diff mode desired current' ≠ .ok []

/-- **C19 is violated for a column that leaves the primary key**: only the second run makes it nullable. -/
theorem C19_former_key_column : ∀ mode, mode = .mysql ∨ mode = .postgres → ∃ desired current, NeedsAnotherRun mode desired current := by
  rintro mode (rfl | rfl) <;>
  exact ⟨[exCreate { name := lit "public.t", columns := [exInt "id" 0] }],
    [exCreate { name := lit "public.t", columns := [{ exInt "id" 0 with notNull := some true }], indexes := [exPkOn "id"] }],
    by decide, by decide, by decide +kernel, by decide, _,
    runOnce_one (T := { name := lit "public.t", columns := [{ exInt "id" 0 with notNull := some true }] })
      (by decide +kernel) rfl (by decide +kernel), by decide +kernel⟩

/-- **C19 is violated for a MySQL column that loses AUTO_INCREMENT and changes otherwise**: only the second run changes it. -/
theorem C19_mysql_auto_increment : ∃ desired current, NeedsAnotherRun .mysql desired current :=
  ⟨[exCreate { name := lit "t", columns := [{ exInt "id" 0 with typeName := lit "bigint", notNull := some true }], indexes := [exPkOn "id"] }],
   [exCreate { name := lit "t", columns := [{ exInt "id" 0 with notNull := some true, autoIncrement := true }], indexes := [exPkOn "id"] }],
   by decide, by decide, by decide +kernel, by decide, _,
   runOnce_one (T := { name := lit "t", columns := [{ exInt "id" 0 with notNull := some true }], indexes := [exPkOn "id"] })
     (by decide +kernel) rfl (by decide +kernel), by decide +kernel⟩

/-- **C19 is violated when MySQL columns change their order**: `a, b, c` becomes `c, a, b` instead of `c, b, a`. -/
theorem C19_mysql_order : ∃ desired current, NeedsAnotherRun .mysql desired current :=
  ⟨[exCreate { name := lit "t", columns := [exInt "c" 0, exInt "b" 1, exInt "a" 2] }],
   [exCreate { name := lit "t", columns := [exInt "a" 0, exInt "b" 1, exInt "c" 2] }],
   by decide, by decide, by decide +kernel, by decide, _,
   runOnce_one (T := { name := lit "t", columns := [{ exInt "c" 0 with notNull := none }, exInt "a" 0, exInt "b" 1] })
     (by decide +kernel) rfl (by decide +kernel), by decide +kernel⟩

/-- **C19 is violated when a MySQL column becomes UNIQUE while an obsolete index has its name**: the first run drops the
index, only the second one adds the unique key. -/
theorem C19_mysql_unique : ∃ desired current, NeedsAnotherRun .mysql desired current :=
  ⟨[exCreate { name := lit "t", columns := [{ exInt "a" 0 with keyOption := .unique }] }],
   [exCreate { name := lit "t", columns := [exInt "a" 0], indexes := [exKeyOn "a" "a"] }],
   by decide, by decide, by decide +kernel, by decide, _,
   runOnce_one (T := { name := lit "t", columns := [exInt "a" 0] }) (by decide +kernel) rfl (by decide +kernel), by decide +kernel⟩

/-- **C19 is violated for ever for a MySQL table with a PRIMARY KEY whose columns are not declared NOT NULL**: every run
changes the column, which leaves the schema as it is. -/
theorem C19_mysql_never_settles : ∃ desired current out, UniqueTables desired ∧ UniqueTables current ∧ Supported .mysql desired current ∧
    (∀ x ∈ tablesOf current, Reported .mysql x) ∧ diff .mysql desired current = .ok out ∧ out ≠ [] ∧ RunOnce .mysql desired current current :=
  ⟨[exCreate { name := lit "t", columns := [exInt "id" 0], indexes := [exPkOn "id"] }],
   [exCreate { name := lit "t", columns := [{ exInt "id" 0 with notNull := some true }], indexes := [exPkOn "id"] }],
   [.changeColumn (lit "t") (lit "id") (exInt "id" 0) .none], by decide, by decide, by decide +kernel, by decide, by decide +kernel, by decide,
   runOnce_one (x := { name := lit "t", columns := [{ exInt "id" 0 with notNull := some true }], indexes := [exPkOn "id"] })
     (T := { name := lit "t", columns := [{ exInt "id" 0 with notNull := some true }], indexes := [exPkOn "id"] })
     (by decide +kernel) rfl (by decide +kernel)⟩

/-- **C19 is violated for ever for a MySQL column with a CHECK.** -/
theorem C19_mysql_check_never_settles : ∃ desired current out, UniqueTables desired ∧ UniqueTables current ∧ Supported .mysql desired current ∧
    (∀ x ∈ tablesOf current, Reported .mysql x) ∧ diff .mysql desired current = .ok out ∧ out ≠ [] ∧ RunOnce .mysql desired current current :=
  ⟨[exCreate { name := lit "t", columns := [{ exInt "a" 0 with check := some { definition := lit "a > 0" } }] }],
   [exCreate { name := lit "t", columns := [{ exInt "a" 0 with check := some { definition := lit "a > 0" } }] }],
   [.changeColumn (lit "t") (lit "a") { exInt "a" 0 with check := some { definition := lit "a > 0" } } .none],
   by decide, by decide, by decide +kernel, by decide, by decide +kernel, by decide,
   runOnce_one (x := { name := lit "t", columns := [{ exInt "a" 0 with check := some { definition := lit "a > 0" } }] })
     (T := { name := lit "t", columns := [{ exInt "a" 0 with check := some { definition := lit "a > 0" } }] })
     (by decide +kernel) rfl (by decide +kernel)⟩

/-- One run on an empty database. -/
theorem runOnce_empty {n : Str} {T : Table} (hT : tableAfter mode desired [] n = some (some T)) (hn : T.name = n)
    (ho : onlyAbout mode desired [] n = true) :
    RunOnce mode desired [] [exCreate { T with columns := renumber 0 T.columns }] := by
  unfold tableAfter at hT
  unfold onlyAbout at ho
  split at hT
  · next out hdiff =>
    rw [hdiff] at ho
    simp only [List.all_eq_true, decide_eq_true_eq] at ho
    cases he : execAll mode out (catalogOf []) with
    | none => rw [he] at hT; cases hT
    | some c =>
      rw [he] at hT
      simp only [Option.map_some, Option.some.injEq] at hT
      obtain ⟨e1, e2, e3⟩ := execAll_others ho he
      refine ⟨out, c, hdiff, he, ?_, ?_, ?_, fun m => by rw [e1]; rfl, fun m => by rw [e2]; rfl⟩
      · simp [UniqueTables, createdNames, created, exCreate]
      · intro pre d post hp
        cases pre with
        | nil =>
          obtain ⟨rfl, rfl⟩ := List.cons.inj hp
          simp [FollowsCurrent, exCreate]
        | cons a pre =>
          obtain ⟨-, hp⟩ := List.cons.inj hp
          simp at hp
      · intro m
        by_cases hm : m = n
        · subst hm
          rw [hT]
          simp [exCreate, tableIn, tablesOf, created, complete, indexesFor, policiesFor, markedPrimary, foreignKeysFor, hn]
        · rw [e3 m hm]
          have hm' : n ≠ m := fun h => hm h.symm
          simp [exCreate, catalogOf, tableIn, tablesOf, created, complete, hn, hm']
  · cases hT

/-- **C19 is violated for a new table with a foreign key without a name**: the first run creates the table, the second
one reports an error. -/
theorem C19_unnamed_foreign_key : ∀ mode, ∃ desired, UniqueTables desired ∧ Supported mode desired [] ∧
    ∃ current' e, RunOnce mode desired [] current' ∧ diff mode desired current' = .error e := by
  intro mode
  cases mode <;>
  exact ⟨[exCreate { name := lit "t", columns := [exInt "a" 0], foreignKeys := [exFkOn "" "a" "u"] }], by decide, by decide +kernel, _,
    .fkWithoutName (lit "t"), runOnce_empty (T := { name := lit "t", columns := [exInt "a" 0], foreignKeys := [exFkOn "" "a" "u"] })
      (by decide +kernel) rfl (by decide +kernel), by decide +kernel⟩

end Sqldef
