import Verif.Proofs.ColumnResult
import Verif.Props.ColumnOrder
/-!
The attributes of the columns after the script: C47.

`ColumnReached` (Verif/Spec/Columns.lean) says what the column of the database has in common with the desired
column. `Reported` says that the current schema is one a server reports: the columns of a primary key are NOT NULL.
-/
namespace Sqldef
open Spec

variable {mode : Mode} {desired current : List DDL} {out : List Stmt} {c : Catalog}

theorem tidy_names {desired : List DDL} {t : Table} (hw : WellFormed desired) (h : Tidy (complete desired t)) : t.names.Nodup := by
  have := h.columns
  rw [complete_columns hw t] at this
  exact this

/-- **C47 (partial: for the changes described by `Supported`, and for the attributes described by `ColumnReached`).** After
the script has been executed every desired column exists and has the desired attributes: for MySQL and Postgres the
type, NOT NULL, the default and the other attributes, for SQL Server the default, the CHECK and IDENTITY; new
columns have all attributes in every dialect.

What is missing is listed in the theorems below. -/
theorem C47_columns_reached_partial (hd : UniqueTables desired) (hc : UniqueTables current)
    (hs : Supported mode desired current) (hr : ∀ x ∈ tablesOf current, Reported mode x)
    (h : diff mode desired current = .ok out) :
    ∃ c, execAll mode out (catalogOf current) = some c ∧ ∀ t ∈ created desired, ∃ T, c.table t.name = some T ∧
      ∀ k ∈ t.columns, ∃ e ∈ T.columns, e.name = k.name ∧ ColumnReached mode (tableIn current t.name) t k e := by
  obtain ⟨_, _, sc⟩ := script hd hc h
  obtain ⟨c, h1, -, h3⟩ := script_after sc hs
  refine ⟨c, h1, fun t ht => ?_⟩
  obtain ⟨T, hT, ha⟩ := h3 t ht
  exact ⟨T, hT, fun k hk => column_reached (tidy_names sc.wd (hs.desiredTidy t ht).1) hs.currentTidy hr ha hk⟩

/-- The example of C20 meets the hypotheses, for MySQL and for Postgres. -/
example : (∀ x ∈ tablesOf exFrom, Reported .mysql x) ∧ ∀ x ∈ tablesOf exFrom, Reported .postgres x := by decide

/-- The column `age` of that example: the type and NOT NULL change. -/
example : ∃ T e, tableAfter .postgres exTo exFrom (lit "public.users") = some (some T) ∧ e ∈ T.columns ∧ e.name = lit "age" ∧
    e.typeName = lit "bigint" ∧ e.notNull = some true :=
  ⟨{ name := lit "public.users",
     columns := [{ exInt "id" 0 with notNull := some true }, { exInt "age" 1 with typeName := lit "bigint", notNull := some true },
       { exInt "name" 1 with notNull := some true }],
     indexes := [exPkOn "name", exKeyOn "k_name" "name"], foreignKeys := [exFkOn "f" "age" "books"] },
   { exInt "age" 1 with typeName := lit "bigint", notNull := some true }, by decide +kernel, by decide +kernel, rfl, rfl, rfl⟩

/-- The column is kept unique: by itself or by an index of its name that begins with it. -/
def KeptUnique (T : Table) (e : Column) : Prop :=
  e.keyOption.isUnique = true ∨ ∃ j ∈ T.indexes, j.name = e.name ∧ j.unique = true ∧ j.columns.head?.map (·.column) = some e.name

theorem rekeyed_unique_of {x d : Table} {e : Column} (h : e.keyOption.isUnique = true) : (finished mode x d e).keyOption.isUnique = true := by
  rw [finished_key, if_neg]
  · exact h
  · intro hk
    simp only [Bool.and_eq_true, decide_eq_true_eq] at hk
    rw [hk.2] at h
    cases h

theorem indexes_look {x : Table} {n : Str} (h : findIndexByName x.indexes n = none) : n ∉ x.indexes.map (·.name) := by
  unfold findIndexByName at h
  rw [List.find?_eq_none] at h
  intro hm
  obtain ⟨i, hi, hn⟩ := List.mem_map.1 hm
  exact h i hi (by simpa using hn)

theorem mysql_kept_unique (hw : WellFormed desired) (hs : Supported .mysql desired current) {t T : Table} (ht : t ∈ created desired)
    (ha : TableAfter .mysql desired current t T) {k : Column} (hk : k ∈ t.columns) (hu : k.keyOption.isUnique = true)
    (hidx : ∀ x ∈ tablesOf current, x.name = t.name → ∀ i ∈ x.indexes, i.name = k.name →
      i.unique = true ∧ i.primary = false ∧ i.columns.head?.map (·.column) = some k.name) :
    ∃ e ∈ T.columns, e.name = k.name ∧ KeptUnique T e := by
  cases ha with
  | new hno hn =>
    rw [hn.columns]
    refine ⟨_, List.mem_map_of_mem hk, ?_, .inl ?_⟩ <;> split <;> first | rfl | exact hu
  | shared x l v hx hl hv hf hfin =>
    have hxm := tableIn_mem_tablesOf hx
    have hxn := tableIn_name hx
    obtain ⟨e, hA, hcol⟩ := hfin.col k hk
    obtain ⟨hem, hen⟩ := findColumn_mem hcol
    refine ⟨_, hem, hen, ?_⟩
    have hkD : k ∈ (complete desired t).columns := by rw [complete_columns hw t]; exact hk
    have hDno : look (·.name) (complete desired t).sec k.name = none :=
      look_none.2 ((hs.tables t ht x hxm hxn).mysql rfl k hkD hu)
    have hsec := hfin.sec k.name
    rw [hDno] at hsec
    simp only [look_append] at hsec
    cases hxk : x.col k.name with
    | none =>
      rcases hA with ⟨-, rfl⟩ | ⟨cur, h', -⟩
      · left
        apply rekeyed_unique_of
        obtain ⟨k', n, he, -, -, hku⟩ := storedNew_eq k
        rw [he]
        show k'.isUnique = true
        rw [hku hu]; exact hu
      · rw [hxk] at h'; cases h'
    | some cur =>
      by_cases hcu : cur.keyOption.isUnique = true
      · left
        apply rekeyed_unique_of
        rcases hA with ⟨h', -⟩ | ⟨cur', h', h''⟩
        · rw [hxk] at h'; cases h'
        · rw [hxk] at h'
          cases h'
          rcases h'' with ⟨rfl, -⟩ | rfl <;> exact hcu
      · right
        cases hfi : findIndexByName x.indexes k.name with
        | none =>
          have hno : k.name ∉ x.indexes.map (·.name) := indexes_look hfi
          have hne : needsUnique x k = true := by
            simp [needsUnique, hxk, hu, hcu, hfi]
          rw [if_neg (fun hm => by
            obtain ⟨i, hi, hin⟩ := List.mem_map.1 hm
            exact hno (List.mem_map.2 ⟨i, (List.mem_filter.1 hi).1, hin⟩))] at hsec
          rw [show look (·.name) x.sec k.name = none from look_none.2 fun hm => by
            obtain ⟨i, hi, hin⟩ := List.mem_map.1 hm
            exact hno (List.mem_map.2 ⟨i, (mem_sec.1 hi).1, hin⟩), Option.none_or] at hsec
          cases hlu : look (·.name) (newUniques (uniques .mysql x) t.columns) k.name with
          | none =>
            exact absurd (List.mem_map.2 ⟨uniqueIndex k.name, List.mem_map.2 ⟨k, List.mem_filter.2 ⟨hk, hne⟩, rfl⟩, rfl⟩) (look_none.1 hlu)
          | some j =>
            rw [hlu] at hsec
            obtain ⟨hj, -⟩ := look_mem hsec
            obtain ⟨hj', hjn⟩ := look_mem hlu
            obtain ⟨c', hc', rfl⟩ := List.mem_map.1 hj'
            have hjn : c'.name = k.name := hjn
            exact ⟨_, (mem_sec.1 hj).1, hjn.trans hen.symm, rfl, congrArg some (hjn.trans hen.symm)⟩
        | some i =>
          have him : i ∈ x.indexes := List.mem_of_find?_eq_some hfi
          have hin : i.name = k.name := by simpa using List.find?_some hfi
          obtain ⟨hiu, hip, hih⟩ := hidx x hxm hxn i him hin
          have hisec : look (·.name) x.sec k.name = some i :=
            look_unique (key := fun i : Index => i.name) hf.xIdx (mem_sec.2 ⟨him, hip⟩) hin
          rw [hisec, Option.some_or, if_neg] at hsec
          · obtain ⟨hj, -⟩ := look_mem hsec
            exact ⟨i, (mem_sec.1 hj).1, hin.trans hen.symm, hiu, hih.trans (congrArg some hen.symm)⟩
          · intro hm
            obtain ⟨j, hj, hjn⟩ := List.mem_map.1 hm
            obtain ⟨hj1, hj2⟩ := List.mem_filter.1 hj
            obtain ⟨hju, -, hjh⟩ := hidx x hxm hxn j hj1 hjn
            have hany : ((complete desired t).columns.any fun col => col.keyOption.isUnique &&
                decide (j.columns.head?.map (·.column) = some col.name)) = true :=
              List.any_eq_true.2 ⟨k, hkD, by simp [hu, hjh]⟩
            simp only [droppedIndex, hju, hany, Bool.and_self, Bool.not_true, Bool.and_false] at hj2
            cases hj2

/-- **C47 for UNIQUE columns of MySQL (partial: for the changes described by `Supported`, and if an index that has the
name of the column is a unique index beginning with that column).** -/
theorem C47_mysql_unique_partial (hd : UniqueTables desired) (hc : UniqueTables current)
    (hs : Supported .mysql desired current) (h : diff .mysql desired current = .ok out) :
    ∃ c, execAll .mysql out (catalogOf current) = some c ∧ ∀ t ∈ created desired, ∃ T, c.table t.name = some T ∧
      ∀ k ∈ t.columns, k.keyOption.isUnique = true →
        (∀ x ∈ tablesOf current, x.name = t.name → ∀ i ∈ x.indexes, i.name = k.name →
          i.unique = true ∧ i.primary = false ∧ i.columns.head?.map (·.column) = some k.name) →
        ∃ e ∈ T.columns, e.name = k.name ∧ KeptUnique T e := by
  obtain ⟨_, _, sc⟩ := script hd hc h
  obtain ⟨c, h1, -, h3⟩ := script_after sc hs
  refine ⟨c, h1, fun t ht => ?_⟩
  obtain ⟨T, hT, ha⟩ := h3 t ht
  refine ⟨T, hT, fun k hk hu hidx => ?_⟩
  exact mysql_kept_unique sc.wd hs ht ha hk hu hidx

/-- A column that becomes UNIQUE. -/
example :
    let before := [exCreate { name := lit "t", columns := [exInt "a" 0, exInt "b" 1], indexes := [exKeyOn "i" "b"] }]
    let after := [exCreate { name := lit "t", columns := [{ exInt "a" 0 with keyOption := .unique }, exInt "b" 1] }]
    Supported .mysql after before ∧
    (∀ x ∈ tablesOf before, ∀ i ∈ x.indexes, i.name = lit "a" →
      i.unique = true ∧ i.primary = false ∧ i.columns.head?.map (·.column) = some (lit "a")) ∧
    ∃ T, tableAfter .mysql after before (lit "t") = some (some T) ∧ T.indexes.map (fun i => (i.name, i.unique)) = [(lit "a", true)] := by
  refine ⟨by decide +kernel, by decide +kernel, { name := lit "t", columns := [exInt "a" 0, exInt "b" 1], indexes := [uniqueIndex (lit "a")] }, by decide +kernel, rfl⟩

/-! ### What is not reached -/

/-- **C47 is violated for SQL Server**: whatever the schemas, an existing column keeps its type and NOT NULL (unless it
joins the primary key). -/
theorem C47_mssql_type_is_kept (hd : UniqueTables desired) (hc : UniqueTables current) (hs : Supported .mssql desired current)
    (h : diff .mssql desired current = .ok out) (he : execAll .mssql out (catalogOf current) = some c) {t x : Table}
    (ht : t ∈ created desired) (hx : tableIn current t.name = some x) {k cur : Column} (hk : k ∈ t.columns) (hcur : cur ∈ x.columns)
    (hn : cur.name = k.name) :
    ∃ T, c.table t.name = some T ∧ ∃ e ∈ T.columns, e.name = k.name ∧ e.typeName = cur.typeName ∧ e.length = cur.length ∧
      (k.name ∉ keyColumns t → cur.keyOption ≠ .primary → e.notNull = cur.notNull) := by
  obtain ⟨T, hT, ha⟩ := after_of_exec hd hc hs h he ht
  refine ⟨T, hT, ?_⟩
  cases ha with
  | new hno _ => rw [hx] at hno; cases hno
  | shared y l v hy hl hv hf hfin =>
    rw [hx] at hy
    cases hy
    obtain ⟨e, hA, hcol⟩ := hfin.col k hk
    refine ⟨_, (findColumn_mem hcol).1, (findColumn_mem hcol).2, ?_⟩
    have hxc : x.col k.name = some cur := hn ▸ col_unique hf.xCols hcur
    rcases hA with ⟨h', -⟩ | ⟨cur', h', rfl⟩
    · rw [hxc] at h'; cases h'
    · rw [hxc] at h'
      cases h'
      obtain ⟨k', n', v', he, -⟩ := msAfter_fields t cur k
      rw [finished_other (by decide)]
      obtain ⟨k2, n2, he2, hn2, -⟩ := rekeyed_eq x t (msAfter t cur k)
      rw [he2, he]
      refine ⟨rfl, rfl, fun h1 h2 => ?_⟩
      rw [he] at hn2
      rcases hn2 with hn2 | ⟨-, hn2 | hn2⟩
      · exact hn2
      · exact absurd hn2 h2
      · exact absurd (hn ▸ hn2) h1

/-- A type that stays, without any statement. -/
example : diff .mssql [exCreate { name := lit "dbo.t", columns := [{ exInt "a" 0 with typeName := lit "bigint", notNull := some true }] }]
    [exCreate { name := lit "dbo.t", columns := [exInt "a" 0] }] = .ok [] := by decide +kernel

/-- **C47 is violated for SQLite**: whatever the schemas, an existing column stays as it is. -/
theorem C47_sqlite_column_is_kept (hd : UniqueTables desired) (hc : UniqueTables current) (hs : Supported .sqlite3 desired current)
    (h : diff .sqlite3 desired current = .ok out) (he : execAll .sqlite3 out (catalogOf current) = some c) {t x : Table}
    (ht : t ∈ created desired) (hx : tableIn current t.name = some x) {k cur : Column} (hk : k ∈ t.columns) (hcur : cur ∈ x.columns)
    (hn : cur.name = k.name) : ∃ T, c.table t.name = some T ∧ cur ∈ T.columns := by
  obtain ⟨T, hT, ha⟩ := after_of_exec hd hc hs h he ht
  refine ⟨T, hT, ?_⟩
  cases ha with
  | new hno _ => rw [hx] at hno; cases hno
  | shared y l v hy hl hv hf hfin =>
    rw [hx] at hy
    cases hy
    obtain ⟨e, hA, hcol⟩ := hfin.col k hk
    have hxc : x.col k.name = some cur := hn ▸ col_unique hf.xCols hcur
    rcases hA with ⟨h', -⟩ | ⟨cur', h', rfl⟩
    · rw [hxc] at h'; cases h'
    · rw [hxc] at h'
      cases h'
      have := (findColumn_mem hcol).1
      rw [finished_other (by decide), show rekeyed x t cur = cur by unfold rekeyed; rw [hf.sqliteKey rfl]; rfl] at this
      exact this

/-- A default that is not changed, without any statement. -/
example : diff .sqlite3 [exCreate { name := lit "t", columns := [{ exInt "a" 0 with notNull := some true }] }]
    [exCreate { name := lit "t", columns := [exInt "a" 0] }] = .ok [] := by decide +kernel

/-- **C47 is violated for MySQL when a column loses AUTO_INCREMENT and changes otherwise**: the statement that removes
AUTO_INCREMENT restores the old definition. -/
theorem C47_mysql_auto_increment_reverts : ∃ desired current T, UniqueTables desired ∧ UniqueTables current ∧
    Supported .mysql desired current ∧ (∀ x ∈ tablesOf current, Reported .mysql x) ∧
    tableAfter .mysql desired current (lit "t") = some (some T) ∧
    (created desired).map (fun t => t.columns.map (·.typeName)) = [[lit "bigint"]] ∧ T.columns.map (·.typeName) = [lit "int"] :=
  ⟨[exCreate { name := lit "t", columns := [{ exInt "id" 0 with typeName := lit "bigint", notNull := some true }], indexes := [exPkOn "id"] }],
   [exCreate { name := lit "t", columns := [{ exInt "id" 0 with notNull := some true, autoIncrement := true }], indexes := [exPkOn "id"] }],
   { name := lit "t", columns := [{ exInt "id" 0 with notNull := some true }], indexes := [exPkOn "id"] },
   by decide, by decide, by decide +kernel, by decide, by decide +kernel, by decide, by decide⟩

/-- **C47 is violated for a column that leaves the primary key**: it stays NOT NULL although the desired column is not. -/
theorem C47_former_key_column_stays_not_null :
    ∀ mode, mode = .mysql ∨ mode = .postgres → ∃ desired current T, UniqueTables desired ∧ UniqueTables current ∧
    Supported mode desired current ∧ (∀ x ∈ tablesOf current, Reported mode x) ∧
    tableAfter mode desired current (lit "public.t") = some (some T) ∧
    (created desired).map (fun t => (t.columns.map (·.notNull), keyColumns t)) = [([none], [])] ∧ T.columns.map (·.notNull) = [some true] := by
  rintro mode (rfl | rfl) <;>
  exact ⟨[exCreate { name := lit "public.t", columns := [exInt "id" 0] }],
   [exCreate { name := lit "public.t", columns := [{ exInt "id" 0 with notNull := some true }], indexes := [exPkOn "id"] }],
   { name := lit "public.t", columns := [{ exInt "id" 0 with notNull := some true }] },
   by decide, by decide, by decide +kernel, by decide, by decide +kernel, by decide, by decide⟩

/-- **C47 is violated for UNIQUE in the other dialects**: an existing column does not become UNIQUE. -/
theorem C47_unique_is_not_added : ∀ mode, mode ≠ .mysql → ∃ desired current, UniqueTables desired ∧ UniqueTables current ∧
    Supported mode desired current ∧ (created desired).map (fun t => t.columns.map (·.keyOption)) = [[.unique]] ∧
    (created current).map (fun t => (t.columns.map (·.keyOption), t.indexes)) = [([.none], [])] ∧ diff mode desired current = .ok [] := by
  intro mode hm
  refine ⟨[exCreate { name := lit "t", columns := [{ exInt "id" 0 with keyOption := .unique }] }],
   [exCreate { name := lit "t", columns := [exInt "id" 0] }], ?_⟩
  cases mode with
  | mysql => exact absurd rfl hm
  | _ => exact ⟨by decide, by decide, by decide +kernel, by decide, by decide, by decide +kernel⟩

end Sqldef
