import Verif.Proofs.Script
/-!
Tables and columns: C21, C22, C23, C24.

Throughout, `diff mode desired current = .ok out` says that comparing the two schemas succeeded with the
statements `out`, and `UniqueTables` that no table is created twice.
-/
namespace Sqldef
open Spec

variable {mode : Mode} {desired current : List DDL} {out : List Stmt}

/-! ### Example schemas -/

def exInt (n : String) (p : Int) : Column := { name := lit n, position := p, typeName := lit "int" }
def exUsers : Table := { name := lit "users", columns := [exInt "id" 0, exInt "age" 1] }
def exUsers' : Table := { name := lit "users", columns := [exInt "id" 0, exInt "name" 1] }
def exBooks : Table := { name := lit "books", columns := [exInt "id" 0] }
def exLogs : Table := { name := lit "logs", columns := [exInt "id" 0] }
def exCreate (t : Table) : DDL := .createTable (lit "CREATE TABLE " ++ t.name) t
/-- desired: `users` with another column, and `books` -/
def exDesired : List DDL := [exCreate exUsers', exCreate exBooks]
/-- current: `users` and `logs` -/
def exCurrent : List DDL := [exCreate exUsers, exCreate exLogs]
def exOut : List Stmt :=
  [.addColumn (lit "users") (exInt "name" 1) (.after (lit "id")), .user (exCreate exBooks),
   .dropColumn (lit "users") (lit "age"), .dropTable (lit "logs")]

example : UniqueTables exDesired ∧ UniqueTables exCurrent ∧ diff .mysql exDesired exCurrent = .ok exOut :=
  ⟨by decide, by decide, by decide +kernel⟩

/-! ### C21: missing tables -/

theorem defStmts_user {cur : List Table} {cv : List View} {ct : List Trigger} {d e : DDL} {l : List Stmt}
    (h : defStmts mode cur cv ct d = .ok l) (he : .user e ∈ l) : e = d := by
  cases d with
  | createTable s t =>
    simp only [defStmts] at h
    cases hf : findTableByName cur t.name with
    | none => rw [hf] at h; cases h; simpa using he
    | some x =>
      rw [hf] at h
      cases createTable_shape h _ he with
      | column prev c s hm hc =>
        cases hc with
        | alter cur s h1 h2 h3 => rcases h3 with h3 | h3 | h3 | ⟨_, _, h3⟩ | h3 | ⟨_, _, h3⟩ | h3 | ⟨_, h3⟩ <;> cases h3
  | createIndex s n i =>
    simp only [defStmts, Except.ok.injEq] at h
    subst h
    unfold indexStmts at he
    split at he
    · simpa using he
    · split at he <;> simp_all
  | addIndex s n i =>
    simp only [defStmts, Except.ok.injEq] at h
    subst h
    unfold indexStmts at he
    split at he
    · simpa using he
    · split at he <;> simp_all
  | addForeignKey s n f => simp only [defStmts, Except.ok.injEq] at h; subst h; cases he
  | addPolicy s n p =>
    simp only [defStmts, Except.ok.injEq] at h
    subst h
    unfold policyStmts at he
    split at he
    · simpa using he
    · split at he <;> simp_all
  | view v =>
    simp only [defStmts, Except.ok.injEq] at h
    subst h
    unfold viewStmts at he
    split at he
    · simpa using he
    · split at he
      · split at he <;> simp_all
      · cases he
  | trigger t =>
    simp only [defStmts, Except.ok.injEq] at h
    subst h
    unfold triggerStmts at he
    split at he
    · split at he
      · simp at he
      · split at he <;> simp_all
    · split at he
      · simp at he
      · split at he <;> simp_all
    · cases he
  | addPrimaryKey s n i => cases h

theorem tableCleanup_user {D : List Table} {x : Table} {e : DDL} {l : List Stmt}
    (h : tableCleanup mode D x = .ok l) : .user e ∉ l := by
  intro he
  unfold tableCleanup at h
  split at h
  · cases h; simp at he
  · cases cleanup_shape h _ he

/-- Only the user's own definitions are emitted verbatim, and CREATE TABLE only for missing tables. -/
theorem C21_only_missing_tables_are_created (hd : UniqueTables desired) (hc : UniqueTables current)
    (h : diff mode desired current = .ok out) {s : Str} {t : Table} (hs : .user (.createTable s t) ∈ out) :
    .createTable s t ∈ desired ∧ t.name ∉ createdNames current := by
  obtain ⟨x, y, sc⟩ := script hd hc h
  rcases sc.mem hs with ⟨d, hd', l, hl, hs⟩ | ⟨t', -, l, hl, hs⟩ | ⟨v, -, -, hs⟩
  · have := defStmts_user hl hs
    subst this
    refine ⟨hd', fun hn => ?_⟩
    obtain ⟨c, hcx⟩ := tableIn_some_iff.2 hn
    simp only [defStmts] at hl
    have hcx : findTableByName (tablesOf current) t.name = some c := hcx
    rw [hcx] at hl
    cases createTable_shape hl _ hs with
    | column prev c s hm hc =>
      cases hc with
      | alter cur s h1 h2 h3 => rcases h3 with h3 | h3 | h3 | ⟨_, _, h3⟩ | h3 | ⟨_, _, h3⟩ | h3 | ⟨_, h3⟩ <;> cases h3
  · exact absurd hs (tableCleanup_user hl)
  · cases hs

/-- C21: the CREATE TABLE of a missing table is emitted exactly once. -/
theorem C21_missing_table_is_created_once (hd : UniqueTables desired) (hc : UniqueTables current)
    (h : diff mode desired current = .ok out) {s : Str} {t : Table} (ht : .createTable s t ∈ desired)
    (hn : t.name ∉ createdNames current) :
    out.count (.user (.createTable s t)) = 1 := by
  obtain ⟨x, y, sc⟩ := script hd hc h
  obtain ⟨pre, post, hpp⟩ := List.append_of_mem ht
  have hdefs := sc.defs
  rw [hpp] at hdefs
  obtain ⟨a, b, c, ha, hb, hcc, rfl⟩ := concatMapM_split hdefs
  have hb' : b = [.user (.createTable s t)] := by
    simp only [defStmts] at hb
    have : findTableByName (tablesOf current) t.name = none := tableIn_none.2 hn
    rw [this] at hb
    cases hb; rfl
  have hu : UniqueTables (pre ++ .createTable s t :: post) := hpp ▸ hd
  have hu' : .createTable s t ∉ pre ∧ .createTable s t ∉ post := by
    simp only [UniqueTables, createdNames, created_append, created, List.map_append, List.map_cons,
      List.nodup_append, List.nodup_cons, List.mem_map, List.mem_cons] at hu
    constructor
    · intro hm
      exact hu.2.2 t.name ⟨t, mem_created.2 ⟨s, hm⟩, rfl⟩ t.name (.inl rfl) rfl
    · intro hm
      exact hu.2.1.1 ⟨t, mem_created.2 ⟨s, hm⟩, rfl⟩
  have key : ∀ (ds : List DDL) (r : List Stmt), .createTable s t ∉ ds →
      concatMapM (defStmts mode (tablesOf current) (viewsOf current) (triggersOf current)) ds = .ok r →
      r.count (.user (.createTable s t)) = 0 := by
    intro ds r hm hr
    rw [List.count_eq_zero]
    intro hin
    obtain ⟨d, hd', l, hl, hs⟩ := (mem_concatMapM hr _).1 hin
    rw [defStmts_user hl hs] at hm
    exact hm hd'
  rw [sc.out_eq, hb']
  simp only [List.count_append]
  rw [key _ _ hu'.1 ha, key _ _ hu'.2 hcc]
  have hy : y.count (.user (.createTable s t)) = 0 := by
    rw [List.count_eq_zero]
    intro hin
    obtain ⟨d, hd', l, hl, hs⟩ := (mem_concatMapM sc.clean _).1 hin
    exact tableCleanup_user hl hs
  have hv : (cleanupViews (viewsOf desired) (viewsOf current)).count (.user (.createTable s t)) = 0 := by
    rw [List.count_eq_zero]
    intro hin
    unfold cleanupViews at hin
    simp at hin
  rw [hy, hv]
  simp

/-- C21: for a missing table nothing but the user's own definitions is emitted. -/
theorem C21_missing_table_only_own_statements (hd : UniqueTables desired) (hc : UniqueTables current)
    (h : diff mode desired current = .ok out) {n : Str} (hn : n ∉ createdNames current)
    {st : Stmt} (hst : st ∈ out) (ht : Stmt.table st = some n) : ∃ d ∈ desired, st = .user d := by
  obtain ⟨x, y, sc⟩ := script hd hc h
  have hnone : findTableByName (tablesOf current) n = none := tableIn_none.2 hn
  rcases sc.mem hst with ⟨d, hd', l, hl, hs⟩ | ⟨t', ht', l, hl, hs⟩ | ⟨v, -, -, rfl⟩
  · refine ⟨d, hd', ?_⟩
    have htab := defStmts_table hl st hs
    rw [ht] at htab
    cases d with
    | createTable s t =>
      simp only [DDL.table, Option.some.injEq] at htab
      simp only [defStmts, ← htab, hnone, Except.ok.injEq] at hl
      subst hl; simpa using hs
    | createIndex s m i =>
      simp only [DDL.table, Option.some.injEq] at htab
      subst htab
      simp only [defStmts, indexStmts, hnone, Option.bind_none, Except.ok.injEq] at hl
      subst hl; simpa using hs
    | addIndex s m i =>
      simp only [DDL.table, Option.some.injEq] at htab
      subst htab
      simp only [defStmts, indexStmts, hnone, Option.bind_none, Except.ok.injEq] at hl
      subst hl; simpa using hs
    | addForeignKey s m f => simp only [defStmts, Except.ok.injEq] at hl; subst hl; cases hs
    | addPolicy s m p =>
      simp only [DDL.table, Option.some.injEq] at htab
      subst htab
      simp only [defStmts, policyStmts, hnone, Option.bind_none, Except.ok.injEq] at hl
      subst hl; simpa using hs
    | view v => cases htab
    | trigger t => cases htab
    | addPrimaryKey s m i => cases hl
  · have := tableCleanup_table hl st hs
    rw [ht, Option.some.injEq] at this
    rw [this] at hn
    exact absurd (tableIn_some_iff.1 ⟨_, ht'⟩) hn
  · cases ht

/-- C21: the text of the emitted statement is the user's own text. -/
theorem C21_missing_table_verbatim (hd : UniqueTables desired) (hc : UniqueTables current)
    (h : diff mode desired current = .ok out) {s : Str} {t : Table} (ht : .createTable s t ∈ desired)
    (hn : t.name ∉ createdNames current) : s ∈ out.map (Stmt.render mode) := by
  have := C21_missing_table_is_created_once hd hc h ht hn
  exact List.mem_map.2 ⟨.user (.createTable s t), List.count_pos_iff.1 (by omega), rfl⟩

/-- `books` is missing in the example. -/
example : exCreate exBooks ∈ exDesired ∧ exBooks.name ∉ createdNames exCurrent := by decide

/-! ### C22: DROP TABLE -/

/-- C22: DROP TABLE is emitted exactly for the tables that exist and are not defined any more. -/
theorem C22_drop_table_iff (hd : UniqueTables desired) (hc : UniqueTables current)
    (h : diff mode desired current = .ok out) (n : Str) :
    .dropTable n ∈ out ↔ n ∈ createdNames current ∧ n ∉ createdNames desired := by
  obtain ⟨x, y, sc⟩ := script hd hc h
  constructor
  · intro hs
    rcases sc.mem hs with ⟨d, hd', l, hl, hs⟩ | ⟨t', ht', l, hl, hs⟩ | ⟨v, -, -, hs⟩
    · exfalso
      cases d with
      | createTable s t =>
        simp only [defStmts] at hl
        cases hf : findTableByName (tablesOf current) t.name with
        | none => rw [hf] at hl; cases hl; simp at hs
        | some x =>
          rw [hf] at hl
          cases createTable_shape hl _ hs with
          | column prev c s hm hc =>
            cases hc with
            | alter cur s h1 h2 h3 => rcases h3 with h3 | h3 | h3 | ⟨_, _, h3⟩ | h3 | ⟨_, _, h3⟩ | h3 | ⟨_, h3⟩ <;> cases h3
      | createIndex s m i =>
        simp only [defStmts, Except.ok.injEq] at hl; subst hl; unfold indexStmts at hs
        split at hs
        · simp at hs
        · split at hs <;> simp at hs
      | addIndex s m i =>
        simp only [defStmts, Except.ok.injEq] at hl; subst hl; unfold indexStmts at hs
        split at hs
        · simp at hs
        · split at hs <;> simp at hs
      | addForeignKey s m f => simp only [defStmts, Except.ok.injEq] at hl; subst hl; cases hs
      | addPolicy s m p =>
        simp only [defStmts, Except.ok.injEq] at hl; subst hl; unfold policyStmts at hs
        split at hs
        · simp at hs
        · split at hs <;> simp at hs
      | view v => exact absurd (defStmts_table hl _ hs) (by simp [Stmt.table, DDL.table])
      | trigger t => exact absurd (defStmts_table hl _ hs) (by simp [Stmt.table, DDL.table])
      | addPrimaryKey s m i => cases hl
    · unfold tableCleanup at hl
      split at hl
      · next hf =>
        cases hl
        simp only [List.mem_singleton, Stmt.dropTable.injEq] at hs
        subst hs
        exact ⟨tableIn_some_iff.1 ⟨_, ht'⟩, tableIn_none.1 hf⟩
      · cases cleanup_shape hl _ hs
    · cases hs
  · rintro ⟨h1, h2⟩
    obtain ⟨t, ht⟩ := tableIn_some_iff.2 h1
    obtain ⟨l, hl, hlo⟩ := sc.clean_ok ht
    unfold tableCleanup at hl
    rw [tableIn_name ht] at hl
    have : findTableByName (tablesOf desired) n = none := tableIn_none.2 h2
    rw [this] at hl
    cases hl
    exact hlo (by simp)

/-- C22: a table is dropped at most once. -/
theorem C22_drop_table_once (hd : UniqueTables desired) (hc : UniqueTables current)
    (h : diff mode desired current = .ok out) (n : Str) (hn : n ∉ createdNames desired) :
    out.filter (fun s => decide (Stmt.table s = some n)) = if n ∈ createdNames current then [.dropTable n] else [] := by
  obtain ⟨x, y, sc⟩ := script hd hc h
  obtain ⟨u, v, hu, hv, ho⟩ := sc.about n
  have hnil : (desired.filter fun d => decide (DDL.table d = some n)) = [] := by
    rw [List.filter_eq_nil_iff]
    intro d hdm hdn
    simp only [decide_eq_true_eq] at hdn
    obtain ⟨pre, post, hpp⟩ := List.append_of_mem hdm
    have hf := sc.wd pre d post hpp
    apply hn
    have mono : ∀ {m : Str} {t : Table}, tableIn pre m = some t → m ∈ createdNames desired := by
      intro m t ht
      have := tableIn_some_iff.1 ⟨t, ht⟩
      rw [hpp]
      simp only [createdNames, created_append, List.map_append, List.mem_append]
      exact .inl this
    cases d with
    | createTable s t =>
      simp only [DDL.table, Option.some.injEq] at hdn
      exact mem_createdNames.2 ⟨s, t, hdm, hdn⟩
    | createIndex s m i =>
      simp only [DDL.table, Option.some.injEq] at hdn; obtain ⟨t, ht, -⟩ := hf; exact mono (hdn ▸ ht)
    | addIndex s m i =>
      simp only [DDL.table, Option.some.injEq] at hdn; obtain ⟨t, ht, -⟩ := hf; exact mono (hdn ▸ ht)
    | addForeignKey s m i =>
      simp only [DDL.table, Option.some.injEq] at hdn; obtain ⟨t, ht, -⟩ := hf; exact mono (hdn ▸ ht)
    | addPolicy s m i =>
      simp only [DDL.table, Option.some.injEq] at hdn; obtain ⟨t, ht, -⟩ := hf; exact mono (hdn ▸ ht)
    | view v => cases hdn
    | trigger t => cases hdn
    | addPrimaryKey s m i => exact hf.elim
  rw [hnil] at hu
  cases hu
  rw [ho, List.nil_append]
  by_cases hcn : n ∈ createdNames current
  · rw [if_pos hcn]
    obtain ⟨t, ht⟩ := tableIn_some_iff.2 hcn
    have hft : ((tablesOf current).filter fun t => decide (some t.name = some n)) = [t] :=
      filter_name_eq hc ht
    rw [hft] at hv
    obtain ⟨p, q, hp, hq, rfl⟩ := concatMapM_cons_ok.1 hv
    cases hq
    unfold tableCleanup at hp
    rw [tableIn_name ht] at hp
    have : findTableByName (tablesOf desired) n = none := tableIn_none.2 hn
    rw [this] at hp
    cases hp
    rfl
  · rw [if_neg hcn]
    have hft : ((tablesOf current).filter fun t => decide (some t.name = some n)) = [] := by
      rw [List.filter_eq_nil_iff]
      intro t ht he
      simp only [Option.some.injEq, decide_eq_true_eq] at he
      apply hcn
      rw [createdNames, ← he]
      have := List.mem_map_of_mem (f := (·.name)) ht
      rwa [names_tablesOf] at this
    rw [hft] at hv
    cases hv
    rfl

example : lit "logs" ∈ createdNames exCurrent ∧ lit "logs" ∉ createdNames exDesired := by decide

/-! ### C23: DROP COLUMN -/

/-- C23: every column that the desired definition of a table that stays lacks is dropped. -/
theorem C23_obsolete_column_is_dropped (hd : UniqueTables desired) (hc : UniqueTables current)
    (h : diff mode desired current = .ok out) {n : Str} {x d : Table} (hx : tableIn current n = some x)
    (hdd : tableIn desired n = some d) {c : Str} (h1 : c ∈ x.columns.map (·.name)) (h2 : c ∉ d.columns.map (·.name)) :
    .dropColumn n c ∈ out := by
  obtain ⟨_, _, sc⟩ := script hd hc h
  obtain ⟨s, t, ht, rfl, rfl⟩ := (tableIn_iff hd).1 hdd
  obtain ⟨l, m, -, -, hm, hmo⟩ := sc.shared ht hx
  obtain ⟨idx, -, rfl⟩ := cleanup_parts hm
  apply hmo
  simp only [List.mem_append]
  refine .inl (.inr (List.mem_flatMap.2 ?_))
  obtain ⟨col, hcol, rfl⟩ := List.mem_map.1 h1
  refine ⟨col, List.mem_filter.2 ⟨hcol, ?_⟩, ?_⟩
  · rw [Bool.not_eq_true', not_containsString]; exact h2
  · simp [absentColumn, tableIn_name hx]

/-- What a DROP COLUMN in the script means, for every dialect. -/
theorem C23_dropped_columns (hd : UniqueTables desired) (hc : UniqueTables current)
    (h : diff mode desired current = .ok out) {n c : Str} (hs : .dropColumn n c ∈ out) :
    ∃ x d, tableIn current n = some x ∧ tableIn desired n = some d ∧ c ∈ x.columns.map (·.name) ∧
      (c ∉ d.columns.map (·.name) ∨
       mode = .mssql ∧ ∃ cur ∈ x.columns, ∃ des ∈ d.columns, cur.name = c ∧ des.name = c ∧ cur.identity.isSome ∧
         areSameIdentityDefinition cur.identity des.identity = false) := by
  obtain ⟨_, _, sc⟩ := script hd hc h
  rcases sc.mem hs with ⟨e, he, l, hl, hs⟩ | ⟨x, hx, l, hl, hs⟩ | ⟨v, -, -, hs⟩
  · have htab := defStmts_table hl _ hs
    cases e with
    | createTable s t =>
      simp only [Stmt.table, DDL.table, Option.some.injEq] at htab
      subst htab
      simp only [defStmts] at hl
      cases hf : findTableByName (tablesOf current) t.name with
      | none => rw [hf] at hl; cases hl; simp at hs
      | some x =>
        rw [hf] at hl
        refine ⟨x, complete desired t, hf, tableIn_of_created hd (mem_created.2 ⟨s, he⟩), ?_⟩
        rw [complete_columns sc.wd]
        generalize hst : Stmt.dropColumn t.name c = st at hs
        cases createTable_shape hl _ hs with
        | column prev col s hm hcol =>
          cases hcol with
          | alter cur s h1 h2 h3 =>
            subst hst
            rcases h3 with h3 | h3 | h3 | ⟨_, _, h3⟩ | h3 | ⟨_, _, h3⟩ | h3 | ⟨_, h3⟩ <;> cases h3
          | identityDrop cur h1 h2 h3 h4 =>
            obtain ⟨-, rfl⟩ := Stmt.dropColumn.inj hst
            have hcm := List.mem_of_find?_eq_some h2
            have hcn : cur.name = col.name := by simpa using List.find?_some h2
            exact ⟨List.mem_map_of_mem hcm, .inr ⟨h1, cur, hcm, col, mem_withPrev hm, rfl, hcn.symm, h3, h4⟩⟩
          | _ => cases hst
        | _ => cases hst
    | createIndex s m i =>
      simp only [defStmts, Except.ok.injEq] at hl; subst hl; unfold indexStmts at hs
      split at hs
      · simp at hs
      · split at hs <;> simp at hs
    | addIndex s m i =>
      simp only [defStmts, Except.ok.injEq] at hl; subst hl; unfold indexStmts at hs
      split at hs
      · simp at hs
      · split at hs <;> simp at hs
    | addForeignKey s m f => simp only [defStmts, Except.ok.injEq] at hl; subst hl; cases hs
    | addPolicy s m p =>
      simp only [defStmts, Except.ok.injEq] at hl; subst hl; unfold policyStmts at hs
      split at hs
      · simp at hs
      · split at hs <;> simp at hs
    | view v => cases htab
    | trigger t => cases htab
    | addPrimaryKey s m i => cases hl
  · have htab := tableCleanup_table hl _ hs
    simp only [Stmt.table, Option.some.injEq] at htab
    subst htab
    unfold tableCleanup at hl
    split at hl
    · cases hl; simp at hs
    · next d hdd =>
      refine ⟨x, d, hx, hdd, ?_⟩
      generalize hst : Stmt.dropColumn x.name c = st at hs
      cases cleanup_shape hl _ hs with
      | column col h1 h2 => obtain ⟨-, rfl⟩ := Stmt.dropColumn.inj hst; exact ⟨List.mem_map_of_mem h1, .inl h2⟩
      | _ => cases hst
  · cases hs

/-- C23 for MySQL, Postgres and SQLite: DROP COLUMN is emitted exactly for the columns that exist and that
the desired definition of the table lacks. Missing for the full property: SQL Server, see
`C23_mssql_drops_wanted_column`. -/
theorem C23_drop_column_iff_partial (hm : mode ≠ .mssql) (hd : UniqueTables desired) (hc : UniqueTables current)
    (h : diff mode desired current = .ok out) (n c : Str) :
    .dropColumn n c ∈ out ↔ ∃ x d, tableIn current n = some x ∧ tableIn desired n = some d ∧
      c ∈ x.columns.map (·.name) ∧ c ∉ d.columns.map (·.name) := by
  constructor
  · intro hs
    obtain ⟨x, d, hx, hdd, h1, h2 | ⟨h2, -⟩⟩ := C23_dropped_columns hd hc h hs
    · exact ⟨x, d, hx, hdd, h1, h2⟩
    · exact absurd h2 hm
  · rintro ⟨x, d, hx, hdd, h1, h2⟩
    exact C23_obsolete_column_is_dropped hd hc h hx hdd h1 h2

example : lit "age" ∈ exUsers.columns.map (·.name) ∧ lit "age" ∉ exUsers'.columns.map (·.name) ∧
    tableIn exCurrent (lit "users") = some exUsers ∧ tableIn exDesired (lit "users") = some exUsers' := by decide

/-- C23 fails for SQL Server: removing IDENTITY from a column drops the column, which is wanted, and does not
add it again. -/
theorem C23_mssql_drops_wanted_column :
    ∃ desired current out, UniqueTables desired ∧ UniqueTables current ∧
      (∃ d, tableIn desired (lit "users") = some d ∧ lit "id" ∈ d.columns.map (·.name)) ∧
      diff .mssql desired current = .ok out ∧ out = [.dropColumn (lit "users") (lit "id")] :=
  ⟨[exCreate exUsers],
   [exCreate { exUsers with columns := [{ exInt "id" 0 with identity := some ⟨[], false⟩ }, exInt "age" 1] }],
   [.dropColumn (lit "users") (lit "id")], by decide, by decide, ⟨exUsers, by decide, by decide⟩,
   by decide +kernel, rfl⟩

/-! ### C24: ADD COLUMN -/

theorem columnStmt_adds {x d : Table} {prev : Option Str} {c : Column} {s : Stmt} {n k : Str}
    (h : ColumnStmt mode x d prev c s) (ha : addsColumn n k s = true) :
    n = d.name ∧ k = c.name ∧ (findColumnByName x.columns c.name = none ∨ mode = .mssql ∧ ∃ cur ∈ x.columns, cur.name = k ∧
      c.identity.isSome ∧ areSameIdentityDefinition cur.identity c.identity = false) := by
  cases h with
  | add hf => simp only [addsColumn, Bool.and_eq_true, decide_eq_true_eq] at ha; exact ⟨ha.1.symm, ha.2.symm, .inl hf⟩
  | identityAdd cur h1 h2 h3 h4 =>
    simp only [addsColumn, Bool.and_eq_true, decide_eq_true_eq, seen_name] at ha
    have hcn : cur.name = c.name := by simpa using List.find?_some h2
    exact ⟨ha.1.symm, ha.2.symm, .inr ⟨h1, cur, List.mem_of_find?_eq_some h2, hcn.trans ha.2, h3, h4⟩⟩
  | alter cur s h1 h2 h3 =>
    rcases h3 with rfl | rfl | rfl | ⟨_, _, rfl⟩ | rfl | ⟨_, _, rfl⟩ | rfl | ⟨_, rfl⟩ <;> simp [addsColumn] at ha
  | _ => simp [addsColumn] at ha

theorem tableStmt_adds {x d : Table} {s : Stmt} {n k : Str}
    (h : TableStmt mode x d s) (ha : addsColumn n k s = true) :
    ∃ prev c, (prev, c) ∈ withPrev none d.columns ∧ ColumnStmt mode x d prev c s := by
  cases h with
  | column prev c s hm h => exact ⟨prev, c, hm, h⟩
  | _ => simp [addsColumn] at ha

theorem defStmts_adds {cur : List Table} {cv : List View} {ct : List Trigger} {e : DDL} {l : List Stmt}
    (hl : defStmts mode cur cv ct e = .ok l) {st : Stmt} (hs : st ∈ l) {n k : Str} (ha : addsColumn n k st = true) :
    ∃ s t x, e = .createTable s t ∧ t.name = n ∧ findTableByName cur n = some x ∧
      generateDDLsForCreateTable mode x t = .ok l := by
  cases e with
  | createTable s t =>
    simp only [defStmts] at hl
    cases hf : findTableByName cur t.name with
    | none => rw [hf] at hl; cases hl; rw [List.mem_singleton.1 hs] at ha; simp [addsColumn] at ha
    | some x =>
      rw [hf] at hl
      obtain ⟨prev, c, hm, hcol⟩ := tableStmt_adds (createTable_shape hl st hs) ha
      have hn := (columnStmt_adds hcol ha).1
      exact ⟨s, t, x, rfl, hn.symm, by rw [hn]; exact hf, hl⟩
  | createIndex s m i =>
    exfalso
    simp only [defStmts, Except.ok.injEq] at hl; subst hl; unfold indexStmts at hs
    split at hs
    · rw [List.mem_singleton.1 hs] at ha; simp [addsColumn] at ha
    · split at hs
      · cases hs
      · simp only [List.mem_cons, List.not_mem_nil, or_false] at hs
        rcases hs with rfl | rfl <;> simp [addsColumn] at ha
  | addIndex s m i =>
    exfalso
    simp only [defStmts, Except.ok.injEq] at hl; subst hl; unfold indexStmts at hs
    split at hs
    · rw [List.mem_singleton.1 hs] at ha; simp [addsColumn] at ha
    · split at hs
      · cases hs
      · simp only [List.mem_cons, List.not_mem_nil, or_false] at hs
        rcases hs with rfl | rfl <;> simp [addsColumn] at ha
  | addForeignKey s m f => simp only [defStmts, Except.ok.injEq] at hl; subst hl; cases hs
  | addPolicy s m p =>
    exfalso
    simp only [defStmts, Except.ok.injEq] at hl; subst hl; unfold policyStmts at hs
    split at hs
    · rw [List.mem_singleton.1 hs] at ha; simp [addsColumn] at ha
    · split at hs
      · cases hs
      · simp only [List.mem_cons, List.not_mem_nil, or_false] at hs
        rcases hs with rfl | rfl <;> simp [addsColumn] at ha
  | view v =>
    have := defStmts_table hl st hs
    cases st <;> simp [addsColumn, Stmt.table, DDL.table] at *
  | trigger t =>
    have := defStmts_table hl st hs
    cases st <;> simp [addsColumn, Stmt.table, DDL.table] at *
  | addPrimaryKey s m i => cases hl

theorem cleanup_adds {D : List Table} {x : Table} {l : List Stmt} (hl : tableCleanup mode D x = .ok l)
    {st : Stmt} (hs : st ∈ l) {n k : Str} : addsColumn n k st = false := by
  unfold tableCleanup at hl
  split at hl
  · cases hl; rw [List.mem_singleton.1 hs]; rfl
  · cases cleanup_shape hl st hs <;> rfl

/-- C24: which columns are added: wanted ones that are missing; for SQL Server also existing ones whose
identity changes (they are dropped before). -/
theorem C24_added_columns (hd : UniqueTables desired) (hc : UniqueTables current)
    (h : diff mode desired current = .ok out) {st : Stmt} (hst : st ∈ out) {n k : Str} (ha : addsColumn n k st = true) :
    ∃ x d, tableIn current n = some x ∧ tableIn desired n = some d ∧ k ∈ d.columns.map (·.name) ∧
      (k ∉ x.columns.map (·.name) ∨ mode = .mssql) := by
  obtain ⟨_, _, sc⟩ := script hd hc h
  rcases sc.mem hst with ⟨e, he, l, hl, hs⟩ | ⟨x, hx, l, hl, hs⟩ | ⟨v, -, -, rfl⟩
  · obtain ⟨s, t, x, rfl, rfl, hx, hg⟩ := defStmts_adds hl hs ha
    obtain ⟨prev, c, hm, hcol⟩ := tableStmt_adds (createTable_shape hg st hs) ha
    obtain ⟨-, rfl, h3⟩ := columnStmt_adds hcol ha
    refine ⟨x, complete desired t, hx, tableIn_of_created hd (mem_created.2 ⟨s, he⟩), ?_, ?_⟩
    · rw [complete_columns sc.wd]; exact List.mem_map_of_mem (mem_withPrev hm)
    · rcases h3 with h3 | ⟨h3, -⟩
      · left
        intro hmem
        obtain ⟨c', hc', he'⟩ := List.mem_map.1 hmem
        have := List.find?_eq_none.1 h3 c' hc'
        simp [he'] at this
      · exact .inr h3
  · rw [cleanup_adds hl hs] at ha; cases ha
  · simp [addsColumn] at ha

/-- C24: a missing column is added exactly once, by a statement that carries its definition (without
AUTO_INCREMENT) and, for MySQL, the place after its predecessor in the desired table. -/
theorem C24_missing_column_is_added_once (hd : UniqueTables desired) (hc : UniqueTables current)
    (h : diff mode desired current = .ok out) {s : Str} {t x : Table} (ht : .createTable s t ∈ desired)
    (hx : tableIn current t.name = some x) (hnd : (t.columns.map (·.name)).Nodup)
    {before after : List Column} {c : Column} (htc : t.columns = before ++ c :: after)
    (hmiss : c.name ∉ x.columns.map (·.name)) :
    out.countP (addsColumn t.name c.name) = 1 ∧
    .addColumn t.name { c with autoIncrement := false }
      (if mode = .mysql then (match before.getLast? with | none => .first | some p => .after p.name) else .none) ∈ out := by
  obtain ⟨xs, ys, sc⟩ := script hd hc h
  obtain ⟨pre, post, hpp⟩ := List.append_of_mem ht
  have hdefs := sc.defs
  rw [hpp] at hdefs
  obtain ⟨a, b, e, ha, hb, he, hxs⟩ := concatMapM_split hdefs
  -- other definitions
  have hu : UniqueTables (pre ++ .createTable s t :: post) := hpp ▸ hd
  have hother : ∀ d ∈ pre ++ post, ∀ l, defStmts mode (tablesOf current) (viewsOf current) (triggersOf current) d = .ok l →
      ∀ st ∈ l, addsColumn t.name c.name st = false := by
    intro d hdm l hl st hs
    by_contra hcon
    have hcon : addsColumn t.name c.name st = true := by simpa using hcon
    obtain ⟨s', t', x', rfl, hn, -, -⟩ := defStmts_adds hl hs hcon
    simp only [UniqueTables, createdNames, created_append, created, List.map_append, List.map_cons,
      List.nodup_append, List.nodup_cons, List.mem_map, List.mem_cons] at hu
    rcases List.mem_append.1 hdm with hm | hm
    · exact hu.2.2 t.name ⟨t', mem_created.2 ⟨s', hm⟩, hn⟩ t.name (.inl rfl) rfl
    · exact hu.2.1.1 ⟨t', mem_created.2 ⟨s', hm⟩, hn⟩
  have hpart : ∀ (ds : List DDL) (r : List Stmt), ds ⊆ pre ++ post →
      concatMapM (defStmts mode (tablesOf current) (viewsOf current) (triggersOf current)) ds = .ok r →
      r.countP (addsColumn t.name c.name) = 0 := by
    intro ds r hds hr
    rw [List.countP_eq_zero]
    intro st hst
    obtain ⟨d, hdm, l, hl, hs⟩ := (mem_concatMapM hr st).1 hst
    simpa using hother d (hds hdm) l hl st hs
  -- the table itself
  simp only [defStmts] at hb
  have hf : findTableByName (tablesOf current) t.name = some x := hx
  rw [hf] at hb
  obtain ⟨cols, rai, pk, idx, aai, fks, h1, h2, h3, h4, h5, h6, hbe⟩ := createTable_parts hb
  have hrest : ∀ st ∈ rai ++ pk ++ idx ++ aai ++ fks, addsColumn t.name c.name st = false := by
    intro st hst
    simp only [List.mem_append] at hst
    rcases hst with (((hs | hs) | hs) | hs) | hs
    · obtain ⟨-, _, -, -, -, rfl⟩ := removeAutoIncrement_shape h2 st hs; rfl
    · obtain ⟨-, ⟨-, -, _, rfl⟩ | ⟨_, -, rfl⟩⟩ := primaryKeyDDLs_shape h3 st hs <;> rfl
    · obtain ⟨_, -, -, -, rfl | ⟨-, rfl⟩⟩ := indexes_shape h4 st hs <;> rfl
    · obtain ⟨-, _, -, -, -, rfl⟩ := addAutoIncrement_shape h5 st hs; rfl
    · obtain ⟨_, -, -, rfl | ⟨-, -, rfl⟩⟩ := foreignKeys_shape h6 st hs <;> rfl
  -- the columns
  have hsplit : withPrev none t.columns = withPrev none before ++
      (before.getLast?.map (·.name), c) :: withPrev (some c.name) after := by
    rw [htc, withPrev_append]; simp [withPrev]
  rw [hsplit] at h1
  obtain ⟨c1, c2, c3, hc1, hc2, hc3, hcols⟩ := concatMapM_split h1
  have hfc : findColumnByName x.columns c.name = none := by
    rw [findColumnByName, List.find?_eq_none]
    intro y hy hyn
    simp only [decide_eq_true_eq] at hyn
    exact hmiss (hyn ▸ List.mem_map_of_mem hy)
  have hc2' : c2 = [.addColumn t.name { c with autoIncrement := false }
      (if mode = .mysql then placeAfter (before.getLast?.map (·.name)) else .none)] := by
    simp only [columnDDLs, hfc] at hc2
    exact (guardText_ok hc2).1
  rw [htc] at hnd
  simp only [List.map_append, List.map_cons, List.nodup_append, List.nodup_cons, List.mem_map, List.mem_cons] at hnd
  have hcol : ∀ (p : Option Str) (cs : List Column) (r : List Stmt), (∀ y ∈ cs, y.name ≠ c.name) →
      concatMapM (fun pc : Option Str × Column => columnDDLs mode x t pc.1 pc.2) (withPrev p cs) = .ok r →
      r.countP (addsColumn t.name c.name) = 0 := by
    intro p cs r hcs hr
    rw [List.countP_eq_zero]
    intro st hst hadd
    obtain ⟨⟨q, y⟩, hy, l, hl, hs⟩ := (mem_concatMapM hr st).1 hst
    have := (columnStmt_adds (columnDDLs_shape hl st hs) hadd).2.1
    exact hcs y (mem_withPrev hy) this.symm
  have hcb : ∀ y ∈ before, y.name ≠ c.name := fun y hy he => hnd.2.2 c.name ⟨y, hy, he⟩ c.name (.inl rfl) rfl
  have hca : ∀ y ∈ after, y.name ≠ c.name := fun y hy he => hnd.2.1.1 ⟨y, hy, he⟩
  have hplace : (match before.getLast? with | none => Place.first | some p => .after p.name) =
      placeAfter (before.getLast?.map (·.name)) := by
    cases before.getLast? <;> rfl
  constructor
  · rw [sc.out_eq, hxs, hbe, hcols, hc2']
    simp only [List.countP_append]
    rw [hpart pre a (by simp) ha, hpart post e (by simp) he, hcol _ _ _ hcb hc1, hcol _ _ _ hca hc3]
    have hz : ∀ l : List Stmt, (∀ st ∈ l, addsColumn t.name c.name st = false) → l.countP (addsColumn t.name c.name) = 0 :=
      fun l hl => List.countP_eq_zero.2 fun st hst => by simp [hl st hst]
    rw [hz rai (fun st hs => hrest st (by simp [hs])), hz pk (fun st hs => hrest st (by simp [hs])),
      hz idx (fun st hs => hrest st (by simp [hs])), hz aai (fun st hs => hrest st (by simp [hs])),
      hz fks (fun st hs => hrest st (by simp [hs])),
      hz ys (fun st hs => by obtain ⟨y, -, l, hl, hs⟩ := (mem_concatMapM sc.clean st).1 hs; exact cleanup_adds hl hs),
      hz (cleanupViews _ _) (fun st hs => by
        unfold cleanupViews at hs
        obtain ⟨v, -, rfl⟩ := List.mem_map.1 hs
        rfl)]
    simp [addsColumn]
  · rw [hplace, sc.out_eq, hxs, hbe, hcols, hc2']
    simp

/-- The hypotheses hold for column `name` of the example. -/
example : exUsers'.columns = [exInt "id" 0] ++ exInt "name" 1 :: [] ∧ tableIn exCurrent exUsers'.name = some exUsers ∧
    (exInt "name" 1).name ∉ exUsers.columns.map (·.name) ∧ (exUsers'.columns.map (·.name)).Nodup := by decide

end Sqldef
