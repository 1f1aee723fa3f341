import Verif.Spec.Normal
import Verif.Props.Independence
import Verif.Props.Compare
/-!
A schema compared with itself: C18, and the second part of C29.
-/
namespace Sqldef
open Spec

variable {mode : Mode}

theorem find_self {α : Type} {l : List α} {key : α → Str} (h : (l.map key).Nodup) {a : α} (ha : a ∈ l) :
    l.find? (fun b => decide (key b = key a)) = some a := by
  induction l with
  | nil => cases ha
  | cons b l ih =>
    simp only [List.map_cons, List.nodup_cons, List.mem_map, not_exists, not_and] at h
    rcases List.mem_cons.1 ha with rfl | ha
    · simp
    · have : key b ≠ key a := fun e => h.1 a ha e.symm
      rw [List.find?_cons_of_neg (by simpa using this)]
      exact ih h.2 ha

theorem nodup_left {α β : Type} {f : α → β} {a b : List α} (h : ((a ++ b).map f).Nodup) : (a.map f).Nodup := by
  rw [List.map_append] at h; exact h.of_append_left

theorem viewsOf_nodup {ds : List DDL} (h : WellFormed ds) : ((viewsOf ds).map (·.name)).Nodup := by
  induction ds using List.reverseRecOn with
  | nil => simp [viewsOf]
  | append_singleton pre d ih =>
    obtain ⟨h1, h2⟩ := wellFormed_snoc.1 h
    rw [viewsOf_append]
    cases d with
    | view v =>
      simp only [viewsOf, List.map_append, List.map_cons, List.map_nil]
      rw [List.nodup_append]
      refine ⟨ih h1, by simp, ?_⟩
      intro a ha b hb
      simp only [List.mem_singleton] at hb
      subst hb
      exact fun e => h2 (e ▸ ha)
    | _ => simpa [viewsOf] using ih h1

theorem wellFormedCurrent_of_wellFormed {ds : List DDL} (h : WellFormed ds) (hi : ∀ s n i, .addIndex s n i ∉ ds) :
    WellFormedCurrent ds := by
  rintro pre d post rfl
  have hf := h pre d post rfl
  cases d with
  | createTable s t => trivial
  | createIndex s n i => obtain ⟨t, ht, -⟩ := hf; exact tableIn_some_iff.1 ⟨t, ht⟩
  | addIndex s n i => exact hi s n i (by simp)
  | addForeignKey s n i => obtain ⟨t, ht, -⟩ := hf; exact tableIn_some_iff.1 ⟨t, ht⟩
  | addPolicy s n i => obtain ⟨t, ht, -⟩ := hf; exact tableIn_some_iff.1 ⟨t, ht⟩
  | view v => trivial
  | trigger v => trivial
  | addPrimaryKey s n i => exact hf.elim

theorem isSelf_column {x d : Table} {prev : Option Str} {c : Column} (hf : findColumnByName x.columns c.name = some c)
    (hm : mode = .mysql → c.check = none ∧ (c.keyOption = .primary → c.notNull = some true)) :
    columnDDLs mode x d prev c = .ok [] := by
  unfold columnDDLs
  rw [hf]
  have hs : (if c.autoIncrement then c else { c with autoIncrement := false }) = c := by
    cases c; simp only; split <;> simp_all
  simp only [hs]
  cases mode with
  | mysql =>
    have hc := (C33_column_refl_iff .mysql c).2 (hm rfl)
    have hm' : changeOrder x d c c = false := by simp [changeOrder]
    simp only [mysqlColumn, mysqlChange, hc, C33_default_refl, hm', mysqlUnique]
    simp [bind, Except.bind, pure, Except.pure]
  | postgres =>
    simp only [postgresColumn, pgDefault, C33_default_refl, C33_data_type_refl, pgNotNull, pgIdentity, C33_identity_refl,
      pgCheck, C33_check_refl]
    simp [bind, Except.bind, pure, Except.pure]
  | mssql =>
    simp only [mssqlColumn, mssqlDefault, mssqlIdentity, mssqlCheck, C33_default_refl, C33_identity_refl, C33_check_refl]
    simp [bind, Except.bind, pure, Except.pure]
  | sqlite3 => rfl

theorem primaryKey_complete {ds : List DDL} {t : Table} (hw : WellFormed ds)
    (hs : ∀ i ∈ indexesFor t.name ds, i.primary = false) : (complete ds t).primaryKey = t.primaryKey := by
  have hc := complete_columns hw t
  have hi : (complete ds t).indexes.find? (·.primary) = t.indexes.find? (·.primary) := by
    simp only [complete]
    rw [List.find?_append]
    have : (indexesFor t.name ds).find? (·.primary) = none := by
      rw [List.find?_eq_none]; intro i hi; simp [hs i hi]
    rw [this]; simp
  unfold Table.primaryKey
  rw [hi, hc]

theorem primaryKey_options {t : Table} {pk : Index} (h : t.primaryKey = some pk)
    (ho : ∀ i ∈ t.indexes, (i.options.map (·.optionName)).Nodup) : (pk.options.map (·.optionName)).Nodup := by
  unfold Table.primaryKey at h
  split at h
  · next hf => cases h; exact ho _ (List.mem_of_find?_eq_some hf)
  · simp only at h
    split at h
    · cases h
    · cases h; simp

/-- A normal table compared with itself gives no statement. -/
theorem createTable_self {ds : List DDL} {t : Table} (hw : WellFormed ds) (h : NormalTable mode ds t) :
    generateDDLsForCreateTable mode (complete ds t) t = .ok [] := by
  have hc := complete_columns hw t
  have h1 : concatMapM (fun pc : Option Str × Column => columnDDLs mode (complete ds t) t pc.1 pc.2) (withPrev none t.columns) = .ok [] := by
    apply concatMapM_nil
    rintro ⟨p, c⟩ hpc
    have hcm := mem_withPrev hpc
    apply isSelf_column
    · rw [hc]; exact find_self h.columns hcm
    · exact fun hm => h.mysql hm c hcm
  have h2 : removeAutoIncrement mode (complete ds t) t = .ok [] := by
    unfold removeAutoIncrement
    split
    · rw [hc]
      apply concatMapM_nil
      intro c hcm
      have : losesAutoIncrement t c = false := by
        have hf : findColumnByName t.columns c.name = some c := find_self h.columns hcm
        unfold losesAutoIncrement
        rw [hf]; cases hai : c.autoIncrement <;> simp [hai]
      simp [this]
    · rfl
  have h3 : primaryKeyDDLs mode (complete ds t) t = .ok [] := by
    unfold primaryKeyDDLs
    have : areSamePrimaryKeys (complete ds t).primaryKey t.primaryKey = true := by
      rw [primaryKey_complete hw h.secondary]
      cases hp : t.primaryKey with
      | none => rfl
      | some pk =>
        exact C33_index_refl pk (primaryKey_options hp fun i hi => h.options i (by simp [hi]))
    simp [this]
  have h4 : concatMapM (tableIndexDDLs mode (complete ds t) t) t.indexes = .ok [] := by
    apply concatMapM_nil
    intro i hi
    unfold tableIndexDDLs
    split
    · rfl
    · have hm : i ∈ (complete ds t).indexes := by simp [complete, hi]
      have hf : findIndexByName (complete ds t).indexes i.name = some i := find_self h.indexes hm
      rw [hf]
      simp [C33_index_refl i (h.options i (by simp [hi]))]
  have h5 : addAutoIncrement mode (complete ds t) t = .ok [] := by
    unfold addAutoIncrement
    split
    · apply concatMapM_nil
      intro c hcm
      have : gainsAutoIncrement (complete ds t) c = false := by
        have hf : findColumnByName (complete ds t).columns c.name = some c := by rw [hc]; exact find_self h.columns hcm
        unfold gainsAutoIncrement
        rw [hf]; cases hai : c.autoIncrement <;> simp [hai]
      simp [this]
    · rfl
  have h6 : concatMapM (tableForeignKeyDDLs mode (complete ds t) t) t.foreignKeys = .ok [] := by
    apply concatMapM_nil
    intro f hf
    unfold tableForeignKeyDDLs
    rw [if_neg (h.named f hf)]
    have hm : f ∈ (complete ds t).foreignKeys := by simp [complete, hf]
    have hff : findForeignKeyByName (complete ds t).foreignKeys f.constraintName = some f := find_self h.foreignKeys hm
    rw [hff]
    simp [C33_foreign_key_refl]
  unfold generateDDLsForCreateTable
  rw [h1, h2, h3, h4, h5, h6]; rfl

theorem cleanup_self (t : Table) : cleanupTable mode t t = .ok [] := by
  have e : ∀ {α : Type} (l : List α) (key : α → Str), (l.filter fun a => !containsString (l.map key) (key a)) = [] := by
    intro α l key
    rw [List.filter_eq_nil_iff]
    intro a ha
    rw [containsString_iff.2 (List.mem_map_of_mem ha)]; simp
  have e2 : (t.indexes.filter fun i => !(containsString (indexNames t.indexes) i.name ||
        containsString (fkIndexNames t.foreignKeys) i.name)) = [] := by
    rw [List.filter_eq_nil_iff]
    intro a ha
    have : containsString (indexNames t.indexes) a.name = true := containsString_iff.2 (List.mem_map_of_mem ha)
    simp [this]
  unfold cleanupTable
  simp only [fkConstraintNames, columnNames, policyNames, e, e2]
  rfl

/-- **C18.** A schema in dump-normal form compared with itself yields no statement. -/
theorem C18_self_diff_is_empty {ds : List DDL} (h : Normal mode ds) : diff mode ds ds = .ok [] := by
  refine (diff_stateless mode ds ds h.unique h.unique []).2 ⟨h.wellFormed,
    wellFormedCurrent_of_wellFormed h.wellFormed h.noAddIndex, [], [], ?_, ?_, ?_⟩
  · apply concatMapM_nil
    intro d hd
    have hmem : ∀ n, DDL.table d = some n → (∀ s t, d ≠ .createTable s t) →
        ∃ s t, .createTable s t ∈ ds ∧ t.name = n := by
      intro n hn hnc
      obtain ⟨pre, post, hpp⟩ := List.append_of_mem hd
      have hc := wellFormedCurrent_of_wellFormed h.wellFormed h.noAddIndex pre d post hpp
      have : n ∈ createdNames pre := by
        cases d with
        | createTable s t => exact absurd rfl (hnc s t)
        | createIndex s m i => cases hn; exact hc
        | addIndex s m i => exact hc.elim
        | addForeignKey s m i => cases hn; exact hc
        | addPolicy s m i => cases hn; exact hc
        | view v => cases hn
        | trigger v => cases hn
        | addPrimaryKey s m i => cases hn; obtain ⟨t, ht, -⟩ := hc; exact tableIn_some_iff.1 ⟨t, ht⟩
      obtain ⟨s, t, ht, hn⟩ := mem_createdNames.1 this
      exact ⟨s, t, by rw [hpp]; simp [ht], hn⟩
    have hfind : ∀ s t, .createTable s t ∈ ds → findTableByName (tablesOf ds) t.name = some (complete ds t) :=
      fun s t ht => tableIn_of_created h.unique (mem_created.2 ⟨s, ht⟩)
    cases d with
    | createTable s t =>
      simp only [defStmts, hfind s t hd]
      exact createTable_self h.wellFormed (h.tables s t hd)
    | createIndex s n i =>
      obtain ⟨s', t, ht, rfl⟩ := hmem n rfl (by simp)
      have hi : i ∈ (complete ds t).indexes := by
        simp only [complete, List.mem_append]
        exact .inr (mem_indexesFor.2 ⟨_, hd, s, .inl rfl⟩)
      have hf : findIndexByName (complete ds t).indexes i.name = some i := find_self (h.tables s' t ht).indexes hi
      simp only [defStmts, indexStmts, hfind s' t ht, Option.bind_some, hf]
      rw [if_pos (C33_index_refl i ((h.tables s' t ht).options i hi))]
    | addIndex s n i => exact absurd hd (h.noAddIndex s n i)
    | addForeignKey s n f => rfl
    | addPolicy s n p =>
      obtain ⟨s', t, ht, rfl⟩ := hmem n rfl (by simp)
      have hp : p ∈ (complete ds t).policies := by
        simp only [complete, List.mem_append]
        exact .inr (mem_policiesFor.2 ⟨s, hd⟩)
      have hf : findPolicyByName (complete ds t).policies p.name = some p := find_self (h.tables s' t ht).policies hp
      simp only [defStmts, policyStmts, hfind s' t ht, Option.bind_some, hf]
      rw [if_pos (C33_policy_refl p)]
    | view v =>
      have hf : findViewByName (viewsOf ds) v.name = some v :=
        find_self (viewsOf_nodup h.wellFormed) (viewsOf_def.2 hd)
      simp [defStmts, viewStmts, hf]
    | trigger v =>
      have hf : findTriggerByName (triggersOf ds) v.name = some v := find_self h.triggers (triggersOf_def.2 hd)
      cases mode <;> simp [defStmts, triggerStmts, hf, C33_trigger_refl]
    | addPrimaryKey s n i =>
      obtain ⟨pre, post, hpp⟩ := List.append_of_mem hd
      exact (h.wellFormed pre _ post hpp).elim
  · apply concatMapM_nil
    intro t ht
    unfold tableCleanup
    have : findTableByName (tablesOf ds) t.name = some t := tableIn_of_mem h.unique ht
    rw [this]
    exact cleanup_self t
  · unfold cleanupViews
    have : ((viewsOf ds).filter fun v => !containsString (viewNames (viewsOf ds)) v.name) = [] := by
      rw [List.filter_eq_nil_iff]
      intro a ha
      have : containsString (viewNames (viewsOf ds)) a.name = true := containsString_iff.2 (List.mem_map_of_mem ha)
      simp [this]
    rw [this]; rfl

/-- A schema with a primary key, an index, a foreign key, separate definitions, a view and a trigger. -/
def exNormalTable : Table :=
  { name := lit "public.users"
    columns := [{ exInt "id" 0 with keyOption := .primary, notNull := some true },
      { exInt "age" 1 with defaultDef := some { value := some { valueType := .int, raw := lit "1", intVal := 1 } } }]
    indexes := [{ name := lit "u", columns := [{ column := lit "age" }], unique := true }]
    foreignKeys := [{ constraintName := lit "fk", indexColumns := [lit "age"], referenceName := lit "t", referenceColumns := [lit "id"] }] }
def exNormal : List DDL :=
  [.createTable (lit "CREATE TABLE public.users") exNormalTable,
   .createIndex (lit "CREATE INDEX i") (lit "public.users") { name := lit "i", columns := [{ column := lit "age" }] },
   .addForeignKey (lit "ALTER TABLE") (lit "public.users")
     { constraintName := lit "fk2", indexColumns := [lit "age"], referenceName := lit "t", referenceColumns := [lit "id"] },
   .view ⟨lit "CREATE VIEW v", lit "v", lit "select 1"⟩]

theorem exNormal_normal : Normal mode exNormal where
  unique := by decide
  wellFormed := by
    have e : exNormal = [] ++ [exNormal[0]] ++ [exNormal[1]] ++ [exNormal[2]] ++ [exNormal[3]] := by decide
    rw [e, wellFormed_snoc, wellFormed_snoc, wellFormed_snoc, wellFormed_snoc]
    refine ⟨⟨⟨⟨wellFormed_nil, trivial⟩, ?_⟩, ?_⟩, ?_⟩
    · exact ⟨_, rfl, by decide⟩
    · exact ⟨_, rfl, by decide⟩
    · show _ ∉ _; decide
  noAddIndex := by intro s n i h; simp [exNormal] at h
  tables := by
    intro s t h
    have : t = exNormalTable := by simp [exNormal] at h; exact h.2
    subst this
    exact ⟨by decide, by decide, by decide, by decide, by decide, by decide, by decide, fun _ => by decide⟩
  triggers := by decide

example : diff .mysql exNormal exNormal = .ok [] ∧ diff .postgres exNormal exNormal = .ok [] :=
  ⟨C18_self_diff_is_empty exNormal_normal, C18_self_diff_is_empty exNormal_normal⟩

/-- **C18 is violated for MySQL columns with CHECK**: whatever else the schema contains, comparing it with itself
changes every column that has a CHECK. -/
theorem C18_check_column_is_always_changed {ds : List DDL} {out : List Stmt} (hu : UniqueTables ds)
    (h : diff .mysql ds ds = .ok out) {s : Str} {t : Table} (ht : .createTable s t ∈ ds)
    (hn : (t.columns.map (·.name)).Nodup) {c : Column} (hc : c ∈ t.columns) (hk : c.check ≠ none) :
    ∃ p, .changeColumn t.name c.name c p ∈ out := by
  obtain ⟨_, _, sc⟩ := script hu hu h
  obtain ⟨l, m, hl, hlo, -, -⟩ := sc.shared ht (tableIn_of_created hu (mem_created.2 ⟨s, ht⟩))
  obtain ⟨cols, rai, pk, idx, aai, fks, h1, -, -, -, -, -, rfl⟩ := createTable_parts hl
  obtain ⟨prev, hp⟩ : ∃ prev, (prev, c) ∈ withPrev none t.columns := by
    generalize (none : Option Str) = o
    revert hc
    clear h1 hl hn sc
    generalize t.columns = cs
    intro hc
    induction cs generalizing o with
    | nil => cases hc
    | cons a cs ih =>
      rcases List.mem_cons.1 hc with rfl | hc
      · exact ⟨o, by simp [withPrev]⟩
      · obtain ⟨p, hp⟩ := ih (some a.name) hc
        exact ⟨p, by simp [withPrev, hp]⟩
  obtain ⟨z, hz, hsub⟩ := concatMapM_ok_mem h1 _ hp
  have hf : findColumnByName (complete ds t).columns c.name = some c := by
    rw [complete_columns sc.wd]; exact find_self hn hc
  simp only [columnDDLs, hf] at hz
  have hs : (if c.autoIncrement then c else { c with autoIncrement := false }) = c := by
    cases c; simp only; split <;> simp_all
  rw [hs] at hz
  obtain ⟨ch, hch, hz⟩ := bind_ok.1 hz
  cases hz
  simp only [mysqlChange, C33_check_column_always_differs .mysql c c (.inl hk), Bool.not_false, Bool.true_or, if_true] at hch
  obtain ⟨rfl, -⟩ := guardText_ok hch
  refine ⟨if changeOrder (complete ds t) t c c then placeAfter prev else .none, hlo ?_⟩
  simp only [List.mem_append]
  exact .inl (.inl (.inl (.inl (.inl (hsub (by simp))))))

example : diff .mysql [exCreate { exUsers with columns := [{ exInt "id" 0 with check := some { definition := lit "id > 0" } }] }]
    [exCreate { exUsers with columns := [{ exInt "id" 0 with check := some { definition := lit "id > 0" } }] }] =
    .ok [.changeColumn (lit "users") (lit "id") { exInt "id" 0 with check := some { definition := lit "id > 0" } } .none] := by
  decide +kernel

def exOption (v : String) (i : Int) : IndexOption :=
  { optionName := lit "fillfactor", value := some { valueType := .int, raw := lit v, intVal := i } }

/-- **C18 is violated for a MySQL column declared PRIMARY KEY without NOT NULL, and for a repeated index option.** -/
theorem C18_other_violations :
    (∃ t, diff .mysql [exCreate t] [exCreate t] ≠ .ok [] ∧ t.columns.all (fun c => c.check.isNone) = true) ∧
    (∃ t, diff .postgres [exCreate t] [exCreate t] ≠ .ok [] ∧ t.columns.all (fun c => c.check.isNone) = true) :=
  ⟨⟨{ exUsers with columns := [{ exInt "id" 0 with keyOption := .primary }] }, by decide +kernel, by decide⟩,
   ⟨{ exUsers with indexes := [{ exIdx "i" "id" with options := [exOption "10" 10, exOption "20" 20] }] },
    by decide +kernel, by decide⟩⟩

/-! ### C29 -/

theorem about_idem (n : Str) (ds : List DDL) : about n (about n ds) = about n ds := by
  simp [about, List.filter_filter]

/-- **C29.** A table defined identically, and in normal form, in both schemas is not touched, whatever the other
definitions are. -/
theorem C29_unchanged_table_is_not_touched {desired current : List DDL} {out : List Stmt} (hd : UniqueTables desired)
    (hc : UniqueTables current) (h : diff mode desired current = .ok out) {n : Str}
    (hsame : about n desired = about n current) (hn : Normal mode (about n desired)) :
    ∀ s ∈ out, Stmt.table s ≠ some n := by
  have h0 := C18_self_diff_is_empty hn
  have := C29_only_own_definitions_matter hd hc hn.unique hn.unique h h0 (about_idem n desired).symm
    (by rw [← hsame]; exact (about_idem n desired).symm)
  intro s hs e
  have hm : s ∈ out.filter fun s => decide (Stmt.table s = some n) := List.mem_filter.2 ⟨hs, by simpa using e⟩
  rw [this] at hm
  cases hm

example : about (lit "public.users") exNormal = about (lit "public.users") (exCreate exLogs :: exNormal) ∧
    Normal .postgres (about (lit "public.users") exNormal) ∧
    diff .postgres exNormal (exCreate exLogs :: exNormal) = .ok [.dropTable (lit "logs")] := by
  refine ⟨by decide, ?_, by decide +kernel⟩
  have e : about (lit "public.users") exNormal = [exNormal[0], exNormal[1], exNormal[2]] := by decide
  rw [e]
  refine ⟨by decide, ?_, ?_, ?_, by decide⟩
  · have e : [exNormal[0], exNormal[1], exNormal[2]] = [] ++ [exNormal[0]] ++ [exNormal[1]] ++ [exNormal[2]] := by decide
    rw [e, wellFormed_snoc, wellFormed_snoc, wellFormed_snoc]
    refine ⟨⟨⟨wellFormed_nil, trivial⟩, ?_⟩, ?_⟩
    · exact ⟨_, rfl, by decide⟩
    · exact ⟨_, rfl, by decide⟩
  · intro s n i h; simp [exNormal] at h
  · intro s t h
    have : t = exNormalTable := by simp [exNormal] at h; exact h.2
    subst this
    exact ⟨by decide, by decide, by decide, by decide, by decide, by decide, by decide, fun _ => by decide⟩

end Sqldef
