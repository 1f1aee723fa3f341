import Verif.Proofs.DefStmt
import Verif.Props.Tables
import Verif.Props.Compare
/-!
Indexes, foreign keys, policies, views and triggers: C25, C38, C39, C40, C41.
-/
namespace Sqldef
open Spec

variable {mode : Mode} {desired current : List DDL} {out : List Stmt}

/-! ### C25: indexes -/

theorem mem_fkIndexNames {fks : List ForeignKey} {i : Str} :
    i ∈ fkIndexNames fks ↔ i ≠ [] ∧ ∃ f ∈ fks, f.indexName = i ∨ (f.indexName = [] ∧ f.constraintName = i) := by
  simp only [fkIndexNames, List.mem_filterMap]
  constructor
  · rintro ⟨f, hf, h⟩
    split at h
    · next hne => cases h; exact ⟨hne, f, hf, .inl rfl⟩
    · next hne =>
      split at h
      · next hc => cases h; exact ⟨hc, f, hf, .inr ⟨by simpa using hne, rfl⟩⟩
      · cases h
  · rintro ⟨hi, f, hf, rfl | ⟨h1, rfl⟩⟩
    · exact ⟨f, hf, by rw [if_pos hi]⟩
    · exact ⟨f, hf, by rw [if_neg (by simp [h1]), if_pos hi]⟩

theorem isUnique_iff {k : ColumnKeyOption} : k.isUnique = true ↔ k = .unique ∨ k = .uniqueKey := by
  cases k <;> simp [ColumnKeyOption.isUnique]

/-- A wanted index of table `n`, as the desired schema defines it. -/
def WantedIndex (desired : List DDL) (n : Str) (i : Index) : Prop :=
  ∃ d, tableIn desired n = some d ∧ i ∈ d.indexes

theorem mem_indexesFor {n : Str} {i : Index} {ds : List DDL} : i ∈ indexesFor n ds ↔ ∃ d ∈ ds, DefinesIndex n i d := by
  induction ds with
  | nil => simp [indexesFor]
  | cons d ds ih =>
    simp only [List.mem_cons, exists_eq_or_imp]
    rw [← ih, DefinesIndex]
    cases d with
    | createIndex s m j =>
      by_cases h : m = n
      · subst h; simp [indexesFor, eq_comm]
      · simp [indexesFor, h]
    | addIndex s m j =>
      by_cases h : m = n
      · subst h; simp [indexesFor, eq_comm]
      · simp [indexesFor, h]
    | _ => simp [indexesFor]

theorem wanted_of_created (hd : UniqueTables desired) {s : Str} {t : Table} (ht : .createTable s t ∈ desired) {i : Index}
    (hi : i ∈ t.indexes) : WantedIndex desired t.name i :=
  ⟨complete desired t, tableIn_of_created hd (mem_created.2 ⟨s, ht⟩), by simp [complete, hi]⟩

theorem wanted_of_defined (hw : WellFormed desired) (hu : UniqueTables desired) {d : DDL} (hd : d ∈ desired) {n : Str} {i : Index}
    (hi : DefinesIndex n i d) : WantedIndex desired n i := by
  obtain ⟨pre, post, hpp⟩ := List.append_of_mem hd
  have hf := hw pre d post hpp
  have hn : n ∈ createdNames pre := by
    obtain ⟨s, rfl | rfl⟩ := hi <;>
    · obtain ⟨t, ht, -⟩ := hf
      exact tableIn_some_iff.1 ⟨t, ht⟩
  have hn' : n ∈ createdNames desired := by
    rw [hpp]; simp only [createdNames, created_append, List.map_append, List.mem_append]; exact .inl hn
  obtain ⟨t, ht⟩ := tableIn_some_iff.2 hn'
  obtain ⟨s, t', ht', hnn, rfl⟩ := (tableIn_iff hu).1 ht
  refine ⟨_, ht, ?_⟩
  simp only [complete, List.mem_append]
  right
  rw [hnn]
  exact mem_indexesFor.2 ⟨d, hd, hi⟩

/-- C25: wherever the script drops an index that the desired schema wants, the next statement creates it
again as the desired schema defines it. -/
theorem C25_wanted_index_is_created_again (hd : UniqueTables desired) (hc : UniqueTables current)
    (h : diff mode desired current = .ok out) :
    FollowedBy (fun s => ∃ n i, s = .dropIndex n i ∧ ∃ j, WantedIndex desired n j ∧ j.name = i)
      (fun s b => ∃ n i j, s = .dropIndex n i ∧ j.name = i ∧ WantedIndex desired n j ∧ CreatesIndex n j b) out := by
  obtain ⟨xs, ys, sc⟩ := script hd hc h
  rw [sc.out_eq]
  refine followedBy_append (followedBy_append ?_ ?_) ?_
  · refine followedBy_concatMapM sc.defs fun d hdm z hz => ?_
    cases d with
    | createTable s t =>
      simp only [defStmts] at hz
      cases hf : findTableByName (tablesOf current) t.name with
      | none => rw [hf] at hz; cases hz; exact followedBy_none (by simp)
      | some x =>
        rw [hf] at hz
        obtain ⟨cols, rai, pk, idx, aai, fks, h1, h2, h3, h4, h5, h6, rfl⟩ := createTable_parts hz
        refine followedBy_append (followedBy_append (followedBy_append (followedBy_append (followedBy_append ?_ ?_) ?_) ?_) ?_) ?_
        · apply followedBy_none
          rintro st hst ⟨n, i, rfl, -⟩
          obtain ⟨prev, c, hm, hcol⟩ := columns_shape h1 _ hst
          generalize hg : Stmt.dropIndex n i = st at hcol
          cases hcol with
          | alter cur s h1 h2 h3 => subst hg; rcases h3 with h3 | h3 | h3 | ⟨_, _, h3⟩ | h3 | ⟨_, _, h3⟩ | h3 | ⟨_, h3⟩ <;> cases h3
          | _ => cases hg
        · apply followedBy_none
          rintro st hst ⟨n, i, rfl, -⟩
          obtain ⟨-, _, -, -, -, h⟩ := removeAutoIncrement_shape h2 _ hst; cases h
        · apply followedBy_none
          rintro st hst ⟨n, i, rfl, -⟩
          obtain ⟨-, ⟨-, -, _, h⟩ | ⟨_, -, h⟩⟩ := primaryKeyDDLs_shape h3 _ hst <;> cases h
        · refine followedBy_concatMapM h4 fun j hj z hz => ?_
          rw [tableIndexDDLs_eq hz]
          split
          · exact followedBy_nil
          · split
            · exact followedBy_none (by simp)
            · split
              · exact followedBy_nil
              · refine followedBy_pair (by simp) fun _ => ?_
                exact ⟨t.name, j.name, j, rfl, rfl, wanted_of_created hd hdm hj, rfl, rfl⟩
        · apply followedBy_none
          rintro st hst ⟨n, i, rfl, -⟩
          obtain ⟨-, _, -, -, -, h⟩ := addAutoIncrement_shape h5 _ hst; cases h
        · apply followedBy_none
          rintro st hst ⟨n, i, rfl, -⟩
          obtain ⟨_, -, -, h | ⟨-, -, h⟩⟩ := foreignKeys_shape h6 _ hst <;> cases h
    | createIndex s n i =>
      simp only [defStmts, Except.ok.injEq] at hz
      subst hz
      unfold indexStmts
      split
      · exact followedBy_none (by simp)
      · split
        · exact followedBy_nil
        · refine followedBy_pair (by simp) fun _ => ?_
          exact ⟨n, i.name, i, rfl, rfl, wanted_of_defined sc.wd hd hdm ⟨s, .inl rfl⟩, ⟨s, .inl rfl⟩⟩
    | addIndex s n i =>
      simp only [defStmts, Except.ok.injEq] at hz
      subst hz
      unfold indexStmts
      split
      · exact followedBy_none (by simp)
      · split
        · exact followedBy_nil
        · refine followedBy_pair (by simp) fun _ => ?_
          exact ⟨n, i.name, i, rfl, rfl, wanted_of_defined sc.wd hd hdm ⟨s, .inr rfl⟩, ⟨s, .inr rfl⟩⟩
    | addForeignKey s n f => simp only [defStmts, Except.ok.injEq] at hz; subst hz; exact followedBy_nil
    | addPolicy s n p =>
      simp only [defStmts, Except.ok.injEq] at hz
      subst hz
      apply followedBy_none
      rintro st hst ⟨n, i, rfl, -⟩
      unfold policyStmts at hst
      split at hst
      · simp at hst
      · split at hst <;> simp at hst
    | view v =>
      apply followedBy_none
      rintro st hst ⟨n, i, rfl, -⟩
      have := defStmts_table hz _ hst
      simp [Stmt.table, DDL.table] at this
    | trigger t =>
      apply followedBy_none
      rintro st hst ⟨n, i, rfl, -⟩
      have := defStmts_table hz _ hst
      simp [Stmt.table, DDL.table] at this
    | addPrimaryKey s n i => cases hz
  · apply followedBy_none
    rintro st hst ⟨n, i, rfl, j, ⟨d, hdd, hj⟩, rfl⟩
    obtain ⟨x, hx, l, hl, hs⟩ := (mem_concatMapM sc.clean _).1 hst
    have htab := tableCleanup_table hl _ hs
    simp only [Stmt.table, Option.some.injEq] at htab
    unfold tableCleanup at hl
    rw [← htab] at hl
    have : findTableByName (tablesOf desired) n = some d := hdd
    rw [this] at hl
    generalize hg : Stmt.dropIndex n j.name = st at hs
    cases cleanup_shape hl _ hs with
    | index i h1 h2 h3 h4 h5 =>
      obtain ⟨-, he⟩ := Stmt.dropIndex.inj hg
      exact h3 (he ▸ List.mem_map_of_mem hj)
    | _ => cases hg
  · apply followedBy_none
    rintro st hst ⟨n, i, rfl, -⟩
    unfold cleanupViews at hst
    simp at hst

/-- C25: which indexes are dropped: wanted ones whose definition changes, and obsolete secondary ones, that
is, neither wanted nor implied by a foreign key or unique column of the desired table. -/
theorem C25_dropped_indexes (hd : UniqueTables desired) (hc : UniqueTables current)
    (h : diff mode desired current = .ok out) {n i : Str} (hs : .dropIndex n i ∈ out) :
    ∃ x d, tableIn current n = some x ∧ tableIn desired n = some d ∧
      ((∃ c ∈ x.indexes, ∃ j ∈ d.indexes, c.name = i ∧ j.name = i ∧ areSameIndexes c j = false) ∨
       (∃ c ∈ x.indexes, c.name = i ∧ c.primary = false ∧ i ∉ d.indexes.map (·.name) ∧
          ¬ ImpliedByForeignKey d i ∧ ¬ ImpliedByUniqueColumn d c)) := by
  obtain ⟨xs, ys, sc⟩ := script hd hc h
  generalize hg : Stmt.dropIndex n i = st at hs
  cases sc.origin hs with
  | definition e s he hde =>
    cases hde with
    | table s t x st hf hts =>
      cases hts with
      | column prev c s hm hcol =>
        cases hcol with
        | alter cur s h1 h2 h3 => subst hg; rcases h3 with h3 | h3 | h3 | ⟨_, _, h3⟩ | h3 | ⟨_, _, h3⟩ | h3 | ⟨_, h3⟩ <;> cases h3
        | _ => cases hg
      | dropIndex j c h1 h2 h3 h4 =>
        obtain ⟨rfl, rfl⟩ := Stmt.dropIndex.inj hg
        refine ⟨x, complete desired t, hf, tableIn_of_created hd (mem_created.2 ⟨s, he⟩), .inl ⟨c, ?_, j, ?_, ?_, rfl, h4⟩⟩
        · exact List.mem_of_find?_eq_some h3
        · simp [complete, h1]
        · simpa using List.find?_some h3
      | _ => cases hg
    | dropIndex _ m j c hj h1 h2 =>
      obtain ⟨rfl, rfl⟩ := Stmt.dropIndex.inj hg
      obtain ⟨d, hdd, hjd⟩ := wanted_of_defined sc.wd hd he hj
      cases hx : findTableByName (tablesOf current) n with
      | none => rw [hx] at h1; cases h1
      | some x =>
        rw [hx] at h1
        simp only [Option.bind_some] at h1
        refine ⟨x, d, hx, hdd, .inl ⟨c, List.mem_of_find?_eq_some h1, j, hjd, ?_, rfl, h2⟩⟩
        simpa using List.find?_some h1
    | _ => cases hg
  | clean x d s hx hdd hcl =>
    cases hcl with
    | index c h1 h2 h3 h4 h5 =>
      obtain ⟨rfl, rfl⟩ := Stmt.dropIndex.inj hg
      refine ⟨x, d, hx, hdd, .inr ⟨c, h1, rfl, h2, h3, fun hi => h4 (mem_fkIndexNames.2 hi), ?_⟩⟩
      rintro ⟨hu, k, hk, col, hcol, hcn, hku⟩
      have := h5 hu col k hk hcol hcn
      rw [isUnique_iff.2 hku] at this
      cases this
    | _ => cases hg
  | dropTable => cases hg
  | dropView => cases hg

/-- C25: an obsolete secondary index is dropped. -/
theorem C25_obsolete_index_is_dropped (hd : UniqueTables desired) (hc : UniqueTables current)
    (h : diff mode desired current = .ok out) {n : Str} {x d : Table} (hx : tableIn current n = some x)
    (hdd : tableIn desired n = some d) {i : Index} (hi : i ∈ x.indexes) (hp : i.primary = false)
    (hw : i.name ∉ d.indexes.map (·.name)) (hfk : ¬ ImpliedByForeignKey d i.name) (huc : ¬ ImpliedByUniqueColumn d i) :
    .dropIndex n i.name ∈ out := by
  obtain ⟨_, _, sc⟩ := script hd hc h
  obtain ⟨s, t, ht, rfl, rfl⟩ := (tableIn_iff hd).1 hdd
  obtain ⟨l, m, -, -, hm, hmo⟩ := sc.shared ht hx
  obtain ⟨idx, hidx, rfl⟩ := cleanup_parts hm
  apply hmo
  simp only [List.mem_append]
  refine .inl (.inl (.inr ?_))
  have himem : i ∈ x.indexes.filter fun i => !(containsString (indexNames (complete desired t).indexes) i.name ||
          containsString (fkIndexNames (complete desired t).foreignKeys) i.name) := by
    refine List.mem_filter.2 ⟨hi, ?_⟩
    simp only [Bool.not_eq_true', Bool.or_eq_false_iff, not_containsString]
    exact ⟨hw, fun hm => hfk (mem_fkIndexNames.1 hm)⟩
  obtain ⟨l', hl', hsub⟩ := concatMapM_ok_mem hidx i himem
  apply hsub
  have hname := tableIn_name hx
  unfold absentIndex at hl'
  rw [if_neg (by simp [hp])] at hl'
  split at hl'
  · next hu =>
    split at hl'
    · next hnil =>
      split at hl'
      · cases hl'; simp [hname]
      · cases hl'
    · next k ks hk =>
      split at hl'
      · next hany =>
        exfalso
        simp only [List.any_eq_true, Bool.and_eq_true, decide_eq_true_eq] at hany
        obtain ⟨col, hcol, hcn, hku⟩ := hany
        exact huc ⟨hu, k, by rw [hk]; rfl, col, hcol, hcn, isUnique_iff.1 hku⟩
      · cases hl'; simp [hname]
  · cases hl'; simp [hname]

/-- C25: a wanted index that is missing is created. -/
theorem C25_missing_index_is_created (hd : UniqueTables desired) (hc : UniqueTables current)
    (h : diff mode desired current = .ok out) {n : Str} {x d : Table} (hx : tableIn current n = some x)
    (hdd : tableIn desired n = some d) {i : Index} (hi : i ∈ d.indexes) (hp : i.primary = false)
    (hw : i.name ∉ x.indexes.map (·.name)) : ∃ st ∈ out, CreatesIndex n i st := by
  obtain ⟨_, _, sc⟩ := script hd hc h
  obtain ⟨s, t, ht, rfl, rfl⟩ := (tableIn_iff hd).1 hdd
  have hfind : findIndexByName x.indexes i.name = none := by
    rw [findIndexByName, List.find?_eq_none]
    intro y hy hyn
    simp only [decide_eq_true_eq] at hyn
    exact hw (hyn ▸ List.mem_map_of_mem hy)
  simp only [complete, List.mem_append] at hi
  rcases hi with hi | hi
  · obtain ⟨l, m, hl, hlo, -, -⟩ := sc.shared ht hx
    obtain ⟨cols, rai, pk, idx, aai, fks, h1, h2, h3, h4, h5, h6, rfl⟩ := createTable_parts hl
    obtain ⟨z, hz, hzs⟩ := concatMapM_ok_mem h4 i hi
    rw [tableIndexDDLs_eq hz, if_neg (by simp [hp]), hfind] at hzs
    refine ⟨.addIndex t.name i, hlo ?_, rfl, rfl⟩
    simp only [List.mem_append]
    exact .inl (.inl (.inr (hzs (by simp))))
  · obtain ⟨d, hdm, hdi⟩ := mem_indexesFor.1 hi
    have := sc.index hdm hdi
    refine ⟨.user d, this ?_, hdi⟩
    have hf : findTableByName (tablesOf current) t.name = some x := hx
    simp [indexStmts, hf, hfind]

/-- C25 fails for SQLite: for an obsolete index the generator emits an empty statement. -/
theorem C25_sqlite3_drops_nothing :
    ∃ desired current out, UniqueTables desired ∧ UniqueTables current ∧ diff .sqlite3 desired current = .ok out ∧
      (∃ x d, tableIn current (lit "users") = some x ∧ tableIn desired (lit "users") = some d ∧
        (lit "k") ∈ x.indexes.map (·.name) ∧ (lit "k") ∉ d.indexes.map (·.name)) ∧
      out.map (Stmt.render .sqlite3) = [[]] :=
  ⟨[exCreate exUsers], [exCreate { exUsers with indexes := [{ name := lit "k", columns := [{ column := lit "id" }] }] }],
   [.dropIndex (lit "users") (lit "k")], by decide, by decide, by decide +kernel,
   ⟨{ exUsers with indexes := [{ name := lit "k", columns := [{ column := lit "id" }] }] }, exUsers,
     by decide, by decide, by decide, by decide⟩, rfl⟩

/-- For the other dialects the statement is not empty and names the index. -/
theorem C25_drop_index_text (hm : mode ≠ .sqlite3) (n i : Str) :
    ∃ a b, Stmt.render mode (.dropIndex n i) = a ++ lit "DROP INDEX " ++ escapeSQLName mode i ++ b := by
  cases mode with
  | mysql => exact ⟨alterTable .mysql n, [], by simp [Stmt.render, generateDropIndex]⟩
  | postgres => exact ⟨[], [], by simp [Stmt.render, generateDropIndex]⟩
  | mssql => exact ⟨[], lit " ON " ++ escapeTableName .mssql n, by simp [Stmt.render, generateDropIndex]⟩
  | sqlite3 => exact absurd rfl hm

/-- An index that changes, one that goes, one that a unique column keeps, one that a foreign key keeps. -/
def exIdx (n c : String) (u : Bool := false) : Index := { name := lit n, columns := [{ column := lit c }], unique := u }
def exIdxCurrent : List DDL :=
  [exCreate { exUsers with indexes := [exIdx "changes" "id", exIdx "goes" "id", exIdx "u" "age" true, exIdx "f" "id"] }]
def exIdxDesired : List DDL :=
  [exCreate { exUsers with
      columns := [exInt "id" 0, { exInt "age" 1 with keyOption := .unique }],
      indexes := [exIdx "changes" "age"],
      foreignKeys := [{ constraintName := lit "f", indexColumns := [], referenceName := [], referenceColumns := [] }] }]
example : diff .postgres exIdxDesired exIdxCurrent = .ok
    [.dropIndex (lit "users") (lit "changes"), .addIndex (lit "users") (exIdx "changes" "age"),
     .addForeignKey (lit "users")
       { constraintName := lit "f", indexColumns := [], referenceName := [], referenceColumns := [] },
     .dropIndex (lit "users") (lit "goes")] := by decide +kernel

/-! ### C41: foreign keys -/

theorem areSameForeignKeys_iff (mode : Mode) (a b : ForeignKey) : areSameForeignKeys mode a b = true ↔ SameActions mode a b := by
  have : ∀ s, normalizeAction mode s = action mode s := by
    intro s; cases mode <;> simp [normalizeAction, action]
  simp [areSameForeignKeys, SameActions, this, and_assoc]

theorem not_sameActions {a b : ForeignKey} : areSameForeignKeys mode a b = false ↔ ¬ SameActions mode a b := by
  rw [← areSameForeignKeys_iff]; simp

/-- C41: a foreign key is added to an existing table exactly if the desired CREATE TABLE has it and the
current table lacks it or has it with other actions. -/
theorem C41_add_foreign_key_iff (hd : UniqueTables desired) (hc : UniqueTables current)
    (h : diff mode desired current = .ok out) (n : Str) (f : ForeignKey) :
    .addForeignKey n f ∈ out ↔
      ∃ s t x, .createTable s t ∈ desired ∧ t.name = n ∧ tableIn current n = some x ∧ f ∈ t.foreignKeys ∧
        ∀ c, x.foreignKeys.find? (·.constraintName = f.constraintName) = some c → ¬ SameActions mode c f := by
  obtain ⟨xs, ys, sc⟩ := script hd hc h
  constructor
  · intro hs
    generalize hg : Stmt.addForeignKey n f = st at hs
    cases sc.origin hs with
    | definition e s he hde =>
      cases hde with
      | table s t x st hf hts =>
        cases hts with
        | column prev c s hm hcol =>
          cases hcol with
          | alter cur s h1 h2 h3 => subst hg; rcases h3 with h3 | h3 | h3 | ⟨_, _, h3⟩ | h3 | ⟨_, _, h3⟩ | h3 | ⟨_, h3⟩ <;> cases h3
          | _ => cases hg
        | addFk g h1 h2 =>
          obtain ⟨rfl, rfl⟩ := Stmt.addForeignKey.inj hg
          exact ⟨s, t, x, he, rfl, hf, h1, fun c hc => not_sameActions.1 (h2 c hc)⟩
        | _ => cases hg
      | _ => cases hg
    | clean x d s hx hdd hcl => cases hcl <;> cases hg
    | dropTable => cases hg
    | dropView => cases hg
  · rintro ⟨s, t, x, ht, rfl, hx, hf, hdiff⟩
    obtain ⟨l, m, hl, hlo, -, -⟩ := sc.shared ht hx
    obtain ⟨cols, rai, pk, idx, aai, fks, h1, h2, h3, h4, h5, h6, rfl⟩ := createTable_parts hl
    obtain ⟨z, hz, hzs⟩ := concatMapM_ok_mem h6 f hf
    apply hlo
    simp only [List.mem_append]
    right
    apply hzs
    rw [(tableForeignKeyDDLs_eq hz).2]
    split
    · simp
    · next c hc =>
      have := not_sameActions.2 (hdiff c hc)
      rw [if_neg (by simp [this])]
      split <;> simp

/-- C41: which foreign keys are dropped: changed ones, and obsolete ones to which no column refers (MySQL:
all obsolete ones). SQLite never drops a foreign key. -/
theorem C41_drop_foreign_key_iff (hd : UniqueTables desired) (hc : UniqueTables current)
    (h : diff mode desired current = .ok out) (n k : Str) :
    .dropForeignKey n k ∈ out ↔ mode ≠ .sqlite3 ∧
      ((∃ s t x f c, .createTable s t ∈ desired ∧ t.name = n ∧ tableIn current n = some x ∧ f ∈ t.foreignKeys ∧
          f.constraintName = k ∧ x.foreignKeys.find? (·.constraintName = k) = some c ∧ ¬ SameActions mode c f) ∨
       (∃ x d f, tableIn current n = some x ∧ tableIn desired n = some d ∧ f ∈ x.foreignKeys ∧ f.constraintName = k ∧
          k ∉ d.foreignKeys.map (·.constraintName) ∧
          (mode = .mysql ∨ ∀ c ∈ d.columns, c.references ≠ f.referenceName))) := by
  obtain ⟨xs, ys, sc⟩ := script hd hc h
  constructor
  · intro hs
    generalize hg : Stmt.dropForeignKey n k = st at hs
    cases sc.origin hs with
    | definition e s he hde =>
      cases hde with
      | table s t x st hf hts =>
        cases hts with
        | column prev c s hm hcol =>
          cases hcol with
          | alter cur s h1 h2 h3 => subst hg; rcases h3 with h3 | h3 | h3 | ⟨_, _, h3⟩ | h3 | ⟨_, _, h3⟩ | h3 | ⟨_, h3⟩ <;> cases h3
          | _ => cases hg
        | dropFk g c h1 h2 h3 h4 =>
          obtain ⟨rfl, rfl⟩ := Stmt.dropForeignKey.inj hg
          exact ⟨h4, .inl ⟨s, t, x, g, c, he, rfl, hf, h1, rfl, h2, not_sameActions.1 h3⟩⟩
        | _ => cases hg
      | _ => cases hg
    | clean x d s hx hdd hcl =>
      cases hcl with
      | fk g h1 h2 h3 h4 =>
        obtain ⟨rfl, rfl⟩ := Stmt.dropForeignKey.inj hg
        exact ⟨h3, .inr ⟨x, d, g, hx, hdd, h1, rfl, h2, h4⟩⟩
      | _ => cases hg
    | dropTable => cases hg
    | dropView => cases hg
  · rintro ⟨hm, ⟨s, t, x, f, c, ht, rfl, hx, hf, rfl, hcf, hdiff⟩ | ⟨x, d, f, hx, hdd, hf, rfl, hk, href⟩⟩
    · obtain ⟨l, m, hl, hlo, -, -⟩ := sc.shared ht hx
      obtain ⟨cols, rai, pk, idx, aai, fks, h1, h2, h3, h4, h5, h6, rfl⟩ := createTable_parts hl
      obtain ⟨z, hz, hzs⟩ := concatMapM_ok_mem h6 f hf
      apply hlo
      simp only [List.mem_append]
      right
      apply hzs
      rw [(tableForeignKeyDDLs_eq hz).2]
      have hcf : findForeignKeyByName x.foreignKeys f.constraintName = some c := hcf
      rw [hcf]
      have := not_sameActions.2 hdiff
      simp [this, hm]
    · obtain ⟨s, t, ht, rfl, rfl⟩ := (tableIn_iff hd).1 hdd
      obtain ⟨l, m, -, -, hm', hmo⟩ := sc.shared ht hx
      obtain ⟨idx, hidx, rfl⟩ := cleanup_parts hm'
      apply hmo
      simp only [List.mem_append]
      refine .inl (.inl (.inl (List.mem_flatMap.2 ⟨f, List.mem_filter.2 ⟨hf, ?_⟩, ?_⟩)))
      · rw [Bool.not_eq_true', not_containsString]; exact hk
      · have hname := tableIn_name hx
        cases mode with
        | mysql => simp [absentForeignKey, hname]
        | sqlite3 => exact absurd rfl hm
        | postgres =>
          have hr : ∀ c ∈ (complete desired t).columns, c.references ≠ f.referenceName := by simpa using href
          have : (complete desired t).columns.any (fun c => decide (c.references = f.referenceName)) = false := by
            rw [List.any_eq_false]; intro c hc; simpa using hr c hc
          simp [absentForeignKey, hname, this]
        | mssql =>
          have hr : ∀ c ∈ (complete desired t).columns, c.references ≠ f.referenceName := by simpa using href
          have : (complete desired t).columns.any (fun c => decide (c.references = f.referenceName)) = false := by
            rw [List.any_eq_false]; intro c hc; simpa using hr c hc
          simp [absentForeignKey, hname, this]

/-- C41: a foreign key that the desired schema keeps is added again immediately after it is dropped. -/
theorem C41_kept_foreign_key_is_added_again (hd : UniqueTables desired) (hc : UniqueTables current)
    (h : diff mode desired current = .ok out) :
    FollowedBy (fun s => ∃ n k d, s = .dropForeignKey n k ∧ tableIn desired n = some d ∧ k ∈ d.foreignKeys.map (·.constraintName))
      (fun s b => ∃ n f, s = .dropForeignKey n f.constraintName ∧ b = .addForeignKey n f) out := by
  obtain ⟨xs, ys, sc⟩ := script hd hc h
  rw [sc.out_eq]
  refine followedBy_append (followedBy_append ?_ ?_) ?_
  · refine followedBy_concatMapM sc.defs fun d hdm z hz => ?_
    by_cases hct : ∃ s t x, d = .createTable s t ∧ findTableByName (tablesOf current) t.name = some x
    · obtain ⟨s, t, x, rfl, hf⟩ := hct
      simp only [defStmts] at hz
      rw [hf] at hz
      obtain ⟨cols, rai, pk, idx, aai, fks, h1, h2, h3, h4, h5, h6, rfl⟩ := createTable_parts hz
      refine followedBy_append ?_ ?_
      · apply followedBy_none
        rintro st hst ⟨n, i, d, rfl, -⟩
        simp only [List.mem_append] at hst
        rcases hst with (((hst | hst) | hst) | hst) | hst
        · obtain ⟨prev, c, hm, hcol⟩ := columns_shape h1 _ hst
          generalize hg : Stmt.dropForeignKey n i = st at hcol
          cases hcol with
          | alter cur s h1 h2 h3 => subst hg; rcases h3 with h3 | h3 | h3 | ⟨_, _, h3⟩ | h3 | ⟨_, _, h3⟩ | h3 | ⟨_, h3⟩ <;> cases h3
          | _ => cases hg
        · obtain ⟨-, _, -, -, -, h⟩ := removeAutoIncrement_shape h2 _ hst; cases h
        · obtain ⟨-, ⟨-, -, _, h⟩ | ⟨_, -, h⟩⟩ := primaryKeyDDLs_shape h3 _ hst <;> cases h
        · obtain ⟨_, -, -, -, h | ⟨-, h⟩⟩ := indexes_shape h4 _ hst <;> cases h
        · obtain ⟨-, _, -, -, -, h⟩ := addAutoIncrement_shape h5 _ hst; cases h
      · refine followedBy_concatMapM h6 fun f hf z hz => ?_
        rw [(tableForeignKeyDDLs_eq hz).2]
        split
        · exact followedBy_none (by simp)
        · split
          · exact followedBy_nil
          · split
            · exact followedBy_none (by simp)
            · exact followedBy_pair (by simp) fun _ => ⟨t.name, f, rfl, rfl⟩
    · apply followedBy_none
      rintro st hst ⟨n, k, d', rfl, -, -⟩
      have := defStmts_shape hz hst
      generalize hg : Stmt.dropForeignKey n k = st at this
      cases this with
      | table s t x st hf _ => exact hct ⟨s, t, x, rfl, hf⟩
      | _ => cases hg
  · apply followedBy_none
    rintro st hst ⟨n, k, d, rfl, hdd, hk⟩
    obtain ⟨x, hx, l, hl, hs⟩ := (mem_concatMapM sc.clean _).1 hst
    have htab := tableCleanup_table hl _ hs
    simp only [Stmt.table, Option.some.injEq] at htab
    unfold tableCleanup at hl
    rw [← htab] at hl
    have : findTableByName (tablesOf desired) n = some d := hdd
    rw [this] at hl
    generalize hg : Stmt.dropForeignKey n k = st at hs
    cases cleanup_shape hl _ hs with
    | fk f h1 h2 h3 h4 =>
      obtain ⟨-, he⟩ := Stmt.dropForeignKey.inj hg
      exact h2 (he ▸ hk)
    | _ => cases hg
  · apply followedBy_none
    rintro st hst ⟨n, i, d, rfl, -⟩
    unfold cleanupViews at hst
    simp at hst

def exFk (k : String) (onDelete : String) : ForeignKey :=
  { constraintName := lit k, indexColumns := [lit "age"], referenceName := lit "t", referenceColumns := [lit "id"],
    onDelete := lit onDelete }

/-- A foreign key that changes, one that is new and one that goes; the one with equal actions stays. -/
example : diff .mysql [exCreate { exUsers with foreignKeys := [exFk "a" "CASCADE", exFk "b" "", exFk "d" "CASCADE"] }]
      [exCreate { exUsers with foreignKeys := [exFk "a" "", exFk "c" "", exFk "d" "CASCADE"] }] = .ok
    [.dropForeignKey (lit "users") (lit "a"), .addForeignKey (lit "users") (exFk "a" "CASCADE"),
     .addForeignKey (lit "users") (exFk "b" ""), .dropForeignKey (lit "users") (lit "c")] := by decide +kernel

/-- C41 fails for a foreign key that the desired schema defines with ALTER TABLE ADD FOREIGN KEY: it is never
added. -/
theorem C41_separate_foreign_key_is_not_added (mode : Mode) :
    ∃ desired current, (∃ d, tableIn desired (lit "users") = some d ∧ exFk "a" "" ∈ d.foreignKeys) ∧
      (∃ x, tableIn current (lit "users") = some x ∧ x.foreignKeys = []) ∧ diff mode desired current = .ok [] :=
  ⟨[exCreate exUsers, .addForeignKey [] (lit "users") (exFk "a" "")], [exCreate exUsers],
   ⟨{ exUsers with foreignKeys := [exFk "a" ""] }, by decide, by decide⟩, ⟨exUsers, by decide, by decide⟩,
   by cases mode <;> decide +kernel⟩

/-- C41 fails for SQLite: an obsolete foreign key is not dropped. -/
theorem C41_sqlite3_keeps_obsolete_foreign_key :
    ∃ desired current, (∃ d, tableIn desired (lit "users") = some d ∧ d.foreignKeys = []) ∧
      (∃ x, tableIn current (lit "users") = some x ∧ x.foreignKeys = [exFk "a" ""]) ∧
      diff .sqlite3 desired current = .ok [] :=
  ⟨[exCreate exUsers], [exCreate { exUsers with foreignKeys := [exFk "a" ""] }],
   ⟨exUsers, by decide, by decide⟩, ⟨{ exUsers with foreignKeys := [exFk "a" ""] }, by decide, by decide⟩, by decide +kernel⟩

/-! ### C38: views -/

theorem viewsOf_def {ds : List DDL} {v : View} : v ∈ viewsOf ds ↔ .view v ∈ ds := by
  induction ds with
  | nil => simp [viewsOf]
  | cons d ds ih => cases d <;> simp [viewsOf, ih]

theorem Script.view {xs ys : List Stmt} (sc : Script mode desired current out xs ys) {v : View} (hv : v ∈ viewsOf desired) :
    viewStmts mode (viewsOf current) v ⊆ out := by
  obtain ⟨l, hl, hlo⟩ := sc.def_ok (viewsOf_def.1 hv)
  simp only [defStmts, Except.ok.injEq] at hl
  rw [hl]; exact hlo

/-- A desired view differs from the current view of that name, up to letter case. -/
def ViewDiffers (current : List DDL) (v : View) : Prop :=
  ∃ c, (viewsOf current).find? (·.name = v.name) = some c ∧ toLower c.definition ≠ toLower v.definition

/-- C38: a view is created verbatim exactly if it is desired and missing. -/
theorem C38_create_view_iff (hd : UniqueTables desired) (hc : UniqueTables current)
    (h : diff mode desired current = .ok out) (v : View) :
    .user (.view v) ∈ out ↔ v ∈ viewsOf desired ∧ v.name ∉ (viewsOf current).map (·.name) := by
  obtain ⟨xs, ys, sc⟩ := script hd hc h
  have hnone : ∀ v : View, findViewByName (viewsOf current) v.name = none ↔ v.name ∉ (viewsOf current).map (·.name) := by
    intro v
    simp only [findViewByName, List.find?_eq_none, decide_eq_true_eq, List.mem_map, not_exists, not_and]
  constructor
  · intro hs
    generalize hg : Stmt.user (.view v) = st at hs
    cases sc.origin hs with
    | definition e s he hde =>
      cases hde with
      | table s t x st hf hts =>
        cases hts with
        | column prev c s hm hcol =>
          cases hcol with
          | alter cur s h1 h2 h3 => subst hg; rcases h3 with h3 | h3 | h3 | ⟨_, _, h3⟩ | h3 | ⟨_, _, h3⟩ | h3 | ⟨_, h3⟩ <;> cases h3
          | _ => cases hg
        | _ => cases hg
      | newIndex _ _ _ hi => cases hg; obtain ⟨_, hi | hi⟩ := hi <;> cases hi
      | recreateIndex _ _ _ _ hi => cases hg; obtain ⟨_, hi | hi⟩ := hi <;> cases hi
      | newView w hw => cases hg; exact ⟨viewsOf_def.2 he, (hnone v).1 hw⟩
      | _ => cases hg
    | clean x d s hx hdd hcl => cases hcl <;> cases hg
    | dropTable => cases hg
    | dropView => cases hg
  · rintro ⟨hv, hn⟩
    apply sc.view hv
    simp [viewStmts, (hnone v).2 hn]

/-- C38: for SQLite and SQL Server a view is dropped exactly if it is obsolete or its definition differs; for
MySQL and Postgres exactly if it is obsolete. -/
theorem C38_drop_view_iff (hd : UniqueTables desired) (hc : UniqueTables current)
    (h : diff mode desired current = .ok out) (n : Str) :
    .dropView n ∈ out ↔
      (n ∈ (viewsOf current).map (·.name) ∧ n ∉ (viewsOf desired).map (·.name)) ∨
      ((mode = .sqlite3 ∨ mode = .mssql) ∧ ∃ v ∈ viewsOf desired, v.name = n ∧ ViewDiffers current v) := by
  obtain ⟨xs, ys, sc⟩ := script hd hc h
  constructor
  · intro hs
    generalize hg : Stmt.dropView n = st at hs
    cases sc.origin hs with
    | definition e s he hde =>
      cases hde with
      | table s t x st hf hts =>
        cases hts with
        | column prev c s hm hcol =>
          cases hcol with
          | alter cur s h1 h2 h3 => subst hg; rcases h3 with h3 | h3 | h3 | ⟨_, _, h3⟩ | h3 | ⟨_, _, h3⟩ | h3 | ⟨_, h3⟩ <;> cases h3
          | _ => cases hg
        | _ => cases hg
      | dropView v c h1 h2 h3 => cases hg; exact .inr ⟨h3, v, viewsOf_def.2 he, rfl, c, h1, h2⟩
      | _ => cases hg
    | clean x d s hx hdd hcl => cases hcl <;> cases hg
    | dropTable => cases hg
    | dropView v hv hn => cases hg; exact .inl ⟨List.mem_map_of_mem hv, hn⟩
  · rintro (⟨h1, h2⟩ | ⟨hm, v, hv, rfl, c, h1, h2⟩)
    · obtain ⟨v, hv, rfl⟩ := List.mem_map.1 h1
      rw [sc.out_eq]
      simp only [List.mem_append]
      right
      refine List.mem_map.2 ⟨v, List.mem_filter.2 ⟨hv, ?_⟩, rfl⟩
      rw [Bool.not_eq_true', not_containsString]; exact h2
    · apply sc.view hv
      have h1 : findViewByName (viewsOf current) v.name = some c := h1
      have hm' : (decide (mode = .sqlite3) || decide (mode = .mssql)) = true := by simpa using hm
      simp only [viewStmts, h1]
      rw [if_pos h2, if_pos hm']; simp

/-- C38: for MySQL and Postgres a view is replaced exactly if its definition differs. -/
theorem C38_replace_view_iff (hd : UniqueTables desired) (hc : UniqueTables current)
    (h : diff mode desired current = .ok out) (n df : Str) :
    .replaceView n df ∈ out ↔ (mode = .mysql ∨ mode = .postgres) ∧
      ∃ v ∈ viewsOf desired, v.name = n ∧ v.definition = df ∧ ViewDiffers current v := by
  obtain ⟨xs, ys, sc⟩ := script hd hc h
  have hmm : ¬ (mode = .sqlite3 ∨ mode = .mssql) ↔ (mode = .mysql ∨ mode = .postgres) := by cases mode <;> simp
  constructor
  · intro hs
    generalize hg : Stmt.replaceView n df = st at hs
    cases sc.origin hs with
    | definition e s he hde =>
      cases hde with
      | table s t x st hf hts =>
        cases hts with
        | column prev c s hm hcol =>
          cases hcol with
          | alter cur s h1 h2 h3 => subst hg; rcases h3 with h3 | h3 | h3 | ⟨_, _, h3⟩ | h3 | ⟨_, _, h3⟩ | h3 | ⟨_, h3⟩ <;> cases h3
          | _ => cases hg
        | _ => cases hg
      | replaceView v c h1 h2 h3 => cases hg; exact ⟨hmm.1 h3, v, viewsOf_def.2 he, rfl, rfl, c, h1, h2⟩
      | _ => cases hg
    | clean x d s hx hdd hcl => cases hcl <;> cases hg
    | dropTable => cases hg
    | dropView v hv hn => cases hg
  · rintro ⟨hm, v, hv, rfl, rfl, c, h1, h2⟩
    apply sc.view hv
    have h1 : findViewByName (viewsOf current) v.name = some c := h1
    have hm' : ¬ (decide (mode = .sqlite3) || decide (mode = .mssql)) = true := by simpa using hmm.2 hm
    simp only [viewStmts, h1]
    rw [if_pos h2, if_neg hm']; simp

/-- C38: a view that is wanted is created again immediately after it is dropped, with its new definition. -/
theorem C38_wanted_view_is_created_again (hd : UniqueTables desired) (hc : UniqueTables current)
    (h : diff mode desired current = .ok out) :
    FollowedBy (fun s => ∃ n, s = .dropView n ∧ n ∈ (viewsOf desired).map (·.name))
      (fun s b => ∃ v ∈ viewsOf desired, s = .dropView v.name ∧ b = .createView v.name v.definition) out := by
  obtain ⟨xs, ys, sc⟩ := script hd hc h
  rw [sc.out_eq]
  refine followedBy_append (followedBy_append ?_ ?_) ?_
  · refine followedBy_concatMapM sc.defs fun d hdm z hz => ?_
    by_cases hct : ∃ v, d = .view v
    · obtain ⟨v, rfl⟩ := hct
      simp only [defStmts, Except.ok.injEq] at hz
      subst hz
      unfold viewStmts
      split
      · exact followedBy_none (by simp)
      · split
        · split
          · exact followedBy_pair (by simp) fun _ => ⟨v, viewsOf_def.2 hdm, rfl, rfl⟩
          · exact followedBy_none (by simp)
        · exact followedBy_nil
    · apply followedBy_none
      rintro st hst ⟨n, rfl, -⟩
      have := defStmts_table hz _ hst
      have hs := defStmts_shape hz hst
      generalize hg : Stmt.dropView n = st at hs
      cases hs with
      | dropView v => exact hct ⟨v, rfl⟩
      | table s t x st hf _ => subst hg; simp [Stmt.table, DDL.table] at this
      | _ => cases hg
  · apply followedBy_none
    rintro st hst ⟨n, rfl, -⟩
    obtain ⟨x, hx, l, hl, hs⟩ := (mem_concatMapM sc.clean _).1 hst
    have := tableCleanup_table hl _ hs
    simp [Stmt.table] at this
  · apply followedBy_none
    rintro st hst ⟨n, rfl, hn⟩
    unfold cleanupViews at hst
    obtain ⟨v, hv, he⟩ := List.mem_map.1 hst
    cases he
    have := (List.mem_filter.1 hv).2
    rw [Bool.not_eq_true', not_containsString] at this
    exact this hn

def exView (n d : String) : View := ⟨lit "CREATE VIEW", lit n, lit d⟩
example : diff .mssql [.view (exView "a" "select 1"), .view (exView "b" "SELECT 2"), .view (exView "c" "select 3")]
      [.view (exView "d" "select 4"), .view (exView "b" "select 2"), .view (exView "c" "select 4")] = .ok
    [.user (.view (exView "a" "select 1")), .dropView (lit "c"), .createView (lit "c") (lit "select 3"), .dropView (lit "d")] := by
  decide +kernel
example : diff .postgres [.view (exView "c" "select 3")] [.view (exView "c" "select 4")] =
    .ok [.replaceView (lit "c") (lit "select 3")] := by decide +kernel

/-! ### C39: triggers -/

theorem triggersOf_def {ds : List DDL} {v : Trigger} : v ∈ triggersOf ds ↔ .trigger v ∈ ds := by
  induction ds with
  | nil => simp [triggersOf]
  | cons d ds ih => cases d <;> simp [triggersOf, ih]

theorem Script.trigger {xs ys : List Stmt} (sc : Script mode desired current out xs ys) {t : Trigger} (ht : t ∈ triggersOf desired) :
    triggerStmts mode (triggersOf current) t ⊆ out := by
  obtain ⟨l, hl, hlo⟩ := sc.def_ok (triggersOf_def.1 ht)
  simp only [defStmts, Except.ok.injEq] at hl
  rw [hl]; exact hlo

/-- A desired trigger differs from the current trigger of that name. -/
def TriggerDiffers (current : List DDL) (t : Trigger) : Prop :=
  ∃ c, (triggersOf current).find? (·.name = t.name) = some c ∧ areSameTriggerDefinition c t = false

theorem triggerNone {current : List DDL} (t : Trigger) :
    findTriggerByName (triggersOf current) t.name = none ↔ t.name ∉ (triggersOf current).map (·.name) := by
  simp only [findTriggerByName, List.find?_eq_none, decide_eq_true_eq, List.mem_map, not_exists, not_and]

/-- C39: which triggers are created: for MySQL missing and changed ones; for SQL Server missing ones, and
changed ones with CREATE OR ALTER. -/
theorem C39_create_trigger_iff (hd : UniqueTables desired) (hc : UniqueTables current)
    (h : diff mode desired current = .ok out) (orAlter : Bool) (t : Trigger) :
    .createTrigger orAlter t ∈ out ↔ t ∈ triggersOf desired ∧
      ((orAlter = false ∧ (mode = .mysql ∨ mode = .mssql) ∧ t.name ∉ (triggersOf current).map (·.name)) ∨
       (orAlter = false ∧ mode = .mysql ∧ TriggerDiffers current t) ∨
       (orAlter = true ∧ mode = .mssql ∧ TriggerDiffers current t)) := by
  obtain ⟨xs, ys, sc⟩ := script hd hc h
  constructor
  · intro hs
    generalize hg : Stmt.createTrigger orAlter t = st at hs
    cases sc.origin hs with
    | definition e s he hde =>
      cases hde with
      | table s t x st hf hts =>
        cases hts with
        | column prev c s hm hcol =>
          cases hcol with
          | alter cur s h1 h2 h3 => subst hg; rcases h3 with h3 | h3 | h3 | ⟨_, _, h3⟩ | h3 | ⟨_, _, h3⟩ | h3 | ⟨_, h3⟩ <;> cases h3
          | _ => cases hg
        | _ => cases hg
      | newTrigger t h1 h2 => cases hg; exact ⟨triggersOf_def.2 he, .inl ⟨rfl, h1, (triggerNone _).1 h2⟩⟩
      | recreateTrigger t c h1 h2 h3 => cases hg; exact ⟨triggersOf_def.2 he, .inr (.inl ⟨rfl, h1, c, h2, h3⟩)⟩
      | alterTrigger t c h1 h2 h3 => cases hg; exact ⟨triggersOf_def.2 he, .inr (.inr ⟨rfl, h1, c, h2, h3⟩)⟩
      | _ => cases hg
    | clean x d s hx hdd hcl => cases hcl <;> cases hg
    | dropTable => cases hg
    | dropView v hv hn => cases hg
  · rintro ⟨ht, ⟨rfl, hm, hn⟩ | ⟨rfl, rfl, c, h1, h2⟩ | ⟨rfl, rfl, c, h1, h2⟩⟩
    · apply sc.trigger ht
      rcases hm with rfl | rfl <;> simp [triggerStmts, (triggerNone t).2 hn]
    · apply sc.trigger ht
      have h1 : findTriggerByName (triggersOf current) t.name = some c := h1
      simp [triggerStmts, h1, h2]
    · apply sc.trigger ht
      have h1 : findTriggerByName (triggersOf current) t.name = some c := h1
      simp [triggerStmts, h1, h2]

/-- C39: a trigger is dropped only by MySQL and only if it is wanted with another definition. -/
theorem C39_drop_trigger_iff (hd : UniqueTables desired) (hc : UniqueTables current)
    (h : diff mode desired current = .ok out) (n : Str) :
    .dropTrigger n ∈ out ↔ mode = .mysql ∧ ∃ t ∈ triggersOf desired, t.name = n ∧ TriggerDiffers current t := by
  obtain ⟨xs, ys, sc⟩ := script hd hc h
  constructor
  · intro hs
    generalize hg : Stmt.dropTrigger n = st at hs
    cases sc.origin hs with
    | definition e s he hde =>
      cases hde with
      | table s t x st hf hts =>
        cases hts with
        | column prev c s hm hcol =>
          cases hcol with
          | alter cur s h1 h2 h3 => subst hg; rcases h3 with h3 | h3 | h3 | ⟨_, _, h3⟩ | h3 | ⟨_, _, h3⟩ | h3 | ⟨_, h3⟩ <;> cases h3
          | _ => cases hg
        | _ => cases hg
      | dropTrigger t c h1 h2 h3 => cases hg; exact ⟨h1, t, triggersOf_def.2 he, rfl, c, h2, h3⟩
      | _ => cases hg
    | clean x d s hx hdd hcl => cases hcl <;> cases hg
    | dropTable => cases hg
    | dropView v hv hn => cases hg
  · rintro ⟨rfl, t, ht, rfl, c, h1, h2⟩
    apply sc.trigger ht
    have h1 : findTriggerByName (triggersOf current) t.name = some c := h1
    simp [triggerStmts, h1, h2]

/-- C39: a dropped trigger is created again by the next statement. -/
theorem C39_dropped_trigger_is_created_again (hd : UniqueTables desired) (hc : UniqueTables current)
    (h : diff mode desired current = .ok out) :
    FollowedBy (fun s => ∃ n, s = .dropTrigger n)
      (fun s b => ∃ t ∈ triggersOf desired, s = .dropTrigger t.name ∧ b = .createTrigger false t) out := by
  obtain ⟨xs, ys, sc⟩ := script hd hc h
  rw [sc.out_eq]
  refine followedBy_append (followedBy_append ?_ ?_) ?_
  · refine followedBy_concatMapM sc.defs fun d hdm z hz => ?_
    by_cases hct : ∃ t, d = .trigger t
    · obtain ⟨t, rfl⟩ := hct
      simp only [defStmts, Except.ok.injEq] at hz
      subst hz
      unfold triggerStmts
      split
      · split
        · exact followedBy_none (by simp)
        · split
          · exact followedBy_nil
          · exact followedBy_none (by simp)
      · split
        · exact followedBy_none (by simp)
        · split
          · exact followedBy_nil
          · exact followedBy_pair (by simp) fun _ => ⟨t, triggersOf_def.2 hdm, rfl, rfl⟩
      · exact followedBy_nil
    · apply followedBy_none
      rintro st hst ⟨n, rfl⟩
      have := defStmts_table hz _ hst
      have hs := defStmts_shape hz hst
      generalize hg : Stmt.dropTrigger n = st at hs
      cases hs with
      | dropTrigger v => exact hct ⟨v, rfl⟩
      | table s t x st hf _ => subst hg; simp [Stmt.table, DDL.table] at this
      | _ => cases hg
  · apply followedBy_none
    rintro st hst ⟨n, rfl⟩
    obtain ⟨x, hx, l, hl, hs⟩ := (mem_concatMapM sc.clean _).1 hst
    have := tableCleanup_table hl _ hs
    simp [Stmt.table] at this
  · apply followedBy_none
    rintro st hst ⟨n, rfl⟩
    unfold cleanupViews at hst
    simp at hst

/-- C39: for Postgres and SQLite no statement is about a trigger. -/
theorem C39_no_trigger_statements (hm : mode = .postgres ∨ mode = .sqlite3) (hd : UniqueTables desired)
    (hc : UniqueTables current) (h : diff mode desired current = .ok out) {st : Stmt} (hs : st ∈ out) :
    Stmt.trigger st = none := by
  obtain ⟨xs, ys, sc⟩ := script hd hc h
  cases sc.origin hs with
  | definition e _ he hde =>
    cases hde with
    | table _ t x _ hf hts =>
      have := hts.table (find_name hf)
      cases st with
      | user d => cases hts with
        | column prev c s hm hcol =>
          cases hcol with
          | alter cur s h1 h2 h3 => rcases h3 with h3 | h3 | h3 | ⟨_, _, h3⟩ | h3 | ⟨_, _, h3⟩ | h3 | ⟨_, h3⟩ <;> cases h3
      | dropTrigger => cases this
      | createTrigger => cases this
      | _ => rfl
    | newTrigger t h1 h2 => rcases hm with rfl | rfl <;> simp at h1
    | dropTrigger t c h1 h2 h3 => rcases hm with rfl | rfl <;> simp at h1
    | recreateTrigger t c h1 h2 h3 => rcases hm with rfl | rfl <;> simp at h1
    | alterTrigger t c h1 h2 h3 => rcases hm with rfl | rfl <;> simp at h1
    | newIndex _ _ _ hi => obtain ⟨_, rfl | rfl⟩ := hi <;> rfl
    | recreateIndex _ _ _ _ hi => obtain ⟨_, rfl | rfl⟩ := hi <;> rfl
    | _ => rfl
  | clean x d s hx hdd hcl => cases hcl <;> rfl
  | dropTable => rfl
  | dropView v hv hn => rfl

def exTrig (n b : String) : Trigger := ⟨lit "CREATE TRIGGER", lit n, lit "users", lit "before", lit "insert", [lit b]⟩
example : diff .mysql [.trigger (exTrig "a" "x"), .trigger (exTrig "b" "x"), .trigger (exTrig "c" "x  Y")]
    [.trigger (exTrig "b" "z"), .trigger (exTrig "c" "X y"), .trigger (exTrig "d" "x")] = .ok
    [.createTrigger false (exTrig "a" "x"), .dropTrigger (lit "b"), .createTrigger false (exTrig "b" "x")] := by decide +kernel

/-! ### C40: policies -/

theorem mem_policiesFor {n : Str} {p : Policy} {ds : List DDL} : p ∈ policiesFor n ds ↔ ∃ s, .addPolicy s n p ∈ ds := by
  induction ds with
  | nil => simp [policiesFor]
  | cons d ds ih =>
    cases d with
    | addPolicy s m q =>
      by_cases h : m = n
      · subst h; simp [policiesFor, ih, exists_or]
      · simp [policiesFor, h, ih, Ne.symm h]
    | _ => simp [policiesFor, ih]

theorem Script.policy {xs ys : List Stmt} (sc : Script mode desired current out xs ys) {s n : Str} {p : Policy}
    (hp : .addPolicy s n p ∈ desired) : policyStmts (tablesOf current) (.addPolicy s n p) n p ⊆ out := by
  obtain ⟨l, hl, hlo⟩ := sc.def_ok hp
  simp only [defStmts, Except.ok.injEq] at hl
  rw [hl]; exact hlo

/-- The current policy of that name on that table. -/
def currentPolicy (current : List DDL) (n p : Str) : Option Policy :=
  (tableIn current n).bind fun x => x.policies.find? (·.name = p)

/-- C40: the CREATE POLICY of the desired schema is emitted exactly if the policy is missing or differs. -/
theorem C40_create_policy_iff (hd : UniqueTables desired) (hc : UniqueTables current)
    (h : diff mode desired current = .ok out) (s n : Str) (p : Policy) :
    .user (.addPolicy s n p) ∈ out ↔ .addPolicy s n p ∈ desired ∧
      ∀ c, currentPolicy current n p.name = some c → areSamePolicies c p = false := by
  obtain ⟨xs, ys, sc⟩ := script hd hc h
  constructor
  · intro hs
    generalize hg : Stmt.user (.addPolicy s n p) = st at hs
    cases sc.origin hs with
    | definition e s he hde =>
      cases hde with
      | table s t x st hf hts =>
        cases hts with
        | column prev c s hm hcol =>
          cases hcol with
          | alter cur s h1 h2 h3 => subst hg; rcases h3 with h3 | h3 | h3 | ⟨_, _, h3⟩ | h3 | ⟨_, _, h3⟩ | h3 | ⟨_, h3⟩ <;> cases h3
          | _ => cases hg
        | _ => cases hg
      | newIndex _ _ _ hi => cases hg; obtain ⟨_, hi | hi⟩ := hi <;> cases hi
      | recreateIndex _ _ _ _ hi => cases hg; obtain ⟨_, hi | hi⟩ := hi <;> cases hi
      | newPolicy s n p h1 =>
        cases hg
        refine ⟨he, fun c hcp => ?_⟩
        have : currentPolicy current n p.name = none := h1
        rw [this] at hcp; cases hcp
      | recreatePolicy s n p c h1 h2 =>
        cases hg
        refine ⟨he, fun c' hcp => ?_⟩
        have : currentPolicy current n p.name = some c := h1
        rw [this] at hcp; cases hcp; exact h2
      | _ => cases hg
    | clean x d s hx hdd hcl => cases hcl <;> cases hg
    | dropTable => cases hg
    | dropView v hv hn => cases hg
  · rintro ⟨hp, hc'⟩
    apply sc.policy hp
    unfold policyStmts
    split
    · simp
    · next c hcp =>
      rw [hc' c hcp]
      simp

/-- C40: which policies are dropped: obsolete ones of tables that stay, and wanted ones that differ. -/
theorem C40_drop_policy_iff (hd : UniqueTables desired) (hc : UniqueTables current)
    (h : diff mode desired current = .ok out) (n q : Str) :
    .dropPolicy n q ∈ out ↔
      (∃ x d, tableIn current n = some x ∧ tableIn desired n = some d ∧ q ∈ x.policies.map (·.name) ∧ q ∉ d.policies.map (·.name)) ∨
      (∃ s p c, .addPolicy s n p ∈ desired ∧ p.name = q ∧ currentPolicy current n q = some c ∧ areSamePolicies c p = false) := by
  obtain ⟨xs, ys, sc⟩ := script hd hc h
  constructor
  · intro hs
    generalize hg : Stmt.dropPolicy n q = st at hs
    cases sc.origin hs with
    | definition e s he hde =>
      cases hde with
      | table s t x st hf hts =>
        cases hts with
        | column prev c s hm hcol =>
          cases hcol with
          | alter cur s h1 h2 h3 => subst hg; rcases h3 with h3 | h3 | h3 | ⟨_, _, h3⟩ | h3 | ⟨_, _, h3⟩ | h3 | ⟨_, h3⟩ <;> cases h3
          | _ => cases hg
        | _ => cases hg
      | dropPolicy s n p c h1 h2 => cases hg; exact .inr ⟨s, p, c, he, rfl, h1, h2⟩
      | _ => cases hg
    | clean x d s hx hdd hcl =>
      cases hcl with
      | policy p h1 h2 => cases hg; exact .inl ⟨x, d, hx, hdd, List.mem_map_of_mem h1, h2⟩
      | _ => cases hg
    | dropTable => cases hg
    | dropView v hv hn => cases hg
  · rintro (⟨x, d, hx, hdd, h1, h2⟩ | ⟨s, p, c, hp, rfl, h1, h2⟩)
    · obtain ⟨s, t, ht, rfl, rfl⟩ := (tableIn_iff hd).1 hdd
      obtain ⟨l, m, -, -, hm', hmo⟩ := sc.shared ht hx
      obtain ⟨idx, hidx, rfl⟩ := cleanup_parts hm'
      apply hmo
      simp only [List.mem_append]
      right
      obtain ⟨p, hp, rfl⟩ := List.mem_map.1 h1
      refine List.mem_map.2 ⟨p, List.mem_filter.2 ⟨hp, ?_⟩, by rw [tableIn_name hx]⟩
      rw [Bool.not_eq_true', not_containsString]; exact h2
    · apply sc.policy hp
      have h1 : ((findTableByName (tablesOf current) n).bind fun x => findPolicyByName x.policies p.name) = some c := h1
      unfold policyStmts
      rw [h1]
      simp [h2]

/-- C40: a policy that is wanted is created again immediately after it is dropped. -/
theorem C40_wanted_policy_is_created_again (hd : UniqueTables desired) (hc : UniqueTables current)
    (h : diff mode desired current = .ok out) :
    FollowedBy (fun s => ∃ n q d, s = .dropPolicy n q ∧ tableIn desired n = some d ∧ q ∈ d.policies.map (·.name))
      (fun a b => ∃ s n p, a = .dropPolicy n p.name ∧ b = .user (.addPolicy s n p)) out := by
  obtain ⟨xs, ys, sc⟩ := script hd hc h
  rw [sc.out_eq]
  refine followedBy_append (followedBy_append ?_ ?_) ?_
  · refine followedBy_concatMapM sc.defs fun d hdm z hz => ?_
    by_cases hct : ∃ s n p, d = .addPolicy s n p
    · obtain ⟨s, n, p, rfl⟩ := hct
      simp only [defStmts, Except.ok.injEq] at hz
      subst hz
      unfold policyStmts
      split
      · exact followedBy_none (by simp)
      · split
        · exact followedBy_nil
        · exact followedBy_pair (by simp) fun _ => ⟨s, n, p, rfl, rfl⟩
    · apply followedBy_none
      rintro st hst ⟨n, q, d, rfl, -⟩
      have hs := defStmts_shape hz hst
      generalize hg : Stmt.dropPolicy n q = st at hs
      cases hs with
      | dropPolicy s n p => exact hct ⟨s, n, p, rfl⟩
      | table s t x st hf hts =>
        cases hts with
        | column prev c s hm hcol =>
          cases hcol with
          | alter cur s h1 h2 h3 => subst hg; rcases h3 with h3 | h3 | h3 | ⟨_, _, h3⟩ | h3 | ⟨_, _, h3⟩ | h3 | ⟨_, h3⟩ <;> cases h3
          | _ => cases hg
        | _ => cases hg
      | _ => cases hg
  · apply followedBy_none
    rintro st hst ⟨n, q, d, rfl, hdd, hq⟩
    obtain ⟨x, hx, l, hl, hs⟩ := (mem_concatMapM sc.clean _).1 hst
    have htab := tableCleanup_table hl _ hs
    simp only [Stmt.table, Option.some.injEq] at htab
    unfold tableCleanup at hl
    rw [← htab] at hl
    have : findTableByName (tablesOf desired) n = some d := hdd
    rw [this] at hl
    generalize hg : Stmt.dropPolicy n q = st at hs
    cases cleanup_shape hl _ hs with
    | policy p h1 h2 =>
      obtain ⟨-, he⟩ := Stmt.dropPolicy.inj hg
      exact h2 (he ▸ hq)
    | _ => cases hg
  · apply followedBy_none
    rintro st hst ⟨n, q, d, rfl, -⟩
    unfold cleanupViews at hst
    simp at hst

theorem strLe_total (a b : Str) : strLe a b = true ∨ strLe b a = true := by
  induction a generalizing b with
  | nil => simp [strLe]
  | cons x a ih =>
    cases b with
    | nil => simp [strLe]
    | cons y b =>
      by_cases h : x = y
      · subst h; simpa [strLe] using ih b
      · have h' : y ≠ x := fun e => h e.symm
        have hn : x.toNat ≠ y.toNat := fun e => h (Char.toNat_inj.1 e)
        simp only [strLe, h, h', if_false, decide_eq_true_eq]
        omega

theorem strLe_antisymm {a b : Str} (h1 : strLe a b = true) (h2 : strLe b a = true) : a = b := by
  induction a generalizing b with
  | nil => cases b with
    | nil => rfl
    | cons y b => simp [strLe] at h2
  | cons x a ih =>
    cases b with
    | nil => simp [strLe] at h1
    | cons y b =>
      by_cases h : x = y
      · subst h
        simp only [strLe, if_true] at h1 h2
        rw [ih h1 h2]
      · have h' : y ≠ x := fun e => h e.symm
        simp only [strLe, h, h', if_false, decide_eq_true_eq] at h1 h2
        omega

theorem strLe_trans {a b c : Str} (h1 : strLe a b = true) (h2 : strLe b c = true) : strLe a c = true := by
  induction a generalizing b c with
  | nil => simp [strLe]
  | cons x a ih =>
    cases b with
    | nil => simp [strLe] at h1
    | cons y b =>
      cases c with
      | nil => simp [strLe] at h2
      | cons z c =>
        simp only [strLe] at h1 h2 ⊢
        split at h1
        · next e1 =>
          subst e1
          split at h2
          · next e2 => rw [if_pos e2]; exact ih h1 h2
          · next e2 => rw [if_neg e2]; exact h2
        · next e1 =>
          split at h2
          · next e2 => subst e2; rw [if_neg e1]; exact h1
          · next e2 =>
            simp only [decide_eq_true_eq] at h1 h2
            have : x ≠ z := by intro e; subst e; omega
            rw [if_neg this]; simp only [decide_eq_true_eq]; omega

theorem insertRole_sorted {r : Str} {l : List Str} (h : l.Pairwise fun a b => strLe a b = true) :
    (insertRole r l).Pairwise fun a b => strLe a b = true := by
  induction l with
  | nil => simp [insertRole]
  | cons x l ih =>
    simp only [insertRole]
    have hx := List.pairwise_cons.1 h
    split
    · next hr =>
      refine List.pairwise_cons.2 ⟨fun y hy => ?_, h⟩
      rcases List.mem_cons.1 hy with rfl | hy
      · exact hr
      · exact strLe_trans hr (hx.1 y hy)
    · next hr =>
      refine List.pairwise_cons.2 ⟨fun y hy => ?_, ih hx.2⟩
      rcases List.mem_cons.1 ((insertRole_perm r l).subset hy) with rfl | hy
      · exact (strLe_total y x).resolve_left hr
      · exact hx.1 y hy

theorem sortRoles_sorted (l : List Str) : (sortRoles l).Pairwise fun a b => strLe a b = true := by
  induction l with
  | nil => exact .nil
  | cons x l ih => exact insertRole_sorted ih

theorem sortRoles_eq {l m : List Str} (h : l.Perm m) : sortRoles l = sortRoles m :=
  List.Perm.eq_of_pairwise (le := fun a b => strLe a b = true) (fun _ _ _ _ h1 h2 => strLe_antisymm h1 h2)
    (sortRoles_sorted l) (sortRoles_sorted m) ((sortRoles_perm l).trans (h.trans (sortRoles_perm m).symm))

/-- C40: the order of the roles of a policy is irrelevant, on either side of the comparison. -/
theorem C40_role_order_is_irrelevant (a b : Policy) {r s : List Str} (hr : r.Perm a.roles) (hs : s.Perm b.roles) :
    areSamePolicies { a with roles := r } { b with roles := s } = areSamePolicies a b := by
  simp only [areSamePolicies, sortRoles_eq hr, sortRoles_eq hs, hr.length_eq, hs.length_eq]

/-- C40: two policies that differ in nothing but the order of the roles count as equal. -/
theorem C40_reordered_roles_are_equal (a : Policy) {r : List Str} (hr : r.Perm a.roles) :
    areSamePolicies { a with roles := r } a = true := by
  have := C40_role_order_is_irrelevant a a hr (.refl _)
  rw [this]
  exact C33_policy_refl a

/-- C40 fails if the conditions differ by parentheses: the roles are then not compared, so a policy with
other roles is not recreated. -/
theorem C40_changed_roles_not_noticed :
    ∃ desired current, (∃ d x, tableIn desired (lit "users") = some d ∧ tableIn current (lit "users") = some x ∧
        d.policies.map (·.roles) = [[lit "alice"]] ∧ x.policies.map (·.roles) = [[lit "bob"]]) ∧
      diff .postgres desired current = .ok [] :=
  ⟨[exCreate exUsers, .addPolicy [] (lit "users") { name := lit "p", roles := [lit "alice"], using_ := lit "(a)" }],
   [exCreate exUsers, .addPolicy [] (lit "users") { name := lit "p", roles := [lit "bob"], using_ := lit "a" }],
   ⟨{ exUsers with policies := [{ name := lit "p", roles := [lit "alice"], using_ := lit "(a)" }] },
    { exUsers with policies := [{ name := lit "p", roles := [lit "bob"], using_ := lit "a" }] }, by decide, by decide, rfl, rfl⟩,
   by decide +kernel⟩

def exPol (n : String) (r : List Str) : Policy := { name := lit n, roles := r }
/-- A new policy, one that changes, one with its roles in another order, one that goes. -/
example : diff .postgres
    [exCreate exUsers, .addPolicy [] (lit "users") (exPol "a" []), .addPolicy [] (lit "users") (exPol "b" [lit "x"]),
     .addPolicy [] (lit "users") (exPol "c" [lit "x", lit "y"])]
    [exCreate exUsers, .addPolicy [] (lit "users") (exPol "b" [lit "y"]), .addPolicy [] (lit "users") (exPol "c" [lit "y", lit "x"]),
     .addPolicy [] (lit "users") (exPol "d" [])] = .ok
    [.user (.addPolicy [] (lit "users") (exPol "a" [])), .dropPolicy (lit "users") (lit "b"),
     .user (.addPolicy [] (lit "users") (exPol "b" [lit "x"])), .dropPolicy (lit "users") (lit "d")] := by decide +kernel

end Sqldef
