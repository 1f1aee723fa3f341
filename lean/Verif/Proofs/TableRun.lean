import Verif.Proofs.Cleanup
import Verif.Proofs.MysqlColumns
import Verif.Proofs.TableScript
/-! Execution of all statements about a table. -/
namespace Sqldef
open Spec

variable {mode : Mode} {desired current : List DDL} {out : List Stmt}

/-! ### The separate definitions of a table -/

theorem indexesFor_filter (n : Str) (ds : List DDL) :
    indexesFor n (ds.filter fun d => decide (DDL.table d = some n)) = indexesFor n ds := by
  induction ds with
  | nil => rfl
  | cons d ds ih =>
    by_cases h : DDL.table d = some n
    · rw [List.filter_cons_of_pos (by simpa using h)]
      cases d <;> simp_all [indexesFor]
    · rw [List.filter_cons_of_neg (by simpa using h)]
      cases d <;> simp_all [indexesFor, DDL.table]

theorem policiesFor_filter (n : Str) (ds : List DDL) :
    policiesFor n (ds.filter fun d => decide (DDL.table d = some n)) = policiesFor n ds := by
  induction ds with
  | nil => rfl
  | cons d ds ih =>
    by_cases h : DDL.table d = some n
    · rw [List.filter_cons_of_pos (by simpa using h)]
      cases d <;> simp_all [policiesFor]
    · rw [List.filter_cons_of_neg (by simpa using h)]
      cases d <;> simp_all [policiesFor, DDL.table]

/-- The separate definitions of a table. -/
structure Rest (desired : List DDL) (n : Str) (rest : List DDL) : Prop where
  about : ∀ d ∈ rest, d ∈ desired ∧ DDL.table d = some n ∧ ∀ s' t', d ≠ .createTable s' t'
  indexes : indexesFor n rest = indexesFor n desired
  policies : policiesFor n rest = policiesFor n desired

theorem rest_of_created {s : Str} {t : Table} (hw : WellFormed desired) (hu : UniqueTables desired) (h : .createTable s t ∈ desired) :
    ∃ rest, (desired.filter fun d => decide (DDL.table d = some t.name)) = .createTable s t :: rest ∧ Rest desired t.name rest := by
  obtain ⟨rest, h1, h2⟩ := about_created hw hu h
  refine ⟨rest, h1, h2, ?_, ?_⟩
  · rw [← indexesFor_filter t.name desired, h1]; rfl
  · rw [← policiesFor_filter t.name desired, h1]; rfl

/-- The script about a table present in both schemas. -/
theorem Script.shared_parts {x y : List Stmt} (h : Script mode desired current out x y) {s : Str} {t c : Table}
    (ht : .createTable s t ∈ desired) (hc : tableIn current t.name = some c) :
    ∃ rest l r v, Rest desired t.name rest ∧ generateDDLsForCreateTable mode c t = .ok l ∧
      concatMapM (defStmts mode (tablesOf current) (viewsOf current) (triggersOf current)) rest = .ok r ∧
      cleanupTable mode c (complete desired t) = .ok v ∧
      out.filter (fun s => decide (Stmt.table s = some t.name)) = l ++ r ++ v := by
  obtain ⟨u, v, hu, hv, ho⟩ := h.about t.name
  obtain ⟨rest, hr1, hr2⟩ := rest_of_created h.wd h.ud ht
  rw [hr1] at hu
  obtain ⟨l, r, hl, hr, rfl⟩ := concatMapM_cons_ok.1 hu
  have hv := tablesOf_filter_name h.uc hc hv
  have hf : findTableByName (tablesOf current) t.name = some c := hc
  simp only [defStmts, hf] at hl
  have hf2 : findTableByName (tablesOf desired) c.name = some (complete desired t) := by
    rw [tableIn_name hc]; exact tableIn_of_created h.ud (mem_created.2 ⟨s, ht⟩)
  unfold tableCleanup at hv
  rw [hf2] at hv
  exact ⟨rest, l, r, v, hr2, hl, hr, hv, ho⟩

theorem tablesOf_filter_absent {n : Str} (h : tableIn current n = none) :
    ((tablesOf current).filter fun t => decide (some t.name = some n)) = [] := by
  rw [List.filter_eq_nil_iff]
  intro t ht
  rw [tableIn_none, ← names_tablesOf] at h
  simp only [Option.some.injEq, decide_eq_true_eq]
  exact fun e => h (e ▸ List.mem_map_of_mem ht)

/-- The script about a new table. -/
theorem Script.new_parts {x y : List Stmt} (h : Script mode desired current out x y) {s : Str} {t : Table}
    (ht : .createTable s t ∈ desired) (hc : tableIn current t.name = none) :
    ∃ rest r, Rest desired t.name rest ∧
      concatMapM (defStmts mode (tablesOf current) (viewsOf current) (triggersOf current)) rest = .ok r ∧
      out.filter (fun s => decide (Stmt.table s = some t.name)) = .user (.createTable s t) :: r := by
  obtain ⟨u, v, hu, hv, ho⟩ := h.about t.name
  obtain ⟨rest, hr1, hr2⟩ := rest_of_created h.wd h.ud ht
  rw [hr1] at hu
  obtain ⟨l, r, hl, hr, rfl⟩ := concatMapM_cons_ok.1 hu
  rw [tablesOf_filter_absent hc] at hv
  cases hv
  have hf : findTableByName (tablesOf current) t.name = none := hc
  simp only [defStmts, hf] at hl
  cases hl
  exact ⟨rest, r, hr2, hr, by simpa using ho⟩

/-- The script about an obsolete table. -/
theorem Script.obsolete_parts {x y : List Stmt} (h : Script mode desired current out x y) {n : Str} {c : Table}
    (hd : tableIn desired n = none) (hc : tableIn current n = some c) :
    out.filter (fun s => decide (Stmt.table s = some n)) = [.dropTable n] := by
  obtain ⟨u, v, hu, hv, ho⟩ := h.about n
  have hv := tablesOf_filter_name h.uc hc hv
  have hnil : (desired.filter fun d => decide (DDL.table d = some n)) = [] := by
    rw [List.filter_eq_nil_iff]
    intro d hdd
    simp only [decide_eq_true_eq]
    intro e
    rw [tableIn_none] at hd
    obtain ⟨pre, post, hpp⟩ := List.append_of_mem hdd
    have hw := h.wd pre d post hpp
    have hmono : ∀ {t' : Table}, tableIn pre n = some t' → False := by
      intro t' ht'
      apply hd
      have := tableIn_some_iff.1 ⟨t', ht'⟩
      rw [hpp]
      rw [mem_createdNames] at this ⊢
      obtain ⟨s', t'', h1, h2⟩ := this
      exact ⟨s', t'', by simp [h1], h2⟩
    cases d with
    | createTable s' t' =>
      simp only [DDL.table, Option.some.injEq] at e
      exact hd (mem_createdNames.2 ⟨s', t', hdd, e⟩)
    | createIndex _ m _ => simp only [DDL.table, Option.some.injEq] at e; subst e; obtain ⟨t', ht', -⟩ := hw; exact hmono ht'
    | addIndex _ m _ => simp only [DDL.table, Option.some.injEq] at e; subst e; obtain ⟨t', ht', -⟩ := hw; exact hmono ht'
    | addForeignKey _ m _ => simp only [DDL.table, Option.some.injEq] at e; subst e; obtain ⟨t', ht', -⟩ := hw; exact hmono ht'
    | addPolicy _ m _ => simp only [DDL.table, Option.some.injEq] at e; subst e; obtain ⟨t', ht', -⟩ := hw; exact hmono ht'
    | view v => cases e
    | trigger v => cases e
    | addPrimaryKey _ _ _ => exact hw
  rw [hnil] at hu
  cases hu
  unfold tableCleanup at hv
  rw [tableIn_name hc, show findTableByName (tablesOf desired) n = none from hd] at hv
  cases hv
  simpa using ho

/-- There is nothing about a table that neither schema has. -/
theorem Script.no_parts {x y : List Stmt} (h : Script mode desired current out x y) {n : Str}
    (hd : tableIn desired n = none) (hc : tableIn current n = none) :
    out.filter (fun s => decide (Stmt.table s = some n)) = [] := by
  obtain ⟨u, v, hu, hv, ho⟩ := h.about n
  have hnil : (desired.filter fun d => decide (DDL.table d = some n)) = [] := by
    rw [List.filter_eq_nil_iff]
    intro d hdd
    simp only [decide_eq_true_eq]
    intro e
    rw [tableIn_none] at hd
    obtain ⟨pre, post, hpp⟩ := List.append_of_mem hdd
    have hw := h.wd pre d post hpp
    have hmono : ∀ {t' : Table}, tableIn pre n = some t' → False := by
      intro t' ht'
      apply hd
      have := tableIn_some_iff.1 ⟨t', ht'⟩
      rw [hpp]
      rw [mem_createdNames] at this ⊢
      obtain ⟨s', t'', h1, h2⟩ := this
      exact ⟨s', t'', by simp [h1], h2⟩
    cases d with
    | createTable s' t' =>
      simp only [DDL.table, Option.some.injEq] at e
      exact hd (mem_createdNames.2 ⟨s', t', hdd, e⟩)
    | createIndex _ m _ => simp only [DDL.table, Option.some.injEq] at e; subst e; obtain ⟨t', ht', -⟩ := hw; exact hmono ht'
    | addIndex _ m _ => simp only [DDL.table, Option.some.injEq] at e; subst e; obtain ⟨t', ht', -⟩ := hw; exact hmono ht'
    | addForeignKey _ m _ => simp only [DDL.table, Option.some.injEq] at e; subst e; obtain ⟨t', ht', -⟩ := hw; exact hmono ht'
    | addPolicy _ m _ => simp only [DDL.table, Option.some.injEq] at e; subst e; obtain ⟨t', ht', -⟩ := hw; exact hmono ht'
    | view v => cases e
    | trigger v => cases e
    | addPrimaryKey _ _ _ => exact hw
  rw [hnil] at hu
  cases hu
  rw [tablesOf_filter_absent hc] at hv
  cases hv
  simpa using ho

/-! ### A table present in both schemas -/

/-- What is needed for the statements about a shared table to succeed: `x` is the current table, `d` the desired
CREATE TABLE and `D` the desired table with its separate definitions. -/
structure Fits (mode : Mode) (desired : List DDL) (x d D : Table) : Prop where
  xCols : x.names.Nodup
  dCols : d.names.Nodup
  xIdx : (x.sec.map (·.name)).Nodup
  dIdx : (D.sec.map (·.name)).Nodup
  xFks : (x.foreignKeys.map (·.constraintName)).Nodup
  dFks : (d.foreignKeys.map (·.constraintName)).Nodup
  xPols : (x.policies.map (·.name)).Nodup
  dPols : (D.policies.map (·.name)).Nodup
  noPols : d.policies = []
  sep : ∀ i ∈ D.sec, ∀ j ∈ x.indexes, j.primary = true → j.name ≠ i.name
  separate : ∀ i ∈ indexesFor d.name desired, i.primary = false
  mysqlUnique : mode = .mysql → ∀ c ∈ d.columns, needsUnique x c = true → c.name ∉ D.sec.map (·.name)
  mssqlIdentity : mode = .mssql → ∀ c ∈ d.columns, ∀ cur, x.col c.name = some cur →
    areSameIdentityDefinition cur.identity c.identity = true
  mssqlKey : mode = .mssql → keyChanges x d = false ∨ x.primaryKey = none
  mssqlKeyName : mode = .mssql → ∀ i ∈ x.indexes, i.primary = true → i.name ∈ D.indexes.map (·.name) ∨
    ∃ c ∈ D.columns, c.keyOption = .primary
  sqliteKey : mode = .sqlite3 → keyChanges x d = false
  sqliteIndexes : mode = .sqlite3 → ∀ i ∈ d.sec, ∃ c, findIndexByName x.indexes i.name = some c ∧ areSameIndexes c i = true
  sqliteSeparate : mode = .sqlite3 → ∀ i ∈ indexesFor d.name desired, ∀ c, findIndexByName x.indexes i.name = some c →
    areSameIndexes c i = true
  sqliteFks : mode = .sqlite3 → ∀ f ∈ d.foreignKeys, ∃ c, findForeignKeyByName x.foreignKeys f.constraintName = some c ∧
    areSameForeignKeys .sqlite3 c f = true
  sqliteDropped : mode = .sqlite3 → x.indexes.filter (droppedIndex D) = []
  sqlitePols : mode = .sqlite3 → x.policies = [] ∧ D.policies = []
  sqliteAddIndex : mode = .sqlite3 → ∀ s m i, .addIndex s m i ∉ desired

/-- The table `x` with the primary keys the statements leave. -/
def keyed (x d : Table) : Table := { x with indexes := primAfter x d }

/-- The column `e` after the statements about AUTO_INCREMENT and the primary key. -/
def finished (mode : Mode) (x d : Table) (e : Column) : Column :=
  addedAI mode x d (keyed x d) (rekeyed x d (removedAI mode x d x e))

/-- The shared table after all statements. -/
structure Final (mode : Mode) (x d D : Table) (A : Column → Column → Prop) (uq : Column → Bool)
    (ord : Option Str → Column → List Str → List Str) (T : Table) : Prop where
  name : T.name = x.name
  names : T.names = (foldNames ord none d.columns x.names).filter fun m => decide (m ∈ d.names)
  memNames : ∀ m, m ∈ T.names ↔ m ∈ d.names
  nodup : T.names.Nodup
  col : ∀ c ∈ d.columns, ∃ e, A c e ∧ T.col c.name = some (finished mode x d e)
  prim : T.prim = primAfter x d
  sec : ∀ n, look (·.name) T.sec n =
    if n ∈ (x.indexes.filter (droppedIndex D)).map (·.name) then none
    else match look (·.name) D.sec n with
      | none => look (·.name) (x.sec ++ newUniques uq d.columns) n
      | some i => some (synced areSameIndexes (look (·.name) x.sec n) i)
  secNodup : (T.sec.map (·.name)).Nodup
  fks : ∀ n, look (·.constraintName) T.foreignKeys n =
    if n ∈ (x.foreignKeys.filter (droppedFk mode D)).map (·.constraintName) then none
    else match look (·.constraintName) d.foreignKeys n with
      | none => look (·.constraintName) x.foreignKeys n
      | some i => some (synced (areSameForeignKeys mode) (look (·.constraintName) x.foreignKeys n) i)
  fksNodup : (T.foreignKeys.map (·.constraintName)).Nodup
  pols : ∀ n, look (·.name) T.policies n =
    match look (·.name) D.policies n with
      | none => none
      | some i => some (synced areSamePolicies (look (·.name) x.policies n) i)
  polsNodup : (T.policies.map (·.name)).Nodup

theorem inPrimaryKey_prim {t t' : Table} (h : t'.prim = t.prim) (c : Column) : inPrimaryKey t' c = inPrimaryKey t c := by
  unfold inPrimaryKey
  congr 1
  have : ∀ t : Table, (t.indexes.any fun i => i.primary && i.columns.any fun k => decide (k.column = c.name)) =
      t.prim.any fun i => i.columns.any fun k => decide (k.column = c.name) := by
    intro t
    simp [Table.prim, List.any_filter]
  rw [this, this, h]

theorem removedAI_prim {x d t t' : Table} (h : t'.prim = t.prim) : removedAI mode x d t' = removedAI mode x d t := by
  funext e
  unfold removedAI
  simp only [inPrimaryKey_prim h]

theorem addedAI_prim {x d t t' : Table} (h : t'.prim = t.prim) : addedAI mode x d t' = addedAI mode x d t := by
  funext e
  unfold addedAI
  simp only [inPrimaryKey_prim h]

theorem primAfter_primary {x d : Table} : ∀ i ∈ primAfter x d, i.primary = true := by
  intro i hi
  unfold primAfter at hi
  split at hi
  · split at hi
    · cases hi
    · next pk hpk =>
      rw [List.mem_singleton.1 hi]
      exact primaryKey_primary hpk
  · exact (List.mem_filter.1 hi).2

theorem keyed_prim (x d : Table) : (keyed x d).prim = primAfter x d := by
  simp only [keyed, Table.prim, List.filter_eq_self]
  exact primAfter_primary

theorem removedAI_keeps {x d t : Table} {e : Column} :
    (removedAI mode x d t e).name = e.name ∧ (removedAI mode x d t e).keyOption = e.keyOption := by
  unfold removedAI
  split
  · split
    · exact ⟨rfl, rfl⟩
    · next c hc => exact ⟨(look_mem hc).2, rfl⟩
  · exact ⟨rfl, rfl⟩

theorem rekeyed_keeps {x d : Table} {e : Column} : (rekeyed x d e).name = e.name ∧ (rekeyed x d e).defaultDef = e.defaultDef := by
  have h1 : ∀ pk e, (keyAdded pk e).name = e.name ∧ (keyAdded pk e).defaultDef = e.defaultDef := by
    intro pk e; unfold keyAdded; split <;> exact ⟨rfl, rfl⟩
  have h2 : ∀ e, (keyDropped e).name = e.name ∧ (keyDropped e).defaultDef = e.defaultDef := by
    intro e; unfold keyDropped; split <;> exact ⟨rfl, rfl⟩
  unfold rekeyed
  split
  · simp only
    have h3 : (if x.primaryKey.isSome then keyDropped e else e).name = e.name ∧
        (if x.primaryKey.isSome then keyDropped e else e).defaultDef = e.defaultDef := by
      split
      · exact h2 e
      · exact ⟨rfl, rfl⟩
    split
    · exact h3
    · next pk _ => exact ⟨(h1 pk _).1.trans h3.1, (h1 pk _).2.trans h3.2⟩
  · exact ⟨rfl, rfl⟩

theorem addedAI_name {x d t : Table} {e : Column} : (addedAI mode x d t e).name = e.name := by
  unfold addedAI
  split
  · split
    · rfl
    · next c hc => exact (look_mem hc).2
  · rfl

theorem finished_name {x d : Table} {e : Column} : (finished mode x d e).name = e.name := by
  unfold finished
  rw [addedAI_name, rekeyed_keeps.1, removedAI_keeps.1]

theorem finished_default {x d : Table} {e : Column} (hm : mode ≠ .mysql) : (finished mode x d e).defaultDef = e.defaultDef := by
  unfold finished addedAI removedAI
  rw [if_neg hm, if_neg hm, rekeyed_keeps.2]

theorem isSome_of_cols {x T : Table} (hp : T.prim = x.prim) (hx : x.names.Nodup) (hT : T.names.Nodup)
    (h : ∀ m, (∃ e, T.col m = some e ∧ e.keyOption = .primary) ↔ ∃ e, x.col m = some e ∧ e.keyOption = .primary) :
    T.primaryKey.isSome = x.primaryKey.isSome := by
  rw [Bool.eq_iff_iff, primaryKey_isSome, primaryKey_isSome, hp]
  have key : ∀ t : Table, t.names.Nodup → ((∃ c ∈ t.columns, c.keyOption = .primary) ↔
      ∃ m e, t.col m = some e ∧ e.keyOption = .primary) := by
    intro t ht
    constructor
    · rintro ⟨c, hc, hk⟩
      exact ⟨c.name, c, look_of_mem (key := fun c : Column => c.name) ht hc, hk⟩
    · rintro ⟨m, e, he, hk⟩
      exact ⟨e, (findColumn_mem he).1, hk⟩
  rw [key T hT, key x hx]
  simp only [h]


theorem shared_run {x d D : Table} {A : Column → Column → Prop} {uq : Column → Bool} {ord : Option Str → Column → List Str → List Str}
    (hf : Fits mode desired x d D) (hstep : StepOk mode x d A uq ord)
    (hA : ∀ c ∈ d.columns, ∀ e, A c e → (e.keyOption = .primary ↔ ∃ cur, x.col c.name = some cur ∧ cur.keyOption = .primary))
    (huq : ∀ c ∈ d.columns, uq c = true → c.name ∉ D.sec.map (·.name) ∧ c.name ∉ x.sec.map (·.name))
    (hxn : x.name = d.name) (hDc : D.columns = d.columns) (hDi : D.indexes = d.indexes ++ indexesFor d.name desired)
    (hDf : ∀ f ∈ d.foreignKeys, f ∈ D.foreignKeys) (hDp : D.policies = policiesFor d.name desired)
    {cur : List Table} {cv : List View} {ct : List Trigger} (hcur : findTableByName cur d.name = some x)
    {rest : List DDL} (hrest : Rest desired d.name rest) {l r v : List Stmt}
    (hl : generateDDLsForCreateTable mode x d = .ok l) (hr : concatMapM (defStmts mode cur cv ct) rest = .ok r)
    (hv : cleanupTable mode x D = .ok v) :
    ∃ T, alters mode (l ++ r ++ v) x = some T ∧ Final mode x d D A uq ord T := by
  obtain ⟨cols, removeAI, pk, idx, addAI, fks, e1, e2, e3, e4, e5, e6, rfl⟩ := createTable_parts hl
  have hDsec : D.sec = d.sec ++ indexesFor d.name desired := by
    simp only [Table.sec, hDi, List.filter_append]
    congr 1
    rw [List.filter_eq_self]
    intro i hi
    simp [hf.separate i hi]
  have hDn : D.names = d.names := by simp only [Table.names, hDc]
  -- columns
  obtain ⟨T1, a1, a2, a3⟩ := columns_run hstep (P := []) (Q := d.columns) (prev := none) (T := x) (by simpa using hf.dCols)
    (fun _ h => h) (by simp) (ColInv.start A uq hf.xCols) e1
  rw [List.nil_append] at a2
  have hp1 : T1.prim = x.prim := by
    simp only [Table.prim, a2.indexes, List.filter_append]
    have : (newUniques uq d.columns).filter (fun i => i.primary) = [] :=
      List.filter_eq_nil_iff.2 fun i hi => by simp [newUniques_primary i hi]
    rw [this, List.append_nil]
  have hs1 : T1.sec = x.sec ++ newUniques uq d.columns := by
    simp only [Table.sec, a2.indexes, List.filter_append]
    congr 1
    rw [List.filter_eq_self]
    exact fun i hi => by simp [newUniques_primary i hi]
  have hmem1 : ∀ m, m ∈ T1.names ↔ m ∈ x.names ∨ m ∈ d.names := a2.mem
  -- AUTO_INCREMENT is removed
  obtain ⟨T2, b1, b2⟩ := removeAI_run (T := T1) e2 hf.xCols (fun c hc => (hmem1 _).2 (.inl (List.mem_map_of_mem hc)))
  have hp2 : T2.prim = x.prim := by simp only [Table.prim, b2.indexes]; exact hp1
  have hs2 : T2.sec = x.sec ++ newUniques uq d.columns := by simp only [Table.sec, b2.indexes]; exact hs1
  have hcol1 : ∀ m, (∃ e, T1.col m = some e ∧ e.keyOption = .primary) ↔ ∃ e, x.col m = some e ∧ e.keyOption = .primary := by
    intro m
    by_cases hm : m ∈ d.columns.map (·.name)
    · obtain ⟨c, hc, rfl⟩ := List.mem_map.1 hm
      obtain ⟨e, he, hAe⟩ := a2.done c hc
      rw [← hA c hc e hAe]
      constructor
      · rintro ⟨e', he', hk⟩
        rw [he] at he'
        cases he'
        exact hk
      · exact fun hk => ⟨e, he, hk⟩
    · rw [a2.other m hm]
  have hcol2 : ∀ m, (∃ e, T2.col m = some e ∧ e.keyOption = .primary) ↔ ∃ e, x.col m = some e ∧ e.keyOption = .primary := by
    intro m
    rw [← hcol1 m, b2.col]
    constructor
    · rintro ⟨e, he, hk⟩
      obtain ⟨e', he', rfl⟩ := Option.map_eq_some_iff.1 he
      exact ⟨e', he', by rw [← hk]; exact removedAI_keeps.2.symm⟩
    · rintro ⟨e, he, hk⟩
      exact ⟨_, by rw [he]; rfl, by rw [removedAI_keeps.2]; exact hk⟩
  have hsome := isSome_of_cols hp2 hf.xCols (by rw [b2.names]; exact a2.nodup) hcol2
  -- the primary key
  obtain ⟨T3, c1, c2⟩ := pk_run e3 hsome hp2 hf.sqliteKey hf.mssqlKey
  -- the indexes
  have hlookU : ∀ n, n ∈ D.sec.map (·.name) → look (·.name) (x.sec ++ newUniques uq d.columns) n = look (·.name) x.sec n := by
    intro n hn
    rw [look_append]
    have : look (·.name) (newUniques uq d.columns) n = none := by
      rw [look_none]
      intro hm
      obtain ⟨i, hi, rfl⟩ := List.mem_map.1 hm
      obtain ⟨c, hc, hcu, rfl⟩ := newUniques_name hi
      exact (huq c hc hcu).1 hn
    rw [this, Option.or_none]
  obtain ⟨L, s1, s2, s3⟩ := sync_run (key := fun i : Index => i.name) (same := areSameIndexes) (l0 := x.sec) (D := D.sec)
    (L := x.sec ++ newUniques uq d.columns) hf.dIdx (fun a ha => hlookU _ (List.mem_map_of_mem ha))
  rw [hDsec, List.flatMap_append, runOps_append] at s1
  obtain ⟨L1, s1a, s1b⟩ := Option.bind_eq_some_iff.1 s1
  have iops := tableIndexes_ops (mode := mode) (x := x) (d := d)
    (fun i hi => hf.sep i (by rw [hDsec]; simp [hi])) hf.sqliteIndexes e4
  obtain ⟨T4, d1, d2, d3⟩ := idx_run iops (t := T3) (by rw [c2.sec, hs2]; exact s1a)
  -- AUTO_INCREMENT is added
  have hmem4 : ∀ m, m ∈ T4.names ↔ m ∈ x.names ∨ m ∈ d.names := by
    intro m
    rw [← hmem1 m, ← b2.names, ← c2.names]
    simp only [Table.names, d2.columns]
  obtain ⟨T5, f1, f2⟩ := addAI_run (T := T4) e5 hf.dCols (fun c hc => (hmem4 _).2 (.inr (List.mem_map_of_mem hc)))
  -- the foreign keys
  obtain ⟨F, g1, g2, g3⟩ := sync_run (key := fun i : ForeignKey => i.constraintName) (same := areSameForeignKeys mode)
    (l0 := x.foreignKeys) (D := d.foreignKeys) (L := x.foreignKeys) hf.dFks (fun _ _ => rfl)
  have fops := tableForeignKeys_ops (mode := mode) (x := x) (d := d) hf.sqliteFks e6
  have hfk5 : T5.foreignKeys = x.foreignKeys := by
    rw [f2.foreignKeys, d2.foreignKeys, c2.foreignKeys, b2.foreignKeys, a2.foreignKeys]
  obtain ⟨T6, h1, h2, h3⟩ := fk_run fops (t := T5) (by rw [hfk5]; exact g1)
  -- separate definitions
  have hpol6 : T6.policies = x.policies := by
    rw [h2.policies, f2.policies, d2.policies, c2.policies, b2.policies, a2.policies]
  have hsec6 : T6.sec = L1 := by simp only [Table.sec, h2.indexes, f2.indexes]; exact d3
  obtain ⟨Pl, p1, p2, p3⟩ := sync_run (key := fun i : Policy => i.name) (same := areSamePolicies)
    (l0 := x.policies) (D := D.policies) (L := x.policies) hf.dPols (fun _ _ => rfl)
  obtain ⟨T7, k1, k2, k3, k4⟩ := rest_run (mode := mode) (cv := cv) (ct := ct) hcur (fun e he => (hrest.about e he).2)
    (by rw [hrest.indexes]; exact hf.separate)
    (by
      rw [hrest.indexes]
      rintro i hi y hy
      cases hy
      exact hf.sep i (by rw [hDsec]; simp [hi]))
    (by
      intro hm
      rw [hrest.indexes, hrest.policies, ← hDp]
      refine ⟨?_, (hf.sqlitePols hm).2, ?_⟩
      · rintro i hi y c hy hc
        cases hy
        exact hf.sqliteSeparate hm i hi c hc
      · rintro e he s m i rfl
        exact hf.sqliteAddIndex hm s m i (hrest.about _ he).1)
    hr (t := T6) (Li := L) (Lp := Pl)
    (by rw [hrest.indexes, hsec6]; exact s1b)
    (by rw [hrest.policies, hpol6, ← hDp]; exact p1)
  -- the columns so far
  have hcols7 : T7.columns = T5.columns := by rw [k2.columns, h2.columns]
  have hnames7 : T7.names = T1.names := by
    have h5 : T5.names = T1.names := by
      rw [f2.names, ← b2.names, ← c2.names]
      simp only [Table.names, d2.columns]
    rw [← h5]
    simp only [Table.names, hcols7]
  have hprim4 : T4.prim = primAfter x d := d2.prim.trans c2.prim
  have hcol7 : ∀ m, T7.col m = (T1.col m).map (finished mode x d) := by
    intro m
    have h5 : T7.col m = T5.col m := by simp only [Table.col, hcols7]
    have h4 : T4.col m = T3.col m := by simp only [Table.col, d2.columns]
    rw [h5, f2.col, h4, c2.col, b2.col, Option.map_map, Option.map_map]
    congr 1
    funext e
    simp only [Function.comp_apply, finished]
    rw [removedAI_prim hp1, addedAI_prim (hprim4.trans (keyed_prim x d).symm)]
  -- clean-up
  have hobs : ∀ c ∈ obsoleteCols x D, c ∈ x.columns ∧ c.name ∉ d.names := by
    intro c hc
    obtain ⟨h1, h2⟩ := List.mem_filter.1 hc
    rw [hDn] at h2
    exact ⟨h1, by simpa using h2⟩
  obtain ⟨T8, m1, m2⟩ := cleanup_run (T := T7) hv hf.xCols hf.xIdx hf.xFks hf.xPols hf.mssqlKeyName
    (fun hm => ⟨hf.sqliteDropped hm, by simp [obsoletePols, (hf.sqlitePols hm).1]⟩)
    (by
      intro c hc
      obtain ⟨hc1, hc2⟩ := hobs c hc
      refine ⟨finished mode x d c, ?_, fun hm => finished_default (by rw [hm]; decide)⟩
      rw [hcol7, a2.other c.name hc2]
      rw [show x.col c.name = some c from look_of_mem (key := fun c : Column => c.name) hf.xCols hc1]
      rfl)
    (by
      intro i hi hd
      rw [k3, ← look_isSome, s2]
      simp only [droppedIndex, Bool.and_eq_true, decide_eq_true_eq, Bool.not_eq_true'] at hd
      have hn : look (·.name) D.sec i.name = none := by
        rw [look_none]
        intro hm
        obtain ⟨j, hj, hjn⟩ := List.mem_map.1 hm
        exact hd.1.1.2 (List.mem_map.2 ⟨j, (List.mem_filter.1 hj).1, hjn⟩)
      rw [hn]
      simp only
      rw [look_isSome, List.map_append, List.mem_append]
      exact .inl (List.mem_map.2 ⟨i, List.mem_filter.2 ⟨hi, by simp [hd.1.1.1]⟩, rfl⟩))
    (by
      intro f hff hd
      rw [k2.foreignKeys, h3, ← look_isSome, g2]
      simp only [droppedFk, Bool.and_eq_true, decide_eq_true_eq] at hd
      have hn : look (·.constraintName) d.foreignKeys f.constraintName = none := by
        rw [look_none]
        intro hm
        obtain ⟨j, hj, hjn⟩ := List.mem_map.1 hm
        exact hd.1.1 (List.mem_map.2 ⟨j, hDf j hj, hjn⟩)
      rw [hn]
      simp only
      rw [look_isSome]
      exact List.mem_map_of_mem hff)
    (by
      intro p hp
      obtain ⟨hp1, hp2⟩ := List.mem_filter.1 hp
      rw [k4, ← look_isSome, p2]
      have hn : look (·.name) D.policies p.name = none := by
        rw [look_none]; simpa using hp2
      rw [hn]
      simp only
      rw [look_isSome]
      exact List.mem_map_of_mem hp1)
  have hobsn : ∀ m, m ∈ T1.names → ((m ∉ (obsoleteCols x D).map (·.name)) ↔ m ∈ d.names) := by
    intro m hm
    constructor
    · intro hno
      rcases (hmem1 m).1 hm with hx | hd
      · by_contra hd
        obtain ⟨c, hc, rfl⟩ := List.mem_map.1 hx
        exact hno (List.mem_map.2 ⟨c, List.mem_filter.2 ⟨hc, by rw [hDn]; simpa using hd⟩, rfl⟩)
      · exact hd
    · intro hd hno
      obtain ⟨c, hc, rfl⟩ := List.mem_map.1 hno
      exact (hobs c hc).2 hd
  have hnames8 : T8.names = T1.names.filter fun m => decide (m ∈ d.names) := by
    rw [m2.names, hnames7]
    refine List.filter_congr fun m hm => ?_
    rw [decide_eq_decide]
    exact hobsn m hm
  refine ⟨T8, ?_, ⟨?_, ?_, ?_, ?_, ?_, ?_, ?_, ?_, ?_, ?_, ?_, ?_⟩⟩
  · simp only [alters_append, a1, b1, c1, d1, f1, h1, k1, m1, Option.bind_some]
  · rw [m2.name, k2.name, h2.name, f2.name, d2.name, c2.name, b2.name, a2.name]
  · rw [hnames8, a3]
  · intro m
    rw [hnames8, List.mem_filter, decide_eq_true_eq]
    exact ⟨fun h => h.2, fun h => ⟨(hmem1 m).2 (.inr h), h⟩⟩
  · rw [hnames8]
    exact List.Nodup.sublist List.filter_sublist a2.nodup
  · intro c hc
    obtain ⟨e, he, hAe⟩ := a2.done c hc
    refine ⟨e, hAe, ?_⟩
    have hcd : c.name ∈ d.names := List.mem_map_of_mem hc
    rw [m2.col, if_neg ((hobsn c.name ((hmem1 _).2 (.inr hcd))).2 hcd), hcol7, he]
    rfl
  · rw [m2.prim, k2.prim]
    simp only [Table.prim, h2.indexes, f2.indexes]
    exact hprim4
  · intro n
    rw [m2.sec, k3, s2]
    cases look (·.name) D.sec n <;> rfl
  · refine m2.secNodup ?_
    rw [k3]
    refine s3 ?_
    rw [List.map_append, List.nodup_append]
    refine ⟨hf.xIdx, ?_, ?_⟩
    · have : (newUniques uq d.columns).map (·.name) = (d.columns.filter uq).map (·.name) := by
        simp [newUniques, uniqueIndex]
      rw [this]
      exact nodup_drop (key := fun c : Column => c.name) hf.dCols
    · rintro a ha b hb rfl
      obtain ⟨i, hi, rfl⟩ := List.mem_map.1 hb
      obtain ⟨c, hc, hcu, rfl⟩ := newUniques_name hi
      exact (huq c hc hcu).2 ha
  · intro n
    rw [m2.fks, k2.foreignKeys, h3, g2]
    cases look (·.constraintName) d.foreignKeys n <;> rfl
  · refine m2.fksNodup ?_
    rw [k2.foreignKeys, h3]
    exact g3 hf.xFks
  · intro n
    rw [m2.pols, k4, p2]
    cases hn : look (·.name) D.policies n with
    | some p =>
      rw [if_neg]
      intro hm
      obtain ⟨q, hq, hqn⟩ := List.mem_map.1 hm
      have hq2 := (List.mem_filter.1 hq).2
      simp only [decide_eq_true_eq] at hq2
      apply hq2
      rw [hqn, ← look_isSome, hn]
      rfl
    | none =>
      simp only
      split
      · rfl
      · next hno =>
        rw [look_none]
        intro hx
        obtain ⟨q, hq, rfl⟩ := List.mem_map.1 hx
        exact hno (List.mem_map.2 ⟨q, List.mem_filter.2 ⟨hq, by simpa using look_none.1 hn⟩, rfl⟩)
  · refine m2.polsNodup ?_
    rw [k4]
    exact p3 hf.xPols

end Sqldef
