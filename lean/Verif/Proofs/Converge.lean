import Verif.Proofs.TableRun
import Verif.Proofs.Decide
/-! The generated script runs and reaches the desired schema. -/
namespace Sqldef
open Spec

variable {mode : Mode} {desired current : List DDL} {out : List Stmt}

theorem look_unique {α : Type} {key : α → Str} {l : List α} (hn : (l.map key).Nodup) {a : α} (ha : a ∈ l) {n : Str} (h : key a = n) :
    look key l n = some a := h ▸ look_of_mem hn ha

/-- Separately defined indexes do not change the primary key. -/
theorem primaryKey_congr {t t' : Table} (hc : t'.columns = t.columns) (hp : t'.prim = t.prim) : t'.primaryKey = t.primaryKey := by
  unfold Table.primaryKey
  have : ∀ t : Table, t.indexes.find? (·.primary) = t.prim.head? := by
    intro t
    simp only [Table.prim]
    exact (List.head?_filter ..).symm
  rw [this, this, hp, hc]

theorem complete_prim {d : Table} (hs : ∀ i ∈ indexesFor d.name desired, i.primary = false) : (complete desired d).prim = d.prim := by
  simp only [Table.prim, complete, List.filter_append]
  have : (indexesFor d.name desired).filter (fun i => i.primary) = [] :=
    List.filter_eq_nil_iff.2 fun i hi => by simp [hs i hi]
  rw [this, List.append_nil]

theorem complete_key {d : Table} (hw : WellFormed desired) (hs : ∀ i ∈ indexesFor d.name desired, i.primary = false) :
    (complete desired d).primaryKey = d.primaryKey :=
  primaryKey_congr (complete_columns hw d) (complete_prim hs)

theorem mem_sec {t : Table} {i : Index} : i ∈ t.sec ↔ i ∈ t.indexes ∧ i.primary = false := by
  simp [Table.sec]

theorem fits_of_supported (hw : WellFormed desired) (h : Supported mode desired current) {d x : Table} (hd : d ∈ created desired)
    (hx : x ∈ tablesOf current) (hxn : x.name = d.name) : Fits mode desired x d (complete desired d) := by
  obtain ⟨hD, hpol⟩ := h.desiredTidy d hd
  have hX := h.currentTidy x hx
  have hS := h.separate d hd
  have hC := h.tables d hd x hx hxn
  have hDc : (complete desired d).columns = d.columns := complete_columns hw d
  have hkey := complete_key hw hS
  have hsub : (d.foreignKeys.map (·.constraintName)).Sublist ((complete desired d).foreignKeys.map (·.constraintName)) := by
    simp only [complete, List.map_append]
    exact List.sublist_append_left _ _
  have hfind : ∀ i ∈ (complete desired d).sec, ∀ j ∈ x.indexes, j.primary = true → j.name ≠ i.name := by
    intro i hi j hj hjp
    obtain ⟨hi1, hi2⟩ := mem_sec.1 hi
    exact Ne.symm (hC.keyNames i hi1 j hj (by rw [hi2, hjp]; decide))
  have hdsec : ∀ i ∈ d.sec, i ∈ (complete desired d).sec := by
    intro i hi
    obtain ⟨hi1, hi2⟩ := mem_sec.1 hi
    exact mem_sec.2 ⟨by simp [complete, hi1], hi2⟩
  refine
    { xCols := hX.columns, dCols := by have := hD.columns; rw [hDc] at this; exact this,
      xIdx := hX.indexes, dIdx := hD.indexes, xFks := hX.foreignKeys, dFks := List.Nodup.sublist hsub hD.foreignKeys,
      xPols := hX.policies, dPols := hD.policies, noPols := hpol, sep := hfind, separate := hS, mysqlUnique := ?_,
      mssqlIdentity := ?_, mssqlKey := ?_, mssqlKeyName := fun hm => (hC.mssql hm).keyName, sqliteKey := ?_,
      sqliteIndexes := ?_, sqliteSeparate := ?_, sqliteFks := ?_, sqliteDropped := ?_,
      sqlitePols := fun hm => (hC.sqlite hm).policies, sqliteAddIndex := ?_ }
  · intro hm c hc hu
    have hcu : c.keyOption.isUnique = true := by
      unfold needsUnique at hu
      split at hu
      · cases hu
      · simp only [Bool.and_eq_true] at hu
        exact hu.1.1
    exact hC.mysql hm c (by rw [hDc]; exact hc) hcu
  · intro hm c hc cur hcur
    exact (same_identity_iff _ _).2 ((hC.mssql hm).identity c (by rw [hDc]; exact hc) cur (findColumn_mem hcur).1 (findColumn_mem hcur).2)
  · intro hm
    rcases (hC.mssql hm).key with h | h
    · left; rw [hkey, ← same_key_iff] at h; simp [keyChanges, h]
    · exact .inr h
  · intro hm
    have := (hC.sqlite hm).key
    rw [hkey, ← same_key_iff] at this
    simp [keyChanges, this]
  · intro hm i hi
    obtain ⟨hi1, hi2⟩ := mem_sec.1 hi
    have hxs := (hC.sqlite hm).inner i hi1 hi2
    rw [secondaryNames_eq, ← look_isSome] at hxs
    obtain ⟨c, hc⟩ := Option.isSome_iff_exists.1 hxs
    have hf := findIndex_sec (hfind i (hdsec i hi))
    refine ⟨c, hf.trans hc, ?_⟩
    obtain ⟨hc1, hc2⟩ := look_mem hc
    exact (same_index_iff _ _).2 ((hC.sqlite hm).same i (mem_sec.1 (hdsec i hi)).1 c (mem_sec.1 hc1).1 hc2)
  · intro hm i hi c hc
    obtain ⟨hc1, hc2⟩ := findIndex_mem hc
    exact (same_index_iff _ _).2 ((hC.sqlite hm).same i (by simp [complete, hi]) c hc1 hc2)
  · intro hm f hf
    obtain ⟨g, hg1, hg2, hg3⟩ := (hC.sqlite hm).foreignKeys f hf
    exact ⟨g, look_unique (key := fun f : ForeignKey => f.constraintName) hX.foreignKeys hg1 hg2, (same_foreign_key_iff _ _ _).2 hg3⟩
  · intro hm
    rw [List.filter_eq_nil_iff]
    intro i hi hdr
    simp only [droppedIndex, Bool.and_eq_true, decide_eq_true_eq, Bool.not_eq_true'] at hdr
    exact hdr.1.1.2 ((hC.sqlite hm).obsolete i hi hdr.1.1.1)
  · intro hm s m i hmem
    have := (h.sqlite hm).1 _ hmem
    simp [isAddIndex] at this

/-! ### Keys of the columns -/

/-- The statements about columns preserve which columns are declared PRIMARY KEY. -/
def KeepsKey (x : Table) (A : Column → Column → Prop) : Prop :=
  ∀ c e, A c e → e.name = c.name ∧ (e.keyOption = .primary ↔ ∃ cur, x.col c.name = some cur ∧ cur.keyOption = .primary)

theorem storedNew_key (c : Column) : (storedNew c).keyOption ≠ .primary := by
  simp only [storedNew, stored]
  split
  · decide
  · next h => exact h

theorem mysql_keepsKey (x : Table) : KeepsKey x (MysqlAfter x) := by
  rintro c e (⟨hx, rfl⟩ | ⟨cur, hx, (⟨rfl, -⟩ | rfl)⟩)
  · exact ⟨rfl, by simp [hx, storedNew_key]⟩
  · exact ⟨(findColumn_mem hx).2, by simp [hx]⟩
  · refine ⟨seen_fields.1, ?_⟩
    simp [hx, stored]

theorem other_keepsKey {x : Table} {f : Column → Column → Column}
    (hf : ∀ cur c, (f cur c).name = cur.name ∧ (f cur c).keyOption = cur.keyOption) : KeepsKey x (OtherAfter f x) := by
  rintro c e (⟨hx, rfl⟩ | ⟨cur, hx, rfl⟩)
  · exact ⟨rfl, by simp [hx, storedNew_key]⟩
  · exact ⟨(hf cur c).1.trans (findColumn_mem hx).2, by simp [hx, (hf cur c).2]⟩

theorem pgAfter_keeps (x d : Table) (cur c : Column) : (pgAfter x d cur c).name = cur.name ∧ (pgAfter x d cur c).keyOption = cur.keyOption := by
  have h1 : ∀ e, (pgTypeAfter cur c e).name = e.name ∧ (pgTypeAfter cur c e).keyOption = e.keyOption := by
    intro e; unfold pgTypeAfter; split <;> exact ⟨rfl, rfl⟩
  have h2 : ∀ pk e, (pgNotNullAfter pk cur c e).name = e.name ∧ (pgNotNullAfter pk cur c e).keyOption = e.keyOption := by
    intro pk e; unfold pgNotNullAfter; repeat' split
    all_goals exact ⟨rfl, rfl⟩
  have h3 : ∀ e, (pgIdentityAfter cur c e).name = e.name ∧ (pgIdentityAfter cur c e).keyOption = e.keyOption := by
    intro e; unfold pgIdentityAfter; repeat' split
    all_goals exact ⟨rfl, rfl⟩
  have h4 : ∀ e, (pgDefaultAfter cur c e).name = e.name ∧ (pgDefaultAfter cur c e).keyOption = e.keyOption := by
    intro e; unfold pgDefaultAfter; repeat' split
    all_goals exact ⟨rfl, rfl⟩
  have h5 : ∀ e, (pgCheckAfter d cur c e).name = e.name ∧ (pgCheckAfter d cur c e).keyOption = e.keyOption := by
    intro e; unfold pgCheckAfter; repeat' split
    all_goals exact ⟨rfl, rfl⟩
  unfold pgAfter
  exact ⟨by rw [(h5 _).1, (h4 _).1, (h3 _).1, (h2 _ _).1, (h1 _).1], by rw [(h5 _).2, (h4 _).2, (h3 _).2, (h2 _ _).2, (h1 _).2]⟩

theorem msAfter_keeps (d : Table) (cur c : Column) : (msAfter d cur c).name = cur.name ∧ (msAfter d cur c).keyOption = cur.keyOption := by
  have h4 : ∀ e, (msDefaultAfter cur c e).name = e.name ∧ (msDefaultAfter cur c e).keyOption = e.keyOption := by
    intro e; unfold msDefaultAfter; repeat' split
    all_goals exact ⟨rfl, rfl⟩
  have h5 : ∀ e, (msCheckAfter d cur c e).name = e.name ∧ (msCheckAfter d cur c e).keyOption = e.keyOption := by
    intro e; unfold msCheckAfter; repeat' split
    all_goals exact ⟨rfl, rfl⟩
  unfold msAfter
  exact ⟨by rw [(h4 _).1, (h5 _).1], by rw [(h4 _).2, (h5 _).2]⟩

/-- What becomes of a desired column, which unique keys are added, and where columns are placed. -/
def AfterCol (mode : Mode) (x d : Table) : Column → Column → Prop :=
  match mode with
  | .mysql => MysqlAfter x
  | .postgres => OtherAfter (pgAfter x d) x
  | .mssql => OtherAfter (msAfter d) x
  | .sqlite3 => OtherAfter (fun cur _ => cur) x

/-- The columns for which a unique key is added. -/
def uniques (mode : Mode) (x : Table) : Column → Bool :=
  match mode with
  | .mysql => needsUnique x
  | _ => fun _ => false

/-- Where the columns are placed. -/
def ordering (mode : Mode) (x d : Table) : Option Str → Column → List Str → List Str :=
  match mode with
  | .mysql => stepNames x d
  | _ => appendNames x

theorem afterCol_keepsKey (mode : Mode) (x d : Table) : KeepsKey x (AfterCol mode x d) := by
  cases mode with
  | mysql => exact mysql_keepsKey x
  | postgres => exact other_keepsKey (pgAfter_keeps x d)
  | mssql => exact other_keepsKey (msAfter_keeps d)
  | sqlite3 => exact other_keepsKey (fun _ _ => ⟨rfl, rfl⟩)

theorem needsUnique_spec {x : Table} {c : Column} (h : needsUnique x c = true) :
    c.keyOption.isUnique = true ∧ findIndexByName x.indexes c.name = none := by
  unfold needsUnique at h
  split at h
  · cases h
  · simp only [Bool.and_eq_true, Option.isNone_iff_eq_none] at h
    exact ⟨h.1.1, h.2⟩

theorem shared_final {x d D : Table} (hf : Fits mode desired x d D)
    (hxn : x.name = d.name) (hDc : D.columns = d.columns) (hDi : D.indexes = d.indexes ++ indexesFor d.name desired)
    (hDf : ∀ f ∈ d.foreignKeys, f ∈ D.foreignKeys) (hDp : D.policies = policiesFor d.name desired)
    {cur : List Table} {cv : List View} {ct : List Trigger} (hcur : findTableByName cur d.name = some x)
    {rest : List DDL} (hrest : Rest desired d.name rest) {l r v : List Stmt}
    (hl : generateDDLsForCreateTable mode x d = .ok l) (hr : concatMapM (defStmts mode cur cv ct) rest = .ok r)
    (hv : cleanupTable mode x D = .ok v) :
    ∃ T, alters mode (l ++ r ++ v) x = some T ∧ Final mode x d D (AfterCol mode x d) (uniques mode x) (ordering mode x d) T := by
  refine shared_run hf ?_ (fun c _ e h => (afterCol_keepsKey mode x d c e h).2) ?_ hxn hDc hDi hDf hDp hcur hrest hl hr hv
  · cases mode with
    | mysql => exact mysql_step x d
    | postgres => exact pg_step x d
    | mssql => exact ms_step x d (hf.mssqlIdentity rfl)
    | sqlite3 => exact sqlite_step x d
  · intro c hc hu
    cases mode with
    | mysql =>
      refine ⟨hf.mysqlUnique rfl c hc hu, fun hm => ?_⟩
      have := (needsUnique_spec hu).2
      rw [findIndex_none] at this
      obtain ⟨i, hi, hin⟩ := List.mem_map.1 hm
      exact this (List.mem_map.2 ⟨i, (mem_sec.1 hi).1, hin⟩)
    | postgres => cases hu
    | mssql => cases hu
    | sqlite3 => cases hu

/-! ### The primary key afterwards -/

theorem primaryKey_prim {t : Table} {i : Index} {l : List Index} (h : t.prim = i :: l) : t.primaryKey = some i := by
  unfold Table.primaryKey
  have : t.indexes.find? (·.primary) = some i := by
    have : t.prim.head? = t.indexes.find? (·.primary) := by
      simp only [Table.prim]; exact List.head?_filter ..
    rw [← this, h]; rfl
  rw [this]

theorem primaryKey_noPrim {t : Table} (h : t.prim = []) : t.primaryKey =
    if (t.columns.filter fun c : Column => decide (c.keyOption = .primary)) = [] then none
    else some { name := lit "PRIMARY", indexType := lit "primary key",
                columns := (t.columns.filter fun c : Column => decide (c.keyOption = .primary)).map fun c => { column := c.name },
                primary := true, unique := true, clustered := true } := by
  unfold Table.primaryKey
  have : t.indexes.find? (·.primary) = none := by
    rw [List.find?_eq_none]
    intro i hi hp
    have : i ∈ t.prim := List.mem_filter.2 ⟨hi, hp⟩
    rw [h] at this
    cases this
  rw [this]
  simp only
  cases t.columns.filter fun c : Column => decide (c.keyOption = .primary) <;> simp

theorem addedAI_key {x d t : Table} {e : Column} : (addedAI mode x d t e).keyOption = e.keyOption := by
  unfold addedAI
  repeat' split
  all_goals rfl

theorem rekeyed_key {x d : Table} {e : Column} : (rekeyed x d e).keyOption =
    if keyChanges x d && x.primaryKey.isSome && decide (e.keyOption = .primary) then .none else e.keyOption := by
  have h1 : ∀ pk e, (keyAdded pk e).keyOption = e.keyOption := by intro pk e; unfold keyAdded; split <;> rfl
  have h2 : ∀ e : Column, (if x.primaryKey.isSome then keyDropped e else e).keyOption =
      if x.primaryKey.isSome && decide (e.keyOption = .primary) then .none else e.keyOption := by
    intro e
    unfold keyDropped
    cases x.primaryKey.isSome <;> by_cases hk : e.keyOption = .primary <;> simp [hk]
  unfold rekeyed
  cases hk : keyChanges x d with
  | false => simp
  | true =>
    simp only [if_true, Bool.true_and]
    cases d.primaryKey with
    | none => exact h2 e
    | some pk => simp only [h1]; exact h2 e

theorem finished_key {x d : Table} {e : Column} : (finished mode x d e).keyOption =
    if keyChanges x d && x.primaryKey.isSome && decide (e.keyOption = .primary) then .none else e.keyOption := by
  unfold finished
  rw [addedAI_key, rekeyed_key, removedAI_keeps.2]

theorem filter_singleton {α : Type} {key : α → Str} {p : α → Bool} {l : List α} {a : α} (hn : (l.map key).Nodup) (ha : a ∈ l)
    (hp : p a = true) (h : ∀ b ∈ l, p b = true → key b = key a) : l.filter p = [a] := by
  induction l with
  | nil => cases ha
  | cons b l ih =>
    rw [List.map_cons, List.nodup_cons] at hn
    rcases List.mem_cons.1 ha with rfl | ha'
    · rw [List.filter_cons_of_pos hp, List.filter_eq_nil_iff.2]
      intro c hc hcp
      exact hn.1 (List.mem_map.2 ⟨c, hc, h c (by simp [hc]) hcp⟩)
    · rw [List.filter_cons_of_neg, ih hn.2 ha' fun c hc => h c (by simp [hc])]
      intro hb
      have := h b (by simp) hb
      exact hn.1 (List.mem_map.2 ⟨a, ha', this.symm⟩)

theorem key_of_final {x d D T : Table} {A : Column → Column → Prop} {uq : Column → Bool} {ord : Option Str → Column → List Str → List Str}
    (hfin : Final mode x d D A uq ord T) (hA : KeepsKey x A) (hx : Tidy x) (hdn : d.names.Nodup)
    (hone : (d.columns.filter fun c : Column => decide (c.keyOption = .primary)).length ≤ 1)
    (hkc : ∀ i ∈ d.indexes, i.primary = true → ∀ k ∈ i.columns, k.column ∈ d.names)
    (hmode : keyChanges x d = true → x.primaryKey = none ∨ mode = .mysql ∨ mode = .postgres) :
    T.primaryKey = d.primaryKey ∨ areSamePrimaryKeys T.primaryKey d.primaryKey = true := by
  -- the columns of the table
  have hcol : ∀ e ∈ T.columns, ∃ c ∈ d.columns, ∃ e', A c e' ∧ e = finished mode x d e' := by
    intro e he
    have hen : e.name ∈ d.names := (hfin.memNames _).1 (List.mem_map_of_mem he)
    obtain ⟨c, hc, hce⟩ := List.mem_map.1 hen
    obtain ⟨e', hA', hT⟩ := hfin.col c hc
    refine ⟨c, hc, e', hA', ?_⟩
    have : T.col c.name = some e := look_unique (key := fun c : Column => c.name) hfin.nodup he hce.symm
    rw [this] at hT
    exact Option.some.inj hT
  by_cases hk : keyChanges x d = true
  · left
    cases hd : d.primaryKey with
    | some pk => exact primaryKey_prim (l := []) (by rw [hfin.prim]; simp [primAfter, hk, hd])
    | none =>
      have hp : T.prim = [] := by rw [hfin.prim]; simp [primAfter, hk, hd]
      rw [primaryKey_noPrim hp, if_pos]
      rw [List.filter_eq_nil_iff]
      intro e he hek
      simp only [decide_eq_true_eq] at hek
      obtain ⟨c, hc, e', hA', rfl⟩ := hcol e he
      rw [finished_key, hk, Bool.true_and] at hek
      split at hek
      · cases hek
      · next hno =>
        obtain ⟨cur, hcur, hcurk⟩ := (hA c e' hA').2.1 hek
        have : x.primaryKey.isSome = true := (primaryKey_isSome x).2 (.inr ⟨cur, (findColumn_mem hcur).1, hcurk⟩)
        simp [this, hek] at hno
  · right
    have hk' : keyChanges x d = false := by simpa using hk
    have hsame : areSamePrimaryKeys x.primaryKey d.primaryKey = true := by simpa [keyChanges] using hk'
    suffices h : T.primaryKey = x.primaryKey by rw [h]; exact hsame
    have hp : T.prim = x.prim := by rw [hfin.prim]; simp [primAfter, hk']
    cases hxp : x.prim with
    | cons i l => rw [primaryKey_prim (hp.trans hxp), primaryKey_prim hxp]
    | nil =>
      rw [hxp] at hp
      have hTk : ∀ e ∈ T.columns, e.keyOption = .primary → ∃ cur ∈ x.columns, cur.name = e.name ∧ cur.keyOption = .primary := by
        intro e he hek
        obtain ⟨c, hc, e', hA', rfl⟩ := hcol e he
        rw [finished_key, hk', Bool.false_and, Bool.false_and] at hek
        simp only [Bool.false_eq_true, if_false] at hek
        obtain ⟨cur, hcur, hcurk⟩ := (hA c e' hA').2.1 hek
        refine ⟨cur, (findColumn_mem hcur).1, ?_, hcurk⟩
        rw [(findColumn_mem hcur).2, finished_name, (hA c e' hA').1]
      rw [primaryKey_noPrim hp, primaryKey_noPrim hxp]
      cases hxf : x.columns.filter fun c : Column => decide (c.keyOption = .primary) with
      | nil =>
        have : T.columns.filter (fun c : Column => decide (c.keyOption = .primary)) = [] := by
          rw [List.filter_eq_nil_iff]
          intro e he hek
          obtain ⟨cur, hcur, -, hcurk⟩ := hTk e he (by simpa using hek)
          have : cur ∈ x.columns.filter fun c : Column => decide (c.keyOption = .primary) :=
            List.mem_filter.2 ⟨hcur, by simpa using hcurk⟩
          rw [hxf] at this
          cases this
        rw [this]
      | cons a as =>
        have has : as = [] := by
          have := hx.oneKey
          rw [hxf] at this
          simp only [List.length_cons] at this
          cases as with
          | nil => rfl
          | cons b bs => simp at this
        subst has
        have ha : a ∈ x.columns ∧ a.keyOption = .primary := by
          have : a ∈ x.columns.filter fun c : Column => decide (c.keyOption = .primary) := by rw [hxf]; simp
          exact ⟨(List.mem_filter.1 this).1, by simpa using (List.mem_filter.1 this).2⟩
        -- the desired key is the same column
        have hxk := primaryKey_noPrim hxp
        rw [hxf] at hxk
        rw [if_neg (by simp)] at hxk
        have had : a.name ∈ d.names := by
          rw [hxk] at hsame
          cases hdk : d.primaryKey with
          | none => rw [hdk] at hsame; cases hsame
          | some pk =>
            rw [hdk] at hsame
            simp only [areSamePrimaryKeys, areSameIndexes, Bool.and_eq_true, decide_eq_true_eq, List.map_cons, List.map_nil,
              List.length_cons, List.length_nil] at hsame
            obtain ⟨⟨⟨⟨⟨-, hlen⟩, hcols⟩, -⟩, -⟩, -⟩ := hsame
            cases hpkc : pk.columns with
            | nil => rw [hpkc] at hlen; simp at hlen
            | cons k ks =>
              rw [hpkc] at hcols
              simp only [List.zip_cons_cons, List.all_cons, Bool.and_eq_true, decide_eq_true_eq] at hcols
              have hkn : a.name = k.column := hcols.1.1
              rw [hkn]
              cases hdp : d.prim with
              | cons i l =>
                rw [primaryKey_prim hdp] at hdk
                cases hdk
                have hi : pk ∈ d.prim := by rw [hdp]; simp
                obtain ⟨hi1, hi2⟩ := List.mem_filter.1 hi
                exact hkc pk hi1 hi2 k (by rw [hpkc]; simp)
              | nil =>
                rw [primaryKey_noPrim hdp] at hdk
                split at hdk
                · cases hdk
                · cases hdk
                  simp only at hpkc
                  have : k ∈ (d.columns.filter fun c : Column => decide (c.keyOption = .primary)).map fun c => ({ column := c.name } : IndexColumn) := by
                    rw [hpkc]; simp
                  obtain ⟨c, hc, rfl⟩ := List.mem_map.1 this
                  exact List.mem_map_of_mem (List.mem_filter.1 hc).1
        obtain ⟨c, hc, hca⟩ := List.mem_map.1 had
        obtain ⟨e', hA', hT⟩ := hfin.col c hc
        obtain ⟨hT1, hT2⟩ := findColumn_mem hT
        have hek : (finished mode x d e').keyOption = .primary := by
          rw [finished_key, hk']
          simp only [Bool.false_and, Bool.false_eq_true, if_false]
          refine (hA c e' hA').2.2 ⟨a, ?_, ha.2⟩
          exact look_unique (key := fun c : Column => c.name) hx.columns ha.1 hca.symm
        have huniq : ∀ b ∈ T.columns, decide (b.keyOption = .primary) = true → b.name = (finished mode x d e').name := by
          intro b hb hbk
          obtain ⟨cur, hcur, hcn, hck⟩ := hTk b hb (by simpa using hbk)
          have : cur ∈ x.columns.filter fun c : Column => decide (c.keyOption = .primary) :=
            List.mem_filter.2 ⟨hcur, by simpa using hck⟩
          rw [hxf, List.mem_singleton] at this
          rw [← hcn, this, hT2, hca]
        have hTf := filter_singleton (key := fun c : Column => c.name) (p := fun c : Column => decide (c.keyOption = .primary))
          hfin.nodup hT1 (by simpa using hek) huniq
        rw [hTf]
        simp only [List.cons_ne_nil, if_false, List.map_cons, List.map_nil, hT2, hca]

/-! ### A shared table has reached its desired form -/

theorem not_dropped_index {x D : Table} {i j : Index} (hi : i ∈ D.sec) (hj : j.name = i.name) : droppedIndex D j = false := by
  have : j.name ∈ D.indexes.map (·.name) := List.mem_map.2 ⟨i, (mem_sec.1 hi).1, hj.symm⟩
  cases hd : droppedIndex D j with
  | false => rfl
  | true =>
    simp only [droppedIndex, Bool.and_eq_true, decide_eq_true_eq, Bool.not_eq_true'] at hd
    exact absurd this hd.1.1.2

theorem fkIndexNames_sub {fks : List ForeignKey} {n : Str} (h : n ∈ fkIndexNames fks) :
    ∃ f ∈ fks, n = f.indexName ∨ n = f.constraintName := by
  unfold fkIndexNames at h
  obtain ⟨f, hf, h⟩ := List.mem_filterMap.1 h
  refine ⟨f, hf, ?_⟩
  split at h
  · exact .inl (Option.some.inj h).symm
  · split at h
    · exact .inr (Option.some.inj h).symm
    · cases h

theorem perm_of_look {α : Type} {key : α → Str} {l m : List α} (hl : (l.map key).Nodup) (hm : (m.map key).Nodup)
    (h : ∀ n, (look key l n).isSome = (look key m n).isSome) : (l.map key).Perm (m.map key) := by
  rw [List.perm_ext_iff_of_nodup hl hm]
  intro n
  rw [← look_isSome, ← look_isSome, h]

theorem reached_shared {x d D T : Table} (hf : Fits mode desired x d D) (hx : Tidy x) (hD : Tidy D) (hDn : D.name = x.name)
    (hDc : D.columns = d.columns) (hDk : D.primaryKey = d.primaryKey) (hDi : ∀ i ∈ d.indexes, i ∈ D.indexes)
    (hDf : ∀ f ∈ d.foreignKeys, f ∈ D.foreignKeys)
    (hC : SupportedChange mode x d D)
    (hfin : Final mode x d D (AfterCol mode x d) (uniques mode x) (ordering mode x d) T) : ReachedTable mode d D T where
  name := hfin.name.trans hDn.symm
  columns := by
    rw [hDc]
    exact (List.perm_ext_iff_of_nodup hfin.nodup hf.dCols).2 hfin.memNames
  key := by
    rw [hDk, ← same_key_iff]
    refine key_of_final hfin (afterCol_keepsKey mode x d) hx hf.dCols (by rw [← hDc]; exact hD.oneKey)
      (fun i hi hp k hk => ?_) (fun hk => ?_)
    · have := hD.keyColumns i (hDi i hi) hp k hk
      rw [hDc] at this
      exact this
    · cases mode with
      | mysql => exact .inr (.inl rfl)
      | postgres => exact .inr (.inr rfl)
      | mssql =>
        rcases hf.mssqlKey rfl with h | h
        · rw [h] at hk; cases hk
        · exact .inl h
      | sqlite3 => rw [hf.sqliteKey rfl] at hk; cases hk
  indexes := by
    intro i hi hp
    have hi' : i ∈ D.sec := mem_sec.2 ⟨hi, hp⟩
    have hl := hfin.sec i.name
    rw [if_neg, look_of_mem (key := fun i : Index => i.name) hf.dIdx hi'] at hl
    · simp only at hl
      obtain ⟨h1, h2⟩ := look_mem hl
      obtain ⟨h3, h4⟩ := mem_sec.1 h1
      refine ⟨_, h3, h4, h2, ?_⟩
      rcases synced_or (same := areSameIndexes) (c := look (·.name) x.sec i.name) (a := i) with h | ⟨c, -, h, hs⟩
      · exact .inl h
      · rw [h]; exact .inr ((same_index_iff _ _).1 hs)
    · intro hm
      obtain ⟨j, hj, hjn⟩ := List.mem_map.1 hm
      have := (List.mem_filter.1 hj).2
      rw [not_dropped_index (x := x) hi' hjn] at this
      cases this
  indexNames := hfin.secNodup
  noOtherIndex := by
    intro j hj hp
    have hj' : j ∈ T.sec := mem_sec.2 ⟨hj, hp⟩
    have hl := hfin.sec j.name
    rw [look_of_mem (key := fun i : Index => i.name) hfin.secNodup hj'] at hl
    split at hl
    · cases hl
    · next hnd =>
      by_cases hD' : j.name ∈ D.sec.map (·.name)
      · exact .inl hD'
      · right
        rw [look_none.2 hD'] at hl
        simp only [look_append] at hl
        cases hxl : look (·.name) x.sec j.name with
        | some i =>
          rw [hxl] at hl
          simp only [Option.some_or, Option.some.injEq] at hl
          subst hl
          obtain ⟨hi, -⟩ := look_mem hxl
          obtain ⟨hi1, hi2⟩ := mem_sec.1 hi
          have hnd' : droppedIndex D j = false := by
            cases h : droppedIndex D j with
            | false => rfl
            | true => exact absurd (List.mem_map.2 ⟨j, List.mem_filter.2 ⟨hi1, h⟩, rfl⟩) hnd
          have hnotp : j.name ∉ D.indexes.map (·.name) := by
            intro hm
            obtain ⟨i, hi, hin⟩ := List.mem_map.1 hm
            cases hip : i.primary with
            | false => exact hD' (List.mem_map.2 ⟨i, mem_sec.2 ⟨hi, hip⟩, hin⟩)
            | true => exact hC.keyNames i hi j hi1 (by rw [hip, hi2]; decide) hin
          by_cases hfk : j.name ∈ fkIndexNames D.foreignKeys
          · exact .inl (fkIndexNames_sub hfk)
          · right
            simp only [droppedIndex, hi2, hnotp, hfk, not_false_eq_true, decide_true, Bool.not_false, Bool.true_and,
              Bool.not_eq_false', Bool.and_eq_true] at hnd'
            obtain ⟨hu, hany⟩ := hnd'
            obtain ⟨c, hc, hcu⟩ := List.any_eq_true.1 hany
            simp only [Bool.and_eq_true, decide_eq_true_eq] at hcu
            exact ⟨hu, c, hc, hcu.1, hcu.2⟩
        | none =>
          rw [hxl] at hl
          simp only [Option.none_or] at hl
          obtain ⟨hi, -⟩ := look_mem hl.symm
          obtain ⟨c, hc, hcu, rfl⟩ := newUniques_name hi
          right
          refine ⟨rfl, c, by rw [hDc]; exact hc, ?_, rfl⟩
          cases mode with
          | mysql => exact (needsUnique_spec hcu).1
          | postgres => cases hcu
          | mssql => cases hcu
          | sqlite3 => cases hcu
  foreignKeys := by
    intro f hff
    have hl := hfin.fks f.constraintName
    rw [if_neg, look_of_mem (key := fun i : ForeignKey => i.constraintName) hf.dFks hff] at hl
    · simp only at hl
      obtain ⟨h1, h2⟩ := look_mem hl
      refine ⟨_, h1, h2, ?_⟩
      rcases synced_or (same := areSameForeignKeys mode) (c := look (·.constraintName) x.foreignKeys f.constraintName) (a := f)
        with h | ⟨c, -, h, hs⟩
      · exact .inl h
      · rw [h]; exact .inr ((same_foreign_key_iff _ _ _).1 hs)
    · intro hm
      obtain ⟨j, hj, hjn⟩ := List.mem_map.1 hm
      have := (List.mem_filter.1 hj).2
      simp only [droppedFk, Bool.and_eq_true, decide_eq_true_eq] at this
      exact this.1.1 (List.mem_map.2 ⟨f, hDf f hff, hjn.symm⟩)
  foreignKeyNames := hfin.fksNodup
  noOtherForeignKey := by
    intro g hg
    have hl := hfin.fks g.constraintName
    rw [look_of_mem (key := fun i : ForeignKey => i.constraintName) hfin.fksNodup hg] at hl
    split at hl
    · cases hl
    · next hnd =>
      by_cases hD' : g.constraintName ∈ D.foreignKeys.map (·.constraintName)
      · exact .inl hD'
      · right
        have hd' : look (·.constraintName) d.foreignKeys g.constraintName = none := by
          rw [look_none]
          intro hm
          obtain ⟨f, hf', hfn⟩ := List.mem_map.1 hm
          exact hD' (List.mem_map.2 ⟨f, hDf f hf', hfn⟩)
        rw [hd'] at hl
        obtain ⟨hgx, -⟩ := look_mem hl.symm
        have hnd' : droppedFk mode D g = false := by
          cases h : droppedFk mode D g with
          | false => rfl
          | true => exact absurd (List.mem_map.2 ⟨g, List.mem_filter.2 ⟨hgx, h⟩, rfl⟩) hnd
        have hsq : mode ≠ .sqlite3 := fun hm => hD' ((hC.sqlite hm).obsoleteKeys g hgx)
        simp only [droppedFk, hD', not_false_eq_true, decide_true, Bool.true_and, ne_eq, hsq, Bool.or_eq_false_iff,
          decide_eq_false_iff_not, Bool.not_eq_false'] at hnd'
        obtain ⟨hmy, hany⟩ := hnd'
        obtain ⟨c, hc, hcr⟩ := List.any_eq_true.1 hany
        refine ⟨?_, c, hc, by simpa using hcr⟩
        cases mode with
        | mysql => exact absurd rfl hmy
        | postgres => exact .inl rfl
        | mssql => exact .inr rfl
        | sqlite3 => exact absurd rfl hsq
  policies := by
    intro p hp
    have hl := hfin.pols p.name
    rw [look_of_mem (key := fun i : Policy => i.name) hf.dPols hp] at hl
    simp only at hl
    obtain ⟨h1, h2⟩ := look_mem hl
    refine ⟨_, h1, h2, ?_⟩
    rcases synced_or (same := areSamePolicies) (c := look (·.name) x.policies p.name) (a := p) with h | ⟨c, -, h, hs⟩
    · exact .inl h
    · rw [h]; exact .inr (same_policy hs)
  policyNames := by
    refine perm_of_look (key := fun p : Policy => p.name) hfin.polsNodup hf.dPols fun n => ?_
    rw [hfin.pols n]
    cases look (·.name) D.policies n <;> rfl

end Sqldef
