import Verif.Spec.Settles
import Verif.Props.Agrees
/-! After one run the schemas agree. -/
namespace Sqldef
open Spec

variable {mode : Mode} {desired current : List DDL}

/-! ### Numbering the columns -/

theorem renumber_find {cs : List Column} {n : Str} {e : Column} (i : Int) (h : cs.find? (·.name = n) = some e) :
    ∃ k : Nat, cs[k]? = some e ∧ (renumber i cs).find? (·.name = n) = some { e with position := i + k } := by
  induction cs generalizing i with
  | nil => cases h
  | cons c cs ih =>
    rw [List.find?_cons] at h
    by_cases hc : c.name = n
    · simp only [hc, decide_true] at h
      cases h
      exact ⟨0, rfl, by simp [renumber, hc]⟩
    · simp only [hc, decide_false] at h
      obtain ⟨k, h1, h2⟩ := ih (i + 1) h
      refine ⟨k + 1, by simpa using h1, ?_⟩
      simp only [renumber, List.find?_cons, hc, decide_false, h2, Option.some.injEq, Column.mk.injEq, true_and, and_true]
      push_cast
      omega

theorem mem_renumber {cs : List Column} {e : Column} {i : Int} (h : e ∈ renumber i cs) : ∃ c ∈ cs, ∃ p, e = { c with position := p } := by
  induction cs generalizing i with
  | nil => cases h
  | cons c cs ih =>
    rcases List.mem_cons.1 h with rfl | h
    · exact ⟨c, by simp, i, rfl⟩
    · obtain ⟨c', h1, h2⟩ := ih h
      exact ⟨c', by simp [h1], h2⟩

theorem renumber_primary (i : Int) (cs : List Column) :
    ((renumber i cs).filter fun c : Column => decide (c.keyOption = .primary)).map (·.name) =
      (cs.filter fun c : Column => decide (c.keyOption = .primary)).map (·.name) := by
  induction cs generalizing i with
  | nil => rfl
  | cons c cs ih =>
    simp only [renumber, List.filter_cons]
    split
    · simp [ih]
    · exact ih _

theorem primaryKey_renumber (T : Table) : ({ T with columns := renumber 0 T.columns } : Table).primaryKey = T.primaryKey := by
  cases hp : T.prim with
  | cons i l => rw [primaryKey_prim hp, primaryKey_prim (t := { T with columns := renumber 0 T.columns }) (i := i) (l := l) hp]
  | nil =>
    rw [primaryKey_noPrim hp, primaryKey_noPrim (t := { T with columns := renumber 0 T.columns }) hp]
    have h := renumber_primary 0 T.columns
    have h1 : ((renumber 0 T.columns).filter fun c : Column => decide (c.keyOption = .primary)) = [] ↔
        (T.columns.filter fun c : Column => decide (c.keyOption = .primary)) = [] := by
      rw [← List.map_eq_nil_iff (f := fun c : Column => c.name), h, List.map_eq_nil_iff]
    have h2 : ∀ l : List Column, (l.map fun c => ({ column := c.name } : IndexColumn)) = (l.map (·.name)).map fun n => { column := n } := by
      intro l; rw [List.map_map]; rfl
    simp only [h1, h2, h]

theorem numbered_position {cs : List Column} (h : Numbered cs) {k : Nat} {c : Column} (hk : cs[k]? = some c) : c.position = k := h k c hk

/-- The place of a column among columns of the same names. -/
theorem position_eq {T t : Table} (hn : T.names = t.names) (hnd : t.names.Nodup) (hnum : Numbered t.columns) {c e : Column} (hc : c ∈ t.columns)
    (hen : e.name = c.name) {k : Nat} (hk : T.columns[k]? = some e) : c.position = k := by
  have h1 : t.names[k]? = some c.name := by
    rw [← hn]
    simp only [Table.names, List.getElem?_map, hk, Option.map_some, hen]
  simp only [Table.names, List.getElem?_map, Option.map_eq_some_iff] at h1
  obtain ⟨c', hc', hcn⟩ := h1
  have : c' = c := col_eq hnd hc (List.mem_of_getElem? hc') hcn
  rw [← this]
  exact hnum k c' hc'

/-! ### What the statements about a column do to the attributes that servers do not have -/

theorem pgAfter_identity {x d : Table} {cur c : Column} (h1 : cur.identity.map (·.notForReplication) ≠ some true)
    (h2 : c.identity.map (·.notForReplication) ≠ some true) : (pgAfter x d cur c).identity = c.identity := by
  have i1 : (pgTypeAfter cur c cur).identity = cur.identity := by unfold pgTypeAfter; split <;> rfl
  have i2 : ∀ pk e, (pgNotNullAfter pk cur c e).identity = e.identity := by
    intro pk e; unfold pgNotNullAfter; split <;> [rfl; split <;> [rfl; split <;> rfl]]
  have i4 : ∀ e, (pgDefaultAfter cur c e).identity = e.identity := by
    intro e; unfold pgDefaultAfter; split <;> [rfl; split <;> rfl]
  have i5 : ∀ e, (pgCheckAfter d cur c e).identity = e.identity := by
    intro e; unfold pgCheckAfter; split <;> [rfl; split <;> [(split <;> rfl); rfl]]
  have i3 : ∀ e, e.identity = cur.identity → (pgIdentityAfter cur c e).identity = c.identity := by
    intro e he
    unfold pgIdentityAfter
    split
    · next h => rw [he]; exact (same_identity_iff _ _).1 h
    · split
      · next i hcu hci =>
        rw [hci] at h2 ⊢
        simp only [Option.map_some, ne_eq, Option.some.injEq, Bool.not_eq_true] at h2
        cases i
        simp only [Option.some.injEq, Identity.mk.injEq, true_and]
        exact h2.symm
      · next hci => rw [hci]
      · next j i hcu hci =>
        rw [hci] at h2 ⊢
        rw [hcu] at h1
        simp only [Option.map_some, ne_eq, Option.some.injEq, Bool.not_eq_true] at h1 h2
        cases i
        simp only [Option.some.injEq, Identity.mk.injEq, true_and]
        exact h1.trans h2.symm
      · next hcu hci => rw [he, hcu, hci]
  unfold pgAfter
  rw [i5, i4]
  exact i3 _ (by rw [i2, i1])

theorem msAfter_inherited {d : Table} {cur c : Column} (h : cur.checkNoInherit = false) : (msAfter d cur c).checkNoInherit = false := by
  have h1 : (msCheckAfter d cur c cur).checkNoInherit = false := by
    unfold msCheckAfter; split <;> [exact h; split <;> [(split <;> first | rfl | exact h); rfl]]
  have h2 : ∀ e, (msDefaultAfter cur c e).checkNoInherit = e.checkNoInherit := by
    intro e; unfold msDefaultAfter; split <;> [rfl; split <;> rfl]
  unfold msAfter
  rw [h2, h1]

theorem rekeyed_rest (x d : Table) (e : Column) : (rekeyed x d e).identity = e.identity ∧ (rekeyed x d e).checkNoInherit = e.checkNoInherit := by
  obtain ⟨k, n, he, -⟩ := rekeyed_fields x d e
  rw [he]
  exact ⟨rfl, rfl⟩

theorem storedNew_rest (c : Column) : (storedNew c).identity = c.identity ∧ (storedNew c).checkNoInherit = c.checkNoInherit := by
  obtain ⟨k, n, he, -⟩ := storedNew_eq c
  rw [he]
  exact ⟨rfl, rfl⟩

theorem keyNotNull_rest {t : Table} {e c : Column} (hd : t.names.Nodup) (hc : c ∈ t.columns) (he : e ∈ (keyNotNull t).columns) (hn : e.name = c.name) :
    e.identity = c.identity ∧ e.checkNoInherit = c.checkNoInherit ∧ e.keyOption = c.keyOption := by
  obtain ⟨c', hc', rfl⟩ := List.mem_map.1 he
  have : c' = c := col_eq hd hc hc' (by rw [← hn]; split <;> rfl)
  subst this
  split <;> exact ⟨rfl, rfl, rfl⟩

/-- The attributes that Postgres and SQL Server do not have, after the script. -/
theorem column_rest {t T : Table} (ht : t.names.Nodup) (hs : SettledTable mode desired t)
    (hx : ∀ x ∈ tablesOf current, x.name = t.name → SettledChange mode x t) (ha : TableAfter mode desired current t T)
    (hTn : T.names.Nodup) {c e : Column} (hc : c ∈ t.columns) (he : e ∈ T.columns) (hn : e.name = c.name) :
    (mode = .postgres → e.identity = c.identity) ∧ (mode = .mssql → e.checkNoInherit = c.checkNoInherit) := by
  cases ha with
  | new h hnew =>
    rw [hnew.columns] at he
    obtain ⟨h1, h2, -⟩ := keyNotNull_rest ht hc he hn
    exact ⟨fun _ => h1, fun _ => h2⟩
  | shared x l v hxt hl hv hf hfin =>
    have hxs := hx x (tableIn_mem_tablesOf hxt) (tableIn_name hxt)
    obtain ⟨e0, hA, hcol⟩ := hfin.col c hc
    have : e = finished mode x t e0 := by
      have := hn ▸ col_unique hTn he
      rw [this] at hcol
      exact Option.some.inj hcol
    subst this
    constructor
    · rintro rfl
      rw [finished_other (by decide), (rekeyed_rest x t e0).1]
      rcases hA with ⟨-, rfl⟩ | ⟨cur, hcur, rfl⟩
      · exact (storedNew_rest c).1
      · exact pgAfter_identity (hxs.identity rfl cur (findColumn_mem hcur).1) (hs.identity rfl c hc)
    · rintro rfl
      rw [finished_other (by decide), (rekeyed_rest x t e0).2]
      rcases hA with ⟨-, rfl⟩ | ⟨cur, hcur, rfl⟩
      · exact (storedNew_rest c).2
      · rw [msAfter_inherited (hxs.inherited rfl cur (findColumn_mem hcur).1), hs.inherited rfl c hc]

/-! ### The columns -/

theorem sameType_serial {a b : Str} (h : SameType .postgres a b) (ha : a = lit "serial" ∨ a = lit "bigserial") : b = a := by
  have h := (same_type_iff .postgres a b).2 h
  have hb : normalizeDataType .postgres b = a := by
    rw [← h]
    rcases ha with rfl | rfl <;> decide
  unfold normalizeDataType dataTypeAlias at hb
  simp only [reduceCtorEq, if_false] at hb
  repeat' split at hb
  all_goals first
    | exact hb
    | (simp only [Option.getD_some] at hb; subst hb; exfalso; revert ha; decide)

theorem sameKey_refl {pk : Option Index} (h : ∀ i ∈ pk.toList, (i.options.map (·.optionName)).Nodup) : SameKey pk pk := by
  cases pk with
  | none => trivial
  | some i => exact (same_index_iff i i).1 (C33_index_refl i (h i (by simp)))

theorem sameKey_columns {x d : Table} (h : SameKey x.primaryKey d.primaryKey) : keyColumns x = keyColumns d :=
  keyColumns_same (by simp only [keyChanges, Bool.not_eq_eq_eq_not, Bool.not_false]; exact (same_key_iff _ _).2 h)

/-- What is known about the table after the run. -/
structure AfterRun (mode : Mode) (desired current : List DDL) (t T : Table) : Prop where
  names : t.names.Nodup
  wellFormed : WellFormed desired
  supported : Supported mode desired current
  created : t ∈ created desired
  settled : SettledTable mode desired t
  changes : ∀ x ∈ tablesOf current, x.name = t.name → SettledChange mode x t
  reported : ∀ x ∈ tablesOf current, Reported mode x
  reached : ReachedTable mode t (complete desired t) T
  after : TableAfter mode desired current t T

namespace AfterRun

variable {t T : Table} (h : AfterRun mode desired current t T)
include h

theorem cols : (complete desired t).columns = t.columns := complete_columns h.wellFormed t

theorem TNames : T.names.Nodup := by
  have := h.reached.columns
  rw [h.cols] at this
  exact this.nodup_iff.2 h.names

theorem key : SameKey T.primaryKey t.primaryKey := by
  have hk := complete_key h.wellFormed (h.supported.separate t h.created)
  have := h.reached.key
  rw [hk] at this
  rcases this with h1 | h1
  · rw [h1]
    exact sameKey_refl fun i hi => h.settled.options i (by simp only [List.mem_append]; exact .inr hi)
  · exact h1

theorem inKey {c e : Column} (he : e ∈ T.columns) (hn : e.name = c.name) (hk : c.name ∈ keyColumns t) :
    inPrimaryKey T e = true := by
  refine inPrimaryKey_of_keyColumns h.TNames he ?_
  rw [hn, sameKey_columns h.key]
  exact hk

theorem wasKey {c : Column} (hm : mode = .mysql ∨ mode = .postgres) (hc : c ∈ t.columns) (hw : WasKey (tableIn current t.name) c.name) :
    Required mode c ∨ c.name ∈ keyColumns t := by
  obtain ⟨y, hy, cur, hcur, hn, hk⟩ := hw
  exact (h.changes y (tableIn_mem_tablesOf hy) (tableIn_name hy)).formerKey hm cur hcur hk c hc hn.symm

theorem notLoses {c : Column} (hc : c ∈ t.columns) : ¬ LosesAndChanges mode (tableIn current t.name) c := by
  rintro ⟨hm, y, hy, cur, hcur, hn, h1, h2, h3⟩
  exact h3 ((h.changes y (tableIn_mem_tablesOf hy) (tableIn_name hy)).autoIncrement hm cur hcur h1 c hc hn h2)

theorem columnReached {c e : Column} (hc : c ∈ t.columns) (he : e ∈ T.columns) (hn : e.name = c.name) :
    ColumnReached mode (tableIn current t.name) t c e := by
  obtain ⟨e', he', hn', hr⟩ := column_reached h.names h.supported.currentTidy h.reported h.after hc
  rwa [col_eq h.TNames he he' (hn'.trans hn.symm)] at hr

theorem mysql_definition (hm : mode = .mysql) {c e : Column} (hc : c ∈ t.columns) (he : e ∈ T.columns) (hn : e.name = c.name) :
    SameDefinition .mysql e c := by
  subst hm
  have hr := h.columnReached hc he hn
  have hl := h.notLoses hc
  have hm := hr.mysql rfl hl
  refine ⟨hm.type, hm.unsigned, ⟨fun h1 => ?_, fun h1 => ?_⟩, hm.timezone, ⟨?_, h.settled.noCheck rfl c hc⟩, hm.charset, hm.collate, hm.onUpdate⟩
  · have key : c.name ∈ keyColumns t → c.notNull = some true ∨ c.keyOption = .primary := h.settled.keyRequired rfl c hc
    have req : Required .mysql c → c.notNull = some true ∨ c.keyOption = .primary := by
      rintro (h2 | ⟨h2, -⟩)
      · exact .inl h2
      · cases h2
    rcases hr.nullable (.inl rfl) hl h1 with h2 | h2 | h2
    · exact req h2
    · exact key (h.settled.oneKey c hc h2)
    · exact (h.wasKey (.inl rfl) hc h2).elim req key
  · rcases h1 with h1 | h1
    · rcases hr.required (.inl rfl) hl (.inl h1) with h2 | ⟨h2, -⟩
      · exact h2
      · cases h2
    · exact hr.key (h.settled.oneKey c hc (by simp [inPrimaryKey, h1]))
  · rw [hm.check]
    exact h.settled.noCheck rfl c hc

theorem postgres_agrees (hm : mode = .postgres) {c e : Column} (hc : c ∈ t.columns) (he : e ∈ T.columns) (hn : e.name = c.name) :
    PostgresAgrees T e c := by
  subst hm
  have hr := h.columnReached hc he hn
  have hl := h.notLoses hc
  have hp := hr.postgres rfl
  refine ⟨hp.type, fun hk => ⟨fun h1 => ?_, hr.required (.inr (.inl rfl)) hl⟩,
    (column_rest h.names h.settled h.changes h.after h.TNames hc he hn).1 rfl, hp.default, hp.check, hp.noInherit⟩
  have no : c.name ∉ keyColumns t := fun h2 => by
    rw [h.inKey he hn h2] at hk
    cases hk
  rcases h1 with h1 | ⟨-, h1, h2⟩
  · rcases hr.nullable (.inr (.inl rfl)) hl h1 with h2 | h2 | h2
    · exact h2
    · exact absurd (h.settled.oneKey c hc h2) no
    · exact (h.wasKey (.inr rfl) hc h2).resolve_right no
  · have ht := sameType_serial hp.type.name h2
    rw [← ht] at h2
    have := h.settled.serial rfl c hc h2
    cases hnn : c.notNull with
    | none => exact .inr ⟨rfl, hnn, h2⟩
    | some b =>
      cases b with
      | true => exact .inl hnn
      | false => exact absurd hnn this

theorem mssql_agrees (hm : mode = .mssql) {c e : Column} (hc : c ∈ t.columns) (he : e ∈ T.columns) (hn : e.name = c.name) : MssqlAgrees e c := by
  subst hm
  have hp := (h.columnReached hc he hn).mssql rfl
  exact ⟨hp.identity, hp.default, hp.check, fun _ => (column_rest h.names h.settled h.changes h.after h.TNames hc he hn).2 rfl⟩

/-- MySQL: the columns are in their order. -/
theorem order (hm : mode = .mysql) : T.names = t.names := by
  subst hm
  cases h.after with
  | new _ hn => exact hn.names
  | shared x l v hx _ _ hf hfin =>
    have := fold_in_order (x := x) (d := t) (P := []) (Q := t.columns) (l := x.names) (f := fun m => decide (m ∈ t.names))
      hf.dCols (fun c hc => by simpa using List.mem_map_of_mem (f := fun c : Column => c.name) hc)
      ((h.changes x (tableIn_mem_tablesOf hx) (tableIn_name hx)).order rfl)
    rw [hfin.names]
    exact this

theorem find {c : Column} (hc : c ∈ t.columns) : ∃ e ∈ T.columns, e.name = c.name ∧ T.columns.find? (·.name = c.name) = some e := by
  have hm : c.name ∈ T.columns.map (·.name) := by
    have := h.reached.columns
    rw [h.cols] at this
    exact this.mem_iff.2 (List.mem_map_of_mem hc)
  obtain ⟨e, he⟩ := findColumn_some_of_mem hm
  exact ⟨e, (findColumn_mem he).1, (findColumn_mem he).2, he⟩

theorem columns_agree {c : Column} (hc : c ∈ t.columns) :
    ∃ cur, (renumber 0 T.columns).find? (·.name = c.name) = some cur ∧
      ColumnAgrees mode { T with columns := renumber 0 T.columns } t cur c := by
  obtain ⟨e, he, hn, hfind⟩ := h.find hc
  obtain ⟨k, hk, hfind'⟩ := renumber_find 0 hfind
  refine ⟨_, hfind', fun hm => ?_, fun hm => ?_, fun hm => ?_⟩
  · have hd := h.mysql_definition hm hc he hn
    have hpos := position_eq (h.order hm) h.names (h.settled.numbered hm) hc hn hk
    refine ⟨⟨⟨hd.type.name, hd.type.enumValues, hd.type.array, hd.type.length⟩, hd.unsigned, hd.notNull, hd.timezone, hd.noCheck,
      hd.charset, hd.collate, hd.onUpdate⟩, ?_, fun hgt => ?_, fun hu => ?_⟩
    · exact ((h.columnReached hc he hn).mysql hm (h.notLoses hc)).default
    · exfalso
      rw [hpos] at hgt
      simp at hgt
    · subst hm
      obtain ⟨e', he', hn', hk⟩ := mysql_kept_unique h.wellFormed h.supported h.created h.after hc hu
        (fun x hx hxn => (h.changes x hx hxn).unique rfl c hc hu)
      rw [col_eq h.TNames he he' (hn'.trans hn.symm)] at hk
      rcases hk with hk | ⟨j, hj, hjn, -⟩
      · exact .inl hk
      · exact .inr (List.mem_map.2 ⟨j, hj, hjn.trans hn⟩)
  · have hp := h.postgres_agrees hm hc he hn
    exact ⟨⟨hp.type.name, hp.type.enumValues, hp.type.array, hp.type.length⟩, hp.notNull, hp.identity, hp.default, hp.check, hp.noInherit⟩
  · have hp := h.mssql_agrees hm hc he hn
    exact ⟨hp.identity, hp.default, hp.check, hp.noInherit⟩

/-! ### Indexes -/

theorem prim_cases {j : Index} (hj : j ∈ T.prim) :
    (j ∈ t.indexes ∨ t.primaryKey = some j) ∨ ∃ x l v, tableIn current t.name = some x ∧ j ∈ x.indexes ∧ j.primary = true ∧
      cleanupTable mode x (complete desired t) = .ok v ∧ Fits mode desired x t (complete desired t) ∧
      generateDDLsForCreateTable mode x t = .ok l := by
  cases h.after with
  | new _ hn =>
    rw [hn.prim] at hj
    exact .inl (.inl (List.mem_filter.1 hj).1)
  | shared x l v hx hl hv hf hfin =>
    rw [hfin.prim] at hj
    unfold primAfter at hj
    split at hj
    · left; right
      split at hj
      · cases hj
      · next pk hpk =>
        rw [List.mem_singleton.1 hj]
        exact hpk
    · obtain ⟨h1, h2⟩ := List.mem_filter.1 hj
      exact .inr ⟨x, l, v, hx, h1, h2, hv, hf, hl⟩

/-- No primary key has the name of a desired index. -/
theorem prim_name {i j : Index} (hi : i ∈ (complete desired t).indexes) (hp : i.primary = false) (hj : j ∈ T.indexes) (hjp : j.primary = true) :
    j.name ≠ i.name := by
  rcases h.prim_cases (List.mem_filter.2 ⟨hj, hjp⟩) with h1 | ⟨x, l, v, hx, hjx, -⟩
  · exact (h.settled.keyName i hi j (by simpa using h1) hp hjp).symm
  · exact ((h.supported.tables t h.created x (tableIn_mem_tablesOf hx) (tableIn_name hx)).keyNames i hi j hjx (by rw [hp, hjp]; decide)).symm

theorem find_index {i : Index} (hi : i ∈ (complete desired t).indexes) (hp : i.primary = false) :
    ∃ j, T.indexes.find? (·.name = i.name) = some j ∧ SameIndex j i := by
  obtain ⟨j, hj, hjp, hjn, hs⟩ := h.reached.indexes i hi hp
  refine ⟨j, ?_, ?_⟩
  · cases hf : T.indexes.find? (·.name = i.name) with
    | none => exact absurd (by simpa using hjn) (List.find?_eq_none.1 hf j hj)
    | some k =>
      have hk := List.mem_of_find?_eq_some hf
      have hkn : k.name = i.name := by simpa using List.find?_some hf
      cases hkp : k.primary with
      | true => exact absurd hkn (h.prim_name hi hp hk hkp)
      | false =>
        have h1 := look_unique (key := fun i : Index => i.name) h.reached.indexNames (mem_sec.2 ⟨hk, hkp⟩) hkn
        have h2 := look_unique (key := fun i : Index => i.name) h.reached.indexNames (mem_sec.2 ⟨hj, hjp⟩) hjn
        exact h1.symm.trans h2
  · rcases hs with rfl | hs
    · exact (same_index_iff j j).1 (C33_index_refl j (h.settled.options j (by simp [hi])))
    · exact hs

theorem mayStay_key {j : Index} (hj : t.primaryKey = some j) : j ∈ t.indexes ∨ MayStay mode (complete desired t) j := by
  cases hp : t.prim with
  | cons i l =>
    rw [primaryKey_prim hp] at hj
    cases hj
    have : j ∈ t.prim := by rw [hp]; simp
    exact .inl (List.mem_filter.1 this).1
  | nil =>
    right; right; left
    rw [primaryKey_noPrim hp] at hj
    split at hj
    · cases hj
    · next hne =>
      cases hj
      refine ⟨rfl, ?_⟩
      rw [h.cols, ← List.head?_filter]
      cases hl : t.columns.filter fun c : Column => decide (c.keyOption = .primary) with
      | nil => exact absurd hl hne
      | cons c l => simp

omit h in
theorem mayStay_old {x : Table} {v : List Stmt} {j : Index} (hv : cleanupTable mode x (complete desired t) = .ok v)
    (hf : Fits mode desired x t (complete desired t)) (hj : j ∈ x.indexes) (hp : j.primary = true) :
    j.name ∈ (complete desired t).indexes.map (·.name) ∨ MayStay mode (complete desired t) j := by
  by_cases h1 : j.name ∈ (complete desired t).indexes.map (·.name)
  · exact .inl h1
  right
  by_cases h2 : j.name ∈ fkIndexNames (complete desired t).foreignKeys
  · exact .inl (mem_fkIndexNames_iff.1 h2)
  right; left
  refine ⟨hp, ?_⟩
  have hok : ∃ w, absentIndex mode j x (complete desired t) = .ok w := by
    unfold cleanupTable at hv
    simp only [bind_ok] at hv
    obtain ⟨w, hw, -⟩ := hv
    obtain ⟨w, hw, -⟩ := concatMapM_ok_mem hw j (List.mem_filter.2 ⟨hj, by
      simp only [Bool.not_eq_true', Bool.or_eq_false_iff, not_containsString]
      exact ⟨h1, h2⟩⟩)
    exact ⟨w, hw⟩
  obtain ⟨w, hw⟩ := hok
  unfold absentIndex at hw
  rw [if_pos hp] at hw
  split
  · next hnone =>
    intro hm
    rcases hf.mssqlKeyName hm j hj hp with h3 | ⟨c, hc, hck⟩
    · exact h1 h3
    · have := List.find?_eq_none.1 hnone c hc
      simp [hck] at this
  · next c hc =>
    rw [hc] at hw
    simp only at hw
    split at hw
    · cases hw
    · next k l hk =>
      split at hw
      · cases hw
      · next hne =>
        rw [hk]
        simp only [ne_eq, Decidable.not_not] at hne
        simp [hne]

theorem noOtherIndex {j : Index} (hj : j ∈ T.indexes) :
    j.name ∈ (complete desired t).indexes.map (·.name) ∨ MayStay mode (complete desired t) j := by
  have hD : ∀ {i : Index}, i ∈ t.indexes → i.name ∈ (complete desired t).indexes.map (·.name) :=
    fun hi => List.mem_map_of_mem (List.mem_append_left _ hi)
  cases hp : j.primary with
  | true =>
    rcases h.prim_cases (List.mem_filter.2 ⟨hj, hp⟩) with (h1 | h1) | ⟨x, l, v, hx, h1, h2, hv, hf, -⟩
    · exact .inl (hD h1)
    · exact (h.mayStay_key h1).imp hD id
    · exact mayStay_old hv hf h1 h2
  | false =>
    have hsec : j ∈ T.sec := mem_sec.2 ⟨hj, hp⟩
    cases h.after with
    | new _ hn =>
      rw [hn.sec] at hsec
      exact .inl (List.mem_map_of_mem (mem_sec.1 hsec).1)
    | shared x l v hx hl hv hf hfin =>
      have hlook := look_unique (key := fun i : Index => i.name) hfin.secNodup hsec (n := j.name) rfl
      have hfs := hfin.sec j.name
      rw [hlook] at hfs
      split at hfs
      · cases hfs
      · next hnd =>
        split at hfs
        · next hno =>
          have hm := (look_mem hfs.symm).1
          rcases List.mem_append.1 hm with hm | hm
          · have hdr : droppedIndex (complete desired t) j = false := by
              cases hdr : droppedIndex (complete desired t) j with
              | false => rfl
              | true => exact absurd (List.mem_map.2 ⟨j, List.mem_filter.2 ⟨(mem_sec.1 hm).1, hdr⟩, rfl⟩) hnd
            simp only [droppedIndex, hp, Bool.not_false, Bool.true_and, Bool.and_eq_false_iff, decide_eq_false_iff_not, Decidable.not_not,
              Bool.not_eq_eq_eq_not, Bool.and_eq_true, List.any_eq_true, decide_eq_true_eq] at hdr
            rcases hdr with (h1 | h1) | ⟨h1, c, hc, h2, h3⟩
            · exact .inl h1
            · exact .inr (.inl (mem_fkIndexNames_iff.1 h1))
            · exact .inr (.inr (.inr ⟨hp, h1, c, hc, h2, h3⟩))
          · right; right; right
            obtain ⟨c, hc, rfl⟩ := List.mem_map.1 hm
            obtain ⟨hc, hu⟩ := List.mem_filter.1 hc
            refine ⟨rfl, rfl, c, by rw [h.cols]; exact hc, ?_, rfl⟩
            unfold uniques at hu
            split at hu
            · unfold needsUnique at hu
              split at hu
              · cases hu
              · simp only [Bool.and_eq_true] at hu
                exact hu.1.1
            · cases hu
        · next i hi =>
          obtain ⟨h1, h2⟩ := look_mem hi
          exact .inl (List.mem_map.2 ⟨i, (mem_sec.1 h1).1, h2⟩)

/-! ### Foreign keys and policies -/

theorem foreignKeys {f : ForeignKey} (hf : f ∈ t.foreignKeys) :
    ∃ g, T.foreignKeys.find? (·.constraintName = f.constraintName) = some g ∧ SameForeignKey mode g f := by
  obtain ⟨g, hg, hn, hs⟩ := h.reached.foreignKeys f hf
  refine ⟨g, look_unique (key := fun f : ForeignKey => f.constraintName) h.reached.foreignKeyNames hg hn, ?_⟩
  rcases hs with rfl | hs
  · exact (same_foreign_key_iff mode g g).1 (C33_foreign_key_refl mode g)
  · exact hs

theorem policies {p : Policy} (hp : p ∈ (complete desired t).policies) :
    ∃ q, T.policies.find? (·.name = p.name) = some q ∧ PolicyAgrees q p := by
  have hnd := (h.supported.desiredTidy t h.created).1.policies
  have hlook : look (·.name) (complete desired t).policies p.name = some p := look_unique (key := fun p : Policy => p.name) hnd hp rfl
  have refl : PolicyAgrees p p := (policy_agrees_iff p p).1 (C33_policy_refl p)
  cases h.after with
  | new _ hn =>
    rw [hn.policies]
    exact ⟨p, hlook, refl⟩
  | shared x l v hx hl hv hf hfin =>
    have := hfin.pols p.name
    rw [hlook] at this
    refine ⟨_, this, ?_⟩
    unfold synced
    split
    · exact refl
    · next q hq =>
      split
      · next hs => exact (policy_agrees_iff q p).1 hs
      · exact refl

theorem agrees : TableAgrees mode desired { T with columns := renumber 0 T.columns } t := by
  have hmem : ∀ n, n ∈ T.columns.map (·.name) ↔ n ∈ t.columns.map (·.name) := by
    intro n
    have := h.reached.columns
    rw [h.cols] at this
    exact this.mem_iff
  refine { columns := fun c hc => h.columns_agree hc, noOtherColumn := ?_, autoIncrement := ?_, noOtherAutoIncrement := ?_, key := .inl ?_,
           indexes := ?_, separateIndexes := ?_, noOtherIndex := fun j hj => h.noOtherIndex hj, foreignKeys := ?_, noOtherForeignKey := ?_,
           policies := ?_, noOtherPolicy := ?_ }
  · intro e he
    have := List.mem_map_of_mem (f := fun c : Column => c.name) he
    rw [renumber_names] at this
    exact (hmem _).1 this
  · intro hm c hc ha
    obtain ⟨e, he, hn, hfind⟩ := h.find hc
    obtain ⟨k, hk, hfind'⟩ := renumber_find 0 hfind
    refine ⟨_, hfind', ?_⟩
    exact (((h.columnReached hc he hn).mysql hm (h.notLoses hc)).autoIncrement).trans ha
  · intro hm e he ha
    obtain ⟨e0, he0, p, rfl⟩ := mem_renumber he
    obtain ⟨c, hc, hcn⟩ := List.mem_map.1 ((hmem e0.name).1 (List.mem_map_of_mem he0))
    refine ⟨c, look_unique (key := fun c : Column => c.name) h.names hc hcn, ?_⟩
    exact (((h.columnReached hc he0 hcn.symm).mysql hm (h.notLoses hc)).autoIncrement).symm.trans ha
  · rw [primaryKey_renumber]; exact h.key
  · exact fun i hi hp => h.find_index (List.mem_append_left _ hi) hp
  · exact fun i hi => h.find_index (List.mem_append_right _ hi) (h.supported.separate t h.created i hi)
  · exact fun f hf => ⟨h.settled.named f hf, h.foreignKeys hf⟩
  · intro hm g hg
    rcases h.reached.noOtherForeignKey g hg with h1 | ⟨h1, h2⟩
    · exact .inl h1
    · refine .inr ⟨?_, by rw [h.cols] at h2; exact h2⟩
      rcases h1 with rfl | rfl <;> decide
  · exact fun p hp => h.policies (List.mem_append_right _ hp)
  · intro q hq
    exact h.reached.policyNames.mem_iff.1 (List.mem_map_of_mem hq)

end AfterRun

/-- After a run the schemas agree. -/
theorem agrees_after {out : List Stmt} {c : Catalog} {current' : List DDL} (hd : UniqueTables desired) (hc : UniqueTables current)
    (hs : Supported mode desired current) (hr : ∀ x ∈ tablesOf current, Reported mode x) (hst : Settles mode desired current)
    (h : diff mode desired current = .ok out) (he : execAll mode out (catalogOf current) = some c) (hD : Describes c current') :
    WellFormed desired ∧ Agrees mode desired current' := by
  obtain ⟨_, _, sc⟩ := script hd hc h
  obtain ⟨c', h1, h2, h3⟩ := script_after sc hs
  rw [he] at h1
  cases h1
  refine ⟨sc.wd, ?_, ?_, ?_, ?_, ?_⟩
  · intro t ht
    obtain ⟨T, hT, ha⟩ := h3 t ht
    obtain ⟨T', hT', hrt⟩ := h2.table t ht
    rw [hT] at hT'
    cases hT'
    refine ⟨_, by rw [hD.tables, hT]; rfl, ?_⟩
    exact AfterRun.agrees ⟨tidy_names sc.wd (hs.desiredTidy t ht).1, sc.wd, hs, ht, hst.tables t ht, hst.changes t ht, hr, hrt, ha⟩
  · intro x hx
    have := tableIn_of_mem hD.unique hx
    rw [hD.tables] at this
    obtain ⟨T, hT, -⟩ := Option.map_eq_some_iff.1 this
    exact (h2.tables x.name).1 ⟨T, hT⟩
  · intro v hv
    obtain ⟨w, hw, -, hwd⟩ := h2.view v hv
    exact ⟨w, by rw [hD.views]; exact hw, hwd⟩
  · intro w hw
    refine (h2.views w.name).1 ?_
    rw [← hD.views]
    cases hf : (viewsOf current').find? (·.name = w.name) with
    | some v => exact ⟨v, rfl⟩
    | none => exact absurd (by simp) (List.find?_eq_none.1 hf w hw)
  · intro hm t ht
    obtain ⟨u, hu, hs⟩ := h2.trigger hm t ht
    refine ⟨u, by rw [hD.triggers]; exact hu, ?_⟩
    rcases hs with rfl | hs
    · exact (same_trigger_iff u u).1 (C33_trigger_refl u)
    · exact hs

end Sqldef
