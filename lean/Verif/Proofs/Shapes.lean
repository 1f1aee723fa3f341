import Verif.Proofs.Stateless
import Verif.Spec.Statements
/-! Which statements the parts of the generator can emit. -/
namespace Sqldef
open Spec

theorem bind_ok {ε α β : Type} {x : Except ε α} {f : α → Except ε β} {b : β} :
    (x >>= f) = .ok b ↔ ∃ a, x = .ok a ∧ f a = .ok b := by
  cases x with
  | error e => simp [bind, Except.bind]
  | ok a => simp [bind, Except.bind]

theorem guardText_ok {t : Except Err Str} {s : Stmt} {l : List Stmt} (h : guardText t s = .ok l) :
    l = [s] ∧ ∃ u, t = .ok u := by
  unfold guardText at h
  obtain ⟨u, hu, h⟩ := bind_ok.1 h
  cases h
  exact ⟨rfl, u, hu⟩

/-- The column statement of the desired column, as `columnDDLs` sees it: AUTO_INCREMENT only if the
current column has it. -/
def seen (cur des : Column) : Column := if cur.autoIncrement then des else { des with autoIncrement := false }

@[simp] theorem seen_name (cur des : Column) : (seen cur des).name = des.name := by
  unfold seen; split <;> rfl

/-- The statements that an existing or missing column of the desired table can give. -/
inductive ColumnStmt (mode : Mode) (x d : Table) (prev : Option Str) (c : Column) : Stmt → Prop
  | add : findColumnByName x.columns c.name = none →
      ColumnStmt mode x d prev c
        (.addColumn d.name { c with autoIncrement := false } (if mode = .mysql then placeAfter prev else .none))
  | change (cur : Column) (place : Place) : mode = .mysql → findColumnByName x.columns c.name = some cur →
      (place = .none ∨ place = placeAfter prev) →
      ColumnStmt mode x d prev c (.changeColumn d.name cur.name (seen cur c) place)
  | unique (cur : Column) : mode = .mysql → findColumnByName x.columns c.name = some cur →
      ColumnStmt mode x d prev c (.addUniqueKey d.name c.name)
  | alter (cur : Column) (s : Stmt) : mode = .postgres → findColumnByName x.columns c.name = some cur →
      (s = .alterType d.name cur.name (seen cur c) ∨ s = .dropNotNull d.name cur.name ∨ s = .setNotNull d.name cur.name ∨
       (∃ i, c.identity = some i ∧ s = .addIdentity d.name c.name i.behavior c.sequence) ∨
       s = .dropIdentity x.name cur.name ∨
       (∃ i, c.identity = some i ∧ s = .setGenerated d.name c.name i.behavior) ∨
       s = .dropDefault x.name cur.name ∨
       (∃ v, s = .setDefault x.name cur.name v)) →
      ColumnStmt mode x d prev c s
  | dropCheck (cur : Column) (k : Str) : mode = .postgres ∨ mode = .mssql → findColumnByName x.columns c.name = some cur →
      cur.check.isSome → ColumnStmt mode x d prev c (.dropCheck d.name c.name k)
  | addCheck (cur : Column) (k : Str) (ck : CheckDefinition) (b : Bool) : mode = .postgres ∨ mode = .mssql →
      findColumnByName x.columns c.name = some cur →
      c.check = some ck → ColumnStmt mode x d prev c (.addCheck d.name c.name k ck b)
  | identityDrop (cur : Column) : mode = .mssql → findColumnByName x.columns c.name = some cur → cur.identity.isSome →
      areSameIdentityDefinition cur.identity c.identity = false →
      ColumnStmt mode x d prev c (.dropColumn x.name cur.name)
  | identityAdd (cur : Column) : mode = .mssql → findColumnByName x.columns c.name = some cur → c.identity.isSome →
      areSameIdentityDefinition cur.identity c.identity = false →
      ColumnStmt mode x d prev c (.addColumn d.name (seen cur c) .none)
  | defaultDrop (cur : Column) (k : Str) : mode = .mssql → findColumnByName x.columns c.name = some cur →
      ColumnStmt mode x d prev c (.dropDefaultConstraint x.name cur.name k)
  | defaultAdd (cur : Column) (k : Str) (v : Value) : mode = .mssql → findColumnByName x.columns c.name = some cur →
      ColumnStmt mode x d prev c (.addDefaultConstraint x.name cur.name k v)

theorem columnDDLs_shape {mode : Mode} {x d : Table} {prev : Option Str} {c : Column} {l : List Stmt}
    (h : columnDDLs mode x d prev c = .ok l) : ∀ s ∈ l, ColumnStmt mode x d prev c s := by
  unfold columnDDLs at h
  cases hf : findColumnByName x.columns c.name with
  | none =>
    rw [hf] at h
    obtain ⟨rfl, -⟩ := guardText_ok h
    intro s hs
    rw [List.mem_singleton.1 hs]
    exact .add hf
  | some cur =>
    rw [hf] at h
    change (match mode with
      | .mysql => mysqlColumn x d prev cur (seen cur c)
      | .postgres => postgresColumn x d cur (seen cur c)
      | .mssql => mssqlColumn x d cur (seen cur c)
      | .sqlite3 => .ok []) = .ok l at h
    have hsi : (seen cur c).identity = c.identity := by unfold seen; split <;> rfl
    have hss : (seen cur c).sequence = c.sequence := by unfold seen; split <;> rfl
    have hsk : (seen cur c).check = c.check := by unfold seen; split <;> rfl
    cases mode with
    | mysql =>
      simp only at h
      unfold mysqlColumn at h
      obtain ⟨ch, hch, h⟩ := bind_ok.1 h
      cases h
      intro s hs
      rcases List.mem_append.1 hs with hs | hs
      · unfold mysqlChange at hch
        simp only at hch
        split at hch
        · obtain ⟨rfl, -⟩ := guardText_ok hch
          rw [List.mem_singleton.1 hs]
          refine .change cur _ rfl hf ?_
          split
          · exact .inr rfl
          · exact .inl rfl
        · cases hch; cases hs
      · unfold mysqlUnique at hs
        split at hs
        · rw [List.mem_singleton.1 hs, seen_name]
          exact .unique cur rfl hf
        · cases hs
    | postgres =>
      simp only at h
      unfold postgresColumn at h
      obtain ⟨df, hdf, h⟩ := bind_ok.1 h
      cases h
      intro s hs
      simp only [List.mem_append] at hs
      rcases hs with (((hs | hs) | hs) | hs) | hs
      · split at hs
        · rw [List.mem_singleton.1 hs]; exact .alter cur _ rfl hf (.inl rfl)
        · cases hs
      · unfold pgNotNull at hs
        split at hs
        · split at hs
          · rw [List.mem_singleton.1 hs]; exact .alter cur _ rfl hf (by simp)
          · split at hs
            · rw [List.mem_singleton.1 hs]; exact .alter cur _ rfl hf (by simp)
            · cases hs
        · cases hs
      · unfold pgIdentity at hs
        split at hs
        · rw [hsi, hss, seen_name] at hs
          split at hs
          · next hi => rw [List.mem_singleton.1 hs]; exact .alter cur _ rfl hf (by simp [hi])
          · rw [List.mem_singleton.1 hs]; exact .alter cur _ rfl hf (by simp)
          · next hi => rw [List.mem_singleton.1 hs]; exact .alter cur _ rfl hf (by simp [hi])
          · cases hs
        · cases hs
      · unfold pgDefault at hdf
        split at hdf
        · split at hdf
          · cases hdf; rw [List.mem_singleton.1 hs]; exact .alter cur _ rfl hf (by simp)
          · split at hdf
            · cases hdf
            · obtain ⟨rfl, -⟩ := guardText_ok hdf
              rw [List.mem_singleton.1 hs]; exact .alter cur _ rfl hf (by simp)
        · cases hdf; cases hs
      · unfold pgCheck at hs
        rw [seen_name, hsk] at hs
        split at hs
        · simp only [List.mem_append] at hs
          rcases hs with hs | hs
          · split at hs
            · cases hs
            · next k hk => rw [List.mem_singleton.1 hs]; exact .dropCheck cur _ (.inl rfl) hf (by rw [hk]; rfl)
          · split at hs
            · cases hs
            · next k hk => rw [List.mem_singleton.1 hs]; exact .addCheck cur _ k _ (.inl rfl) hf hk
        · cases hs
    | mssql =>
      simp only at h
      unfold mssqlColumn at h
      obtain ⟨id, hid, h⟩ := bind_ok.1 h
      obtain ⟨df, hdf, h⟩ := bind_ok.1 h
      cases h
      intro s hs
      simp only [List.mem_append] at hs
      rcases hs with (hs | hs) | hs
      · unfold mssqlCheck at hs
        rw [seen_name, hsk] at hs
        split at hs
        · simp only [List.mem_append] at hs
          rcases hs with hs | hs
          · split at hs
            · cases hs
            · next k hk => rw [List.mem_singleton.1 hs]; exact .dropCheck cur _ (.inr rfl) hf (by rw [hk]; rfl)
          · split at hs
            · cases hs
            · next k hk => rw [List.mem_singleton.1 hs]; exact .addCheck cur _ k _ (.inr rfl) hf hk
        · cases hs
      · unfold mssqlIdentity at hid
        split at hid
        · next hne =>
          have hne : areSameIdentityDefinition cur.identity c.identity = false := by rw [hsi] at hne; simpa using hne
          obtain ⟨ad, had, hid⟩ := bind_ok.1 hid
          cases hid
          simp only [List.mem_append] at hs
          rcases hs with hs | hs
          · unfold mssqlIdentityDrop at hs
            split at hs
            · cases hs
            · next i hi => rw [List.mem_singleton.1 hs]; exact .identityDrop cur rfl hf (by rw [hi]; rfl) hne
          · unfold mssqlIdentityAdd at had
            rw [hsi] at had
            split at had
            · cases had; cases hs
            · next i hi =>
              obtain ⟨rfl, -⟩ := guardText_ok had
              rw [List.mem_singleton.1 hs]; exact .identityAdd cur rfl hf (by rw [hi]; rfl) hne
        · cases hid; cases hs
      · unfold mssqlDefault at hdf
        split at hdf
        · obtain ⟨ad, had, hdf⟩ := bind_ok.1 hdf
          cases hdf
          simp only [List.mem_append] at hs
          rcases hs with hs | hs
          · unfold mssqlDefaultDrop at hs
            split at hs
            · cases hs
            · rw [List.mem_singleton.1 hs]; exact .defaultDrop cur _ rfl hf
          · unfold mssqlDefaultAdd at had
            split at had
            · cases had; cases hs
            · split at had
              · cases had
              · obtain ⟨rfl, -⟩ := guardText_ok had
                rw [List.mem_singleton.1 hs]; exact .defaultAdd cur _ _ rfl hf
        · cases hdf; cases hs
    | sqlite3 => cases h; simp

theorem removeAutoIncrement_shape {mode : Mode} {x d : Table} {l : List Stmt}
    (h : removeAutoIncrement mode x d = .ok l) : ∀ s ∈ l, mode = .mysql ∧ ∃ c ∈ x.columns, c.autoIncrement = true ∧
      (∀ e, findColumnByName d.columns c.name = some e → e.autoIncrement = false) ∧
      s = .changeColumn x.name c.name { c with autoIncrement := false } .none := by
  unfold removeAutoIncrement at h
  split at h
  · next hm =>
    intro s hs
    obtain ⟨c, hc, y, hy, hsy⟩ := (mem_concatMapM h s).1 hs
    split at hy
    · next hcond =>
      simp only [losesAutoIncrement, Bool.and_eq_true] at hcond
      obtain ⟨rfl, -⟩ := guardText_ok hy
      refine ⟨hm, c, hc, hcond.1, ?_, List.mem_singleton.1 hsy⟩
      intro e he
      have h2 := hcond.2
      rw [he] at h2
      simpa using h2
    · cases hy; cases hsy
  · cases h; simp

theorem addAutoIncrement_shape {mode : Mode} {x d : Table} {l : List Stmt}
    (h : addAutoIncrement mode x d = .ok l) : ∀ s ∈ l, mode = .mysql ∧ ∃ c ∈ d.columns, c.autoIncrement = true ∧
      (∀ e, findColumnByName x.columns c.name = some e → e.autoIncrement = false) ∧
      s = .changeColumn x.name c.name c .none := by
  unfold addAutoIncrement at h
  split at h
  · next hm =>
    intro s hs
    obtain ⟨c, hc, y, hy, hsy⟩ := (mem_concatMapM h s).1 hs
    split at hy
    · next hcond =>
      simp only [gainsAutoIncrement, Bool.and_eq_true] at hcond
      obtain ⟨rfl, -⟩ := guardText_ok hy
      refine ⟨hm, c, hc, hcond.1, ?_, List.mem_singleton.1 hsy⟩
      intro e he
      have h2 := hcond.2
      rw [he] at h2
      simpa using h2
    · cases hy; cases hsy
  · cases h; simp

theorem primaryKeyDDLs_shape {mode : Mode} {x d : Table} {l : List Stmt} (h : primaryKeyDDLs mode x d = .ok l) :
    ∀ s ∈ l, areSamePrimaryKeys x.primaryKey d.primaryKey = false ∧
      ((x.primaryKey.isSome ∧ (mode = .mysql ∨ mode = .postgres) ∧ ∃ k, s = .dropPrimaryKey d.name k) ∨
       (∃ pk, d.primaryKey = some pk ∧ s = .addIndex d.name pk)) := by
  unfold primaryKeyDDLs at h
  split at h
  · next hne =>
    have hne : areSamePrimaryKeys x.primaryKey d.primaryKey = false := by simpa using hne
    obtain ⟨dr, hdr, h⟩ := bind_ok.1 h
    obtain ⟨ad, had, h⟩ := bind_ok.1 h
    cases h
    intro s hs
    refine ⟨hne, ?_⟩
    rcases List.mem_append.1 hs with hs | hs
    · left
      unfold dropPrimaryKeyDDLs at hdr
      split at hdr
      · cases hdr; cases hs
      · next i hi =>
        split at hdr
        · cases hdr; exact ⟨by rw [hi]; rfl, .inl rfl, _, List.mem_singleton.1 hs⟩
        · split at hdr
          · cases hdr
          · cases hdr; exact ⟨by rw [hi]; rfl, .inr rfl, _, List.mem_singleton.1 hs⟩
        · cases hdr; cases hs
    · right
      unfold addPrimaryKeyDDLs at had
      split at had
      · cases had; cases hs
      · next pk hpk =>
        obtain ⟨rfl, -⟩ := guardText_ok had
        exact ⟨pk, hpk, List.mem_singleton.1 hs⟩
  · cases h; simp

theorem tableIndexDDLs_eq {mode : Mode} {x d : Table} {i : Index} {l : List Stmt}
    (h : tableIndexDDLs mode x d i = .ok l) :
    l = if i.primary then [] else
      match findIndexByName x.indexes i.name with
      | none => [.addIndex d.name i]
      | some c => if areSameIndexes c i then [] else [.dropIndex d.name i.name, .addIndex d.name i] := by
  unfold tableIndexDDLs at h
  split at h
  · next hp => cases h; simp [hp]
  · next hp =>
    rw [if_neg hp]
    split at h
    · next c hc =>
      rw [hc]
      simp only
      split at h
      · next hne =>
        have hne : areSameIndexes c i = false := by simpa using hne
        obtain ⟨ad, had, h⟩ := bind_ok.1 h
        cases h
        obtain ⟨rfl, -⟩ := guardText_ok had
        simp [hne]
      · next hne =>
        have hne : areSameIndexes c i = true := by simpa using hne
        cases h
        simp [hne]
    · next hc =>
      rw [hc]
      exact (guardText_ok h).1

theorem tableForeignKeyDDLs_eq {mode : Mode} {x d : Table} {f : ForeignKey} {l : List Stmt}
    (h : tableForeignKeyDDLs mode x d f = .ok l) :
    f.constraintName ≠ [] ∧
    l = match findForeignKeyByName x.foreignKeys f.constraintName with
      | none => [.addForeignKey d.name f]
      | some c =>
        if areSameForeignKeys mode c f then []
        else if mode = .sqlite3 then [.addForeignKey d.name f]
        else [.dropForeignKey d.name f.constraintName, .addForeignKey d.name f] := by
  unfold tableForeignKeyDDLs at h
  split at h
  · cases h
  · next hn =>
    refine ⟨hn, ?_⟩
    cases hc : findForeignKeyByName x.foreignKeys f.constraintName with
    | none => rw [hc] at h; cases h; rfl
    | some c =>
      have hcn : c.constraintName = f.constraintName := by simpa using List.find?_some hc
      rw [hc] at h
      simp only at h ⊢
      by_cases hs : areSameForeignKeys mode c f
      · rw [if_neg (by simp [hs])] at h
        cases h; simp [hs]
      · rw [if_pos (by simp [hs])] at h
        cases h
        rw [if_neg hs]
        by_cases hm : mode = .sqlite3 <;> simp [hm, hcn]

/-- The statements that comparing a current with a desired table can give. -/
inductive TableStmt (mode : Mode) (x d : Table) : Stmt → Prop
  | column (prev : Option Str) (c : Column) (s : Stmt) : (prev, c) ∈ withPrev none d.columns →
      ColumnStmt mode x d prev c s → TableStmt mode x d s
  | removeAI (c : Column) : mode = .mysql → c ∈ x.columns → c.autoIncrement = true →
      (∀ e, findColumnByName d.columns c.name = some e → e.autoIncrement = false) →
      TableStmt mode x d (.changeColumn x.name c.name { c with autoIncrement := false } .none)
  | dropPrimary (k : Str) : areSamePrimaryKeys x.primaryKey d.primaryKey = false → x.primaryKey.isSome →
      mode = .mysql ∨ mode = .postgres → TableStmt mode x d (.dropPrimaryKey d.name k)
  | addPrimary (i : Index) : areSamePrimaryKeys x.primaryKey d.primaryKey = false → d.primaryKey = some i →
      TableStmt mode x d (.addIndex d.name i)
  | addIndex (i : Index) : i ∈ d.indexes → i.primary = false →
      (∀ c, findIndexByName x.indexes i.name = some c → areSameIndexes c i = false) →
      TableStmt mode x d (.addIndex d.name i)
  | dropIndex (i c : Index) : i ∈ d.indexes → i.primary = false →
      findIndexByName x.indexes i.name = some c → areSameIndexes c i = false →
      TableStmt mode x d (.dropIndex d.name i.name)
  | addAI (c : Column) : mode = .mysql → c ∈ d.columns → c.autoIncrement = true →
      (∀ e, findColumnByName x.columns c.name = some e → e.autoIncrement = false) →
      TableStmt mode x d (.changeColumn x.name c.name c .none)
  | addFk (f : ForeignKey) : f ∈ d.foreignKeys →
      (∀ c, findForeignKeyByName x.foreignKeys f.constraintName = some c → areSameForeignKeys mode c f = false) →
      TableStmt mode x d (.addForeignKey d.name f)
  | dropFk (f c : ForeignKey) : f ∈ d.foreignKeys → findForeignKeyByName x.foreignKeys f.constraintName = some c →
      areSameForeignKeys mode c f = false → mode ≠ .sqlite3 →
      TableStmt mode x d (.dropForeignKey d.name f.constraintName)

/-- The parts of the script for a table present in both schemas. -/
theorem createTable_parts {mode : Mode} {x d : Table} {l : List Stmt} (h : generateDDLsForCreateTable mode x d = .ok l) :
    ∃ cols removeAI pk idx addAI fks,
      concatMapM (fun pc : Option Str × Column => columnDDLs mode x d pc.1 pc.2) (withPrev none d.columns) = .ok cols ∧
      removeAutoIncrement mode x d = .ok removeAI ∧ primaryKeyDDLs mode x d = .ok pk ∧
      concatMapM (tableIndexDDLs mode x d) d.indexes = .ok idx ∧ addAutoIncrement mode x d = .ok addAI ∧
      concatMapM (tableForeignKeyDDLs mode x d) d.foreignKeys = .ok fks ∧
      l = cols ++ removeAI ++ pk ++ idx ++ addAI ++ fks := by
  unfold generateDDLsForCreateTable at h
  obtain ⟨a, ha, h⟩ := bind_ok.1 h
  obtain ⟨b, hb, h⟩ := bind_ok.1 h
  obtain ⟨c, hc, h⟩ := bind_ok.1 h
  obtain ⟨e, he, h⟩ := bind_ok.1 h
  obtain ⟨f, hf, h⟩ := bind_ok.1 h
  obtain ⟨g, hg, h⟩ := bind_ok.1 h
  cases h
  exact ⟨a, b, c, e, f, g, ha, hb, hc, he, hf, hg, rfl⟩

theorem columns_shape {mode : Mode} {x d : Table} {cols : List Stmt}
    (h : concatMapM (fun pc : Option Str × Column => columnDDLs mode x d pc.1 pc.2) (withPrev none d.columns) = .ok cols) :
    ∀ s ∈ cols, ∃ prev c, (prev, c) ∈ withPrev none d.columns ∧ ColumnStmt mode x d prev c s := by
  intro s hs
  obtain ⟨⟨prev, c⟩, hc, y, hy, hsy⟩ := (mem_concatMapM h s).1 hs
  exact ⟨prev, c, hc, columnDDLs_shape hy s hsy⟩

theorem indexes_shape {mode : Mode} {x d : Table} {idx : List Stmt}
    (h : concatMapM (tableIndexDDLs mode x d) d.indexes = .ok idx) :
    ∀ s ∈ idx, ∃ i ∈ d.indexes, i.primary = false ∧
      (∀ c, findIndexByName x.indexes i.name = some c → areSameIndexes c i = false) ∧
      (s = .addIndex d.name i ∨ (∃ c, findIndexByName x.indexes i.name = some c) ∧ s = .dropIndex d.name i.name) := by
  intro s hs
  obtain ⟨i, hi, y, hy, hsy⟩ := (mem_concatMapM h s).1 hs
  rw [tableIndexDDLs_eq hy] at hsy
  cases hp : i.primary with
  | true => simp [hp] at hsy
  | false =>
    simp only [hp, Bool.false_eq_true, if_false] at hsy
    refine ⟨i, hi, hp, ?_, ?_⟩
    · intro c hc
      rw [hc] at hsy
      cases hsame : areSameIndexes c i with
      | true => simp [hsame] at hsy
      | false => rfl
    · split at hsy
      · left; simpa using hsy
      · next c hc =>
        split at hsy
        · cases hsy
        · simp only [List.mem_cons, List.not_mem_nil, or_false] at hsy
          rcases hsy with rfl | rfl
          · exact .inr ⟨⟨c, hc⟩, rfl⟩
          · exact .inl rfl

theorem foreignKeys_shape {mode : Mode} {x d : Table} {fks : List Stmt}
    (h : concatMapM (tableForeignKeyDDLs mode x d) d.foreignKeys = .ok fks) :
    ∀ s ∈ fks, ∃ f ∈ d.foreignKeys,
      (∀ c, findForeignKeyByName x.foreignKeys f.constraintName = some c → areSameForeignKeys mode c f = false) ∧
      (s = .addForeignKey d.name f ∨
        (∃ c, findForeignKeyByName x.foreignKeys f.constraintName = some c) ∧ mode ≠ .sqlite3 ∧
          s = .dropForeignKey d.name f.constraintName) := by
  intro s hs
  obtain ⟨f, hf, y, hy, hsy⟩ := (mem_concatMapM h s).1 hs
  rw [(tableForeignKeyDDLs_eq hy).2] at hsy
  refine ⟨f, hf, ?_, ?_⟩
  · intro c hc
    rw [hc] at hsy
    cases hsame : areSameForeignKeys mode c f with
    | true => simp [hsame] at hsy
    | false => rfl
  · split at hsy
    · left; simpa using hsy
    · next c hc =>
      split at hsy
      · cases hsy
      · split at hsy
        · left; simpa using hsy
        · next hm =>
          simp only [List.mem_cons, List.not_mem_nil, or_false] at hsy
          rcases hsy with rfl | rfl
          · exact .inr ⟨⟨c, hc⟩, hm, rfl⟩
          · exact .inl rfl

theorem createTable_shape {mode : Mode} {x d : Table} {l : List Stmt} (h : generateDDLsForCreateTable mode x d = .ok l) :
    ∀ s ∈ l, TableStmt mode x d s := by
  obtain ⟨a, b, c, e, f, g, ha, hb, hc, he, hf, hg, rfl⟩ := createTable_parts h
  intro s hs
  simp only [List.mem_append] at hs
  rcases hs with ((((hs | hs) | hs) | hs) | hs) | hs
  · obtain ⟨prev, col, hm, hcol⟩ := columns_shape ha s hs
    exact .column prev col s hm hcol
  · obtain ⟨hm, col, h1, h2, h3, rfl⟩ := removeAutoIncrement_shape hb s hs
    exact .removeAI col hm h1 h2 h3
  · obtain ⟨hne, ⟨h1, h2, k, rfl⟩ | ⟨pk, h1, rfl⟩⟩ := primaryKeyDDLs_shape hc s hs
    · exact .dropPrimary k hne h1 h2
    · exact .addPrimary pk hne h1
  · obtain ⟨i, h1, h2, h3, rfl | ⟨⟨j, hj⟩, rfl⟩⟩ := indexes_shape he s hs
    · exact .addIndex i h1 h2 h3
    · exact .dropIndex i j h1 h2 hj (h3 j hj)
  · obtain ⟨hm, col, h1, h2, h3, rfl⟩ := addAutoIncrement_shape hf s hs
    exact .addAI col hm h1 h2 h3
  · obtain ⟨i, h1, h2, rfl | ⟨⟨j, hj⟩, hm, rfl⟩⟩ := foreignKeys_shape hg s hs
    · exact .addFk i h1 h2
    · exact .dropFk i j h1 hj (h2 j hj) hm

/-! ### Clean-up -/

/-- The statements that the clean-up of a table can give. -/
inductive CleanStmt (mode : Mode) (x d : Table) : Stmt → Prop
  | fk (f : ForeignKey) : f ∈ x.foreignKeys → f.constraintName ∉ d.foreignKeys.map (·.constraintName) →
      mode ≠ .sqlite3 → (mode = .mysql ∨ ∀ c ∈ d.columns, c.references ≠ f.referenceName) →
      CleanStmt mode x d (.dropForeignKey x.name f.constraintName)
  | primary (i : Index) : i ∈ x.indexes → i.primary = true → i.name ∉ d.indexes.map (·.name) →
      mode = .mssql → (∀ c ∈ d.columns, c.keyOption ≠ .primary) →
      CleanStmt mode x d (.dropPrimaryKey x.name i.name)
  | index (i : Index) : i ∈ x.indexes → i.primary = false → i.name ∉ d.indexes.map (·.name) →
      i.name ∉ fkIndexNames d.foreignKeys →
      (i.unique = true → ∀ c k, i.columns.head? = some k → c ∈ d.columns → c.name = k.column → c.keyOption.isUnique = false) →
      CleanStmt mode x d (.dropIndex x.name i.name)
  | columnDefault (c : Column) (k : Str) : c ∈ x.columns → c.name ∉ d.columns.map (·.name) → mode = .mssql →
      CleanStmt mode x d (.dropDefaultConstraint x.name c.name k)
  | column (c : Column) : c ∈ x.columns → c.name ∉ d.columns.map (·.name) → CleanStmt mode x d (.dropColumn x.name c.name)
  | policy (p : Policy) : p ∈ x.policies → p.name ∉ d.policies.map (·.name) →
      CleanStmt mode x d (.dropPolicy x.name p.name)

/-- The parts of the clean-up of a table. -/
theorem cleanup_parts {mode : Mode} {x d : Table} {l : List Stmt} (h : cleanupTable mode x d = .ok l) :
    ∃ idx, concatMapM (fun i => absentIndex mode i x d)
        (x.indexes.filter fun i => !(containsString (indexNames d.indexes) i.name ||
          containsString (fkIndexNames d.foreignKeys) i.name)) = .ok idx ∧
      l = (x.foreignKeys.filter fun fk =>
          !containsString (fkConstraintNames d.foreignKeys) fk.constraintName).flatMap
            (fun fk => absentForeignKey mode fk x d) ++ idx ++
        (x.columns.filter fun c => !containsString (columnNames d.columns) c.name).flatMap
          (fun c => absentColumn mode x c.name) ++
        (x.policies.filter fun p => !containsString (policyNames d.policies) p.name).map
          (fun p => Stmt.dropPolicy x.name p.name) := by
  unfold cleanupTable at h
  obtain ⟨idx, hidx, h⟩ := bind_ok.1 h
  cases h
  exact ⟨idx, hidx, rfl⟩

theorem absentIndex_shape {mode : Mode} {x d : Table} {i : Index} {l : List Stmt} (h : absentIndex mode i x d = .ok l) :
    ∀ s ∈ l, (i.primary = true ∧ mode = .mssql ∧ (∀ c ∈ d.columns, c.keyOption ≠ .primary) ∧ s = .dropPrimaryKey x.name i.name) ∨
      (i.primary = false ∧
        (i.unique = true → ∀ c k, i.columns.head? = some k → c ∈ d.columns → c.name = k.column → c.keyOption.isUnique = false) ∧
        s = .dropIndex x.name i.name) := by
  intro s hs
  unfold absentIndex at h
  split at h
  · next hp =>
    left
    split at h
    · next hnone =>
      split at h
      · next hm =>
        cases h
        refine ⟨hp, hm, ?_, List.mem_singleton.1 hs⟩
        intro c hc
        simpa using List.find?_eq_none.1 hnone c hc
      · cases h; cases hs
    · split at h
      · cases h
      · split at h
        · cases h
        · cases h; cases hs
  · next hp =>
    right
    have hp : i.primary = false := by simpa using hp
    split at h
    · next hu =>
      split at h
      · next hnil =>
        split at h
        · cases h
          exact ⟨hp, fun _ c k hk => by rw [hnil] at hk; simp at hk, List.mem_singleton.1 hs⟩
        · cases h
      · next c cs hcols =>
        split at h
        · cases h; cases hs
        · next hany =>
          cases h
          refine ⟨hp, fun _ e k hk he hen => ?_, List.mem_singleton.1 hs⟩
          rw [hcols] at hk
          simp only [List.head?_cons, Option.some.injEq] at hk
          subst hk
          simp only [List.any_eq_true, not_exists, not_and] at hany
          have := hany e he
          simpa [hen] using this
    · next hu =>
      cases h
      exact ⟨hp, fun hu' => absurd hu' hu, List.mem_singleton.1 hs⟩

theorem cleanup_shape {mode : Mode} {x d : Table} {l : List Stmt} (h : cleanupTable mode x d = .ok l) :
    ∀ s ∈ l, CleanStmt mode x d s := by
  obtain ⟨idx, hidx, rfl⟩ := cleanup_parts h
  intro s hs
  simp only [List.mem_append] at hs
  rcases hs with ((hs | hs) | hs) | hs
  · obtain ⟨f, hf, hs⟩ := List.mem_flatMap.1 hs
    obtain ⟨hf1, hf2⟩ := List.mem_filter.1 hf
    simp only [Bool.not_eq_true', not_containsString] at hf2
    unfold absentForeignKey at hs
    split at hs
    · rw [List.mem_singleton.1 hs]; exact .fk f hf1 hf2 (by simp) (.inl rfl)
    · split at hs
      · cases hs
      · next hany =>
        rw [List.mem_singleton.1 hs]
        refine .fk f hf1 hf2 (by simp) (.inr fun c hc => ?_)
        simp only [List.any_eq_true, not_exists, not_and] at hany
        simpa using hany c hc
    · split at hs
      · cases hs
      · next hany =>
        rw [List.mem_singleton.1 hs]
        refine .fk f hf1 hf2 (by simp) (.inr fun c hc => ?_)
        simp only [List.any_eq_true, not_exists, not_and] at hany
        simpa using hany c hc
    · cases hs
  · obtain ⟨i, hi, y, hy, hsy⟩ := (mem_concatMapM hidx s).1 hs
    obtain ⟨hi1, hi2⟩ := List.mem_filter.1 hi
    simp only [Bool.not_eq_true', Bool.or_eq_false_iff, not_containsString] at hi2
    rcases absentIndex_shape hy s hsy with ⟨h1, h2, h3, rfl⟩ | ⟨h1, h2, rfl⟩
    · exact .primary i hi1 h1 hi2.1 h2 h3
    · exact .index i hi1 h1 hi2.1 hi2.2 h2
  · obtain ⟨c, hc, hs⟩ := List.mem_flatMap.1 hs
    obtain ⟨hc1, hc2⟩ := List.mem_filter.1 hc
    simp only [Bool.not_eq_true', not_containsString] at hc2
    unfold absentColumn at hs
    rcases List.mem_append.1 hs with hs | hs
    · split at hs
      · next hm =>
        obtain ⟨c', hc', hs⟩ := List.mem_filterMap.1 hs
        split at hs
        · cases hs
        · split at hs
          · next hcond =>
            cases hs
            exact .columnDefault c' _ hc' (by rw [hcond.1]; exact hc2) hm
          · cases hs
      · cases hs
    · rw [List.mem_singleton.1 hs]; exact .column c hc1 hc2
  · obtain ⟨p, hp, rfl⟩ := List.mem_map.1 hs
    obtain ⟨hp1, hp2⟩ := List.mem_filter.1 hp
    simp only [Bool.not_eq_true', not_containsString] at hp2
    exact .policy p hp1 hp2

/-! ### The table a statement is about -/

theorem ColumnStmt.table {mode : Mode} {x d : Table} {prev : Option Str} {c : Column} {s : Stmt}
    (h : ColumnStmt mode x d prev c s) (hn : x.name = d.name) : Stmt.table s = some d.name := by
  cases h with
  | alter cur s _ _ h =>
    rcases h with rfl | rfl | rfl | ⟨i, -, rfl⟩ | rfl | ⟨i, -, rfl⟩ | rfl | ⟨v, rfl⟩ <;> simp [Stmt.table, hn]
  | _ => simp [Stmt.table, hn]

theorem TableStmt.table {mode : Mode} {x d : Table} {s : Stmt} (h : TableStmt mode x d s) (hn : x.name = d.name) :
    Stmt.table s = some d.name := by
  cases h with
  | column prev c s _ h => exact h.table hn
  | _ => simp [Stmt.table, hn]

theorem CleanStmt.table {mode : Mode} {x d : Table} {s : Stmt} (h : CleanStmt mode x d s) :
    Stmt.table s = some x.name := by
  cases h <;> simp [Stmt.table]

theorem defStmts_table {mode : Mode} {cur : List Table} {cv : List View} {ct : List Trigger} {d : DDL} {l : List Stmt}
    (h : defStmts mode cur cv ct d = .ok l) : ∀ s ∈ l, Stmt.table s = DDL.table d := by
  intro s hs
  cases d with
  | createTable st t =>
    simp only [defStmts] at h
    cases hf : findTableByName cur t.name with
    | none => rw [hf] at h; cases h; rw [List.mem_singleton.1 hs]; rfl
    | some x =>
      rw [hf] at h
      exact (createTable_shape h s hs).table (find_name hf)
  | createIndex st n i =>
    simp only [defStmts, Except.ok.injEq] at h
    subst h
    unfold indexStmts at hs
    split at hs
    · rw [List.mem_singleton.1 hs]; rfl
    · split at hs
      · cases hs
      · simp only [List.mem_cons, List.not_mem_nil, or_false] at hs
        rcases hs with rfl | rfl <;> rfl
  | addIndex st n i =>
    simp only [defStmts, Except.ok.injEq] at h
    subst h
    unfold indexStmts at hs
    split at hs
    · rw [List.mem_singleton.1 hs]; rfl
    · split at hs
      · cases hs
      · simp only [List.mem_cons, List.not_mem_nil, or_false] at hs
        rcases hs with rfl | rfl <;> rfl
  | addForeignKey st n f => simp only [defStmts, Except.ok.injEq] at h; subst h; cases hs
  | addPolicy st n p =>
    simp only [defStmts, Except.ok.injEq] at h
    subst h
    unfold policyStmts at hs
    split at hs
    · rw [List.mem_singleton.1 hs]; rfl
    · split at hs
      · cases hs
      · simp only [List.mem_cons, List.not_mem_nil, or_false] at hs
        rcases hs with rfl | rfl <;> rfl
  | view v =>
    simp only [defStmts, Except.ok.injEq] at h
    subst h
    unfold viewStmts at hs
    split at hs
    · rw [List.mem_singleton.1 hs]; rfl
    · split at hs
      · split at hs
        · simp only [List.mem_cons, List.not_mem_nil, or_false] at hs
          rcases hs with rfl | rfl <;> rfl
        · rw [List.mem_singleton.1 hs]; rfl
      · cases hs
  | trigger t =>
    simp only [defStmts, Except.ok.injEq] at h
    subst h
    unfold triggerStmts at hs
    split at hs
    · split at hs
      · rw [List.mem_singleton.1 hs]; rfl
      · split at hs
        · cases hs
        · rw [List.mem_singleton.1 hs]; rfl
    · split at hs
      · rw [List.mem_singleton.1 hs]; rfl
      · split at hs
        · cases hs
        · simp only [List.mem_cons, List.not_mem_nil, or_false] at hs
          rcases hs with rfl | rfl <;> rfl
    · cases hs
  | addPrimaryKey st n i => cases h

theorem tableCleanup_table {mode : Mode} {D : List Table} {x : Table} {l : List Stmt}
    (h : tableCleanup mode D x = .ok l) : ∀ s ∈ l, Stmt.table s = some x.name := by
  intro s hs
  unfold tableCleanup at h
  split at h
  · cases h; rw [List.mem_singleton.1 hs]; rfl
  · exact (cleanup_shape h s hs).table

end Sqldef
