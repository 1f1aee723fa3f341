import Verif.Proofs.Assemble
import Verif.Spec.Columns
/-! The attributes of the columns after the script. -/
namespace Sqldef
open Spec

variable {mode : Mode}

theorem Spec.SameValue.refl (v : Option Value) : SameValue v v := by
  cases v with
  | none => trivial
  | some v => exact .inl rfl

theorem Spec.SameDefault.refl (d : Option DefaultDefinition) : SameDefault d d := SameValue.refl _

theorem Spec.SameDataType.of_eq {e c : Column} (h1 : e.typeName = c.typeName) (h2 : e.enumValues = c.enumValues) (h3 : e.array = c.array)
    (h4 : e.length = c.length) : SameDataType mode e c :=
  ⟨h1 ▸ .refl _, h2, h3, fun x y hx hy => by rw [h4, hy] at hx; cases hx; rfl⟩

/-! ### The columns of the primary key -/

theorem sameColumns_names {a b : List IndexColumn} (h : SameColumns a b) : a.map (·.column) = b.map (·.column) := by
  induction a generalizing b with
  | nil => cases b with
    | nil => rfl
    | cons => exact absurd h id
  | cons x a ih =>
    cases b with
    | nil => exact absurd h id
    | cons y b => rw [List.map_cons, List.map_cons, h.1, ih h.2.2]

theorem keyColumns_same {x d : Table} (h : keyChanges x d = false) : keyColumns x = keyColumns d := by
  have : SameKey x.primaryKey d.primaryKey := (same_key_iff _ _).1 (by simpa [keyChanges] using h)
  unfold keyColumns
  cases hx : x.primaryKey with
  | none =>
    cases hd : d.primaryKey with
    | none => rfl
    | some b => rw [hx, hd] at this; exact this.elim
  | some a =>
    cases hd : d.primaryKey with
    | none => rw [hx, hd] at this; exact this.elim
    | some b => rw [hx, hd] at this; exact sameColumns_names this.columns

/-- A column of the primary key is in a primary index or is declared PRIMARY KEY. -/
theorem keyColumns_mem {t : Table} {n : Str} (h : n ∈ keyColumns t) :
    (∃ i ∈ t.prim, n ∈ i.columns.map (·.column)) ∨ (t.prim = [] ∧ ∃ c ∈ t.columns, c.keyOption = .primary ∧ c.name = n) := by
  unfold keyColumns at h
  cases hp : t.prim with
  | cons i l =>
    rw [primaryKey_prim hp] at h
    exact .inl ⟨i, by simp, h⟩
  | nil =>
    rw [primaryKey_noPrim hp] at h
    split at h
    · cases h
    · next pk hpk =>
      right
      refine ⟨rfl, ?_⟩
      split at hpk
      · cases hpk
      · cases hpk
        simp only [List.map_map, List.mem_map, List.mem_filter, decide_eq_true_eq, Function.comp_apply] at h
        obtain ⟨c, ⟨h1, h2⟩, h3⟩ := h
        exact ⟨c, h1, h2, h3⟩

theorem inPrimaryKey_of_prim {t : Table} {c : Column} {i : Index} (hi : i ∈ t.prim) (hc : c.name ∈ i.columns.map (·.column)) :
    inPrimaryKey t c = true := by
  obtain ⟨k, hk, hkn⟩ := List.mem_map.1 hc
  obtain ⟨h1, h2⟩ := List.mem_filter.1 hi
  simp only [inPrimaryKey, Bool.or_eq_true, List.any_eq_true, Bool.and_eq_true, decide_eq_true_eq]
  exact .inr ⟨i, h1, h2, k, hk, hkn⟩

theorem inPrimaryKey_cases {t : Table} {c : Column} (h : inPrimaryKey t c = true) :
    c.keyOption = .primary ∨ ∃ i ∈ t.prim, c.name ∈ i.columns.map (·.column) := by
  simp only [inPrimaryKey, Bool.or_eq_true, List.any_eq_true, Bool.and_eq_true, decide_eq_true_eq] at h
  rcases h with h | ⟨i, h1, h2, k, hk, hkn⟩
  · exact .inl h
  · exact .inr ⟨i, List.mem_filter.2 ⟨h1, h2⟩, List.mem_map.2 ⟨k, hk, hkn⟩⟩

theorem inPrimaryKey_of_keyColumns {t : Table} (hn : t.names.Nodup) {c : Column} (hc : c ∈ t.columns) (h : c.name ∈ keyColumns t) :
    inPrimaryKey t c = true := by
  rcases keyColumns_mem h with ⟨i, hi, hin⟩ | ⟨-, c', hc', hk, hcn⟩
  · exact inPrimaryKey_of_prim hi hin
  · have : c' = c := by
      have h1 : t.col c.name = some c := look_unique (key := fun c : Column => c.name) hn hc rfl
      have h2 : t.col c.name = some c' := look_unique (key := fun c : Column => c.name) hn hc' hcn
      rw [h1] at h2
      exact (Option.some.inj h2).symm
    subst this
    simp [inPrimaryKey, hk]

theorem mem_keyColumns_of {t : Table} {pk : Index} (h : t.primaryKey = some pk) : keyColumns t = pk.columns.map (·.column) := by
  unfold keyColumns
  rw [h]

/-! ### The statements about the primary key -/

theorem rekeyed_eq (x d : Table) (e : Column) : ∃ k n, rekeyed x d e = { e with keyOption := k, notNull := n } ∧
    (n = e.notNull ∨ (n = some true ∧ (e.keyOption = .primary ∨ e.name ∈ keyColumns d))) ∧
    (keyChanges x d = true → e.name ∈ keyColumns d → n = some true) ∧ (keyChanges x d = false → k = e.keyOption ∧ n = e.notNull) := by
  unfold rekeyed
  by_cases hk : keyChanges x d = true
  · rw [if_pos hk]
    have hdrop : ∃ k, (if x.primaryKey.isSome then keyDropped e else e) = { e with keyOption := k } ∧
        (k = .primary → e.keyOption = .primary) := by
      unfold keyDropped
      split
      · split
        · exact ⟨_, rfl, by intro h; cases h⟩
        · exact ⟨e.keyOption, rfl, id⟩
      · exact ⟨e.keyOption, rfl, id⟩
    obtain ⟨k, hke, hkp⟩ := hdrop
    rw [hke]
    cases hd : d.primaryKey with
    | none =>
      refine ⟨k, e.notNull, rfl, .inl rfl, fun _ h => ?_, fun h => by rw [hk] at h; cases h⟩
      unfold keyColumns at h
      rw [hd] at h
      cases h
    | some pk =>
      simp only [keyAdded]
      split
      · next hc =>
        refine ⟨k, some true, rfl, .inr ⟨rfl, ?_⟩, fun _ _ => rfl, fun h => by rw [hk] at h; cases h⟩
        rw [mem_keyColumns_of hd]
        exact hc.imp hkp id
      · next hc =>
        refine ⟨k, e.notNull, rfl, .inl rfl, fun _ h => ?_, fun h => by rw [hk] at h; cases h⟩
        rw [mem_keyColumns_of hd] at h
        exact absurd (.inr h) hc
  · rw [if_neg hk]
    exact ⟨e.keyOption, e.notNull, rfl, .inl rfl, fun h => absurd h hk, fun _ => ⟨rfl, rfl⟩⟩

theorem finished_other (hm : mode ≠ .mysql) (x d : Table) (e : Column) : finished mode x d e = rekeyed x d e := by
  unfold finished removedAI addedAI
  rw [if_neg hm, if_neg hm]

theorem col_unique {t : Table} (hn : t.names.Nodup) {c : Column} (hc : c ∈ t.columns) : t.col c.name = some c :=
  look_unique (key := fun c : Column => c.name) hn hc rfl

theorem col_eq {t : Table} (hn : t.names.Nodup) {c c' : Column} (hc : c ∈ t.columns) (hc' : c' ∈ t.columns) (h : c'.name = c.name) : c' = c := by
  have h1 := col_unique hn hc
  have h2 := col_unique hn hc'
  rw [h, h1] at h2
  exact (Option.some.inj h2).symm

theorem wasKey_of {x : Table} {c cur : Column} (hx : x.col c.name = some cur) (h : inPrimaryKey x cur = true) :
    WasKey (some x) c.name := ⟨x, rfl, cur, (findColumn_mem hx).1, (findColumn_mem hx).2, h⟩

theorem required_keeps {e e' : Column} (ht : e'.typeName = e.typeName) (hn : e'.notNull = e.notNull) (h : Required mode e) :
    Required mode e' := by
  unfold Required at *
  rw [ht, hn]
  exact h

theorem inPrimaryKey_name {t : Table} {c e : Column} (hn : e.name = c.name) (hk : e.keyOption = c.keyOption) :
    inPrimaryKey t e = inPrimaryKey t c := by
  unfold inPrimaryKey
  rw [hn, hk]

/-- A column before the statements about the primary key. -/
structure BeforeKey (x : Table) (c e : Column) : Prop where
  name : e.name = c.name
  key : e.keyOption = .primary → ∃ cur, x.col c.name = some cur ∧ cur.keyOption = .primary
  keyOf : ∀ cur, x.col c.name = some cur → e.keyOption = cur.keyOption
  notNull : ∀ cur, x.col c.name = some cur → inPrimaryKey x cur = true → e.notNull = some true

theorem keyColumns_exists {x : Table} (ht : Tidy x) {n : Str} (h : n ∈ keyColumns x) : ∃ cur, x.col n = some cur ∧ inPrimaryKey x cur = true := by
  have hmem : n ∈ x.names := by
    rcases keyColumns_mem h with ⟨i, hi, hin⟩ | ⟨-, c', hc', hk, hcn⟩
    · obtain ⟨h1, h2⟩ := List.mem_filter.1 hi
      obtain ⟨k, hk, rfl⟩ := List.mem_map.1 hin
      exact ht.keyColumns i h1 h2 k hk
    · exact hcn ▸ List.mem_map_of_mem hc'
  obtain ⟨cur, hcur, rfl⟩ := List.mem_map.1 hmem
  exact ⟨cur, col_unique ht.columns hcur, inPrimaryKey_of_keyColumns ht.columns hcur h⟩

theorem BeforeKey.rekeyed_notNull {x d : Table} {c e : Column} (ht : Tidy x) (h : BeforeKey x c e) (hc : c.name ∈ keyColumns d) :
    (rekeyed x d e).notNull = some true := by
  obtain ⟨k, n, he, hn, hkey, hsame⟩ := rekeyed_eq x d e
  rw [he]
  show n = some true
  by_cases hk : keyChanges x d = true
  · exact hkey hk (by rw [h.name]; exact hc)
  · have hk' : keyChanges x d = false := by simpa using hk
    rw [(hsame hk').2]
    obtain ⟨cur, h1, h2⟩ := keyColumns_exists ht (keyColumns_same hk' ▸ hc)
    exact h.notNull cur h1 h2

theorem BeforeKey.rekeyed_nullable {x d : Table} {c e : Column} (hd : d.names.Nodup) (hc : c ∈ d.columns) (h : BeforeKey x c e)
    (hn : (rekeyed x d e).notNull = some true) : e.notNull = some true ∨ inPrimaryKey d c = true ∨ WasKey (some x) c.name := by
  obtain ⟨k, n, he, hnn, -, -⟩ := rekeyed_eq x d e
  rw [he] at hn
  have hn : n = some true := hn
  rcases hnn with hnn | ⟨-, hk | hk⟩
  · exact .inl (hnn ▸ hn)
  · obtain ⟨cur, h1, h2⟩ := h.key hk
    exact .inr (.inr (wasKey_of h1 (by simp [inPrimaryKey, h2])))
  · rw [h.name] at hk
    exact .inr (.inl (inPrimaryKey_of_keyColumns hd hc hk))

theorem rekeyed_fields (x d : Table) (e : Column) : ∃ k n, rekeyed x d e = { e with keyOption := k, notNull := n } ∧
    (e.notNull = some true → n = some true) ∧ (n = e.notNull ∨ n = some true) := by
  obtain ⟨k, n, he, hn, -, -⟩ := rekeyed_eq x d e
  refine ⟨k, n, he, fun h => ?_, hn.imp id (·.1)⟩
  rcases hn with rfl | ⟨rfl, -⟩
  · exact h
  · rfl

theorem rekeyed_required {x d : Table} {e : Column} (h : Required mode e) : Required mode (rekeyed x d e) := by
  obtain ⟨k, n, he, -, hn⟩ := rekeyed_fields x d e
  rw [he]
  rcases hn with rfl | rfl
  · exact required_keeps rfl rfl h
  · exact .inl rfl

theorem rekeyed_unique {x d : Table} {e : Column} (h : e.keyOption.isUnique = true) : (rekeyed x d e).keyOption = e.keyOption := by
  rw [rekeyed_key, if_neg]
  intro hk
  simp only [Bool.and_eq_true, decide_eq_true_eq] at hk
  rw [hk.2] at h
  cases h

/-! ### New columns -/

theorem storedNew_eq (c : Column) : ∃ k n, storedNew c = { c with keyOption := k, notNull := n, autoIncrement := false } ∧
    (n = c.notNull ∨ (n = some true ∧ c.keyOption = .primary)) ∧ k ≠ .primary ∧ (c.keyOption.isUnique = true → k = c.keyOption) := by
  refine ⟨_, _, rfl, ?_, storedNew_key c, fun h => ?_⟩
  · simp only [Bool.false_or, Bool.or_eq_true, decide_eq_true_eq]
    split
    · next h =>
      rcases h with h | h
      · exact .inl h.symm
      · exact .inr ⟨rfl, h⟩
    · exact .inl rfl
  · rw [if_neg]
    intro hk
    rw [hk] at h
    cases h

theorem beforeKey_new {x : Table} {c : Column} (hx : x.col c.name = none) : BeforeKey x c (storedNew c) where
  name := rfl
  key h := absurd h (storedNew_key c)
  keyOf cur h := by rw [hx] at h; cases h
  notNull cur h := by rw [hx] at h; cases h

/-- A new column of an existing table, in a dialect other than MySQL or before AUTO_INCREMENT is added. -/
theorem new_reached {x d : Table} {c : Column} (hd : d.names.Nodup) (hc : c ∈ d.columns) (hx : x.col c.name = none) :
    Verbatim c (rekeyed x d (storedNew c)) ∧ (c.keyOption.isUnique = true → (rekeyed x d (storedNew c)).keyOption = c.keyOption) ∧
    (Required mode c → Required mode (rekeyed x d (storedNew c))) ∧
    ((rekeyed x d (storedNew c)).notNull = some true → Required mode c ∨ inPrimaryKey d c = true ∨ WasKey (some x) c.name) := by
  obtain ⟨k, n, he, hn, hk, hu⟩ := storedNew_eq c
  refine ⟨?_, ?_, ?_, ?_⟩
  · obtain ⟨k', n', he', -, -⟩ := rekeyed_fields x d (storedNew c)
    rw [he', he]
    rfl
  · intro h
    have : (storedNew c).keyOption = c.keyOption := by rw [he]; exact hu h
    rw [rekeyed_unique (by rw [this]; exact h), this]
  · intro h
    refine rekeyed_required ?_
    rw [he]
    rcases hn with rfl | ⟨rfl, -⟩
    · exact required_keeps rfl rfl h
    · exact .inl rfl
  · intro h
    rcases (beforeKey_new hx).rekeyed_nullable hd hc h with h | h
    · rw [he] at h
      have h : n = some true := h
      rcases hn with rfl | ⟨-, hn⟩
      · exact .inl (.inl h)
      · exact .inr (.inl (by simp [inPrimaryKey, hn]))
    · exact .inr h

/-! ### MySQL -/

theorem stored_eq (pk : Bool) (k : ColumnKeyOption) (c : Column) : ∃ n, stored pk k c = { c with keyOption := k, notNull := n } ∧
    (pk = true ∨ c.notNull = some true ∨ c.keyOption = .primary → n = some true) ∧
    (n = some true → pk = true ∨ c.notNull = some true ∨ c.keyOption = .primary) := by
  refine ⟨_, rfl, ?_, ?_⟩
  · intro h
    rw [if_pos]
    simpa [or_assoc] using h
  · split
    · next h => intro _; simpa [or_assoc] using h
    · exact fun h => .inr (.inl h)

theorem mysqlReached_of {c e : Column} {k : ColumnKeyOption} {n : Option Bool} (h : e = { c with keyOption := k, notNull := n }) :
    MysqlReached c e := by
  subst h
  exact ⟨.of_eq rfl rfl rfl rfl, rfl, rfl, rfl, .inr rfl, .inr rfl, rfl, .refl _, rfl⟩

theorem mysqlReached_same {c cur : Column} (h : SameDefinition .mysql cur c) (hd : SameDefault cur.defaultDef c.defaultDef)
    (ha : cur.autoIncrement = c.autoIncrement) : MysqlReached c cur :=
  ⟨h.type, h.unsigned, h.timezone, h.noCheck.1.trans h.noCheck.2.symm, h.charset, h.collate, h.onUpdate, hd, ha⟩

theorem mysqlReached_keeps {c e : Column} {k : ColumnKeyOption} {n : Option Bool} (h : MysqlReached c e) :
    MysqlReached c { e with keyOption := k, notNull := n } :=
  ⟨⟨h.type.name, h.type.enumValues, h.type.array, h.type.length⟩, h.unsigned, h.timezone, h.check, h.charset, h.collate,
    h.onUpdate, h.default, h.autoIncrement⟩

/-- An existing column before the statements about the primary key. -/
structure MysqlBefore (x : Table) (c e : Column) : Prop extends BeforeKey x c e where
  required : ¬ LosesAndChanges .mysql (some x) c → Required .mysql c → e.notNull = some true
  nullable : ¬ LosesAndChanges .mysql (some x) c → e.notNull = some true →
    Required .mysql c ∨ c.keyOption = .primary ∨ WasKey (some x) c.name
  reached : ¬ LosesAndChanges .mysql (some x) c → c.autoIncrement = e.autoIncrement → MysqlReached c e
  auto : ∀ cur, x.col c.name = some cur → e.autoIncrement = (cur.autoIncrement && c.autoIncrement)

theorem required_mysql {c : Column} : Required .mysql c ↔ c.notNull = some true := by simp [Required]

theorem removed_lookup {x d : Table} {c cur : Column} (hd : d.names.Nodup) (hc : c ∈ d.columns) (hx : x.names.Nodup)
    (hcur : x.col c.name = some cur) : look (·.name) (x.columns.filter (losesAutoIncrement d)) c.name =
      if cur.autoIncrement && !c.autoIncrement then some cur else none := by
  obtain ⟨hm, hn⟩ := findColumn_mem hcur
  have hl : losesAutoIncrement d cur = (cur.autoIncrement && !c.autoIncrement) := by
    unfold losesAutoIncrement
    rw [hn, show findColumnByName d.columns c.name = some c from col_unique hd hc]
  have hnd : ((x.columns.filter (losesAutoIncrement d)).map fun c : Column => c.name).Nodup :=
    List.Nodup.sublist (List.Sublist.map _ List.filter_sublist) hx
  split
  · next h => exact look_unique (key := fun c : Column => c.name) hnd (List.mem_filter.2 ⟨hm, hl.trans h⟩) hn
  · next h =>
    rw [look_none]
    intro hmem
    obtain ⟨c', h1, h2⟩ := List.mem_map.1 hmem
    obtain ⟨h3, h4⟩ := List.mem_filter.1 h1
    have : c' = cur := col_eq hx hm h3 (h2.trans hn.symm)
    subst this
    exact h (hl ▸ h4)

theorem added_lookup {x d : Table} {c : Column} (hd : d.names.Nodup) (hc : c ∈ d.columns) :
    look (·.name) (d.columns.filter (gainsAutoIncrement x)) c.name = if gainsAutoIncrement x c then some c else none := by
  have hnd : ((d.columns.filter (gainsAutoIncrement x)).map fun c : Column => c.name).Nodup :=
    List.Nodup.sublist (List.Sublist.map _ List.filter_sublist) hd
  split
  · next h => exact look_unique (key := fun c : Column => c.name) hnd (List.mem_filter.2 ⟨hc, h⟩) rfl
  · next h =>
    rw [look_none]
    intro hmem
    obtain ⟨c', h1, h2⟩ := List.mem_map.1 hmem
    obtain ⟨h3, h4⟩ := List.mem_filter.1 h1
    have : c' = c := col_eq hd hc h3 h2
    subst this
    exact h h4

theorem seen_eq (cur c : Column) : seen cur c = { c with autoIncrement := cur.autoIncrement && c.autoIncrement } := by
  unfold seen
  split
  · next h => rw [h]; rfl
  · next h => rw [show cur.autoIncrement = false by simpa using h]; rfl

theorem removedAI_new {x d : Table} {c e : Column} (hx : x.col c.name = none) (hn : e.name = c.name) : removedAI mode x d x e = e := by
  unfold removedAI
  split
  · rw [hn, show look (·.name) (x.columns.filter (losesAutoIncrement d)) c.name = none from look_none.2 ?_]
    intro hm
    obtain ⟨c', h1, h2⟩ := List.mem_map.1 hm
    exact findColumn_none.1 hx (List.mem_map.2 ⟨c', (List.mem_filter.1 h1).1, h2⟩)
  · rfl

theorem mysql_before {x d : Table} {c cur e : Column} (hd : d.names.Nodup) (hc : c ∈ d.columns) (ht : Tidy x) (hr : Reported .mysql x)
    (hcur : x.col c.name = some cur) (h : MysqlAfter x c e) : MysqlBefore x c (removedAI .mysql x d x e) := by
  obtain ⟨hm, hname⟩ := findColumn_mem hcur
  rcases h with ⟨hx, -⟩ | ⟨cur', hx, h⟩
  · rw [hcur] at hx; cases hx
  rw [hcur] at hx
  obtain rfl : cur = cur' := Option.some.inj hx
  -- the column statements
  have hen : e.name = c.name := by
    rcases h with ⟨rfl, -⟩ | rfl
    · exact hname
    · exact seen_fields.1
  have hek : e.keyOption = cur.keyOption := by rcases h with ⟨rfl, -⟩ | rfl <;> rfl
  have hepk : inPrimaryKey x e = inPrimaryKey x cur := inPrimaryKey_name (hen.trans hname.symm) hek
  unfold removedAI
  rw [if_pos rfl, hen, removed_lookup hd hc ht.columns hcur]
  split
  · next hl =>
    split at hl
    · cases hl
    · next hno =>
      have hno' : cur.autoIncrement = (cur.autoIncrement && c.autoIncrement) := by
        revert hno
        cases cur.autoIncrement <;> simp
      rcases h with ⟨rfl, h1, h2⟩ | rfl
      · have h1 := (same_definition_iff _ _ _).1 h1
        have h2 := (same_default_iff _ _).1 h2
        refine ⟨⟨hen, fun h => ⟨e, hcur, h⟩, ?_, ?_⟩, ?_, ?_, ?_, ?_⟩
        · intro cur' h; rw [hcur] at h; cases h; rfl
        · intro cur' h; rw [hcur] at h; cases h; exact hr.key e hm
        · exact fun _ h => h1.notNull.2 (.inl (required_mysql.1 h))
        · intro _ h
          exact (h1.notNull.1 h).imp required_mysql.2 .inl
        · exact fun _ ha => mysqlReached_same h1 h2 ha.symm
        · intro cur' h; rw [hcur] at h; cases h; exact hno'
      · obtain ⟨n, hs, hn1, hn2⟩ := stored_eq (inPrimaryKey x cur) cur.keyOption (seen cur c)
        rw [seen_eq] at hs hn1 hn2
        rw [seen_eq, hs]
        refine ⟨⟨rfl, fun h => ⟨cur, hcur, h⟩, ?_, ?_⟩, ?_, ?_, ?_, ?_⟩
        · intro cur' h; rw [hcur] at h; cases h; rfl
        · intro cur' h hp; rw [hcur] at h; cases h; exact hn1 (.inl hp)
        · exact fun _ h => hn1 (.inr (.inl (required_mysql.1 h)))
        · intro _ h
          rcases hn2 h with h | h | h
          · exact .inr (.inr (wasKey_of hcur h))
          · exact .inl (required_mysql.2 h)
          · exact .inr (.inl h)
        · intro _ ha
          refine mysqlReached_of (k := cur.keyOption) (n := n) ?_
          rw [show (cur.autoIncrement && c.autoIncrement) = c.autoIncrement from ha.symm]
        · intro cur' h; rw [hcur] at h; cases h; rfl
  · next cur' hl =>
    split at hl
    · next hla =>
      obtain rfl : cur = cur' := Option.some.inj hl
      have hla : cur.autoIncrement = true ∧ c.autoIncrement = false := by simpa using hla
      have hsame : ¬ LosesAndChanges .mysql (some x) c → SameDefinition .mysql cur c ∧ SameDefault cur.defaultDef c.defaultDef := by
        intro hno
        by_cases hs : SameDefinition .mysql cur c ∧ SameDefault cur.defaultDef c.defaultDef
        · exact hs
        · exact absurd ⟨rfl, x, rfl, cur, hm, hname, hla.1, hla.2, hs⟩ hno
      obtain ⟨n, hs, hn1, hn2⟩ := stored_eq (inPrimaryKey x e) e.keyOption { cur with autoIncrement := false }
      rw [hs]
      rw [hepk] at hn1 hn2
      refine ⟨⟨hname, fun h => ⟨cur, hcur, hek ▸ h⟩, ?_, ?_⟩, ?_, ?_, ?_, ?_⟩
      · intro cur' h; rw [hcur] at h; cases h; exact hek
      · intro cur' h hp; rw [hcur] at h; cases h; exact hn1 (.inl hp)
      · exact fun hno h => hn1 (.inr (.inl ((hsame hno).1.notNull.2 (.inl (required_mysql.1 h)))))
      · intro hno h
        rcases hn2 h with h | h | h
        · exact .inr (.inr (wasKey_of hcur h))
        · exact ((hsame hno).1.notNull.1 h).imp required_mysql.2 .inl
        · exact .inr (.inr (wasKey_of hcur (by simp only [inPrimaryKey, Bool.or_eq_true, decide_eq_true_eq]; exact .inl h)))
      · intro hno _
        obtain ⟨h1, h2⟩ := hsame hno
        refine mysqlReached_keeps (e := { cur with autoIncrement := false }) (mysqlReached_same
          ⟨⟨h1.type.name, h1.type.enumValues, h1.type.array, h1.type.length⟩, h1.unsigned, h1.notNull, h1.timezone, h1.noCheck,
            h1.charset, h1.collate, h1.onUpdate⟩ h2 hla.2.symm)
      · intro cur' h; rw [hcur] at h; cases h; rw [hla.1, hla.2]; rfl
    · cases hl

theorem primAfter_inKey {x d : Table} (ht : Tidy x) (hd : d.names.Nodup) {c e : Column} (hc : c ∈ d.columns) (h : BeforeKey x c e)
    (hp : inPrimaryKey (keyed x d) (rekeyed x d e) = true) : inPrimaryKey d c = true ∨ WasKey (some x) c.name := by
  rcases inPrimaryKey_cases hp with hk | ⟨i, hi, hn⟩
  · rw [rekeyed_key] at hk
    split at hk
    · cases hk
    · obtain ⟨cur, h1, h2⟩ := h.key hk
      exact .inr (wasKey_of h1 (by simp [inPrimaryKey, h2]))
  · rw [rekeyed_keeps.1, h.name] at hn
    rw [keyed_prim] at hi
    unfold primAfter at hi
    split at hi
    · cases hpk : d.primaryKey with
      | none => rw [hpk] at hi; cases hi
      | some pk =>
        rw [hpk] at hi
        obtain rfl : i = pk := by simpa using hi
        left
        refine inPrimaryKey_of_keyColumns hd hc ?_
        rw [mem_keyColumns_of hpk]
        exact hn
    · right
      obtain ⟨h1, h2⟩ := List.mem_filter.1 hi
      obtain ⟨k, hk, hkn⟩ := List.mem_map.1 hn
      obtain ⟨cur, hcur, hcn⟩ := List.mem_map.1 (ht.keyColumns i h1 h2 k hk)
      refine ⟨x, rfl, cur, hcur, hcn.trans hkn, inPrimaryKey_of_prim hi ?_⟩
      rw [hcn.trans hkn]
      exact hn

theorem keyed_inKey {x d : Table} (ht : Tidy x) {c e : Column} (h : BeforeKey x c e) (hc : c.name ∈ keyColumns d) :
    inPrimaryKey (keyed x d) (rekeyed x d e) = true := by
  by_cases hk : keyChanges x d = true
  · cases hpk : d.primaryKey with
    | none => unfold keyColumns at hc; rw [hpk] at hc; cases hc
    | some pk =>
      refine inPrimaryKey_of_prim (i := pk) ?_ ?_
      · rw [keyed_prim]
        unfold primAfter
        rw [if_pos hk, hpk]
        simp
      · rw [rekeyed_keeps.1, h.name, ← mem_keyColumns_of hpk]
        exact hc
  · have hk' : keyChanges x d = false := by simpa using hk
    rw [← keyColumns_same hk'] at hc
    obtain ⟨cur, h1, h2⟩ := keyColumns_exists ht hc
    have hp : (keyed x d).prim = x.prim := by
      rw [keyed_prim]
      unfold primAfter
      rw [if_neg hk]
    rw [inPrimaryKey_prim hp, ← h2]
    refine inPrimaryKey_name ?_ ?_
    · rw [rekeyed_keeps.1, h.name]; exact (findColumn_mem h1).2.symm
    · rw [rekeyed_key, hk']
      exact h.keyOf cur h1

theorem isNew_iff {x : Table} {n : Str} : IsNew (some x) n ↔ x.col n = none := by
  unfold IsNew
  rw [show x.col n = findColumnByName x.columns n from rfl, findColumn_none]
  exact ⟨fun h => h x rfl, fun h y hy => by cases hy; exact h⟩

/-- A column that gains AUTO_INCREMENT. -/
theorem mysql_gains {x d : Table} {c e : Column} (ht : Tidy x) (hd : d.names.Nodup) (hc : c ∈ d.columns) (h : BeforeKey x c e)
    (hu : IsNew (some x) c.name → c.keyOption.isUnique = true → (rekeyed x d e).keyOption = c.keyOption) :
    ColumnReached .mysql (some x) d c (stored (inPrimaryKey (keyed x d) (rekeyed x d e)) (rekeyed x d e).keyOption c) := by
  obtain ⟨n, hs, hn1, hn2⟩ := stored_eq (inPrimaryKey (keyed x d) (rekeyed x d e)) (rekeyed x d e).keyOption c
  rw [hs]
  refine ⟨fun hi => ⟨rfl, hu hi⟩, fun hk => hn1 (.inl (keyed_inKey ht h hk)), fun _ _ hr => ?_, fun _ _ hn => ?_,
    fun _ _ => mysqlReached_of rfl, (fun h => nomatch h), (fun h => nomatch h)⟩
  · exact .inl (hn1 (.inr (.inl (required_mysql.1 hr))))
  · rcases hn2 hn with h' | h' | h'
    · exact .inr (primAfter_inKey ht hd hc h h')
    · exact .inl (.inl h')
    · exact .inr (.inl (by simp [inPrimaryKey, h']))

theorem mysql_column {x d : Table} {c e : Column} (ht : Tidy x) (hr : Reported .mysql x) (hd : d.names.Nodup) (hc : c ∈ d.columns)
    (h : MysqlAfter x c e) : ColumnReached .mysql (some x) d c (finished .mysql x d e) := by
  have hen : e.name = c.name := (mysql_keepsKey x c e h).1
  have hadd : ∀ e1 : Column, e1.name = c.name → addedAI .mysql x d (keyed x d) e1 =
      if gainsAutoIncrement x c then stored (inPrimaryKey (keyed x d) e1) e1.keyOption c else e1 := by
    intro e1 he1
    unfold addedAI
    rw [if_pos rfl, he1, added_lookup hd hc]
    by_cases hg : gainsAutoIncrement x c = true <;> simp [hg]
  have hn1 : (rekeyed x d (removedAI .mysql x d x e)).name = c.name := by rw [rekeyed_keeps.1, removedAI_keeps.1, hen]
  unfold finished
  rw [hadd _ hn1]
  cases hcur : x.col c.name with
  | none =>
    rcases h with ⟨-, rfl⟩ | ⟨cur, hx, -⟩
    swap
    · rw [hcur] at hx; cases hx
    rw [removedAI_new hcur hen]
    have hb := beforeKey_new hcur
    obtain ⟨hv, hu, hreq, hnull⟩ := new_reached (mode := .mysql) hd hc hcur
    split
    · exact mysql_gains ht hd hc hb (fun _ => hu)
    · next hg =>
      have hg : c.autoIncrement = false := by
        unfold gainsAutoIncrement at hg
        rw [show findColumnByName x.columns c.name = none from hcur] at hg
        simpa using hg
      refine ⟨fun _ => ⟨hv, hu⟩, fun hk => hb.rekeyed_notNull ht hk, fun _ _ => hreq, fun _ _ => hnull, fun _ _ => ?_,
        (fun h => nomatch h), (fun h => nomatch h)⟩
      obtain ⟨k, n, he, -⟩ := storedNew_eq c
      obtain ⟨k', n', he', -, -⟩ := rekeyed_fields x d (storedNew c)
      rw [he', he]
      refine mysqlReached_of (k := k') (n := n') ?_
      rw [← hg]
  | some cur =>
    have hb := mysql_before hd hc ht hr hcur h
    have hnew : ¬ IsNew (some x) c.name := by rw [isNew_iff, hcur]; simp
    split
    · exact mysql_gains ht hd hc hb.toBeforeKey (fun h => absurd h hnew)
    · next hg =>
      have hg : c.autoIncrement = (removedAI .mysql x d x e).autoIncrement := by
        rw [hb.auto cur hcur]
        unfold gainsAutoIncrement at hg
        rw [show findColumnByName x.columns c.name = some cur from hcur] at hg
        revert hg
        simp only
        cases c.autoIncrement <;> cases cur.autoIncrement <;> simp
      refine ⟨fun h => absurd h hnew, fun hk => hb.toBeforeKey.rekeyed_notNull ht hk, fun _ hno hr => ?_, fun _ hno hn => ?_, fun _ hno => ?_,
        (fun h => nomatch h), (fun h => nomatch h)⟩
      · exact rekeyed_required (.inl (hb.required hno hr))
      · rcases hb.toBeforeKey.rekeyed_nullable hd hc hn with h | h | h
        · rcases hb.nullable hno h with h | h | h
          · exact .inl h
          · exact .inr (.inl (by simp [inPrimaryKey, h]))
          · exact .inr (.inr h)
        · exact .inr (.inl h)
        · exact .inr (.inr h)
      · obtain ⟨k', n', he', -, -⟩ := rekeyed_fields x d (removedAI .mysql x d x e)
        rw [he']
        exact mysqlReached_keeps (hb.reached hno hg)

/-! ### Postgres -/

theorem notNull_iff {c : Column} : notNull .postgres c = true ↔ Required .postgres c := by
  unfold notNull Required
  cases h : c.notNull with
  | none => simp
  | some b => simp

theorem pgType_eq (cur c e : Column) : ∃ t l s a v, pgTypeAfter cur c e =
    { e with typeName := t, length := l, scale := s, array := a, enumValues := v } := by
  unfold pgTypeAfter
  split
  · exact ⟨_, _, _, _, _, rfl⟩
  · exact ⟨_, _, _, _, _, rfl⟩

theorem pgNotNull_eq (pk : Bool) (cur c e : Column) : ∃ n, pgNotNullAfter pk cur c e = { e with notNull := n } := by
  unfold pgNotNullAfter
  repeat' split
  all_goals exact ⟨_, rfl⟩

theorem pgIdentity_eq (cur c e : Column) : ∃ i s, pgIdentityAfter cur c e = { e with identity := i, sequence := s } := by
  unfold pgIdentityAfter
  repeat' split
  all_goals exact ⟨_, _, rfl⟩

theorem pgDefault_eq (cur c e : Column) : ∃ v, pgDefaultAfter cur c e = { e with defaultDef := v } := by
  unfold pgDefaultAfter
  repeat' split
  all_goals exact ⟨_, rfl⟩

theorem pgCheck_eq (d : Table) (cur c e : Column) : ∃ k n, pgCheckAfter d cur c e = { e with check := k, checkNoInherit := n } := by
  unfold pgCheckAfter
  repeat' split
  all_goals exact ⟨_, _, rfl⟩

/-- The fields of an existing column after the statements. -/
theorem pgAfter_fields (x d : Table) (cur c : Column) :
    (pgAfter x d cur c).name = cur.name ∧ (pgAfter x d cur c).keyOption = cur.keyOption ∧
    SameDataType .postgres (pgAfter x d cur c) c ∧
    (pgAfter x d cur c).identity.map (·.behavior) = c.identity.map (·.behavior) ∧
    SameDefault (pgAfter x d cur c).defaultDef c.defaultDef ∧
    SameCheck (pgAfter x d cur c).check c.check ∧
    (c.check ≠ none → (pgAfter x d cur c).checkNoInherit = c.checkNoInherit) ∧
    (pgAfter x d cur c).notNull = (pgNotNullAfter (inPrimaryKey x cur) cur c cur).notNull ∧
    ((pgAfter x d cur c).typeName = cur.typeName ∨ (pgAfter x d cur c).typeName = c.typeName) := by
  have h1 : SameDataType .postgres (pgTypeAfter cur c cur) c ∧
      ((pgTypeAfter cur c cur).typeName = cur.typeName ∨ (pgTypeAfter cur c cur).typeName = c.typeName) := by
    unfold pgTypeAfter
    split
    · next h => exact ⟨(same_data_type_iff _ _ _).1 h, .inl rfl⟩
    · exact ⟨.of_eq rfl rfl rfl rfl, .inr rfl⟩
  have h3 : ∀ e, e.identity = cur.identity →
      (pgIdentityAfter cur c e).identity.map (·.behavior) = c.identity.map (·.behavior) := by
    intro e he
    unfold pgIdentityAfter
    split
    · next h => rw [he, (same_identity_iff _ _).1 h]
    · cases hi : cur.identity <;> cases hj : c.identity <;> simp [he, hi]
  have h4 : ∀ e, e.defaultDef = cur.defaultDef → SameDefault (pgDefaultAfter cur c e).defaultDef c.defaultDef := by
    intro e he
    unfold pgDefaultAfter
    split
    · next h => rw [he]; exact (same_default_iff _ _).1 h
    · cases hd : c.defaultDef with
      | none => exact .refl _
      | some v => obtain ⟨v, k⟩ := v; cases v <;> exact Spec.SameValue.refl _
  have h5 : ∀ e, e.check = cur.check → e.checkNoInherit = cur.checkNoInherit →
      SameCheck (pgCheckAfter d cur c e).check c.check ∧
      (c.check ≠ none → (pgCheckAfter d cur c e).checkNoInherit = c.checkNoInherit) := by
    intro e he hn
    unfold pgCheckAfter
    split
    · next h => exact ⟨he ▸ (same_check_iff _ _).1 h.1, fun _ => hn.trans h.2⟩
    · cases hk : c.check with
      | none =>
        refine ⟨?_, fun h => absurd rfl h⟩
        simp only
        split
        · rfl
        · next h =>
          have : cur.check = none := by simpa using h
          rw [he, this]
          rfl
      | some k => exact ⟨rfl, fun _ => rfl⟩
  have h2 : ∀ e e', e.notNull = e'.notNull →
      (pgNotNullAfter (inPrimaryKey x cur) cur c e).notNull = (pgNotNullAfter (inPrimaryKey x cur) cur c e').notNull := by
    intro e e' he
    unfold pgNotNullAfter
    repeat' split
    all_goals first | exact he | rfl
  unfold pgAfter
  generalize he1 : pgTypeAfter cur c cur = e1 at h1 ⊢
  have hn2 := h2 e1 cur (by obtain ⟨_, _, _, _, _, h⟩ := pgType_eq cur c cur; rw [← he1, h])
  have a1 : e1.name = cur.name ∧ e1.keyOption = cur.keyOption ∧ e1.identity = cur.identity ∧ e1.defaultDef = cur.defaultDef ∧
      e1.check = cur.check ∧ e1.checkNoInherit = cur.checkNoInherit := by
    obtain ⟨_, _, _, _, _, h⟩ := pgType_eq cur c cur
    rw [← he1, h]
    exact ⟨rfl, rfl, rfl, rfl, rfl, rfl⟩
  obtain ⟨n, e2⟩ := pgNotNull_eq (inPrimaryKey x cur) cur c e1
  obtain ⟨i, q, e3⟩ := pgIdentity_eq cur c (pgNotNullAfter (inPrimaryKey x cur) cur c e1)
  obtain ⟨v, e4⟩ := pgDefault_eq cur c (pgIdentityAfter cur c (pgNotNullAfter (inPrimaryKey x cur) cur c e1))
  obtain ⟨k, w, e5⟩ := pgCheck_eq d cur c (pgDefaultAfter cur c (pgIdentityAfter cur c (pgNotNullAfter (inPrimaryKey x cur) cur c e1)))
  have b3 := h3 (pgNotNullAfter (inPrimaryKey x cur) cur c e1) (by rw [e2]; exact a1.2.2.1)
  have b4 := h4 (pgIdentityAfter cur c (pgNotNullAfter (inPrimaryKey x cur) cur c e1)) (by rw [e3, e2]; exact a1.2.2.2.1)
  have b5 := h5 (pgDefaultAfter cur c (pgIdentityAfter cur c (pgNotNullAfter (inPrimaryKey x cur) cur c e1)))
    (by rw [e4, e3, e2]; exact a1.2.2.2.2.1) (by rw [e4, e3, e2]; exact a1.2.2.2.2.2)
  rw [← hn2]
  refine ⟨?_, ?_, ?_, ?_, ?_, b5.1, b5.2, ?_, ?_⟩
  · rw [e5, e4, e3, e2]; exact a1.1
  · rw [e5, e4, e3, e2]; exact a1.2.1
  · rw [e5, e4, e3, e2]; exact ⟨h1.1.name, h1.1.enumValues, h1.1.array, h1.1.length⟩
  · rw [e5, e4]; exact b3
  · rw [e5]; exact b4
  · rw [e5, e4, e3]
  · rw [e5, e4, e3, e2]; exact h1.2

theorem postgresReached_keeps {c e : Column} {k : ColumnKeyOption} {n : Option Bool} (h : PostgresReached c e) :
    PostgresReached c { e with keyOption := k, notNull := n } :=
  ⟨⟨h.type.name, h.type.enumValues, h.type.array, h.type.length⟩, h.identity, h.default, h.check, h.noInherit⟩

theorem postgresReached_of {c e : Column} {k : ColumnKeyOption} {n : Option Bool} {a : Bool}
    (h : e = { c with keyOption := k, notNull := n, autoIncrement := a }) : PostgresReached c e := by
  subst h
  exact ⟨.of_eq rfl rfl rfl rfl, rfl, .refl _, rfl, fun _ => rfl⟩

theorem mssqlReached_of {c e : Column} {k : ColumnKeyOption} {n : Option Bool} {a : Bool}
    (h : e = { c with keyOption := k, notNull := n, autoIncrement := a }) : MssqlReached c e := by
  subst h
  exact ⟨rfl, .refl _, rfl⟩

theorem mssqlReached_keeps {c e : Column} {k : ColumnKeyOption} {n : Option Bool} (h : MssqlReached c e) :
    MssqlReached c { e with keyOption := k, notNull := n } := ⟨h.identity, h.default, h.check⟩

/-- A new column in the dialects other than MySQL. -/
theorem other_new {x d : Table} {c : Column} (ht : Tidy x) (hd : d.names.Nodup) (hc : c ∈ d.columns) (hcur : x.col c.name = none)
    (hm : mode ≠ .mysql) : ColumnReached mode (some x) d c (rekeyed x d (storedNew c)) := by
  obtain ⟨hv, hu, hreq, hnull⟩ := new_reached (mode := mode) hd hc hcur
  obtain ⟨k, n, he, -⟩ := storedNew_eq c
  obtain ⟨k', n', he', -, -⟩ := rekeyed_fields x d (storedNew c)
  have hfull : rekeyed x d (storedNew c) = { c with keyOption := k', notNull := n', autoIncrement := false } := by rw [he', he]
  exact ⟨fun _ => ⟨hv, hu⟩, fun hk => (beforeKey_new hcur).rekeyed_notNull ht hk, fun _ _ => hreq, fun _ _ => hnull, fun h => absurd h hm,
    fun _ => postgresReached_of hfull, fun _ => mssqlReached_of hfull⟩

theorem pg_column {x d : Table} {c e : Column} (ht : Tidy x) (hr : Reported .postgres x) (hd : d.names.Nodup) (hc : c ∈ d.columns)
    (h : OtherAfter (pgAfter x d) x c e) : ColumnReached .postgres (some x) d c (finished .postgres x d e) := by
  rw [finished_other (by decide)]
  rcases h with ⟨hcur, rfl⟩ | ⟨cur, hcur, rfl⟩
  · exact other_new ht hd hc hcur (by decide)
  · obtain ⟨hm, hname⟩ := findColumn_mem hcur
    obtain ⟨f1, f2, f3, f4, f5, f6, f7, f8, f9⟩ := pgAfter_fields x d cur c
    have hnew : ¬ IsNew (some x) c.name := by rw [isNew_iff, hcur]; simp
    have hb : BeforeKey x c (pgAfter x d cur c) := by
      refine ⟨f1.trans hname, fun h => ⟨cur, hcur, f2 ▸ h⟩, ?_, ?_⟩
      · intro cur' h; rw [hcur] at h; cases h; exact f2
      · intro cur' h hp
        rw [hcur] at h
        cases h
        rw [f8]
        unfold pgNotNullAfter
        rw [if_pos hp]
        exact hr.key cur hm hp
    have hcurReq : Required .postgres cur → cur.notNull = some true := by
      rintro (h | ⟨-, h1, h2⟩)
      · exact h
      · exact absurd h1 (hr.serial rfl cur hm h2)
    refine ⟨fun h => absurd h hnew, fun hk => hb.rekeyed_notNull ht hk, fun _ _ hreq => ?_, fun _ _ hn => ?_, (fun h => nomatch h),
      fun _ => ?_, (fun h => nomatch h)⟩
    · refine rekeyed_required (.inl ?_)
      rw [f8]
      unfold pgNotNullAfter
      split
      · next hp => exact hr.key cur hm hp
      · rw [notNull_iff.2 hreq]
        cases hcn : notNull .postgres cur with
        | true => exact hcurReq (notNull_iff.1 hcn)
        | false => rfl
    · rcases hb.rekeyed_nullable hd hc hn with h | h
      · rw [f8] at h
        unfold pgNotNullAfter at h
        split at h
        · next hp => exact .inr (.inr (wasKey_of hcur hp))
        · cases hcc : notNull .postgres c with
          | true => exact .inl (notNull_iff.1 hcc)
          | false =>
            rw [hcc] at h
            cases hcn : notNull .postgres cur with
            | true => rw [hcn] at h; cases h
            | false =>
              rw [hcn] at h
              have : notNull .postgres cur = true := notNull_iff.2 (.inl h)
              rw [hcn] at this
              cases this
      · exact .inr h
    · obtain ⟨k', n', he', -, -⟩ := rekeyed_fields x d (pgAfter x d cur c)
      rw [he']
      exact postgresReached_keeps ⟨f3, f4, f5, f6, f7⟩

/-! ### SQL Server and SQLite -/

theorem msAfter_fields (d : Table) (cur c : Column) :
    ∃ k n v, msAfter d cur c = { cur with check := k, checkNoInherit := n, defaultDef := v } ∧ SameCheck k c.check ∧ SameDefault v c.defaultDef := by
  have h1 : ∃ k n, msCheckAfter d cur c cur = { cur with check := k, checkNoInherit := n } ∧ SameCheck k c.check := by
    unfold msCheckAfter
    split
    · next h => exact ⟨cur.check, cur.checkNoInherit, rfl, (same_check_iff _ _).1 h.1⟩
    · cases hk : c.check with
      | none =>
        simp only
        split
        · exact ⟨_, _, rfl, rfl⟩
        · next h => exact ⟨cur.check, cur.checkNoInherit, rfl, by rw [show cur.check = none by simpa using h]; rfl⟩
      | some k => exact ⟨_, _, rfl, rfl⟩
  have h2 : ∀ e, e.defaultDef = cur.defaultDef → ∃ v, msDefaultAfter cur c e = { e with defaultDef := v } ∧ SameDefault v c.defaultDef := by
    intro e he
    unfold msDefaultAfter
    split
    · next h => exact ⟨e.defaultDef, rfl, by rw [he]; exact (same_default_iff _ _).1 h⟩
    · cases hd : c.defaultDef with
      | none => exact ⟨_, rfl, .refl _⟩
      | some v => exact ⟨_, rfl, by cases v; exact Spec.SameValue.refl _⟩
  obtain ⟨k, n, e1, hk⟩ := h1
  obtain ⟨v, e2, hv⟩ := h2 (msCheckAfter d cur c cur) (by rw [e1])
  exact ⟨k, n, v, by unfold msAfter; rw [e2, e1], hk, hv⟩

/-- An existing column whose key and NOT NULL are not changed by the column statements. -/
theorem kept_column {x d : Table} {c cur e : Column} (ht : Tidy x) (hr : Reported mode x) (hcur : x.col c.name = some cur)
    (hm1 : mode ≠ .mysql) (hm2 : mode ≠ .postgres) (hn : e.name = cur.name) (hk : e.keyOption = cur.keyOption) (hnn : e.notNull = cur.notNull)
    (hms : mode = .mssql → MssqlReached c e) : ColumnReached mode (some x) d c (rekeyed x d e) := by
  obtain ⟨hm, hname⟩ := findColumn_mem hcur
  have hnew : ¬ IsNew (some x) c.name := by rw [isNew_iff, hcur]; simp
  have hb : BeforeKey x c e := by
    refine ⟨hn.trans hname, fun h => ⟨cur, hcur, hk ▸ h⟩, ?_, ?_⟩
    · intro cur' h; rw [hcur] at h; cases h; exact hk
    · intro cur' h hp; rw [hcur] at h; cases h; rw [hnn]; exact hr.key cur hm hp
  have hno : ¬ (mode = .mysql ∨ mode = .postgres ∨ IsNew (some x) c.name) := by simp [hm1, hm2, hnew]
  refine ⟨fun h => absurd h hnew, fun hk => hb.rekeyed_notNull ht hk, fun h => absurd h hno, fun h => absurd h hno, fun h => absurd h hm1,
    fun h => absurd h hm2, fun h => ?_⟩
  obtain ⟨k', n', he', -, -⟩ := rekeyed_fields x d e
  rw [he']
  exact mssqlReached_keeps (hms h)

theorem ms_column {x d : Table} {c e : Column} (ht : Tidy x) (hr : Reported .mssql x) (hd : d.names.Nodup) (hc : c ∈ d.columns)
    (hid : ∀ c ∈ d.columns, ∀ cur, x.col c.name = some cur → areSameIdentityDefinition cur.identity c.identity = true)
    (h : OtherAfter (msAfter d) x c e) : ColumnReached .mssql (some x) d c (finished .mssql x d e) := by
  rw [finished_other (by decide)]
  rcases h with ⟨hcur, rfl⟩ | ⟨cur, hcur, rfl⟩
  · exact other_new ht hd hc hcur (by decide)
  · have hid' := (same_identity_iff _ _).1 (hid c hc cur hcur)
    obtain ⟨k, n, v, he, hk, hv⟩ := msAfter_fields d cur c
    exact kept_column ht hr hcur (by decide) (by decide) (by rw [he]) (by rw [he]) (by rw [he]) (fun _ => by rw [he]; exact ⟨hid', hv, hk⟩)

theorem sqlite_column {x d : Table} {c e : Column} (ht : Tidy x) (hr : Reported .sqlite3 x) (hd : d.names.Nodup) (hc : c ∈ d.columns)
    (h : OtherAfter (fun cur _ => cur) x c e) : ColumnReached .sqlite3 (some x) d c (finished .sqlite3 x d e) := by
  rw [finished_other (by decide)]
  rcases h with ⟨hcur, rfl⟩ | ⟨cur, hcur, rfl⟩
  · exact other_new ht hd hc hcur (by decide)
  · exact kept_column ht hr hcur (by decide) (by decide) rfl rfl rfl (fun h => nomatch h)

/-! ### All dialects -/

theorem newTable_column {t : Table} {c : Column} (hd : t.names.Nodup) (hc : c ∈ t.columns) :
    ∃ e ∈ (keyNotNull t).columns, e.name = c.name ∧ ColumnReached mode none t c e := by
  refine ⟨_, List.mem_map_of_mem hc, ?_, ?_⟩
  · split <;> rfl
  · have hno : ¬ LosesAndChanges mode none c := by rintro ⟨-, y, h, -⟩; cases h
    split
    · next hp =>
      exact ⟨fun _ => ⟨rfl, fun _ => rfl⟩, fun _ => rfl, fun _ _ _ => .inl rfl, fun _ _ _ => .inr (.inl hp),
        fun _ _ => mysqlReached_of (k := c.keyOption) (n := some true) rfl,
        fun _ => postgresReached_of (k := c.keyOption) (n := some true) (a := c.autoIncrement) rfl,
        fun _ => mssqlReached_of (k := c.keyOption) (n := some true) (a := c.autoIncrement) rfl⟩
    · next hp =>
      exact ⟨fun _ => ⟨rfl, fun _ => rfl⟩, fun hk => absurd (inPrimaryKey_of_keyColumns hd hc hk) hp, fun _ _ h => h, fun _ _ h => .inl (.inl h),
        fun _ _ => mysqlReached_of (k := c.keyOption) (n := c.notNull) rfl,
        fun _ => postgresReached_of (k := c.keyOption) (n := c.notNull) (a := c.autoIncrement) rfl,
        fun _ => mssqlReached_of (k := c.keyOption) (n := c.notNull) (a := c.autoIncrement) rfl⟩

theorem column_reached {desired current : List DDL} {t T : Table} (ht : t.names.Nodup) (hs : ∀ x ∈ tablesOf current, Tidy x)
    (hr : ∀ x ∈ tablesOf current, Reported mode x) (ha : TableAfter mode desired current t T) {c : Column} (hc : c ∈ t.columns) :
    ∃ e ∈ T.columns, e.name = c.name ∧ ColumnReached mode (tableIn current t.name) t c e := by
  cases ha with
  | new h hn =>
    rw [h, hn.columns]
    exact newTable_column ht hc
  | shared x l v hx hl hv hf hfin =>
    rw [hx]
    have hxm := tableIn_mem_tablesOf hx
    obtain ⟨e, hA, hcol⟩ := hfin.col c hc
    refine ⟨_, (findColumn_mem hcol).1, (findColumn_mem hcol).2, ?_⟩
    have htx := hs x hxm
    have hrx := hr x hxm
    cases mode with
    | mysql => exact mysql_column htx hrx ht hc hA
    | postgres => exact pg_column htx hrx ht hc hA
    | mssql => exact ms_column htx hrx ht hc (hf.mssqlIdentity rfl) hA
    | sqlite3 => exact sqlite_column htx hrx ht hc hA

end Sqldef
