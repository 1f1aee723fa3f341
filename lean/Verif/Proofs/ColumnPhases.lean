import Verif.Proofs.Phases
import Verif.Proofs.OtherColumns
/-! Execution of the statements about AUTO_INCREMENT and the primary key of a table. -/
namespace Sqldef
open Spec

/-- `t'` is `t` with the columns replaced one by one. -/
structure MapCols (t t' : Table) (f : Column → Column) : Prop extends OnlyColumns t t' where
  names : t'.names = t.names
  col : ∀ m, t'.col m = (t.col m).map f

theorem changes_run {mode : Mode} (hm : mode ≠ .sqlite3) {k : Str} {cs : List Column} {g : Column → Column}
    (hg : ∀ c, (g c).name = c.name) {t : Table} (hn : (cs.map (·.name)).Nodup) (hc : ∀ c ∈ cs, c.name ∈ t.names) :
    ∃ t', alters mode (cs.map fun c => Stmt.changeColumn k c.name (g c) .none) t = some t' ∧
      MapCols t t' (fun e => match look (·.name) cs e.name with
        | none => e
        | some c => stored (inPrimaryKey t e) e.keyOption (g c)) := by
  induction cs generalizing t with
  | nil => exact ⟨t, rfl, ⟨.refl t, rfl, fun m => by cases h : t.col m <;> simp [look]⟩⟩
  | cons c cs ih =>
    rw [List.map_cons, List.nodup_cons] at hn
    obtain ⟨cur, hcur⟩ := findColumn_some_of_mem (hc c (by simp))
    obtain ⟨t1, h1, h2⟩ := changeColumn_spec (mode := mode) (n := k) (c := g c) (cur := cur) (p := .none) (t := t)
      (by rw [hg]; exact hcur) hm (by simp)
    rw [hg] at h1
    have hnames : t1.names = t.names := by rw [h2.names, if_pos rfl]
    obtain ⟨t2, g1, g2⟩ := ih (t := t1) hn.2 (fun e he => by rw [hnames]; exact hc e (by simp [he]))
    refine ⟨t2, by simp only [List.map_cons, alters, h1, Option.bind_some, g1],
      ⟨h2.toOnlyColumns.trans g2.toOnlyColumns, g2.names.trans hnames, fun m => ?_⟩⟩
    rw [g2.col, h2.col]
    have hst : (stored (inPrimaryKey t cur) cur.keyOption (g c)).name = c.name := hg c
    rw [hst]
    by_cases hmc : m = c.name
    · subst hmc
      have hcurn : cur.name = c.name := (findColumn_mem hcur).2
      rw [if_pos rfl, show t.col c.name = some cur from hcur]
      have hnone : look (·.name) cs c.name = none := look_none.2 hn.1
      have hsome : look (·.name) (c :: cs) c.name = some c := by unfold look; rw [List.find?_cons_of_pos (by simp)]
      simp only [Option.map_some, hst, hnone, hcurn, hsome]
    · rw [if_neg hmc]
      cases he : t.col m with
      | none => rfl
      | some e =>
        have hen : e.name = m := (findColumn_mem he).2
        have heq : look (·.name) (c :: cs) m = look (·.name) cs m := by
          unfold look; rw [List.find?_cons_of_neg (by simp [Ne.symm hmc])]
        simp only [Option.map_some, hen, heq]
        have hpk : inPrimaryKey t1 e = inPrimaryKey t e := inPrimaryKey_set h2.toOnlyColumns rfl rfl
        rw [hpk]

/-! ### AUTO_INCREMENT -/

theorem concatMapM_if {α β : Type} {p : α → Bool} {f : α → Except Err (List β)} {g : α → β} {l : List α} {r : List β}
    (hf : ∀ a r, f a = .ok r → r = [g a]) (h : concatMapM (fun a => if p a then f a else .ok []) l = .ok r) :
    r = (l.filter p).map g := by
  induction l generalizing r with
  | nil => cases h; rfl
  | cons a l ih =>
    obtain ⟨x, y, hx, hy, rfl⟩ := concatMapM_cons_ok.1 h
    rw [ih hy]
    by_cases hp : p a = true
    · rw [if_pos hp] at hx
      rw [hf a x hx, List.filter_cons_of_pos hp]
      rfl
    · rw [if_neg hp] at hx
      cases hx
      rw [List.filter_cons_of_neg hp]
      rfl

theorem removeAutoIncrement_eq {x d : Table} {l : List Stmt} (h : removeAutoIncrement .mysql x d = .ok l) :
    l = (x.columns.filter (losesAutoIncrement d)).map fun c =>
      Stmt.changeColumn x.name c.name { c with autoIncrement := false } .none := by
  simp only [removeAutoIncrement, if_true] at h
  exact concatMapM_if (fun a r hr => (guardText_ok hr).1) h

theorem addAutoIncrement_eq {x d : Table} {l : List Stmt} (h : addAutoIncrement .mysql x d = .ok l) :
    l = (d.columns.filter (gainsAutoIncrement x)).map fun c => Stmt.changeColumn x.name c.name c .none := by
  simp only [addAutoIncrement, if_true] at h
  exact concatMapM_if (fun a r hr => (guardText_ok hr).1) h

/-- A column after the removal of AUTO_INCREMENT. -/
def removedAI (mode : Mode) (x d T : Table) (e : Column) : Column :=
  if mode = .mysql then
    match look (·.name) (x.columns.filter (losesAutoIncrement d)) e.name with
    | none => e
    | some c => stored (inPrimaryKey T e) e.keyOption { c with autoIncrement := false }
  else e

/-- A column after the addition of AUTO_INCREMENT. -/
def addedAI (mode : Mode) (x d T : Table) (e : Column) : Column :=
  if mode = .mysql then
    match look (·.name) (d.columns.filter (gainsAutoIncrement x)) e.name with
    | none => e
    | some c => stored (inPrimaryKey T e) e.keyOption c
  else e

theorem MapCols.id (t : Table) : MapCols t t (fun e => e) := ⟨.refl t, rfl, fun m => by simp⟩

theorem removeAI_run {mode : Mode} {x d T : Table} {l : List Stmt} (h : removeAutoIncrement mode x d = .ok l)
    (hn : x.names.Nodup) (hx : ∀ c ∈ x.columns, c.name ∈ T.names) :
    ∃ T', alters mode l T = some T' ∧ MapCols T T' (removedAI mode x d T) := by
  by_cases hm : mode = .mysql
  · subst hm
    rw [removeAutoIncrement_eq h]
    obtain ⟨t', h1, h2⟩ := changes_run (mode := .mysql) (by decide) (k := x.name) (cs := x.columns.filter (losesAutoIncrement d))
      (g := fun c => { c with autoIncrement := false }) (fun _ => rfl) (t := T) (nodup_drop hn)
      (fun c hc => hx c (List.mem_filter.1 hc).1)
    exact ⟨t', h1, h2⟩
  · simp only [removeAutoIncrement, if_neg hm] at h
    cases h
    exact ⟨T, rfl, by rw [show removedAI mode x d T = fun e => e from funext fun e => by simp only [removedAI, if_neg hm]]; exact MapCols.id T⟩

theorem addAI_run {mode : Mode} {x d T : Table} {l : List Stmt} (h : addAutoIncrement mode x d = .ok l)
    (hn : d.names.Nodup) (hx : ∀ c ∈ d.columns, c.name ∈ T.names) :
    ∃ T', alters mode l T = some T' ∧ MapCols T T' (addedAI mode x d T) := by
  by_cases hm : mode = .mysql
  · subst hm
    rw [addAutoIncrement_eq h]
    obtain ⟨t', h1, h2⟩ := changes_run (mode := .mysql) (by decide) (k := x.name) (cs := d.columns.filter (gainsAutoIncrement x))
      (g := fun c => c) (fun _ => rfl) (t := T) (nodup_drop hn)
      (fun c hc => hx c (List.mem_filter.1 hc).1)
    exact ⟨t', h1, h2⟩
  · simp only [addAutoIncrement, if_neg hm] at h
    cases h
    exact ⟨T, rfl, by rw [show addedAI mode x d T = fun e => e from funext fun e => by simp only [addedAI, if_neg hm]]; exact MapCols.id T⟩

/-! ### Primary key -/

theorem primaryKey_isSome (t : Table) : t.primaryKey.isSome ↔ t.prim ≠ [] ∨ ∃ c ∈ t.columns, c.keyOption = .primary := by
  unfold Table.primaryKey Table.prim
  cases h : t.indexes.find? (·.primary) with
  | some i =>
    simp only [Option.isSome_some, true_iff]
    left
    have h1 := List.mem_of_find?_eq_some h
    have h2 := List.find?_some h
    exact List.ne_nil_of_mem (List.mem_filter.2 ⟨h1, h2⟩)
  | none =>
    have hnil : t.indexes.filter (fun i => i.primary) = [] := by
      rw [List.filter_eq_nil_iff]
      exact fun i hi => List.find?_eq_none.1 h i hi
    simp only [hnil, ne_eq, not_true_eq_false, false_or]
    constructor
    · intro hs
      split at hs
      · cases hs
      · next hne =>
        obtain ⟨k, hk⟩ : ∃ k, k ∈ t.columns.filter (fun c : Column => decide (c.keyOption = .primary)) := by
          cases hl : t.columns.filter (fun c : Column => decide (c.keyOption = .primary)) with
          | nil => rw [hl] at hne; simp at hne
          | cons k _ => exact ⟨k, by simp⟩
        exact ⟨k, (List.mem_filter.1 hk).1, by simpa using (List.mem_filter.1 hk).2⟩
    · rintro ⟨c, hc, hk⟩
      have : c ∈ t.columns.filter (fun c : Column => decide (c.keyOption = .primary)) := List.mem_filter.2 ⟨hc, by simpa using hk⟩
      rw [if_neg]
      · rfl
      · cases hl : t.columns.filter (fun c : Column => decide (c.keyOption = .primary)) with
        | nil => rw [hl] at this; cases this
        | cons k l => simp

theorem primaryKey_primary {t : Table} {pk : Index} (h : t.primaryKey = some pk) : pk.primary = true := by
  unfold Table.primaryKey at h
  split at h
  · next i hi =>
    cases h
    simpa using List.find?_some hi
  · simp only at h
    split at h
    · cases h
    · cases h; rfl

/-- Whether the primary key changes. -/
def keyChanges (x d : Table) : Bool := !areSamePrimaryKeys x.primaryKey d.primaryKey

/-- A column after the old primary key has been dropped. -/
def keyDropped (e : Column) : Column := if e.keyOption = .primary then { e with keyOption := .none } else e

/-- A column after the primary key `pk` has been added. -/
def keyAdded (pk : Index) (e : Column) : Column :=
  if e.keyOption = .primary ∨ e.name ∈ pk.columns.map (·.column) then { e with notNull := some true } else e

/-- A column after the statements about the primary key. -/
def rekeyed (x d : Table) (e : Column) : Column :=
  if keyChanges x d then
    let e := if x.primaryKey.isSome then keyDropped e else e
    match d.primaryKey with
    | none => e
    | some pk => keyAdded pk e
  else e

/-- The primary keys after the statements. -/
def primAfter (x d : Table) : List Index :=
  if keyChanges x d then
    match d.primaryKey with
    | none => []
    | some pk => [pk]
  else x.prim

/-- `t'` is `t` with another primary key. -/
structure Rekeyed (x d t t' : Table) : Prop where
  name : t'.name = t.name
  foreignKeys : t'.foreignKeys = t.foreignKeys
  policies : t'.policies = t.policies
  sec : t'.sec = t.sec
  prim : t'.prim = primAfter x d
  names : t'.names = t.names
  col : ∀ m, t'.col m = (t.col m).map (rekeyed x d)

theorem find_map {α : Type} {p : α → Bool} {f : α → α} (hf : ∀ a, p (f a) = p a) (l : List α) :
    (l.map f).find? p = (l.find? p).map f := by
  induction l with
  | nil => rfl
  | cons a l ih =>
    rw [List.map_cons]
    by_cases hp : p a = true
    · rw [List.find?_cons_of_pos (by rw [hf]; exact hp), List.find?_cons_of_pos hp]; rfl
    · rw [List.find?_cons_of_neg (by rw [hf]; exact hp), List.find?_cons_of_neg hp, ih]

theorem pk_run {mode : Mode} {x d T : Table} {l : List Stmt} (h : primaryKeyDDLs mode x d = .ok l)
    (hsome : T.primaryKey.isSome = x.primaryKey.isSome) (hprim : T.prim = x.prim)
    (hm : mode = .sqlite3 → keyChanges x d = false)
    (hms : mode = .mssql → keyChanges x d = false ∨ x.primaryKey = none) :
    ∃ T', alters mode l T = some T' ∧ Rekeyed x d T T' := by
  unfold primaryKeyDDLs at h
  by_cases hk : keyChanges x d = true
  · have hmode : mode ≠ .sqlite3 := fun e => by simp [hm e] at hk
    rw [if_pos (by simpa [keyChanges] using hk)] at h
    obtain ⟨dr, hdr, h⟩ := bind_ok.1 h
    obtain ⟨ad, had, h⟩ := bind_ok.1 h
    cases h
    -- drop
    have step1 : ∃ T1, alters mode dr T = some T1 ∧ T1.name = T.name ∧ T1.foreignKeys = T.foreignKeys ∧ T1.policies = T.policies ∧
        T1.sec = T.sec ∧ T1.prim = [] ∧ T1.names = T.names ∧
        T1.columns = T.columns.map (fun e => if x.primaryKey.isSome then keyDropped e else e) ∧ T1.primaryKey = none := by
      unfold dropPrimaryKeyDDLs at hdr
      cases hx : x.primaryKey with
      | none =>
        rw [hx] at hdr hsome
        cases hdr
        have hnone : T.primaryKey = none := by
          cases h : T.primaryKey with
          | none => rfl
          | some i => rw [h] at hsome; cases hsome
        have hp : T.prim = [] := by
          by_contra hne
          have := (primaryKey_isSome T).2 (.inl hne)
          rw [hnone] at this
          cases this
        exact ⟨T, rfl, rfl, rfl, rfl, rfl, hp, rfl, by simp, hnone⟩
      | some pk =>
        rw [hx] at hdr
        have hmy : mode = .mysql ∨ mode = .postgres := by
          cases mode with
          | mysql => exact .inl rfl
          | postgres => exact .inr rfl
          | sqlite3 => exact absurd rfl hmode
          | mssql => rcases hms rfl with h | h <;> simp_all
        have hone : ∃ k, dr = [Stmt.dropPrimaryKey d.name k] := by
          rcases hmy with rfl | rfl
          · cases hdr; exact ⟨_, rfl⟩
          · simp only at hdr
            split at hdr
            · cases hdr
            · cases hdr; exact ⟨_, rfl⟩
        obtain ⟨k, rfl⟩ := hone
        have hTs : T.primaryKey.isSome = true := by rw [hsome, hx]; rfl
        refine ⟨{ T with
            columns := T.columns.map fun c => if c.keyOption = .primary then { c with keyOption := .none } else c
            indexes := T.indexes.filter fun i => !i.primary }, ?_, rfl, rfl, rfl, ?_, ?_, ?_, ?_, ?_⟩
        · simp only [alters]
          rw [alter_eq T (fun h => absurd h hmode)]
          simp only [change, if_pos hTs, Option.bind_some]
        · simp [Table.sec, List.filter_filter]
        · simp [Table.prim, List.filter_filter]
        · simp only [Table.names, List.map_map]
          refine List.map_congr_left fun c _ => ?_
          simp only [Function.comp_apply]
          split <;> rfl
        · simp [keyDropped]
        · have := primaryKey_isSome ({ T with
            columns := T.columns.map fun c => if c.keyOption = .primary then { c with keyOption := .none } else c
            indexes := T.indexes.filter fun i => !i.primary } : Table)
          cases hq : ({ T with
            columns := T.columns.map fun c => if c.keyOption = .primary then { c with keyOption := .none } else c
            indexes := T.indexes.filter fun i => !i.primary } : Table).primaryKey with
          | none => rfl
          | some i =>
            rw [hq] at this
            rcases this.1 rfl with h | ⟨c, hc, hck⟩
            · simp [Table.prim, List.filter_filter] at h
            · obtain ⟨e, -, rfl⟩ := List.mem_map.1 hc
              split at hck
              · cases hck
              · next hne => exact absurd hck hne
    obtain ⟨T1, h1, n1, f1, p1, s1, pr1, nm1, c1, k1⟩ := step1
    have col1 : ∀ m, T1.col m = (T.col m).map (fun e => if x.primaryKey.isSome then keyDropped e else e) := by
      intro m
      simp only [Table.col, findColumnByName, c1]
      refine find_map (fun e => ?_) _
      by_cases hs : x.primaryKey.isSome = true
      · simp only [hs, if_true, keyDropped]; split <;> rfl
      · simp only [hs, if_false, Bool.false_eq_true]
    unfold addPrimaryKeyDDLs at had
    cases hd : d.primaryKey with
    | none =>
      rw [hd] at had
      cases had
      refine ⟨T1, by simpa using h1, ⟨n1, f1, p1, s1, ?_, nm1, ?_⟩⟩
      · rw [pr1]; simp [primAfter, hk, hd]
      · intro m
        rw [col1]
        congr 1
        funext e
        simp [rekeyed, hk, hd]
    | some pk =>
      rw [hd] at had
      obtain ⟨rfl, -⟩ := guardText_ok had
      have hpp : pk.primary = true := primaryKey_primary hd
      have hnone : T1.primaryKey.isSome = false := by rw [k1]; rfl
      have hin : ∀ e : Column, inPrimaryKey { T1 with indexes := T1.indexes ++ [pk] } e =
          decide (e.keyOption = .primary ∨ e.name ∈ pk.columns.map (·.column)) := by
        intro e
        have hno : (T1.indexes.any fun i => i.primary && i.columns.any fun k => decide (k.column = e.name)) = false := by
          rw [List.any_eq_false]
          intro i hi hc
          simp only [Bool.and_eq_true] at hc
          have : i ∈ T1.prim := List.mem_filter.2 ⟨hi, hc.1⟩
          rw [pr1] at this
          cases this
        simp only [inPrimaryKey, List.any_append, hno, List.any_cons, List.any_nil, hpp, Bool.true_and, Bool.or_false, Bool.false_or]
        rw [Bool.eq_iff_iff]
        simp
      have hmapn : ∀ (e : Column), (if inPrimaryKey { T1 with indexes := T1.indexes ++ [pk] } e then { e with notNull := some true } else e) =
          keyAdded pk e := by
        intro e
        rw [hin]
        simp [keyAdded]
      refine ⟨keyNotNull { T1 with indexes := T1.indexes ++ [pk] }, ?_, ⟨n1, f1, p1, ?_, ?_, ?_, ?_⟩⟩
      · rw [alters_append, h1, Option.bind_some]
        simp only [alters]
        rw [alter_eq T1 (fun h => absurd h hmode)]
        simp only [change, hpp, if_true, hnone, Bool.false_eq_true, if_false, Option.bind_some]
      · simp only [keyNotNull, Table.sec, List.filter_append] at s1 ⊢
        rw [s1]
        simp [hpp]
      · simp only [keyNotNull, Table.prim, List.filter_append] at pr1 ⊢
        rw [pr1]
        simp [hpp, primAfter, hk, hd]
      · rw [← nm1]
        simp only [keyNotNull, Table.names, List.map_map]
        refine List.map_congr_left fun c _ => ?_
        simp only [Function.comp_apply]
        split <;> rfl
      · intro m
        have : (keyNotNull { T1 with indexes := T1.indexes ++ [pk] }).col m = (T1.col m).map (keyAdded pk) := by
          simp only [keyNotNull, Table.col, findColumnByName, hmapn]
          refine find_map (fun e => ?_) _
          unfold keyAdded
          split <;> rfl
        rw [this, col1, Option.map_map]
        congr 1
        funext e
        simp [rekeyed, hk, hd]
  · rw [if_neg (by simpa [keyChanges] using hk)] at h
    cases h
    have hid : (rekeyed x d) = fun e => e := by funext e; simp [rekeyed, hk]
    refine ⟨T, rfl, ⟨rfl, rfl, rfl, rfl, ?_, rfl, fun m => by rw [hid]; simp⟩⟩
    rw [hprim]; simp [primAfter, hk]

end Sqldef
