import Verif.Proofs.Lookup
import Verif.Proofs.Shapes
import Verif.Proofs.Script
/-! Execution of the column statements of a table. -/
namespace Sqldef
open Spec

theorem inPrimaryKey_append {t t' : Table} {u : List Index} (h : t'.indexes = t.indexes ++ u) (hu : ∀ i ∈ u, i.primary = false)
    (c : Column) : inPrimaryKey t' c = inPrimaryKey t c := by
  unfold inPrimaryKey
  rw [h, List.any_append]
  have : (u.any fun i => i.primary && i.columns.any fun k => decide (k.column = c.name)) = false := by
    rw [List.any_eq_false]
    intro i hi
    simp [hu i hi]
  rw [this, Bool.or_false]

/-- The index that `ADD UNIQUE KEY n(n)` creates. -/
def uniqueIndex (n : Str) : Index := { name := n, columns := [{ column := n }], unique := true }

/-- The unique keys added for the columns. -/
def newUniques (uq : Column → Bool) (cs : List Column) : List Index := (cs.filter uq).map fun c => uniqueIndex c.name

theorem newUniques_primary {uq : Column → Bool} {cs : List Column} : ∀ i ∈ newUniques uq cs, i.primary = false := by
  intro i hi
  obtain ⟨c, -, rfl⟩ := List.mem_map.1 hi
  rfl

theorem newUniques_name {uq : Column → Bool} {cs : List Column} {i : Index} (hi : i ∈ newUniques uq cs) :
    ∃ c ∈ cs, uq c = true ∧ i = uniqueIndex c.name := by
  obtain ⟨c, hc, rfl⟩ := List.mem_map.1 hi
  exact ⟨c, (List.mem_filter.1 hc).1, (List.mem_filter.1 hc).2, rfl⟩

/-- State after the statements for the columns `P`; `A c e` says that the statements for the desired column `c`
make the column `e`. -/
structure ColInv (A : Column → Column → Prop) (uq : Column → Bool) (x T : Table) (P : List Column) : Prop where
  name : T.name = x.name
  foreignKeys : T.foreignKeys = x.foreignKeys
  policies : T.policies = x.policies
  indexes : T.indexes = x.indexes ++ newUniques uq P
  mem : ∀ m, m ∈ T.names ↔ m ∈ x.names ∨ m ∈ P.map (·.name)
  other : ∀ m, m ∉ P.map (·.name) → T.col m = x.col m
  done : ∀ c ∈ P, ∃ e, T.col c.name = some e ∧ A c e
  nodup : T.names.Nodup

theorem ColInv.start (A : Column → Column → Prop) (uq : Column → Bool) {x : Table} (hx : x.names.Nodup) : ColInv A uq x x [] :=
  ⟨rfl, rfl, rfl, by simp [newUniques], by simp, fun _ _ => rfl, by simp, hx⟩

/-- What the statements for a new column leave. -/
def storedNew (c : Column) : Column :=
  stored false (if c.keyOption = .primary then .none else c.keyOption) { c with autoIncrement := false }

theorem columnDDLs_new {mode : Mode} {x d : Table} {prev : Option Str} {c : Column} (hc : x.col c.name = none) {l : List Stmt}
    (h : columnDDLs mode x d prev c = .ok l) :
    l = [.addColumn d.name { c with autoIncrement := false } (if mode = .mysql then placeAfter prev else .none)] := by
  unfold columnDDLs at h
  rw [show findColumnByName x.columns c.name = none from hc] at h
  exact (guardText_ok h).1

theorem placeAfter_after {prev : Option Str} {q : Str} (h : placeAfter prev = .after q) : prev = some q := by
  cases prev with
  | none => cases h
  | some p => cases h; rfl

/-- A new column. -/
theorem ColInv.addNew {mode : Mode} {A : Column → Column → Prop} {uq : Column → Bool} {x d T : Table} {P : List Column}
    {prev : Option Str} {c : Column} {u : List Stmt} (hi : ColInv A uq x T P) (hcP : c.name ∉ P.map (·.name))
    (hp : ∀ p, prev = some p → p ∈ P.map (·.name)) (hu : columnDDLs mode x d prev c = .ok u) (hx : x.col c.name = none)
    (hq : uq c = false) (hA : A c (storedNew c)) :
    ∃ T1, alters mode u T = some T1 ∧ ColInv A uq x T1 (P ++ [c]) ∧
      T1.names = namePlace (if mode = .mysql then placeAfter prev else .none) c.name T.names := by
  have hpT : ∀ q, (if mode = .mysql then placeAfter prev else .none) = .after q → q ∈ T.names := by
    intro q hq
    split at hq
    · exact (hi.mem q).2 (.inr (hp q (placeAfter_after hq)))
    · cases hq
  rw [columnDDLs_new hx hu]
  have hcT : c.name ∉ T.names := by
    rw [hi.mem]
    rintro (h | h)
    · exact findColumn_none.1 hx h
    · exact hcP h
  obtain ⟨T1, h1, h2⟩ := addColumn_spec (mode := mode) (n := d.name) (c := { c with autoIncrement := false })
    (p := if mode = .mysql then placeAfter prev else .none) (t := T) hcT hpT
  refine ⟨T1, ?_, ?_, ?_⟩
  · simp only [alters, h1, Option.bind_some]
  · refine ⟨h2.name.trans hi.name, h2.foreignKeys.trans hi.foreignKeys, h2.policies.trans hi.policies, ?_, ?_, ?_, ?_,
      by rw [h2.names]; exact nodup_namePlace hi.nodup hcT⟩
    · rw [h2.indexes, hi.indexes]
      simp [newUniques, hq]
    · intro m
      rw [h2.names, mem_namePlace hpT, hi.mem]
      simp only [stored, List.map_append, List.mem_append, List.map_cons, List.map_nil, List.mem_singleton]
      tauto
    · intro m hm
      simp only [List.map_append, List.mem_append, List.map_cons, List.map_nil, List.mem_singleton, not_or] at hm
      rw [h2.col m, if_neg (by simpa [stored] using hm.2)]
      exact hi.other m hm.1
    · intro e he
      rcases List.mem_append.1 he with he | he
      · obtain ⟨e', h3, h4⟩ := hi.done e he
        refine ⟨e', ?_, h4⟩
        rw [h2.col, if_neg (by
          simp only [stored]
          exact fun heq => hcP (heq ▸ List.mem_map_of_mem (f := (·.name)) he))]
        exact h3
      · rw [List.mem_singleton.1 he]
        exact ⟨storedNew c, by rw [h2.col, if_pos (by simp [stored])]; rfl, hA⟩
  · rw [h2.names]; rfl

theorem addUniqueKey_spec {mode : Mode} {k n : Str} {t : Table} (hm : mode ≠ .sqlite3) (h1 : n ∈ t.names) (h2 : n ∉ secondaryNames t) :
    alter mode (.addUniqueKey k n) t = some { t with indexes := t.indexes ++ [uniqueIndex n] } := by
  rw [alter_eq t (fun h => absurd h hm)]
  simp only [change, if_pos (And.intro h1 h2), uniqueIndex]

theorem secondaryNames_append (t : Table) (u : List Index) (hu : ∀ i ∈ u, i.primary = false) :
    secondaryNames { t with indexes := t.indexes ++ u } = secondaryNames t ++ u.map (·.name) := by
  unfold secondaryNames
  rw [List.filter_append, List.map_append]
  congr 2
  rw [List.filter_eq_self]
  intro i hi
  simp [hu i hi]

theorem secondaryNames_sub {t : Table} {n : Str} (h : n ∈ secondaryNames t) : n ∈ t.indexes.map (·.name) := by
  obtain ⟨i, hi, rfl⟩ := List.mem_map.1 h
  exact List.mem_map.2 ⟨i, (List.mem_filter.1 hi).1, rfl⟩

theorem findIndex_none {l : List Index} {n : Str} : findIndexByName l n = none ↔ n ∉ l.map (·.name) := by
  unfold findIndexByName
  rw [List.find?_eq_none]
  simp only [decide_eq_true_eq, List.mem_map, not_exists, not_and]

theorem findIndex_mem {l : List Index} {n : Str} {c : Index} (h : findIndexByName l n = some c) : c ∈ l ∧ c.name = n := by
  refine ⟨List.mem_of_find?_eq_some h, ?_⟩
  have := List.find?_some h
  simpa using this

/-- An existing column: its definition and place change, and a unique key may be added. -/
theorem ColInv.change {mode : Mode} {A : Column → Column → Prop} {uq : Column → Bool} {x T T1 : Table} {P : List Column}
    {c cur e : Column} {ch : List Stmt} {n : Str} (hm : mode ≠ .sqlite3 ∨ uq c = false)
    (hi : ColInv A uq x T P) (hcP : c.name ∉ P.map (·.name)) (hx : x.col c.name = some cur)
    (h1 : alters mode ch T = some T1) (honly : OnlyColumns T T1) (hmemT1 : ∀ m, m ∈ T1.names ↔ m ∈ T.names) (hnd : T1.names.Nodup)
    (hother : ∀ m, m ≠ c.name → T1.col m = T.col m) (he : T1.col c.name = some e) (hafter : A c e)
    (huq : uq c = true → findIndexByName x.indexes c.name = none) :
    ∃ T2, alters mode (ch ++ if uq c then [Stmt.addUniqueKey n c.name] else []) T = some T2 ∧
      ColInv A uq x T2 (P ++ [c]) ∧ T2.names = T1.names := by
  have hU : ∃ T2, alters mode (if uq c then [Stmt.addUniqueKey n c.name] else []) T1 = some T2 ∧
      T2.columns = T1.columns ∧ T2.name = T1.name ∧ T2.foreignKeys = T1.foreignKeys ∧ T2.policies = T1.policies ∧
      T2.indexes = x.indexes ++ newUniques uq (P ++ [c]) := by
    have hidx : T1.indexes = x.indexes ++ newUniques uq P := honly.indexes.trans hi.indexes
    by_cases hn : uq c = true
    · rw [if_pos hn]
      have hm' : mode ≠ .sqlite3 := hm.resolve_right (by simp [hn])
      have hsec : c.name ∉ secondaryNames T1 := by
        intro hm
        have := secondaryNames_sub hm
        rw [hidx, List.map_append, List.mem_append] at this
        rcases this with h | h
        · exact findIndex_none.1 (huq hn) h
        · obtain ⟨i, hi', hin⟩ := List.mem_map.1 h
          obtain ⟨c', hc', -, rfl⟩ := newUniques_name hi'
          exact hcP (hin ▸ List.mem_map_of_mem (f := (·.name)) hc')
      refine ⟨{ T1 with indexes := T1.indexes ++ [uniqueIndex c.name] }, ?_, rfl, rfl, rfl, rfl, ?_⟩
      · simp only [alters, addUniqueKey_spec (mode := mode) (k := n) hm' (mem_of_col he) hsec, Option.bind_some]
      · simp only [hidx, newUniques, List.filter_append, List.map_append, List.append_assoc, List.append_cancel_left_eq]
        rw [List.filter_cons_of_pos (by simpa using hn)]
        rfl
    · rw [if_neg hn]
      refine ⟨T1, rfl, rfl, rfl, rfl, rfl, ?_⟩
      rw [hidx]
      simp only [newUniques, List.filter_append]
      rw [List.filter_cons_of_neg (by simpa using hn)]
      simp
  obtain ⟨T2, h2, hcols, hn2, hf2, hp2, hidx2⟩ := hU
  have hcol2 : ∀ m, T2.col m = T1.col m := fun m => by simp only [Table.col, hcols]
  have hnm2 : T2.names = T1.names := by simp only [Table.names, hcols]
  refine ⟨T2, ?_, ⟨hn2.trans (honly.name.trans hi.name), hf2.trans (honly.foreignKeys.trans hi.foreignKeys),
    hp2.trans (honly.policies.trans hi.policies), hidx2, ?_, ?_, ?_, hnm2 ▸ hnd⟩, hnm2⟩
  · rw [alters_append, h1, Option.bind_some, h2]
  · intro m
    rw [hnm2, hmemT1, hi.mem]
    simp only [List.map_append, List.mem_append, List.map_cons, List.map_nil, List.mem_singleton]
    constructor
    · tauto
    · rintro (h | h | rfl)
      · exact .inl h
      · exact .inr h
      · exact .inl (mem_of_col hx)
  · intro m hm
    simp only [List.map_append, List.mem_append, List.map_cons, List.map_nil, List.mem_singleton, not_or] at hm
    rw [hcol2, hother m hm.2]
    exact hi.other m hm.1
  · intro f hf
    rcases List.mem_append.1 hf with hf | hf
    · obtain ⟨e', h3, h4⟩ := hi.done f hf
      refine ⟨e', ?_, h4⟩
      rw [hcol2, hother f.name fun heq => hcP (heq ▸ List.mem_map_of_mem (f := (·.name)) hf)]
      exact h3
    · rw [List.mem_singleton.1 hf]
      exact ⟨e, by rw [hcol2]; exact he, hafter⟩

/-- The names of the columns after the statements for the desired columns, given what one column does. -/
def foldNames (ord : Option Str → Column → List Str → List Str) : Option Str → List Column → List Str → List Str
  | _, [], l => l
  | prev, c :: cs, l => foldNames ord (some c.name) cs (ord prev c l)

/-- The statements for one column can be executed. -/
def StepOk (mode : Mode) (x d : Table) (A : Column → Column → Prop) (uq : Column → Bool)
    (ord : Option Str → Column → List Str → List Str) : Prop :=
  ∀ (P : List Column) (T : Table) (prev : Option Str) (c : Column) (u : List Stmt), ColInv A uq x T P →
    c.name ∉ P.map (·.name) → (∀ p, prev = some p → p ∈ P.map (·.name)) → c ∈ d.columns →
    columnDDLs mode x d prev c = .ok u →
    ∃ T1, alters mode u T = some T1 ∧ ColInv A uq x T1 (P ++ [c]) ∧ T1.names = ord prev c T.names

theorem columns_run {mode : Mode} {x d : Table} {A : Column → Column → Prop} {uq : Column → Bool}
    {ord : Option Str → Column → List Str → List Str} (hs : StepOk mode x d A uq ord)
    {P Q : List Column} {prev : Option Str} {T : Table} {l : List Stmt}
    (hd : ((P ++ Q).map (·.name)).Nodup) (hQ : ∀ c ∈ Q, c ∈ d.columns)
    (hp : ∀ p, prev = some p → p ∈ P.map (·.name)) (hi : ColInv A uq x T P)
    (h : concatMapM (fun pc : Option Str × Column => columnDDLs mode x d pc.1 pc.2) (withPrev prev Q) = .ok l) :
    ∃ T', alters mode l T = some T' ∧ ColInv A uq x T' (P ++ Q) ∧ T'.names = foldNames ord prev Q T.names := by
  induction Q generalizing P prev T l with
  | nil =>
    cases h
    exact ⟨T, rfl, by simpa using hi, rfl⟩
  | cons c Q ih =>
    simp only [withPrev] at h
    obtain ⟨u, v, hu, hv, rfl⟩ := concatMapM_cons_ok.1 h
    have hcP : c.name ∉ P.map (·.name) := by
      rw [List.map_append, List.map_cons, List.nodup_append] at hd
      exact fun hm => hd.2.2 c.name hm c.name (by simp) rfl
    obtain ⟨T1, h1, hi1, hn1⟩ := hs P T prev c u hi hcP hp (hQ c (by simp)) hu
    obtain ⟨T', h2, hi2, hn2⟩ := ih (P := P ++ [c]) (prev := some c.name) (T := T1) (l := v) (by simpa using hd)
      (fun e he => hQ e (by simp [he])) (by rintro p hp'; cases hp'; simp) hi1 hv
    refine ⟨T', ?_, by simpa using hi2, ?_⟩
    · rw [alters_append, h1, Option.bind_some, h2]
    · rw [hn2, hn1]; rfl

end Sqldef
