import Verif.Proofs.Exec
import Verif.Proofs.Stateless
/-! What single statements do to the columns, indexes, foreign keys and policies of a table. -/
namespace Sqldef
open Spec

/-- The column of that name. -/
abbrev Table.col (t : Table) (n : Str) : Option Column := findColumnByName t.columns n

/-- The names of the columns. -/
abbrev Table.names (t : Table) : List Str := t.columns.map (·.name)

theorem findColumn_mem {l : List Column} {n : Str} {c : Column} (h : findColumnByName l n = some c) : c ∈ l ∧ c.name = n := by
  refine ⟨List.mem_of_find?_eq_some h, ?_⟩
  have := List.find?_some h
  simpa using this

theorem findColumn_none {l : List Column} {n : Str} : findColumnByName l n = none ↔ n ∉ l.map (·.name) := by
  unfold findColumnByName
  rw [List.find?_eq_none]
  simp only [decide_eq_true_eq, List.mem_map, not_exists, not_and]

theorem findColumn_isSome {l : List Column} {n : Str} : (findColumnByName l n).isSome ↔ n ∈ l.map (·.name) := by
  rw [← not_iff_not, ← findColumn_none]
  simp

theorem findColumn_some_of_mem {l : List Column} {n : Str} (h : n ∈ l.map (·.name)) : ∃ c, findColumnByName l n = some c :=
  Option.isSome_iff_exists.1 (findColumn_isSome.2 h)

theorem mem_of_col {t : Table} {n : Str} {c : Column} (h : t.col n = some c) : n ∈ t.names :=
  findColumn_isSome.1 (by rw [show findColumnByName t.columns n = some c from h]; rfl)

theorem findColumn_append (l m : List Column) (n : Str) :
    findColumnByName (l ++ m) n = (findColumnByName l n).or (findColumnByName m n) := by
  simp [findColumnByName, List.find?_append]

/-- Replacing the column called `n`. -/
theorem findColumn_replace {l : List Column} {n : Str} {c : Column} (hc : c.name = n) (hn : n ∈ l.map (·.name)) (m : Str) :
    findColumnByName (l.map fun d => if d.name = n then c else d) m = if m = n then some c else findColumnByName l m := by
  induction l with
  | nil => cases hn
  | cons d l ih =>
    simp only [findColumnByName, List.map_cons] at ih ⊢
    by_cases hd : d.name = n
    · by_cases hm : m = n
      · subst hm; simp [hd, hc]
      · simp only [if_pos hd, if_neg hm]
        rw [List.find?_cons_of_neg (by simp [hc, Ne.symm hm]), List.find?_cons_of_neg (by simp [hd, Ne.symm hm])]
        by_cases hl : n ∈ l.map (·.name)
        · rw [ih hl, if_neg hm]
        · congr 1
          have : ∀ e ∈ l, ¬ e.name = n := fun e he h => hl (List.mem_map.2 ⟨e, he, h⟩)
          conv_rhs => rw [← List.map_id l]
          refine List.map_congr_left fun e he => ?_
          simp [this e he]
    · simp only [if_neg hd]
      have hl : n ∈ l.map (·.name) := by
        rcases List.mem_cons.1 hn with h | h
        · exact absurd h.symm hd
        · exact h
      by_cases hm : d.name = m
      · rw [List.find?_cons_of_pos (by simpa using hm), List.find?_cons_of_pos (by simpa using hm), if_neg (by rw [← hm]; exact hd)]
      · rw [List.find?_cons_of_neg (by simpa using hm), List.find?_cons_of_neg (by simpa using hm)]
        exact ih hl

theorem names_replace (l : List Column) {n : Str} {c : Column} (hc : c.name = n) :
    (l.map fun d => if d.name = n then c else d).map (·.name) = l.map (·.name) := by
  rw [List.map_map]
  refine List.map_congr_left fun d _ => ?_
  simp only [Function.comp_apply]
  split
  · next h => rw [hc, h]
  · rfl

theorem findColumn_filter (l : List Column) (n m : Str) :
    findColumnByName (l.filter (·.name ≠ n)) m = if m = n then none else findColumnByName l m := by
  induction l with
  | nil => simp [findColumnByName]
  | cons d l ih =>
    simp only [findColumnByName] at ih ⊢
    by_cases hd : d.name = n
    · rw [List.filter_cons_of_neg (by simpa using hd), ih]
      by_cases hm : m = n
      · simp [hm]
      · rw [if_neg hm, if_neg hm, List.find?_cons_of_neg (by simp [hd, Ne.symm hm])]
    · rw [List.filter_cons_of_pos (by simpa using hd)]
      by_cases hm : d.name = m
      · rw [List.find?_cons_of_pos (by simpa using hm), List.find?_cons_of_pos (by simpa using hm), if_neg (by rw [← hm]; exact hd)]
      · rw [List.find?_cons_of_neg (by simpa using hm), List.find?_cons_of_neg (by simpa using hm), ih]

theorem names_filter (l : List Column) (n : Str) :
    (l.filter (·.name ≠ n)).map (·.name) = (l.map (·.name)).filter (· ≠ n) := by
  induction l with
  | nil => rfl
  | cons d l ih =>
    by_cases hd : d.name = n
    · rw [List.filter_cons_of_neg (by simpa using hd), List.map_cons, List.filter_cons_of_neg (by simpa using hd), ih]
    · rw [List.filter_cons_of_pos (by simpa using hd), List.map_cons, List.map_cons, List.filter_cons_of_pos (by simpa using hd), ih]

/-! ### Placement -/

/-- Placement of a name. -/
def nameAfter (p n : Str) : List Str → List Str
  | [] => []
  | d :: ds => if d = p then d :: n :: ds else d :: nameAfter p n ds

/-- Placement of a name. -/
def namePlace (p : Place) (n : Str) (l : List Str) : List Str :=
  match p with
  | .none => l ++ [n]
  | .first => n :: l
  | .after q => nameAfter q n l

theorem names_insertAfter (p : Str) (c : Column) (l : List Column) :
    (insertAfter p c l).map (·.name) = nameAfter p c.name (l.map (·.name)) := by
  induction l with
  | nil => rfl
  | cons d l ih => simp only [insertAfter, List.map_cons, nameAfter]; split <;> simp [*]

theorem findColumn_insertAfter {p : Str} {c : Column} {l : List Column} (hp : p ∈ l.map (·.name)) (hc : c.name ∉ l.map (·.name)) (m : Str) :
    findColumnByName (insertAfter p c l) m = if m = c.name then some c else findColumnByName l m := by
  induction l with
  | nil => cases hp
  | cons d l ih =>
    simp only [List.map_cons, List.mem_cons, not_or] at hp hc
    simp only [insertAfter]
    simp only [findColumnByName] at ih ⊢
    by_cases hd : d.name = p
    · rw [if_pos hd]
      by_cases hm : m = c.name
      · subst hm
        rw [List.find?_cons_of_neg (by simp [Ne.symm hc.1]), List.find?_cons_of_pos (by simp), if_pos rfl]
      · rw [if_neg hm]
        by_cases hm2 : d.name = m
        · rw [List.find?_cons_of_pos (by simpa using hm2), List.find?_cons_of_pos (by simpa using hm2)]
        · rw [List.find?_cons_of_neg (by simpa using hm2), List.find?_cons_of_neg (by simp [Ne.symm hm]),
            List.find?_cons_of_neg (by simpa using hm2)]
    · rw [if_neg hd]
      by_cases hm2 : d.name = m
      · rw [List.find?_cons_of_pos (by simpa using hm2), List.find?_cons_of_pos (by simpa using hm2),
          if_neg (by rintro rfl; exact hc.1 hm2.symm)]
      · rw [List.find?_cons_of_neg (by simpa using hm2), List.find?_cons_of_neg (by simpa using hm2)]
        exact ih (hp.resolve_left (Ne.symm hd)) hc.2

theorem place_spec {p : Place} {c : Column} {l : List Column} (hc : c.name ∉ l.map (·.name))
    (hp : ∀ q, p = .after q → q ∈ l.map (·.name)) :
    ∃ l', place p c l = some l' ∧ l'.map (·.name) = namePlace p c.name (l.map (·.name)) ∧
      ∀ m, findColumnByName l' m = if m = c.name then some c else findColumnByName l m := by
  cases p with
  | none =>
    refine ⟨_, rfl, by simp [namePlace], fun m => ?_⟩
    rw [findColumn_append]
    by_cases hm : m = c.name
    · subst hm
      rw [findColumn_none.2 hc]
      simp [findColumnByName]
    · rw [if_neg hm]
      have : findColumnByName [c] m = none := by simp [findColumnByName, Ne.symm hm]
      rw [this, Option.or_none]
  | first =>
    refine ⟨_, rfl, rfl, fun m => ?_⟩
    by_cases hm : m = c.name
    · subst hm; simp [findColumnByName]
    · simp only [findColumnByName]
      rw [List.find?_cons_of_neg (by simp [Ne.symm hm]), if_neg hm]
  | after q =>
    have hq := hp q rfl
    exact ⟨_, by simp only [place, if_pos hq], names_insertAfter q c l, findColumn_insertAfter hq hc⟩

theorem mem_nameAfter {p n : Str} {l : List Str} (hp : p ∈ l) (m : Str) : m ∈ nameAfter p n l ↔ m = n ∨ m ∈ l := by
  induction l with
  | nil => cases hp
  | cons d l ih =>
    simp only [nameAfter]
    split
    · simp only [List.mem_cons]; tauto
    · next hd =>
      rcases List.mem_cons.1 hp with h | h
      · exact absurd h.symm hd
      · simp only [List.mem_cons, ih h]; tauto

theorem nodup_nameAfter {p n : Str} {l : List Str} (hl : l.Nodup) (hn : n ∉ l) : (nameAfter p n l).Nodup := by
  induction l with
  | nil => exact List.nodup_nil
  | cons d l ih =>
    simp only [List.mem_cons, not_or, List.nodup_cons] at hn hl
    simp only [nameAfter]
    split
    · simp only [List.nodup_cons, List.mem_cons, not_or]
      exact ⟨⟨Ne.symm hn.1, hl.1⟩, hn.2, hl.2⟩
    · refine List.nodup_cons.2 ⟨fun h => ?_, ih hl.2 hn.2⟩
      by_cases hp : p ∈ l
      · rcases (mem_nameAfter hp d).1 h with h | h
        · exact hn.1 h.symm
        · exact hl.1 h
      · have : ∀ k : List Str, p ∉ k → nameAfter p n k = k := by
          intro k
          induction k with
          | nil => intro _; rfl
          | cons e k ih => intro hk; simp only [List.mem_cons, not_or] at hk; simp [nameAfter, Ne.symm hk.1, ih hk.2]
        rw [this l hp] at h
        exact hl.1 h

theorem mem_namePlace {p : Place} {n : Str} {l : List Str} (hp : ∀ q, p = .after q → q ∈ l) (m : Str) :
    m ∈ namePlace p n l ↔ m = n ∨ m ∈ l := by
  cases p with
  | none => simp [namePlace, or_comm]
  | first => simp [namePlace]
  | after q => exact mem_nameAfter (hp q rfl) m

theorem nodup_namePlace {p : Place} {n : Str} {l : List Str} (hl : l.Nodup) (hn : n ∉ l) : (namePlace p n l).Nodup := by
  cases p with
  | none => simp only [namePlace, List.nodup_append, List.nodup_cons, List.not_mem_nil, not_false_eq_true, List.nodup_nil, and_self, true_and, hl]; exact fun a ha b hb h => hn (by rw [List.mem_singleton] at hb; rw [← hb, ← h]; exact ha)
  | first => exact List.nodup_cons.2 ⟨hn, hl⟩
  | after q => exact nodup_nameAfter hl hn

/-! ### Statements about columns -/

/-- `t'` is `t` with other columns. -/
structure OnlyColumns (t t' : Table) : Prop where
  name : t'.name = t.name
  indexes : t'.indexes = t.indexes
  foreignKeys : t'.foreignKeys = t.foreignKeys
  policies : t'.policies = t.policies

theorem OnlyColumns.refl (t : Table) : OnlyColumns t t := ⟨rfl, rfl, rfl, rfl⟩

theorem OnlyColumns.trans {a b c : Table} (h : OnlyColumns a b) (g : OnlyColumns b c) : OnlyColumns a c :=
  ⟨g.name.trans h.name, g.indexes.trans h.indexes, g.foreignKeys.trans h.foreignKeys, g.policies.trans h.policies⟩

/-- `t'` is `t` with column `n` replaced by `c`, at the same place. -/
structure SetCol (t t' : Table) (n : Str) (c : Column) : Prop extends OnlyColumns t t' where
  names : t'.names = t.names
  col : ∀ m, t'.col m = if m = n then some c else t.col m

theorem alterColumn_spec {n : Str} {f : Column → Option Column} {t : Table} {c c' : Column} (hc : t.col n = some c)
    (hf : f c = some c') (hn : c'.name = n) : ∃ t', alterColumn n f t = some t' ∧ SetCol t t' n c' := by
  have hc' : t.columns.find? (fun x => decide (x.name = n)) = some c := hc
  refine ⟨{ t with columns := t.columns.map fun d => if d.name = n then c' else d }, ?_, ⟨⟨rfl, rfl, rfl, rfl⟩, ?_, ?_⟩⟩
  · simp only [alterColumn, hc', hf]
  · exact names_replace _ hn
  · intro m
    exact findColumn_replace hn (mem_of_col hc) m

/-- `t'` is `t` with column `c` added. -/
structure AddCol (t t' : Table) (c : Column) (p : Place) : Prop extends OnlyColumns t t' where
  names : t'.names = namePlace p c.name t.names
  col : ∀ m, t'.col m = if m = c.name then some c else t.col m

theorem addColumn_spec {mode : Mode} {n : Str} {c : Column} {p : Place} {t : Table} (hc : c.name ∉ t.names)
    (hp : ∀ q, p = .after q → q ∈ t.names) :
    ∃ t', alter mode (.addColumn n c p) t = some t' ∧
      AddCol t t' (stored false (if c.keyOption = .primary then .none else c.keyOption) c) p := by
  obtain ⟨l, h1, h2, h3⟩ := place_spec (c := stored false (if c.keyOption = .primary then .none else c.keyOption) c) hc hp
  refine ⟨{ t with columns := l }, ?_, ⟨⟨rfl, rfl, rfl, rfl⟩, h2, h3⟩⟩
  rw [alter_eq t (fun _ => rfl)]
  simp only [change, if_neg hc, h1, Option.map_some]

/-- `t'` is `t` with column `c` replaced and moved. -/
structure MoveCol (t t' : Table) (c : Column) (p : Place) : Prop extends OnlyColumns t t' where
  names : t'.names = if p = .none then t.names else namePlace p c.name (t.names.filter (· ≠ c.name))
  col : ∀ m, t'.col m = if m = c.name then some c else t.col m

theorem changeColumn_spec {mode : Mode} {n : Str} {c cur : Column} {p : Place} {t : Table} (hc : t.col c.name = some cur)
    (hm : mode ≠ .sqlite3) (hp : ∀ q, p = .after q → q ∈ t.names ∧ q ≠ c.name) :
    ∃ t', alter mode (.changeColumn n c.name c p) t = some t' ∧
      MoveCol t t' (stored (inPrimaryKey t cur) cur.keyOption c) p := by
  have hc' : t.columns.find? (fun x => decide (x.name = c.name)) = some cur := hc
  have hmem : c.name ∈ t.names := mem_of_col hc
  by_cases h : p = .none
  · subst h
    refine ⟨{ t with columns := t.columns.map fun d =>
        if d.name = c.name then stored (inPrimaryKey t cur) cur.keyOption c else d }, ?_, ⟨⟨rfl, rfl, rfl, rfl⟩, ?_, ?_⟩⟩
    · rw [alter_eq t (fun h => absurd h hm)]
      simp only [change, hc', ne_eq, not_true_eq_false, false_and, ite_false, ite_true]
    · simp only [ite_true]; exact names_replace _ rfl
    · exact findColumn_replace rfl hmem
  · have hn : (stored (inPrimaryKey t cur) cur.keyOption c).name ∉ (t.columns.filter (·.name ≠ c.name)).map (·.name) := by
      rw [names_filter]; simp [stored]
    have hp' : ∀ q, p = .after q → q ∈ (t.columns.filter (·.name ≠ c.name)).map (·.name) := by
      intro q hq
      rw [names_filter, List.mem_filter]
      exact ⟨(hp q hq).1, by simpa using (hp q hq).2⟩
    obtain ⟨l, h1, h2, h3⟩ := place_spec hn hp'
    refine ⟨{ t with columns := l }, ?_, ⟨⟨rfl, rfl, rfl, rfl⟩, ?_, ?_⟩⟩
    · rw [alter_eq t (fun h => absurd h hm)]
      simp only [change, hc', ne_eq, not_true_eq_false, false_and, ite_false, if_neg h, h1, Option.map_some]
    · simp only [if_neg h]
      rw [← names_filter]; exact h2
    · intro m
      have := h3 m
      rw [findColumn_filter] at this
      simp only [Table.col]
      rw [this]
      by_cases hm : m = c.name
      · simp [hm, stored]
      · simp [hm, stored]

/-- `t'` is `t` without column `n`. -/
structure DropCol (t t' : Table) (n : Str) : Prop extends OnlyColumns t t' where
  names : t'.names = t.names.filter (· ≠ n)
  col : ∀ m, t'.col m = if m = n then none else t.col m

theorem dropColumn_spec {mode : Mode} {k n : Str} {t : Table} (hn : n ∈ t.names) :
    ∃ t', alter mode (.dropColumn k n) t = some t' ∧ DropCol t t' n := by
  refine ⟨{ t with columns := t.columns.filter (·.name ≠ n) }, ?_, ⟨⟨rfl, rfl, rfl, rfl⟩, names_filter _ _, findColumn_filter _ _⟩⟩
  rw [alter_eq t (fun _ => rfl)]
  simp only [change, if_pos hn]

end Sqldef
