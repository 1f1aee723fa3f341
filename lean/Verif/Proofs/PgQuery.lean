import Verif.Spec.PgServer
/-
The answers of a Postgres server to the queries of the adapter, for a table that nothing is mixed up with.
-/
namespace Sqldef
open Spec.PgServer Pg

theorem filter_key {α β : Type} [DecidableEq β] {f : α → β} {l : List α} (hn : (l.map f).Nodup) {a : α} (ha : a ∈ l)
    {p : α → Bool} (hp : ∀ b ∈ l, (p b = true ↔ f b = f a)) : l.filter p = [a] := by
  induction l with
  | nil => cases ha
  | cons b l ih =>
    simp only [List.map_cons, List.nodup_cons, List.mem_map, not_exists, not_and] at hn
    by_cases e : f b = f a
    · have hba : b = a := by
        rcases List.mem_cons.mp ha with h | h
        · exact h.symm
        · exact absurd e.symm (hn.1 a h)
      subst hba
      rw [List.filter_cons_of_pos ((hp b (by simp)).mpr rfl), List.filter_eq_nil_iff.mpr]
      intro c hc h
      exact hn.1 c hc ((hp c (by simp [hc])).mp h)
    · rw [List.filter_cons_of_neg (fun h => e ((hp b (by simp)).mp h))]
      refine ih hn.2 ?_ fun c hc => hp c (by simp [hc])
      rcases List.mem_cons.mp ha with h | h
      · exact absurd (h ▸ rfl) e
      · exact h

theorem flatMap_key {α β γ : Type} [DecidableEq β] {f : α → β} {l : List α} (hn : (l.map f).Nodup) {a : α} (ha : a ∈ l)
    {g : α → List γ} (hg : ∀ b ∈ l, f b ≠ f a → g b = []) : l.flatMap g = g a := by
  induction l with
  | nil => cases ha
  | cons b l ih =>
    simp only [List.map_cons, List.nodup_cons, List.mem_map, not_exists, not_and] at hn
    rw [List.flatMap_cons]
    by_cases e : f b = f a
    · have hba : b = a := by
        rcases List.mem_cons.mp ha with h | h
        · exact h.symm
        · exact absurd e.symm (hn.1 a h)
      subst hba
      rw [List.flatMap_eq_nil_iff.mpr fun c hc => hg c (by simp [hc]) (hn.1 c hc), List.append_nil]
    · rw [hg b (by simp) e, List.nil_append]
      refine ih hn.2 ?_ fun c hc => hg c (by simp [hc])
      rcases List.mem_cons.mp ha with h | h
      · exact absurd (h ▸ rfl) e
      · exact h

theorem flatMap_single {α β : Type} {l : List α} {g : α → List β} {h : α → β} (hg : ∀ a ∈ l, g a = [h a]) : l.flatMap g = l.map h := by
  induction l with
  | nil => rfl
  | cons a l ih => rw [List.flatMap_cons, hg a (by simp), ih fun b hb => hg b (by simp [hb])]; rfl

theorem relation_filter {db : List Relation} (hs : Sound db) {r : Relation} (hr : r ∈ db) :
    (db.filter fun c => c.schema = r.schema ∧ c.name = r.name) = [r] :=
  filter_key hs.relations hr fun b _ => by simp

theorem filter_one {r : Relation} {kind : Kind} (hk : kind = .unique ∨ kind = .check) (hs : Simple r) (n : Nat) :
    (r.constraints.filter fun p => n ∈ p.key ∧ p.kind = kind) =
      (r.constraints.find? fun k => k.kind = kind ∧ k.key = [n]).toList := by
  obtain ⟨h1, h2, -⟩ := hs
  revert h1 h2
  generalize r.constraints = l
  intro h1 h2
  induction l with
  | nil => rfl
  | cons k l ih =>
    obtain ⟨h3, h4⟩ := List.pairwise_cons.mp h2
    have ih := ih (fun k hk => h1 k (by simp [hk])) h4
    by_cases e : k.kind = kind
    · obtain ⟨m, hm⟩ := h1 k (by simp) (by rw [e]; rcases hk with rfl | rfl <;> decide)
      by_cases e' : m = n
      · subst e'
        rw [List.filter_cons_of_pos (by simp [hm, e]), List.find?_cons_of_pos (by simp [hm, e]), List.filter_eq_nil_iff.mpr]
        · rfl
        · intro c hc h
          simp only [decide_eq_true_eq] at h
          obtain ⟨m', hm'⟩ := h1 c (by simp [hc]) (by rw [h.2]; rcases hk with rfl | rfl <;> decide)
          rw [hm', List.mem_singleton] at h
          exact h3 c hc (by rw [e, h.2]) (by rw [e]; exact hk) (by rw [hm, hm', h.1])
      · rw [List.filter_cons_of_neg (by simp [hm, e, Ne.symm e']), List.find?_cons_of_neg (by simp [hm, e'])]
        exact ih
    · rw [List.filter_cons_of_neg (by simp [e]), List.find?_cons_of_neg (by simp [e])]
      exact ih

theorem leftJoin_option {α : Type} (o : Option α) : leftJoin o.toList = [o] := by cases o <;> rfl

theorem find?_any {α : Type} (p : α → Bool) (l : List α) : (l.find? p).isSome = l.any p := by
  induction l with
  | nil => rfl
  | cons a l ih => by_cases h : p a <;> simp [h, ih]

theorem infoColumns_one {db : List Relation} (hs : Sound db) {r : Relation} (hr : r ∈ db) (hk : r.kind = 'r') (ha : Apart db r)
    {f : Attribute} (hf : f ∈ live r) : ((infoColumns db).filter fun s => s.2.name = f.name ∧ s.1 = r.name) = [(r.name, f)] := by
  unfold infoColumns
  rw [List.filter_flatMap]
  have h1 := hs.relations
  have key : ∀ l : List Relation, (l.map fun r => (r.schema, r.name)).Nodup → r ∈ l → (∀ c ∈ l, c ∈ db) →
      l.flatMap (fun c => (((c.attributes.filter fun a => a.dropped = false).map fun a => (c.name, a)).filter fun s =>
        s.2.name = f.name ∧ s.1 = r.name)) = [(r.name, f)] := by
    intro l hl hrl hsub
    rw [flatMap_key hl hrl]
    · rw [List.filter_map]
      have : (live r).filter (fun a => decide (a.name = f.name)) = [f] :=
        filter_key (hs.columns r hr) hf fun b _ => by simp
      show ((live r).filter _).map _ = _
      rw [List.filter_congr (q := fun a => decide (a.name = f.name)) (by intro a _; simp), this]
      rfl
    · intro c hc hne
      rw [List.filter_eq_nil_iff]
      rintro ⟨n, b⟩ hb
      obtain ⟨b', hb', e⟩ := List.mem_map.mp hb
      injection e with e1 e2
      subst e2
      simp only [decide_eq_true_eq, not_and]
      intro e3 e4
      have hcn : c.name = r.name := e1.trans e4
      refine ha.columns c (hsub c hc) hcn ?_ f hf b' hb' e3
      intro e5
      exact hne (by rw [e5, hcn])
  refine key _ ?_ ?_ ?_
  · exact (List.filter_sublist.map _).nodup h1
  · exact List.mem_filter.mpr ⟨hr, by simp [hk]⟩
  · exact fun c hc => (List.mem_filter.mp hc).1

theorem columnsQuery_own {db : List Relation} (hs : Sound db) {r : Relation} (hr : r ∈ db) (hk : r.kind = 'r') (ha : Apart db r)
    (hp : Simple r) : columnsQuery db r.schema r.name = (live r).map fun a => (a.num, some (ownRow r a)) := by
  unfold columnsQuery
  have : (db.filter fun c => c.kind = 'r' ∧ c.schema = r.schema ∧ c.name = r.name) = [r] :=
    filter_key hs.relations hr fun b hb => by
      simp only [decide_eq_true_eq, Prod.mk.injEq]
      refine ⟨fun h => h.2, fun h => ⟨?_, h⟩⟩
      have := relation_filter hs hr
      have hb : b ∈ [r] := this ▸ List.mem_filter.mpr ⟨hb, by simpa using h⟩
      rw [List.mem_singleton.mp hb]
      exact hk
  rw [this, List.flatMap_singleton]
  show (live r).flatMap _ = _
  have : ∀ f ∈ live r, ((leftJoin (r.constraints.filter fun p => f.num ∈ p.key ∧ p.kind = .unique)).flatMap fun p =>
        (leftJoin (r.constraints.filter fun pc => f.num ∈ pc.key ∧ pc.kind = .check)).flatMap fun pc =>
          (leftJoin ((infoColumns db).filter fun s => s.2.name = f.name ∧ s.1 = r.name)).map fun s =>
            (f.num, columnsRow f p pc s)) = [(f.num, some (ownRow r f))] := by
    intro f hf
    rw [filter_one (.inl rfl) hp, filter_one (.inr rfl) hp, infoColumns_one hs hr hk ha hf, leftJoin_option, leftJoin_option]
    simp only [List.flatMap_singleton, leftJoin, List.isEmpty_cons, List.map_cons, List.map_nil, Bool.false_eq_true, if_false]
    simp only [columnsRow, Option.map_some, find?_any]
    rfl
  exact flatMap_single this

theorem pairwise_inj {α : Type} {f : α → Nat} {l : List α} (h : l.Pairwise fun a b => f a < f b) {a b : α} (ha : a ∈ l) (hb : b ∈ l)
    (e : f a = f b) : a = b := by
  induction l with
  | nil => cases ha
  | cons c l ih =>
    obtain ⟨h1, h2⟩ := List.pairwise_cons.mp h
    rcases List.mem_cons.mp ha with e1 | ha' <;> rcases List.mem_cons.mp hb with e2 | hb'
    · rw [e1, e2]
    · exact absurd e (Nat.ne_of_lt (e1 ▸ h1 b hb'))
    · exact absurd e.symm (Nat.ne_of_lt (e2 ▸ h1 a ha'))
    · exact ih h2 ha' hb'

theorem sorted_rows {α : Type} {f : α → Nat} {rows own : List α} (h : rows.Perm own) (hr : rows.Pairwise fun a b => f a ≤ f b)
    (ho : own.Pairwise fun a b => f a < f b) : rows = own := by
  refine List.Perm.eq_of_pairwise (le := fun a b => f a ≤ f b) ?_ hr (ho.imp fun h => Nat.le_of_lt h) h
  intro a b ha hb h1 h2
  exact pairwise_inj ho (h.mem_iff.mp ha) hb (Nat.le_antisymm h1 h2)

theorem answers_columns {db : List Relation} {cat : Catalog} (h : Answers db cat) (hs : Sound db) {r : Relation} (hr : r ∈ db)
    (hk : r.kind = 'r') (ha : Apart db r) (hp : Simple r) : cat.columns r.schema r.name = (live r).map (ownRow r) := by
  obtain ⟨rows, h1, h2, h3⟩ := h.columns r.schema r.name
  rw [columnsQuery_own hs hr hk ha hp] at h1
  have := sorted_rows h1 h2 (by
    rw [List.pairwise_map]
    exact (hs.numbers r hr).sublist List.filter_sublist)
  rw [this, List.map_map] at h3
  have h4 := congrArg (List.filterMap id) h3
  rw [List.filterMap_map, List.filterMap_map, show (id ∘ some : Row → Option Row) = some from rfl, List.filterMap_some,
    show (id ∘ (fun x : Nat × Option Row => x.2) ∘ fun a => (a.num, some (ownRow r a))) = some ∘ ownRow r from rfl,
    List.filterMap_eq_map] at h4
  exact h4

theorem columnNames_own {db : List Relation} (hs : Sound db) {r : Relation} (hr : r ∈ db) {nums : List Nat}
    (hn : ∀ n ∈ nums, n ∈ (live r).map (·.num)) : r.columnNames nums = nums.map (nameOf r) := by
  refine flatMap_single fun n hmem => ?_
  obtain ⟨a, ha, e⟩ := List.mem_map.mp (hn n hmem)
  have hl := (List.mem_filter.mp ha).1
  have h1 : (r.attributes.map (·.num)).Nodup := by
    rw [List.Nodup, List.pairwise_map]
    exact (hs.numbers r hr).imp fun h => Nat.ne_of_lt h
  have h2 : (r.attributes.filter fun a => a.num = n) = [a] := filter_key h1 hl fun b _ => by simp [e]
  have h3 : (live r).filter (fun a => a.num = n) = [a] :=
    filter_key ((List.filter_sublist.map _).nodup h1) ha fun b _ => by simp [e]
  have h4 : (live r).find? (fun a => a.num = n) = some a := by
    rw [← List.head?_filter, h3]
    rfl
  rw [h2, nameOf, h4]
  rfl

/-- The rows of `key_column_usage` with the name of a primary or foreign key. -/
theorem keyColumnUsage_own {db : List Relation} (hs : Sound db) {r : Relation} (hr : r ∈ db) (ha : Apart db r) {k : Constraint}
    (hk : k ∈ r.constraints) (hkind : k.kind = .primary ∨ k.kind = .foreign) :
    ((keyColumnUsage db).filter fun kcu => k.name = kcu.1) = (k.key.map (nameOf r)).zipIdx.map fun n => (k.name, n.1, n.2) := by
  unfold keyColumnUsage
  rw [List.filter_flatMap, flatMap_key hs.relations hr]
  · rw [List.filter_flatMap]
    have h1 : ((r.constraints.filter fun k => k.kind ≠ .check).map (·.name)).Nodup :=
      (List.filter_sublist.map _).nodup (hs.constraints r hr)
    rw [flatMap_key h1 (a := k)]
    · rw [columnNames_own hs hr (hs.keys r hr k hk), List.filter_eq_self]
      intro x hx
      obtain ⟨n, -, rfl⟩ := List.mem_map.mp hx
      simp
    · refine List.mem_filter.mpr ⟨hk, ?_⟩
      rcases hkind with e | e <;> rw [e] <;> decide
    · intro l _ hne
      rw [List.filter_eq_nil_iff]
      intro x hx
      obtain ⟨n, -, rfl⟩ := List.mem_map.mp hx
      simpa using Ne.symm hne
  · intro c hc hne
    rw [List.filter_eq_nil_iff]
    intro x hx
    obtain ⟨l, hl, hx⟩ := List.mem_flatMap.mp hx
    obtain ⟨n, -, rfl⟩ := List.mem_map.mp hx
    simpa using Ne.symm (ha.constraints c hc hne k hk hkind l (List.mem_filter.mp hl).1)

theorem constraintColumnUsage_own {db : List Relation} (hs : Sound db) {r : Relation} (hr : r ∈ db) (ha : Apart db r) {k : Constraint}
    (hk : k ∈ r.constraints) (hkind : k.kind = .foreign) :
    ((constraintColumnUsage db).filter fun ccu => k.name = ccu.1) = k.refColumns.map fun n => (k.name, k.refSchema, k.refTable, n) := by
  unfold constraintColumnUsage
  have all : ∀ (c : Relation) (l : Constraint), ∀ x ∈ (if l.kind = .foreign then l.refColumns.map fun n => (l.name, l.refSchema, l.refTable, n)
      else (c.columnNames l.key).map fun n => (l.name, c.schema, c.name, n)), x.1 = l.name := by
    intro c l x hx
    split at hx <;> obtain ⟨n, -, rfl⟩ := List.mem_map.mp hx <;> rfl
  rw [List.filter_flatMap, flatMap_key hs.relations hr]
  · rw [List.filter_flatMap, flatMap_key (hs.constraints r hr) hk]
    · rw [if_pos hkind, List.filter_eq_self]
      intro x hx
      obtain ⟨n, -, rfl⟩ := List.mem_map.mp hx
      simp
    · intro l _ hne
      rw [List.filter_eq_nil_iff]
      intro x hx
      rw [all r l x hx]
      simpa using Ne.symm hne
  · intro c hc hne
    rw [List.filter_eq_nil_iff]
    intro x hx
    obtain ⟨l, hl, hx⟩ := List.mem_flatMap.mp hx
    rw [all c l x hx]
    simpa using Ne.symm (ha.constraints c hc hne k hk (.inr hkind) l hl)

theorem referentialConstraints_own {db : List Relation} (hs : Sound db) {r : Relation} (hr : r ∈ db) (ha : Apart db r) {k : Constraint}
    (hk : k ∈ r.constraints) (hkind : k.kind = .foreign) :
    ((referentialConstraints db).filter fun rc => k.name = rc.1) = [(k.name, k.updateRule, k.deleteRule)] := by
  unfold referentialConstraints
  rw [List.filter_flatMap, flatMap_key hs.relations hr]
  · rw [List.filter_map]
    have h1 : ((r.constraints.filter fun k => k.kind = .foreign).map (·.name)).Nodup :=
      (List.filter_sublist.map _).nodup (hs.constraints r hr)
    rw [filter_key h1 (a := k) (List.mem_filter.mpr ⟨hk, by simp [hkind]⟩)]
    · rfl
    · intro b _
      simp [eq_comm]
  · intro c hc hne
    rw [List.filter_eq_nil_iff]
    intro x hx
    obtain ⟨l, hl, rfl⟩ := List.mem_map.mp hx
    simpa using Ne.symm (ha.constraints c hc hne k hk (.inr hkind) l (List.mem_filter.mp hl).1)

theorem answers_primaryKey {db : List Relation} {cat : Catalog} (h : Answers db cat) (hs : Sound db) {r : Relation} (hr : r ∈ db)
    (ha : Apart db r) : cat.primaryKey r.schema r.name = ownKey r := by
  obtain ⟨rows, h1, h2, h3⟩ := h.primaryKey r.schema r.name
  unfold primaryKeyQuery at h1
  rw [relation_filter hs hr, List.flatMap_singleton] at h1
  have hone := hs.onePrimary r hr
  have hfind := List.head?_filter (p := fun k : Constraint => decide (k.kind = .primary)) (l := r.constraints)
  revert h1 hone hfind
  generalize hl : (r.constraints.filter fun k => k.kind = .primary) = l
  intro h1 hone hfind
  rcases l with _ | ⟨k, _ | _⟩
  · have : rows = [] := List.perm_nil.mp h1
    rw [h3, this, ownKey, ← hfind]
    rfl
  · have hk : k ∈ r.constraints ∧ k.kind = .primary := by
      have : k ∈ r.constraints.filter fun k => k.kind = .primary := by rw [hl]; simp
      simpa using List.mem_filter.mp this
    rw [List.flatMap_singleton, keyColumnUsage_own hs hr ha hk.1 (.inl hk.2), List.map_map] at h1
    have e : ((fun kcu : Str × Str × Nat => kcu.2) ∘ fun n : Str × Nat => (k.name, n.1, n.2)) = id := rfl
    rw [e, List.map_id] at h1
    have := sorted_rows (f := Prod.snd) h1 h2 (by
      rw [← List.pairwise_map (f := Prod.snd) (R := fun a b => a < b), List.zipIdx_map_snd]
      exact List.pairwise_lt_range')
    rw [h3, this, ownKey, ← hfind, List.zipIdx_map_fst]
    rfl
  · simp at hone

theorem join_singleton (sep x : Str) : join sep [x] = x := by simp [join]

theorem answers_foreignKeys {db : List Relation} {cat : Catalog} (h : Answers db cat) (hs : Sound db) {r : Relation} (hr : r ∈ db)
    (ha : Apart db r) (hp : Simple r) : (cat.foreignKeys r.schema r.name).Perm (ownForeignKeys r) := by
  refine (h.foreignKeys r.schema r.name).trans (List.Perm.of_eq ?_)
  unfold foreignKeysQuery
  rw [relation_filter hs hr, List.flatMap_singleton]
  refine flatMap_single fun k hk => ?_
  obtain ⟨hk, hkind⟩ := List.mem_filter.mp hk
  have hkind : k.kind = .foreign := by simpa using hkind
  obtain ⟨n, hn⟩ := hp.one k hk (by rw [hkind]; decide)
  obtain ⟨m, hm⟩ := hp.target k hk hkind
  rw [keyColumnUsage_own hs hr ha hk (.inr hkind), constraintColumnUsage_own hs hr ha hk hkind,
    referentialConstraints_own hs hr ha hk hkind, hn, hm]
  simp [ownForeignKey, hn, hm, join_singleton]

end Sqldef
