import Verif.Proofs.PgQuery
import Verif.Proofs.PgPolicy
import Verif.Proofs.ReorderText
import Mathlib.Data.List.Sort
/-
From the relations of a Postgres server to the statements of a dump.
-/
namespace Sqldef
open Spec Written Dumped Spec.PgServer Pg

/-! ### The server has an answer -/

theorem mem_leftJoin {α : Type} {l : List α} {o : Option α} (h : o ∈ leftJoin l) (hl : l ≠ []) : ∃ a ∈ l, o = some a := by
  unfold leftJoin at h
  rw [if_neg (by simpa using hl)] at h
  obtain ⟨a, ha, e⟩ := List.mem_map.mp h
  exact ⟨a, ha, e.symm⟩

/-- Every row of the answer for the columns can be scanned. -/
theorem columnsQuery_some {db : List Relation} {schema table : Str} {x : Nat × Option Row} (h : x ∈ columnsQuery db schema table) :
    ∃ r, x.2 = some r := by
  unfold columnsQuery at h
  simp only [List.mem_flatMap, List.mem_map] at h
  obtain ⟨c, hc, f, hf, p, -, pc, -, s, hs, rfl⟩ := h
  obtain ⟨hc, hk⟩ := List.mem_filter.mp hc
  simp only [decide_eq_true_eq] at hk
  have : (c.name, f) ∈ (infoColumns db).filter fun s => s.2.name = f.name ∧ s.1 = c.name := by
    refine List.mem_filter.mpr ⟨?_, by simp⟩
    unfold infoColumns
    exact List.mem_flatMap.mpr ⟨c, List.mem_filter.mpr ⟨hc, by simp [hk.1]⟩, List.mem_map.mpr ⟨f, hf, rfl⟩⟩
  obtain ⟨a, -, rfl⟩ := mem_leftJoin hs (List.ne_nil_of_mem this)
  exact ⟨_, rfl⟩

/-- One of the answers of the server. -/
def someAnswer (db : List Relation) (views : List (Str × Str × Str)) : Pg.Catalog where
  tables := tablesQuery db
  columns schema table := ((columnsQuery db schema table).insertionSort fun a b => a.1 ≤ b.1).filterMap (·.2)
  primaryKey schema table := ((primaryKeyQuery db schema table).insertionSort fun a b => a.2 ≤ b.2).map (·.1)
  indexes schema table := indexesQuery db schema table
  foreignKeys schema table := foreignKeysQuery db schema table
  policies schema table := policiesQuery db schema table
  views := views

theorem answers_someAnswer (db : List Relation) (views : List (Str × Str × Str)) : Answers db (someAnswer db views) where
  tables := .refl _
  columns schema table := by
    refine ⟨_, List.perm_insertionSort (fun a b : Nat × Option Row => a.1 ≤ b.1) _, ?_, ?_⟩
    · haveI : Std.Total fun a b : Nat × Option Row => a.1 ≤ b.1 := ⟨fun a b => Nat.le_total _ _⟩
      haveI : IsTrans (Nat × Option Row) fun a b => a.1 ≤ b.1 := ⟨fun a b c h1 h2 => Nat.le_trans h1 h2⟩
      exact List.pairwise_insertionSort _ _
    · show List.map some (List.filterMap _ _) = _
      have : ∀ x ∈ (columnsQuery db schema table).insertionSort (fun a b => a.1 ≤ b.1), ∃ r, x.2 = some r :=
        fun x hx => columnsQuery_some ((List.mem_insertionSort _).mp hx)
      revert this
      generalize (columnsQuery db schema table).insertionSort (fun a b => a.1 ≤ b.1) = l
      intro h
      induction l with
      | nil => rfl
      | cons x l ih =>
        obtain ⟨r, hr⟩ := h x (by simp)
        rw [List.filterMap_cons_some hr, List.map_cons, List.map_cons, ih fun y hy => h y (by simp [hy]), hr]
  primaryKey schema table := by
    refine ⟨_, List.perm_insertionSort (fun a b : Str × Nat => a.2 ≤ b.2) _, ?_, rfl⟩
    haveI : Std.Total fun a b : Str × Nat => a.2 ≤ b.2 := ⟨fun a b => Nat.le_total _ _⟩
    haveI : IsTrans (Str × Nat) fun a b => a.2 ≤ b.2 := ⟨fun a b c h1 h2 => Nat.le_trans h1 h2⟩
    exact List.pairwise_insertionSort _ _
  indexes _ _ := .refl _
  foreignKeys _ _ := .refl _
  policies _ _ := .refl _

/-! ### From the server to the catalog -/

theorem answers_indexes {db : List Relation} {cat : Pg.Catalog} (h : Answers db cat) (hs : Sound db) {r : Relation} (hr : r ∈ db) :
    (cat.indexes r.schema r.name).Perm r.indexes ∧ (cat.policies r.schema r.name).Perm r.policies := by
  have h1 := h.indexes r.schema r.name
  have h2 := h.policies r.schema r.name
  unfold indexesQuery at h1
  unfold policiesQuery at h2
  rw [relation_filter hs hr, List.flatMap_singleton] at h1 h2
  exact ⟨h1, h2⟩

theorem answers_tables {db : List Relation} {cat : Pg.Catalog} (h : Answers db cat) (hs : Sound db) :
    cat.tables.Nodup ∧ ∀ t : Str × Str, t ∈ cat.tables ↔ ∃ r ∈ db, Shown r ∧ (r.schema, r.name) = t := by
  constructor
  · refine h.tables.nodup_iff.mpr ?_
    unfold tablesQuery
    exact (List.filter_sublist.map _).nodup hs.relations
  · intro t
    rw [h.tables.mem_iff]
    unfold tablesQuery
    simp only [List.mem_map, List.mem_filter, decide_eq_true_eq, and_assoc]
    refine exists_congr fun r => and_congr_right fun _ => ?_
    unfold Shown
    simp only [List.mem_cons, List.not_mem_nil, or_false, not_or, ne_eq, not_and_or]
    tauto

theorem tablesQuery_own (db : List Relation) : tablesQuery db = ownTables db := by
  unfold tablesQuery ownTables
  congr 1
  refine List.filter_congr fun r _ => decide_eq_decide.mpr ?_
  unfold Shown
  simp only [List.mem_cons, List.not_mem_nil, or_false, not_or, ne_eq, not_and_or]
  tauto

theorem sameDescribed_sentences {d e : Described} (h : SameDescribed d e) : d.sentences.Perm e.sentences := by
  unfold Described.sentences
  rw [h.table]
  exact .cons _ (((h.indexes.map _).append (h.foreignKeys.map _)).append (h.policies.map _))

/-- What is said about the table on its own is said by every answer of the server, but for the order. -/
theorem says_of_own {db : List Relation} {cat : Pg.Catalog} (h : Answers db cat) (hs : Sound db) {r : Relation} (hr : r ∈ db)
    (hk : r.kind = 'r') (ha : Apart db r) (hp : Simple r) {d : Described} (hd : CatalogSays (ownCatalog r) r.schema r.name d)
    (ho : Orderly (ownCatalog r) r.schema r.name d) :
    ∃ e, SameDescribed e d ∧ CatalogSays cat r.schema r.name e ∧ Orderly cat r.schema r.name e := by
  have hc := answers_columns h hs hr hk ha hp
  have hkey := answers_primaryKey h hs hr ha
  have hf := answers_foreignKeys h hs hr ha hp
  obtain ⟨hi, hpol⟩ := answers_indexes h hs hr
  obtain ⟨is, i1, i2⟩ := List.perm_comp_forall₂ (hi.filter fun row => ¬ IsKeyIndex row) hd.indexes
  obtain ⟨fs, f1, f2⟩ := List.perm_comp_forall₂ hf hd.foreignKeys
  obtain ⟨ps, p1, p2⟩ := List.perm_comp_forall₂ hpol hd.policies
  refine ⟨{ table := d.table, indexes := is, foreignKeys := fs, policies := ps }, ⟨rfl, i2, f2, p2⟩, ⟨?_, ?_, i1, f1, p1⟩, ?_⟩
  · rw [hc, hkey]
    exact hd.table
  · exact fun row hrow => hd.untrimmed row (hi.mem_iff.mp hrow)
  · refine ⟨?_, ?_, ⟨?_, ?_⟩, ?_, ?_, ?_, ?_, ?_⟩
    · rw [hc]; exact ho.columns
    · exact fun i him => ho.indexTables i (i2.mem_iff.mp him)
    · exact (i2.map _).nodup_iff.mpr ho.indexNames.1
    · exact fun hm => ho.indexNames.2 ((i2.map _).mem_iff.mp hm)
    · exact fun i him => ho.indexOptions i (i2.mem_iff.mp him)
    · exact fun row hrow => ho.keyTables row (hf.mem_iff.mp hrow)
    · exact (hf.map _).nodup_iff.mpr ho.keyNames
    · intro hne
      exact ho.policySchema fun e => hne (List.perm_nil.mp ((show r.policies = [] from e) ▸ hpol))
    · exact (hpol.map _).nodup_iff.mpr ho.policyNames

theorem described_tables {db : List Relation} {cat : Pg.Catalog} (h : Answers db cat) (hs : Sound db) {own : Str × Str → Described}
    (hd : ServerSays db own) : ∃ ds, List.Forall₂ (fun t d => CatalogSays cat t.1 t.2 d ∧ Orderly cat t.1 t.2 d) cat.tables ds ∧
      List.Forall₂ (fun t d => SameDescribed d (own t)) cat.tables ds := by
  have key : ∀ t ∈ cat.tables, ∃ e, SameDescribed e (own t) ∧ CatalogSays cat t.1 t.2 e ∧ Orderly cat t.1 t.2 e := by
    intro t ht
    obtain ⟨r, hr, hsh, rfl⟩ := ((answers_tables h hs).2 t).mp ht
    exact says_of_own h hs hr (hd.kind r hr hsh) (hd.apart r hr hsh) (hd.simple r hr hsh) (hd.described r hr hsh).1 (hd.described r hr hsh).2
  revert key
  generalize cat.tables = ts
  intro key
  induction ts with
  | nil => exact ⟨[], .nil, .nil⟩
  | cons t ts ih =>
    obtain ⟨ds, h1, h2⟩ := ih fun t ht => key t (by simp [ht])
    obtain ⟨e, h3, h4⟩ := key t (by simp)
    exact ⟨e :: ds, .cons h4 h1, .cons h3 h2⟩

theorem same_sentences {own : Str × Str → Described} {ts : List (Str × Str)} {ds : List Described}
    (h : List.Forall₂ (fun t d => SameDescribed d (own t)) ts ds) :
    (ds.flatMap Described.sentences).Perm (ts.flatMap fun t => (own t).sentences) := by
  induction h with
  | nil => exact .refl _
  | cons h1 _ ih => exact (sameDescribed_sentences h1).append ih

/-- Whatever the server answers, and in whatever order the file has the statements. -/
theorem server_same (fmtFloat : Str → Str) {σ : Type} (db : Db σ) (server : σ → List Relation) (cat : σ → Pg.Catalog) (s : σ)
    (hs : Sound (server s)) (ha : Answers (server s) (cat s)) (hv : (cat s).views = []) {own : Str × Str → Described}
    (hd : ServerSays (server s) own) {o : Options} {fs : Files} (he : o.export_ = false) {file : Str}
    (hr : readFile fs o.sqlFile = .ok file) {ss : List Sentence} (hp : ss.Perm ((tablesQuery (server s)).flatMap fun t => (own t).sentences))
    (hf : Contains .postgres file ss) {defs : List DDL} (hdefs : parseDDLs (Sql.env fmtFloat) .postgres file = .ok defs)
    (hw : WellFormedCurrent defs) :
    run (Sql.env fmtFloat) .postgres (Pg.database db cat) fs o s =
      { events := [.readFile, .print (lit "-- Nothing is modified --\n")], err := none, state := s } := by
  obtain ⟨ds, h1, h2⟩ := described_tables ha hs hd
  have h1' := forall₂_imp (fun _ _ hx => And.left hx) h1
  obtain ⟨text, t1, t2, -, -⟩ := dump_contains db cat s h1' hv
  obtain ⟨defs', d1, d2, -⟩ := C57_file_is_understood fmtFloat .postgres text _ t2 (all_clear h1')
  have hn := described_normal (answers_tables ha hs).1 h1 d2
  have hperm : (ds.flatMap Described.sentences).Perm ss :=
    (same_sentences h2).trans ((ha.tables.flatMap_right _).trans hp.symm)
  -- the definitions of the file are those of the dump in another order
  obtain ⟨cs, c1, c2⟩ := reordered_definitions fmtFloat .postgres hperm.symm t2 hf (all_clear h1') d1 hdefs
  have hpk : ∀ s n i, .addPrimaryKey s n i ∉ cs := fun s n i hm => by
    obtain ⟨pre, post, e⟩ := List.append_of_mem (c1.mem_iff.mp hm)
    exact (hn.wellFormed pre _ post e).elim
  have hnd : Normal .postgres defs := normal_same c2 (normal_perm c1.symm hn (wellFormedCurrent_same c2 hw hpk))
  have hg := reordered_nothing fmtFloat .postgres hperm hf t2 (fun s hs => all_clear h1' s (hperm.mem_iff.mpr hs)) hdefs hnd d1
    (wellFormedCurrent_of_wellFormed hn.wellFormed hn.noAddIndex)
  simp only [run, t1, he, hr, hg]
  rfl

end Sqldef
