import Verif.Proofs.MsQuery
import Verif.Proofs.MsNormal
import Verif.Proofs.RearrangedFile
import Verif.Proofs.MsObjectDump
/-
Runs against a SQL Server that answers the queries of the adapter in any order.
-/
namespace Sqldef
open Spec Spec.MsServer Dumped Written Ms

/-! ### The server has an answer -/

theorem map_some_filterMap {α : Type} {l : List (Option α)} (h : none ∉ l) : (l.filterMap id).map some = l := by
  induction l with
  | nil => rfl
  | cons a l ih =>
    simp only [List.mem_cons, not_or] at h
    cases a with
    | none => exact absurd rfl h.1
    | some a =>
      change some a :: (l.filterMap id).map some = _
      rw [ih h.2]

/-- One of the answers of the server. -/
def msSomeAnswer (srv : Server) : Ms.Catalog where
  tables := tablesQuery srv
  columns schema table := (columnsQuery srv schema table).filterMap id
  indexes schema table := (indexesQuery srv schema table).filterMap id
  indexColumns schema table := (indexColumnsQuery srv schema table).filterMap id
  foreignKeys schema table := (foreignKeysQuery srv schema table).filterMap id
  views := (viewsQuery srv).filterMap id
  triggers := (triggersQuery srv).filterMap id

theorem msAnswers_some {srv : Server} (hs : Sound srv) : Answers srv (msSomeAnswer srv) := by
  refine ⟨.refl _, fun schema table => .of_eq (map_some_filterMap ?_), fun schema table => .of_eq (map_some_filterMap ?_),
    fun schema table => .of_eq (map_some_filterMap ?_), fun schema table => .of_eq (map_some_filterMap ?_),
    .of_eq (map_some_filterMap ?_), .of_eq (map_some_filterMap ?_)⟩
  · simp only [columnsQuery, List.mem_flatMap, List.mem_map, not_exists, not_and]
    intro c hc t _ cc _ ic hic e
    have hc := (List.mem_filter.mp hc).1
    have h2 : ∃ x, columnDefault srv c = some x := by
      by_cases hd : c.defaultObjectId = 0
      · simp [columnDefault, hd]
      · obtain ⟨k, hk, h1, h2⟩ := hs.defaults c hc hd
        have : (srv.objects.find? fun o => o.id = c.defaultObjectId) = some k :=
          (key_one hs.objectIds hk fun b _ => by simp [h1]).2
        obtain ⟨x, hx⟩ := Option.ne_none_iff_exists'.mp h2
        simp [columnDefault, hd, objectName, objectDefinition, this, hx]
    have h1 : ∃ x, columnIdentity c ic = some x := by
      by_cases hi : c.isIdentity = true
      · obtain ⟨i, hi1, hi2⟩ := hs.identities c hc hi
        rw [columnIdentity, if_pos hi]
        have hm : i ∈ srv.identities.filter fun ic => c.objectId = ic.objectId ∧ ic.columnId = c.columnId :=
          List.mem_filter.mpr ⟨hi1, by simp [hi2]⟩
        rw [Pg.leftJoin] at hic
        split at hic
        · rename_i he
          rw [List.isEmpty_iff.mp he] at hm
          cases hm
        · obtain ⟨j, -, rfl⟩ := List.mem_map.mp hic
          simp
      · exact ⟨none, by rw [columnIdentity, if_neg hi]⟩
    obtain ⟨x, hx⟩ := h1
    obtain ⟨y, hy⟩ := h2
    rw [columnsRow, hx, hy] at e
    cases e
  · simp only [indexesQuery, List.mem_flatMap, List.mem_map, not_exists, not_and]
    intro i hi st hst e
    obtain ⟨hst, h⟩ := List.mem_filter.mp hst
    simp only [decide_eq_true_eq] at h
    obtain ⟨n, hn⟩ := Option.ne_none_iff_exists'.mp (hs.named i (List.mem_filter.mp hi).1 (by rw [h.2]; exact hs.numbered st hst))
    simp [indexesRow, hn] at e
  · simp only [indexColumnsQuery, List.mem_flatMap, List.mem_map, not_exists, not_and]
    intro i hi ic hic e
    obtain ⟨hic, h⟩ := List.mem_filter.mp hic
    simp only [decide_eq_true_eq] at h
    obtain ⟨h0, -, hk⟩ := hs.indexColumns ic hic
    obtain ⟨n, hn⟩ := Option.ne_none_iff_exists'.mp (hs.named i (List.mem_filter.mp hi).1 (by rw [h.2]; exact h0))
    simp [indexColumnsRow, hn, colName_eq hk] at e
  · simp only [foreignKeysQuery, List.mem_flatMap, List.mem_map, not_exists, not_and]
    intro f hf fc hfc e
    obtain ⟨hfc, h⟩ := List.mem_filter.mp hfc
    simp only [decide_eq_true_eq] at h
    obtain ⟨h1, h2⟩ := hs.foreignKeys f (List.mem_filter.mp hf).1
    obtain ⟨h3, h4⟩ := h2 fc hfc h.symm
    simp [foreignKeysRow, colName_eq h3, colName_eq h4, objectName_eq h1] at e
  · simp only [viewsQuery, List.mem_map, not_exists, not_and]
    intro o ho e
    obtain ⟨ho, hk⟩ := List.mem_filter.mp ho
    exact hs.stored o ho (.inl (by simpa using hk)) e
  · simp only [triggersQuery, List.mem_map, not_exists, not_and]
    intro o ho e
    obtain ⟨ho, hk⟩ := List.mem_filter.mp ho
    exact hs.stored o ho (.inr (by simpa using hk)) e

theorem map_some_perm {α β : Type} {l : List α} {f : β → Option α} {g : β → α} {m : List β} (h : (l.map some).Perm (m.map f))
    (hg : ∀ b ∈ m, f b = some (g b)) : l.Perm (m.map g) := by
  rw [List.map_congr_left (g := fun b => some (g b)) hg] at h
  have := h.filterMap id
  rwa [List.filterMap_map, List.filterMap_map, show (id ∘ some : α → Option α) = some from rfl, List.filterMap_some,
    show (id ∘ fun b => some (g b)) = (some ∘ g) from rfl, List.filterMap_eq_map] at this

theorem msAnswers_views {srv : Server} {cat : Ms.Catalog} (h : Answers srv cat) (hs : Sound srv) :
    cat.views.Perm (ownViews srv) ∧ cat.triggers.Perm (ownTriggers srv) := by
  constructor
  · refine map_some_perm h.views fun o ho => ?_
    obtain ⟨ho, hk⟩ := List.mem_filter.mp ho
    obtain ⟨x, hx⟩ := Option.ne_none_iff_exists'.mp (hs.stored o ho (.inl (by simpa using hk)))
    simp [hx]
  · refine map_some_perm h.triggers fun o ho => ?_
    obtain ⟨ho, hk⟩ := List.mem_filter.mp ho
    obtain ⟨x, hx⟩ := Option.ne_none_iff_exists'.mp (hs.stored o ho (.inr (by simpa using hk)))
    simp [hx]

/-! ### What two answers stand for -/

theorem msIndex_reordered {cs cs' : List Ms.IndexColumnRow} {r : Ms.IndexRow} {clustered : Option Bool} {first : IndexCol} {rest : List IndexCol}
    {included : Option (Str × List Str)} (h : MsIndexSays cs r clustered first rest included)
    (hk : ∀ b : Bool, (msColumnsOf cs' r).filter (fun c => c.isIncluded = b) = (msColumnsOf cs r).filter fun c => c.isIncluded = b) :
    MsIndexSays cs' r clustered first rest included := by
  have h1 : ((msColumnsOf cs' r).filter fun c => c.isIncluded) = (msColumnsOf cs r).filter fun c => c.isIncluded := by
    simpa using hk true
  have h2 : ((msColumnsOf cs' r).filter fun c => !c.isIncluded) = (msColumnsOf cs r).filter fun c => !c.isIncluded := by
    simpa using hk false
  refine ⟨h.name, h.kind, by rw [h2]; exact h.columns, fun c hc => ?_, by rw [h1]; exact h.included, h.fillfactor⟩
  have hm : c ∈ (msColumnsOf cs r).filter (fun x => x.isIncluded = c.isIncluded) := by
    rw [← hk]
    exact List.mem_filter.mpr ⟨hc, by simp⟩
  exact h.names c (List.mem_filter.mp hm).1

theorem forall₂_mem_imp {α β : Type} {R S : α → β → Prop} {as : List α} {bs : List β} (h : List.Forall₂ R as bs)
    (hi : ∀ a ∈ as, ∀ b, R a b → S a b) : List.Forall₂ S as bs := by
  induction h with
  | nil => exact .nil
  | cons hx _ ih => exact .cons (hi _ (by simp) _ hx) (ih fun a ha => hi a (by simp [ha]))

/-- The rows of a table in another order stand for the same statements, with their items in another order. -/
theorem msSays_reordered {cat cat' : Ms.Catalog} {schema name : Str} {d : MsDescribed} (h : MsCatalogSays cat schema name d)
    (hc : (cat'.columns schema name).Perm (cat.columns schema name)) (hi : (cat'.indexes schema name).Perm (cat.indexes schema name))
    (hf : (cat'.foreignKeys schema name).Perm (cat.foreignKeys schema name))
    (hk : ∀ r ∈ cat.indexes schema name, ∀ b : Bool, (msColumnsOf (cat'.indexColumns schema name) r).filter (fun c => c.isIncluded = b) =
      (msColumnsOf (cat.indexColumns schema name) r).filter fun c => c.isIncluded = b) :
    ∃ d', MsCatalogSays cat' schema name d' ∧ List.Forall₂ SameItems d.sentences d'.sentences := by
  obtain ⟨cs, p, fs, h1, h2, h3, h4⟩ := h.items
  obtain ⟨ws, hw, hwp⟩ := List.perm_comp_forall₂ hc h1
  obtain ⟨gs, hg, hgp⟩ := List.perm_comp_forall₂ hf h3
  have e1 := perm_short (hi.filter fun r => r.isPrimary) (h2.length_eq ▸ optionList_length p)
  have e2 := perm_short (hi.filter fun r => !r.isPrimary) (h.index.length_eq ▸ optionList_length d.index)
  cases ws with
  | nil => exact absurd hwp.length_eq (by simp)
  | cons w ws =>
  refine ⟨{ table := { d.table with first := w, rest := ws.map Item.column ++ p.toList.map Item.primaryKey ++ gs.map Item.foreignKey },
            index := d.index }, ⟨h.bare, h.ref, ⟨ws, p, gs, hw, ?_, hg, rfl⟩, ?_, h.fresh, h.options⟩, ?_⟩
  · rw [e1]
    refine forall₂_mem_imp h2 fun r hr q hq => ?_
    obtain ⟨a, b, c, e, hx, rfl⟩ := hq
    exact ⟨a, b, c, e, msIndex_reordered hx (hk r (List.mem_filter.mp hr).1), rfl⟩
  · rw [e2]
    refine forall₂_mem_imp h.index fun r hr q hq => ?_
    obtain ⟨a, b, c, e, hx, rfl⟩ := hq
    exact ⟨a, b, c, e, msIndex_reordered hx (hk r (List.mem_filter.mp hr).1), rfl⟩
  · refine .cons (.table rfl ?_ rfl) ?_
    · have a1 : (d.table.items) = (d.table.first :: cs).map Item.column ++ (p.toList.map Item.primaryKey ++ fs.map Item.foreignKey) := by
        rw [Written.Table.items, h4]
        simp
      have a2 : Item.column w :: (ws.map Item.column ++ p.toList.map Item.primaryKey ++ gs.map Item.foreignKey) =
          (w :: ws).map Item.column ++ (p.toList.map Item.primaryKey ++ gs.map Item.foreignKey) := by simp
      rw [a1]
      change List.Perm _ (Item.column w :: (ws.map Item.column ++ p.toList.map Item.primaryKey ++ gs.map Item.foreignKey))
      rw [a2]
      exact (hwp.symm.map _).append ((List.Perm.refl _).append (hgp.symm.map _))
    · exact List.forall₂_same.mpr fun s _ => .same s

/-! ### Keys -/

theorem msColumn_noKey {r : Ms.Column} {c : Col} (h : MsColumnSays r c) : c.meaning.type.keyOpt = .none := by
  obtain ⟨d, g, k, hd, hg, hk, ho⟩ := h.options
  have h0 : c.type.meaning.keyOpt = .none := by cases c.type <;> rfl
  rw [Col.meaning, ho]
  generalize r.defaultName = n at hd
  generalize r.defaultVal = x at hd
  generalize r.identity = y at hg
  generalize r.check = z at hk
  cases hg with
  | none => cases hd <;> cases hk <;> cases r.nullable <;> exact h0
  | @identity i _ _ => cases hd <;> cases hk <;> cases r.nullable <;> cases i.notForReplication <;> exact h0

theorem msTable_oneKey {cat : Ms.Catalog} {schema name : Str} {d : MsDescribed} (h : MsCatalogSays cat schema name d) {text : Str} {u : Sqldef.Table}
    (hd : SaysTheSame .mssql (DDL.createTable text u).statement (Sentence.meaning (.table d.table)) (.createTable text u)) : OneKey u := by
  obtain ⟨cs, p, fs, hc, hp, hf, hr⟩ := h.items
  have hspec : d.table.spec = { columns := (d.table.first :: cs).map Col.meaning, indexes := p.toList.map Pk.meaning,
                                foreignKeys := fs.map Fk.meaning } := by
    unfold Written.Table.spec
    rw [hr, msSpec]
    rfl
  cases hd with
  | @createTable _ spec _ hsp _ hcol hi _ _ =>
    have hx : d.table.meaning.tableSpec = some spec := hsp
    simp only [Written.Table.meaning, Option.some.injEq] at hx
    rw [← hx, hspec] at hi hcol
    refine ⟨?_, ?_⟩
    · refine Nat.le_trans (List.length_filter_le _ _) ?_
      rw [← hi.1, List.length_map]
      exact optionList_length p
    · rw [List.filter_eq_nil_iff.mpr]
      · simp
      · intro c hm
        obtain ⟨i, a, ha, hk⟩ := listRel_of_mem hcol hm
        obtain ⟨q, hq, rfl⟩ := List.mem_map.mp ha
        obtain ⟨r, -, hx⟩ := forall₂_right hc q hq
        have := hk.key
        rw [msColumn_noKey hx] at this
        revert this
        cases c.keyOption <;> intro this <;> cases this
        simp

theorem msAll_oneKey {cat : Ms.Catalog} {ts : List (Str × Str)} {ds : List MsDescribed}
    (h : List.Forall₂ (fun t d => MsCatalogSays cat t.1 t.2 d) ts ds) {defs : List DDL}
    (hd : List.Forall₂ (fun s d => SaysTheSame .mssql d.statement (Sentence.meaning s) d ∧ s.Kind d) (ds.flatMap MsDescribed.sentences) defs)
    (text : Str) (u : Sqldef.Table) (hu : DDL.createTable text u ∈ defs) : OneKey u := by
  obtain ⟨x, hx, h1, h2⟩ := forall₂_right hd _ hu
  obtain ⟨d, hdm, hx⟩ := List.mem_flatMap.mp hx
  obtain ⟨t, -, ht⟩ := forall₂_right h d hdm
  rcases List.mem_cons.mp hx with rfl | hx
  · exact msTable_oneKey ht h1
  · obtain ⟨i, -, rfl⟩ := List.mem_map.mp hx
    obtain ⟨_, _, _, e⟩ := h2
    cases e

/-! ### Orders of the columns of indexes -/

theorem map_filter_length {α β : Type} {f : α → β} {p : β → Bool} {q : α → Bool} {l : List α} (h : ∀ a ∈ l, p (f a) = true → q a = true) :
    ((l.map f).filter p).length ≤ (l.filter q).length := by
  rw [List.filter_map, List.length_map]
  rw [← filter_within (p := p ∘ f) (q := q) h]
  exact List.length_filter_le _ _

theorem sameKeyOrder_single {srv : Server} {cat cat' : Ms.Catalog} (hs : Sound srv) (hp : ∀ o, IsTable srv o → Simple srv o)
    (h1 : SingleKeys srv) (hq : Answers srv cat) (hq' : Answers srv cat') : SameKeyOrder cat cat' := by
  intro t ht r hr b
  obtain ⟨o, ho, rfl⟩ := (msAnswers_tables hq hs).2 t |>.mp ht
  obtain ⟨-, a2, a3, -⟩ := msAnswers_own hq hs ho (hp o ho)
  obtain ⟨-, -, b3, -⟩ := msAnswers_own hq' hs ho (hp o ho)
  have hperm := (b3.trans a3.symm).filter fun c => c.indexName = r.name
  refine perm_short (hperm.filter _) ?_
  rw [msColumnsOf, ((a3.filter _).filter _).length_eq]
  obtain ⟨i, hi, rfl⟩ := List.mem_map.mp (a2.mem_iff.mp hr)
  obtain ⟨hi, hio⟩ := List.mem_filter.mp hi
  simp only [decide_eq_true_eq] at hio
  refine Nat.le_trans ?_ (h1 i hi b)
  rw [List.filter_filter, ownIndexColumns]
  refine Nat.le_trans (map_filter_length (q := fun c => c.indexId = i.indexId ∧ c.isIncluded = b) fun c hc h => ?_) ?_
  · obtain ⟨hc, hco⟩ := List.mem_filter.mp hc
    simp only [Bool.and_eq_true, decide_eq_true_eq] at h hco ⊢
    obtain ⟨h0, ⟨j, hj, j1, j2⟩, -⟩ := hs.indexColumns c hc
    have hf : indexOf srv c.objectId c.indexId = some j := (key_one hs.indexIds hj fun b _ => by simp [j1, j2]).2
    obtain ⟨m, hm⟩ := Option.ne_none_iff_exists'.mp (hs.named j hj (by rw [j2]; exact h0))
    obtain ⟨n, hn⟩ := Option.ne_none_iff_exists'.mp (hs.named i hi hio.2)
    have hmn : m = n := by
      have := h.2
      simp only [ownIndexColumn, ownIndex, hf, Option.elim_some, hm, hn, Option.getD_some] at this
      exact this
    have : j = i := List.inj_on_of_nodup_map hs.indexNames (List.mem_filter.mpr ⟨hj, by simpa [j2] using h0⟩)
      (List.mem_filter.mpr ⟨hi, by simpa using hio.2⟩) (by simp [j1, hco, hio.1, hm, hn, hmn])
    exact ⟨by rw [← j2, this], h.1⟩
  · rw [List.filter_filter]
    refine Nat.le_of_eq (congrArg List.length (List.filter_congr fun c _ => ?_))
    rw [← Bool.decide_and]
    refine decide_eq_decide.mpr ?_
    rw [hio.1]
    exact ⟨fun h => ⟨h.2, h.1⟩, fun h => ⟨h.2, h.1⟩⟩

/-! ### Runs -/

theorem msServer_reordered {srv : Server} {cat cat' : Ms.Catalog} (hs : Sound srv) (hp : ∀ o, IsTable srv o → Simple srv o)
    (hq : Answers srv cat) (hq' : Answers srv cat') (hk : SameKeyOrder cat cat') {ts : List (Str × Str)} {ds : List MsDescribed}
    (ht : ∀ t ∈ ts, t ∈ cat.tables) (h : List.Forall₂ (fun t d => MsCatalogSays cat t.1 t.2 d) ts ds) :
    ∃ ds', List.Forall₂ (fun t d => MsCatalogSays cat' t.1 t.2 d) ts ds' ∧
      List.Forall₂ SameItems (ds.flatMap MsDescribed.sentences) (ds'.flatMap MsDescribed.sentences) := by
  induction h with
  | nil => exact ⟨[], .nil, .nil⟩
  | @cons t d ts ds hd _ ih =>
    obtain ⟨ds', h1, h2⟩ := ih fun t ht' => ht t (by simp [ht'])
    obtain ⟨o, ho, rfl⟩ := (msAnswers_tables hq hs).2 t |>.mp (ht t (by simp))
    obtain ⟨a1, a2, -, a4⟩ := msAnswers_own hq hs ho (hp o ho)
    obtain ⟨b1, b2, -, b4⟩ := msAnswers_own hq' hs ho (hp o ho)
    obtain ⟨d', h3, h4⟩ := msSays_reordered hd (b1.trans a1.symm) (b2.trans a2.symm) (b4.trans a4.symm) (hk _ (ht _ (by simp)))
    exact ⟨d' :: ds', .cons h3 h1, forall₂_both h4 h2⟩

theorem everything_same {xs ys : List Sentence} (vs : List NewView) (gs : List NewTrigger) (h : List.Forall₂ SameItems xs ys) :
    List.Forall₂ SameStatement (everything xs vs gs) (everything ys vs gs) := by
  refine forall₂_both (forall₂_both (forall₂_map (forall₂_imp (fun _ _ hx => .sentence hx) h)) ?_) ?_
  · exact List.forall₂_same.mpr fun s hs => by obtain ⟨v, -, rfl⟩ := List.mem_map.mp hs; exact .view v
  · exact List.forall₂_same.mpr fun s hs => by obtain ⟨v, -, rfl⟩ := List.mem_map.mp hs; exact .trigger v

theorem everything_tables {mode : Mode} {xs : List Sentence} {vs : List NewView} {gs : List NewTrigger} {ds : List DDL}
    (hd : List.Forall₂ (fun s d => Statement.DefinedAs mode s d) (everything xs vs gs) ds) :
    ∃ ds1, List.Forall₂ (fun s d => SaysTheSame mode d.statement (Sentence.meaning s) d ∧ s.Kind d) xs ds1 ∧
      ∀ s t, DDL.createTable s t ∈ ds → DDL.createTable s t ∈ ds1 := by
  obtain ⟨both, ds3, g1, g2, rfl⟩ := forall₂_split hd
  obtain ⟨ds1, ds2, g3, g4, rfl⟩ := forall₂_split g1
  refine ⟨ds1, forall₂_unmap g3, fun s t ht => ?_⟩
  rcases List.mem_append.mp ht with ht | ht
  · rcases List.mem_append.mp ht with ht | ht
    · exact ht
    · obtain ⟨x, -, hx⟩ := forall₂_right (forall₂_unmap g4) _ ht
      cases hx
  · obtain ⟨x, -, hx⟩ := forall₂_right (forall₂_unmap g2) _ ht
    cases hx

theorem everything_perm {xs ys : List Sentence} {vs ws : List NewView} {gs hs : List NewTrigger} (h1 : xs.Perm ys) (h2 : vs.Perm ws)
    (h3 : gs.Perm hs) : (everything xs vs gs).Perm (everything ys ws hs) :=
  ((h1.map _).append (h2.map _)).append (h3.map _)

theorem msServer_same (fmtFloat : Str → Str) {σ : Type} {db : Db σ} {cat : σ → Ms.Catalog} (ha : MsAdapter db cat) (s : σ)
    {srv : Server} {cat0 : Ms.Catalog} (hs : Sound srv) (hp : ∀ o, IsTable srv o → Simple srv o) (hq0 : Answers srv cat0) (hq : Answers srv (cat s))
    (hk : SameKeyOrder cat0 (cat s)) {ds : List MsDescribed} {vs : List NewView} {gs : List NewTrigger} (hn : (cat0.tables.map (·.2)).Nodup)
    (hv : ViewsDiffer vs) (hg : TriggersDiffer gs) (h : MsDatabaseSays cat0 ds vs gs)
    {fs : Files} {o : Options} (he : o.export_ = false) {file : Str} (hr : readFile fs o.sqlFile = .ok file)
    (hf : Consists .mssql file (everything (ds.flatMap MsDescribed.sentences) vs gs)) :
    run (Sql.env fmtFloat) .mssql db fs o s =
      { events := [.readFile, .print (lit "-- Nothing is modified --\n")], err := none, state := s } := by
  have orderly : ∀ {c : Ms.Catalog}, Answers srv c → ∀ t ∈ c.tables, MsOrderly c t.1 t.2 := fun hc t ht => by
    obtain ⟨o, ho, rfl⟩ := (msAnswers_tables hc hs).2 t |>.mp ht
    exact msAnswers_orderly hc hs ho (hp o ho)
  have hpt : (cat s).tables.Perm cat0.tables := hq.tables.trans hq0.tables.symm
  have hpv : (cat s).views.Perm cat0.views := (msAnswers_views hq hs).1.trans (msAnswers_views hq0 hs).1.symm
  have hpg : (cat s).triggers.Perm cat0.triggers := (msAnswers_views hq hs).2.trans (msAnswers_views hq0 hs).2.symm
  obtain ⟨ds1, h1, h2⟩ := msServer_reordered hs hp hq0 hq hk (fun _ h => h) h.tables
  obtain ⟨ds2, h3, h4⟩ := List.perm_comp_forall₂ hpt h1
  obtain ⟨vs2, h5, h6⟩ := List.perm_comp_forall₂ hpv h.views
  obtain ⟨gs2, h7, h8⟩ := List.perm_comp_forall₂ hpg h.triggers
  have h' : MsDatabaseSays (cat s) ds2 vs2 gs2 := ⟨h3, h5, h7⟩
  have hv' : ViewsDiffer vs2 := (h6.map _).nodup_iff.mpr hv
  have hg' : TriggersDiffer gs2 := (h8.map _).nodup_iff.mpr hg
  have hc := everything_clear (msAll_clear h.tables) (msViews_clear h.views) (msTriggers_clear h.triggers)
  have hc' := everything_clear (msAll_clear h'.tables) (msViews_clear h'.views) (msTriggers_clear h'.triggers)
  obtain ⟨text, t1, t2, -, -⟩ := ms_everything ha s h'
  obtain ⟨defs, f1, f2, -⟩ := C67_file_is_understood fmtFloat .mssql file _ hf hc
  obtain ⟨defs', g1, g2, -⟩ := C67_file_is_understood fmtFloat .mssql text _ t2 hc'
  have hnorm := everything_normal f2 (fun _ hx => msDescribed_normal hn (forall₂_with h.tables (orderly hq0)) hx) hv hg
  have hnorm' := everything_normal g2
    (fun _ hx => msDescribed_normal ((hpt.map _).nodup_iff.mpr hn) (forall₂_with h'.tables (orderly hq)) hx) hv' hg'
  have hone : ∀ x u, DDL.createTable x u ∈ defs → OneKey u := by
    obtain ⟨ds3, k1, k2⟩ := everything_tables f2
    exact fun x u hu => msAll_oneKey h.tables k1 x u (k2 x u hu)
  have hgen := file_rearranged_nothing fmtFloat (by decide) (everything_same vs gs h2) (everything_perm (h4.symm.flatMap_right _) h6.symm h8.symm) hf t2
    hc f1 hnorm hone g1 (wellFormedCurrent_of_wellFormed hnorm'.wellFormed hnorm'.noAddIndex)
  simp only [run, t1, he, hr, hgen]
  rfl

end Sqldef
