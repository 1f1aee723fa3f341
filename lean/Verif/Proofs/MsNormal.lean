import Verif.Proofs.MsFile
/-
The dump of a SQL Server database is read as definitions in normal form.
-/
namespace Sqldef
open Spec Written Dumped

/-! ### The statements are clear -/

theorem forall₂_right {α β : Type} {R : α → β → Prop} {as : List α} {bs : List β} (h : List.Forall₂ R as bs) :
    ∀ b ∈ bs, ∃ a ∈ as, R a b := by
  induction h with
  | nil => simp
  | cons hr _ ih =>
    intro b hb
    rcases List.mem_cons.mp hb with rfl | hb
    · exact ⟨_, by simp, hr⟩
    · obtain ⟨a, ha, h⟩ := ih b hb
      exact ⟨a, by simp [ha], h⟩

theorem msType_known {r : Ms.Column} {ty : Ty} (h : MsTypeSays r ty) : ty.Known := by
  cases h with
  | @plain name _ hm _ =>
    simp only [msPlainTypes, List.mem_cons, List.not_mem_nil, or_false, Prod.mk.injEq] at hm
    rcases hm with ⟨-, rfl⟩ | ⟨-, rfl⟩ | ⟨-, rfl⟩ | ⟨-, rfl⟩ | ⟨-, rfl⟩ | ⟨-, rfl⟩ | ⟨-, rfl⟩ | ⟨-, rfl⟩ | ⟨-, rfl⟩ | ⟨-, rfl⟩ | ⟨-, rfl⟩ |
      ⟨-, rfl⟩ | ⟨-, rfl⟩ | ⟨-, rfl⟩ | ⟨-, rfl⟩ | ⟨-, rfl⟩ | ⟨-, rfl⟩ | ⟨-, rfl⟩ | ⟨-, rfl⟩ | ⟨-, rfl⟩ | ⟨-, rfl⟩ <;>
      (simp only [Ty.Known]; decide)
  | @sized name ty hm _ _ =>
    simp only [msSizedTypes, List.mem_cons, List.not_mem_nil, or_false, Prod.mk.injEq] at hm
    rcases hm with ⟨-, rfl⟩ | ⟨-, rfl⟩ | ⟨-, rfl⟩ | ⟨-, rfl⟩ <;> (simp only [Ty.Known]; decide)

theorem msColumn_clear {r : Ms.Column} {c : Col} (h : MsColumnSays r c) : c.Clear := by
  obtain ⟨d, g, k, hd, hg, hk, ho⟩ := h.options
  have ht := msType_known h.type
  generalize r.defaultName = n at hd
  generalize r.defaultVal = x at hd
  generalize r.identity = y at hg
  generalize r.check = z at hk
  refine ⟨ht, ?_, ?_⟩
  · rw [ho]
    cases hg with
    | none => cases hd <;> cases hk <;> cases r.nullable <;> simp [clearOptions]
    | @identity i _ _ =>
      cases hd <;> cases hk <;> cases r.nullable <;> cases i.notForReplication <;> simp [clearOptions, ColOption.isIdentity]
  · rw [ho]
    intro o hm
    simp only [List.mem_append] at hm
    rcases hm with ((hm | hm) | hm) | hm
    · split at hm <;> simp at hm
      subst hm
      trivial
    · cases hd <;> simp at hm
      subst hm
      trivial
    · cases hg with
      | none => simp at hm
      | @identity i _ _ =>
        rcases List.mem_cons.mp hm with rfl | hm
        · trivial
        · split at hm <;> simp at hm
          subst hm
          trivial
    · cases hk with
      | none => simp at hm
      | check _ hg _ hp hl =>
        simp at hm
        subst hm
        exact ⟨hg, hp, hl⟩

theorem msOptions_known (r : Ms.IndexRow) : ∀ o ∈ (msIndexOptions r).all, o.Known := by
  intro o ho
  simp only [msIndexOptions, IndexOpts.all, List.mem_cons, List.not_mem_nil, or_false] at ho
  rcases ho with rfl | rfl | rfl | rfl | rfl | rfl | rfl <;> first | exact trivial | (simp only [IndexOpt.Known]; decide)

theorem msCols_range {rs : List Ms.IndexColumnRow} {first : IndexCol} {rest : List IndexCol} (h : rs.map msIndexCol = first :: rest) :
    ∀ c ∈ first :: rest, c.length = none := by
  rw [← h]
  intro c hc
  obtain ⟨r, -, rfl⟩ := List.mem_map.mp hc
  rfl

theorem msSentences_clear {cat : Ms.Catalog} {schema name : Str} {d : MsDescribed} (h : MsCatalogSays cat schema name d) :
    ∀ s ∈ d.sentences, s.Clear ∧ s.InRange := by
  obtain ⟨cs, p, fs, hc, hp, hf, hr⟩ := h.items
  intro s hs
  simp only [MsDescribed.sentences, List.mem_cons, List.mem_map] at hs
  have hall : ∀ c ∈ d.table.first :: cs, c.Clear := by
    intro c hm
    obtain ⟨r, -, hx⟩ := forall₂_right hc c hm
    exact msColumn_clear hx
  rcases hs with rfl | ⟨i, hi, rfl⟩
  · refine ⟨⟨hall _ (by simp), ?_, by rw [h.options]; simp⟩, ?_⟩
    · intro i hi
      rw [hr, List.mem_append, List.mem_append] at hi
      rcases hi with (hi | hi) | hi
      · obtain ⟨c, hm, rfl⟩ := List.mem_map.mp hi
        exact hall c (by simp [hm])
      · obtain ⟨q, hm, rfl⟩ := List.mem_map.mp hi
        obtain ⟨r, -, _, _, _, _, _, rfl⟩ := forall₂_right hp q hm
        exact msOptions_known r
      · obtain ⟨f, hm, rfl⟩ := List.mem_map.mp hi
        trivial
    · intro c hm n hn
      exfalso
      simp only [Sentence.indexColumns, hr, List.flatMap_append, List.mem_append, List.mem_flatMap, List.mem_map] at hm
      rcases hm with (⟨i, ⟨k, -, rfl⟩, hm⟩ | ⟨i, ⟨q, hq, rfl⟩, hm⟩) | ⟨i, ⟨f, -, rfl⟩, hm⟩
      · simp [Item.indexColumns] at hm
      · obtain ⟨r, -, _, _, _, _, hx, rfl⟩ := forall₂_right hp q hq
        have := msCols_range hx.columns c hm
        rw [this] at hn
        cases hn
      · simp [Item.indexColumns] at hm
  · obtain ⟨r, -, _, _, _, _, hx, rfl⟩ := forall₂_right h.index i hi
    refine ⟨⟨?_, msOptions_known r⟩, ?_⟩
    · intro e he
      cases he
    · intro c hm n hn
      have := msCols_range hx.columns c hm
      rw [this] at hn
      cases hn

theorem msAll_clear {cat : Ms.Catalog} {ts : List (Str × Str)} {ds : List MsDescribed}
    (h : List.Forall₂ (fun t d => MsCatalogSays cat t.1 t.2 d) ts ds) : ∀ s ∈ ds.flatMap MsDescribed.sentences, s.Clear ∧ s.InRange := by
  intro s hs
  obtain ⟨d, hd, hs⟩ := List.mem_flatMap.mp hs
  obtain ⟨t, -, hx⟩ := forall₂_right h d hd
  exact msSentences_clear hx s hs

/-! ### The dump of the database -/

theorem msTables_glued {σ : Type} {db : Db σ} {cat : σ → Ms.Catalog} (ha : MsAdapter db cat) (s : σ) {ts : List (Str × Str)} {ds : List MsDescribed}
    (h : List.Forall₂ (fun t d => MsCatalogSays (cat s) t.1 t.2 d) ts ds) :
    ∃ ps : List (List Str × Str), dumpTables db s (ts.map fun t => t.1 ++ lit "." ++ t.2) = .ok (ps.map (·.2)) ∧
      (∀ p ∈ ps, Glued p.1 p.2) ∧ (ps = [] ↔ ts = []) ∧
      List.Forall₂ (TextReads .mssql) (ps.flatMap (·.1)) (ds.flatMap MsDescribed.sentences) := by
  induction h with
  | nil => exact ⟨[], rfl, by simp, by simp, .nil⟩
  | @cons t d ts ds hd _ ih =>
    obtain ⟨ps, h1, h2, -, h4⟩ := ih
    obtain ⟨text, g0, g1⟩ := ha.dumpTableDDL s (t.1 ++ lit "." ++ t.2)
    obtain ⟨texts, g2, g3⟩ := msTable_glued hd g1
    refine ⟨(texts, text) :: ps, ?_, ?_, by simp, forall₂_both g3 h4⟩
    · simp only [List.map_cons, dumpTables, g0, h1]
      rfl
    · intro p hp
      rcases List.mem_cons.mp hp with rfl | hp
      · exact g2
      · exact h2 p hp

theorem msDump_contains {σ : Type} {db : Db σ} {cat : σ → Ms.Catalog} (ha : MsAdapter db cat) (s : σ) {ds : List MsDescribed}
    (h : List.Forall₂ (fun t d => MsCatalogSays (cat s) t.1 t.2 d) (cat s).tables ds) (hv : (cat s).views = []) (ht : (cat s).triggers = []) :
    ∃ text, dumpDDLs db s = .ok text ∧ Contains .mssql text (ds.flatMap MsDescribed.sentences) ∧
      Contains .mssql (text ++ lit ";\n") (ds.flatMap MsDescribed.sentences) ∧ (text = [] → ds.flatMap MsDescribed.sentences = []) := by
  obtain ⟨ps, h1, h2, h3, h4⟩ := msTables_glued ha s h
  have e2 : db.views s = .ok [] := by
    rw [ha.views]
    simp [Ms.views, hv]
  have e3 : db.triggers s = .ok [] := by rw [ha.triggers, ht]
  have hd := dump_joined (ha.tableNames s) h1 e2 e3
  refine ⟨_, hd, ?_⟩
  cases ps with
  | nil =>
    cases htt : (cat s).tables with
    | cons t ts => rw [htt] at h3; simp at h3
    | nil =>
      rw [htt] at h
      cases h
      refine ⟨?_, ?_, by simp⟩
      · unfold Contains
        rw [show statementTexts (join (lit ";\n\n") (([] : List (List Str × Str)).map (·.2))) = [] by decide +kernel]
        exact .nil
      · unfold Contains
        rw [show statementTexts (join (lit ";\n\n") (([] : List (List Str × Str)).map (·.2)) ++ lit ";\n") = [] by decide +kernel]
        exact .nil
  | cons p ps =>
    have hg := glued_files (w := ['\n', '\n']) (by
      intro c hc
      simp only [List.mem_cons, List.not_mem_nil, or_false, or_self] at hc
      subst hc
      decide) h2
    obtain ⟨c1, c2⟩ := contains_texts hg (forall₂_imp (fun _ _ hx => hx.says) h4)
    refine ⟨c1, c2, fun e => ?_⟩
    have e' : join (';' :: ['\n', '\n']) ((p :: ps).map (·.2)) = [] := e
    rw [e'] at c1
    unfold Contains at c1
    rw [show statementTexts [] = [] by decide +kernel] at c1
    generalize ds.flatMap MsDescribed.sentences = x at c1
    cases c1
    rfl

/-! ### Normal form -/

theorem msSpec {cs : List Col} {p : Option Pk} {fs : List Fk} (s : SqlTableSpec) :
    (cs.map Item.column ++ p.toList.map Item.primaryKey ++ fs.map Item.foreignKey).foldl Item.apply s =
      { s with columns := s.columns ++ cs.map Col.meaning, indexes := s.indexes ++ p.toList.map Pk.meaning,
               foreignKeys := s.foreignKeys ++ fs.map Fk.meaning } := by
  have f1 : ∀ (cs : List Col) (s : SqlTableSpec), (cs.map Item.column).foldl Item.apply s = { s with columns := s.columns ++ cs.map Col.meaning } := by
    intro cs
    induction cs with
    | nil => intro s; simp
    | cons c cs ih => intro s; simp [ih, Item.apply]
  have f2 : ∀ (ps : List Pk) (s : SqlTableSpec), (ps.map Item.primaryKey).foldl Item.apply s = { s with indexes := s.indexes ++ ps.map Pk.meaning } := by
    intro cs
    induction cs with
    | nil => intro s; simp
    | cons c cs ih => intro s; simp [ih, Item.apply]
  have f3 : ∀ (fs : List Fk) (s : SqlTableSpec), (fs.map Item.foreignKey).foldl Item.apply s = { s with foreignKeys := s.foreignKeys ++ fs.map Fk.meaning } := by
    intro cs
    induction cs with
    | nil => intro s; simp
    | cons c cs ih => intro s; simp [ih, Item.apply]
  rw [List.foldl_append, List.foldl_append, f1, f2, f3]

theorem msOptions_nodup (r : Ms.IndexRow) : (((msIndexOptions r).all.map IndexOpt.meaning).map (·.name)).Nodup := by
  have : ((msIndexOptions r).all.map IndexOpt.meaning).map (·.name) = [lit "pad_index", lit "fillfactor", lit "ignore_dup_key",
      lit "statistics_norecompute", lit "statistics_incremental", lit "allow_row_locks", lit "allow_page_locks"] := rfl
  rw [this]
  decide

theorem forall₂_same {α β γ : Type} {R : α → β → Prop} {f : α → γ} {g : β → γ} (hR : ∀ a b, R a b → g b = f a) {as : List α} {bs : List β}
    (h : List.Forall₂ R as bs) : bs.map g = as.map f := by
  induction h with
  | nil => rfl
  | cons hr _ ih => simp [ih, hR _ _ hr]

theorem nodup_parts {rows : List Ms.IndexRow} (h : (rows.map (·.name)).Nodup) :
    (((rows.filter fun r => r.isPrimary) ++ rows.filter fun r => !r.isPrimary).map (·.name)).Nodup := by
  have hp : ((rows.filter fun r => r.isPrimary) ++ rows.filter fun r => !r.isPrimary).Perm rows := List.filter_append_perm _ _
  exact ((hp.map _).nodup_iff).2 h

theorem msDescribed_block {cat : Ms.Catalog} {schema name : Str} {d : MsDescribed} (h : MsCatalogSays cat schema name d)
    (ho : MsOrderly cat schema name) {ds : List DDL}
    (hd : List.Forall₂ (fun s d => SaysTheSame .mssql d.statement (Sentence.meaning s) d ∧ s.Kind d) d.sentences ds) :
    ∃ b : TableBlock, ds = b.defs ∧ NormalBlock .mssql b ∧ b.table.name = name := by
  have hm : Mode.mssql ≠ .postgres := by decide
  obtain ⟨cs, p, fs, hc, hp, hf, hr⟩ := h.items
  have hspec : d.table.spec = { columns := (d.table.first :: cs).map Col.meaning, indexes := p.toList.map Pk.meaning,
                                foreignKeys := fs.map Fk.meaning } := by
    unfold Written.Table.spec
    rw [hr, msSpec]
    rfl
  have n1 : p.toList.map (·.name) = ((cat.indexes schema name).filter fun r => r.isPrimary).map (·.name) :=
    forall₂_same (fun r q hx => by obtain ⟨_, _, _, _, _, rfl⟩ := hx; rfl) hp
  have n2 : d.index.toList.map (·.name) = ((cat.indexes schema name).filter fun r => !r.isPrimary).map (·.name) :=
    forall₂_same (fun r q hx => by obtain ⟨_, _, _, _, _, rfl⟩ := hx; rfl) h.index
  have hnames := nodup_parts ho.indexes
  rw [List.map_append, ← n1, ← n2] at hnames
  have ht : OrderlyTable .mssql d.table := by
    constructor
    · rw [hspec]
      have := forall₂_same (f := fun r : Ms.Column => r.name) (g := fun c : Col => c.name) (fun _ _ hx => hx.name) hc
      simp only [List.map_map]
      have e : (d.table.first :: cs).map ((fun x : SqlColumn => x.name) ∘ Col.meaning) = (d.table.first :: cs).map (·.name) := rfl
      rw [e, this]
      exact ho.columns
    · rw [hspec]
      have e : (p.toList.map Pk.meaning).map (fun x : SqlIndexDef => x.name) = p.toList.map (·.name) := by
        rw [List.map_map]
        rfl
      simp only [e]
      exact (List.nodup_append.mp hnames).1
    · intro i hi
      rw [hspec] at hi
      obtain ⟨q, hq, rfl⟩ := List.mem_map.mp hi
      obtain ⟨r, -, _, _, _, _, _, rfl⟩ := forall₂_right hp q hq
      exact msOptions_nodup r
    · rw [hspec]
      have := forall₂_same (f := fun r : Ms.FkRow => r.constraintName) (g := fun f : Fk => f.meaning.constraintName) (fun _ _ hx => by
        obtain ⟨_, _, _, _, _, _, _, _, rfl⟩ := hx.actions
        rfl) hf
      simp only [List.map_map]
      have e : fs.map ((fun x : SqlForeignKey => x.constraintName) ∘ Fk.meaning) = fs.map fun f => f.meaning.constraintName := rfl
      rw [e, this]
      exact ho.foreignKeys
    · intro f hm
      rw [hspec] at hm
      obtain ⟨q, hq, rfl⟩ := List.mem_map.mp hm
      obtain ⟨r, -, hx⟩ := forall₂_right hf q hq
      obtain ⟨_, _, _, _, _, _, _, _, rfl⟩ := hx.actions
      exact hx.names.1.nonempty
    · intro e
      cases e
  unfold MsDescribed.sentences at hd
  cases hd with
  | @cons _ c _ ds h1 h2 =>
  have hspec' : ∀ (text : Str) (u : Table), SaysTheSame .mssql (DDL.createTable text u).statement (Sentence.meaning (.table d.table)) (.createTable text u) →
      u.indexes.map (·.name) = p.toList.map (·.name) := by
    intro text u hs
    cases hs with
    | @createTable _ spec _ hsp _ _ hi _ _ =>
      have hx : d.table.meaning.tableSpec = some spec := hsp
      simp only [Written.Table.meaning, Option.some.injEq] at hx
      rw [← hx] at hi
      have := listRel_names (f := fun i : SqlIndexDef => i.name) (g := fun i : Index => i.name) (fun _ _ _ hk => hk.name) hi
      rw [this]
      simp only [hspec, List.map_map]
      rfl
  obtain ⟨b, eb, hb, hbn⟩ := table_block hm ht h1
  obtain ⟨text, u, rest⟩ := b
  simp only [TableBlock.defs, List.cons.injEq] at eb
  obtain ⟨rfl, rfl⟩ := eb
  have hun : u.indexes.map (·.name) = p.toList.map (·.name) := hspec' text u h1.1
  simp only [h.ref] at hbn
  generalize hi : d.index = x at h2 hnames
  cases x with
  | none =>
    cases h2
    exact ⟨⟨text, u, []⟩, rfl, hb, hbn⟩
  | some i =>
    simp only [Option.toList_some, List.map_cons, List.map_nil] at h2 hnames
    cases h2 with
    | @cons _ e _ es he hes =>
    cases hes
    obtain ⟨r, -, _, _, _, _, _, rfl⟩ := forall₂_right h.index i (by rw [hi]; simp)
    obtain ⟨hsame, t, n, j, rfl⟩ := he
    cases hsame with
    | @createIndex _ _ s _ hsp hn hk =>
      have es : s = NewIndex.spec _ := (Option.some.inj hsp).symm
      have en : n = name := hn.2.2 hm
      subst en
      have ej : j.name = r.name := by rw [hk.name, es]; rfl
      refine ⟨⟨text, u, [.createIndex t n j]⟩, rfl, ?_, hbn⟩
      have ei : indexesFor u.name [DDL.createIndex t n j] = [j] := by simp [indexesFor, hbn]
      constructor
      · intro d hd
        simp only [List.mem_singleton] at hd
        subst hd
        exact hbn.symm
      · exact hb.columns
      · simp only [ei, List.map_append, List.map_cons, List.map_nil, hun, ej]
        exact hnames
      · intro k hk'
        simp only [ei, List.mem_append, List.mem_singleton] at hk'
        rcases hk' with hk' | rfl
        · exact hb.options k (by simp [indexesFor, hk'])
        · rw [listRel_names (f := fun o : SqlIndexOption => o.name) (g := fun o : IndexOption => o.optionName) (fun _ _ _ hx => hx.name) hk.options, es]
          exact msOptions_nodup r
      · intro k hk'
        simp only [ei, List.mem_singleton] at hk'
        subst hk'
        exact hk.primary
      · have := hb.foreignKeys
        simpa [foreignKeysFor] using this
      · exact hb.named
      · have := hb.policies
        simpa [policiesFor] using this
      · intro e
        cases e

theorem msDescribed_normal {cat : Ms.Catalog} {ts : List (Str × Str)} {ds : List MsDescribed} (hn : (ts.map (·.2)).Nodup)
    (h : List.Forall₂ (fun t d => MsCatalogSays cat t.1 t.2 d ∧ MsOrderly cat t.1 t.2) ts ds) {defs : List DDL}
    (hd : List.Forall₂ (fun s d => SaysTheSame .mssql d.statement (Sentence.meaning s) d ∧ s.Kind d) (ds.flatMap MsDescribed.sentences) defs) :
    Normal .mssql defs := by
  have key : ∃ bs : List TableBlock, defs = bs.flatMap TableBlock.defs ∧ (∀ b ∈ bs, NormalBlock .mssql b) ∧
      bs.map (·.table.name) = ts.map (·.2) := by
    clear hn
    induction h generalizing defs with
    | nil =>
      cases hd
      exact ⟨[], rfl, by simp, rfl⟩
    | @cons t d ts ds ht _ ih =>
      rw [List.flatMap_cons] at hd
      obtain ⟨ds1, ds2, h1, h2, rfl⟩ := forall₂_split hd
      obtain ⟨bs, e, hbs, hm⟩ := ih h2
      obtain ⟨b, eb, hb, hbn⟩ := msDescribed_block ht.1 ht.2 h1
      refine ⟨b :: bs, by rw [e, eb]; rfl, ?_, by simp [hm, hbn]⟩
      intro x hx
      rcases List.mem_cons.mp hx with rfl | hx
      · exact hb
      · exact hbs x hx
  obtain ⟨bs, rfl, hbs, hm⟩ := key
  exact normal_of_blocks hbs (by rw [hm]; exact hn)

end Sqldef
