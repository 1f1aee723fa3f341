import Verif.Proofs.PgFile
import Verif.Proofs.Blocks
/-
The definitions that the dump of a Postgres database is read as are in dump-normal form.
-/
namespace Sqldef
open Spec Written Dumped

/-- The definition says the same as the statement and is of the same kind. -/
def ReadAs (s : Sentence) (d : DDL) : Prop := SaysTheSame .postgres d.statement s.meaning d ∧ s.Kind d

theorem listRel_names {α β γ : Type} {R : Nat → α → β → Prop} {f : α → γ} {g : β → γ} (hf : ∀ i a b, R i a b → g b = f a)
    {as : List α} {bs : List β} (h : ListRel R as bs) : bs.map g = as.map f := by
  apply List.ext_getElem?
  intro i
  rw [List.getElem?_map, List.getElem?_map]
  cases ha : as[i]? with
  | none =>
    rw [List.getElem?_eq_none_iff] at ha
    rw [List.getElem?_eq_none (by rw [← h.1]; exact ha)]
    rfl
  | some a =>
    have hl := (List.getElem?_eq_some_iff.mp ha).1
    obtain ⟨b, hb⟩ : ∃ b, bs[i]? = some b := ⟨bs[i]'(by rw [← h.1]; exact hl), List.getElem?_eq_getElem _⟩
    rw [hb]
    simp [hf i a b (h.2 i a b ha hb)]

theorem tableSays_spec {schema name : Str} {rows : List Pg.Row} {key : List Str} {t : Written.Table} (h : TableSays schema name rows key t) :
    t.spec.columns.map (·.name) = rows.map (·.name) ∧ t.spec.indexes.map (·.name) = (if key = [] then [] else [lit "PRIMARY"]) ∧
    (∀ i ∈ t.spec.indexes, i.options = []) ∧ t.spec.foreignKeys = [] := by
  obtain ⟨cs, hc, hr⟩ := h.columns
  have fold : ∀ (cs : List Col) (s : SqlTableSpec), (cs.map Item.column).foldl Item.apply s = { s with columns := s.columns ++ cs.map Col.meaning } := by
    intro cs
    induction cs with
    | nil => intro s; simp
    | cons c cs ih =>
      intro s
      simp [ih, Item.apply]
  have names : ∀ {rs : List Pg.Row} {cs : List Col}, List.Forall₂ RowSays rs cs → cs.map (·.name) = rs.map (·.name) := by
    intro rs cs hrc
    induction hrc with
    | nil => rfl
    | cons hx _ ih => simp [ih, hx.name]
  have e := names hc
  unfold Written.Table.spec
  rw [hr, List.foldl_append, fold]
  cases key with
  | nil =>
    refine ⟨?_, rfl, by simp [keyItems], rfl⟩
    rw [← e]
    simp [keyItems, Col.meaning, Function.comp_def]
  | cons n ns =>
    refine ⟨?_, rfl, ?_, rfl⟩
    · rw [← e]
      simp [keyItems, Col.meaning, Item.apply, Function.comp_def]
    · simp [keyItems, Item.apply, Ix.meaning, Ix.body, IndexOpts.all]

theorem keeps_dotted {s n name : Str} (hs : s ≠ []) (h : KeepsTableName .postgres (TableRef.meaning { schema := some s, name := n }) name) :
    name = s ++ '.' :: n := h.1 rfl hs

theorem keeps_public {n name : Str} (h : KeepsTableName .postgres (TableRef.meaning { name := n }) name) :
    name = lit "public" ++ '.' :: n := h.2.1 rfl rfl

theorem table_readAs {schema name : Str} {rows : List Pg.Row} {key : List Str} {t : Written.Table} (h : TableSays schema name rows key t)
    {d : DDL} (hd : ReadAs (.table t) d) : ∃ text u, d = .createTable text u ∧ u.name = schema ++ '.' :: name ∧
      u.columns.map (·.name) = rows.map (·.name) ∧ u.indexes.map (·.name) = (if key = [] then [] else [lit "PRIMARY"]) ∧
      (∀ i ∈ u.indexes, i.options = []) ∧ u.foreignKeys = [] ∧ u.policies = [] := by
  obtain ⟨hs, text, u, rfl⟩ := hd
  obtain ⟨e1, e2, e3, e4⟩ := tableSays_spec h
  cases hs with
  | @createTable _ spec _ hspec hn hc hi hf hp =>
    have hsp : spec.columns = t.spec.columns ∧ spec.indexes = t.spec.indexes ∧ spec.foreignKeys = t.spec.foreignKeys := by
      have hx : t.meaning.tableSpec = some spec := hspec
      simp only [Written.Table.meaning, Option.some.injEq] at hx
      rw [← hx]
      exact ⟨rfl, rfl, rfl⟩
    rw [hsp.1] at hc
    rw [hsp.2.1] at hi
    rw [hsp.2.2, e4] at hf
    refine ⟨_, u, rfl, ?_, ?_, ?_, ?_, ?_, hp⟩
    · have hn' : KeepsTableName .postgres t.name.meaning u.name := hn
      rw [h.ref] at hn'
      exact keeps_dotted (bare_ne h.bare.1) hn'
    · rw [← e1]
      exact listRel_names (fun _ _ _ hk => hk.name) hc
    · rw [← e2]
      exact listRel_names (fun _ _ _ hk => hk.name) hi
    · intro i hm
      obtain ⟨k, hk⟩ := List.getElem?_of_mem hm
      have hl := (List.getElem?_eq_some_iff.mp hk).1
      have ha : t.spec.indexes[k]? = some (t.spec.indexes[k]'(by rw [hi.1]; exact hl)) := List.getElem?_eq_getElem _
      have := (hi.2 k _ i ha hk).options
      rw [e3 _ (List.getElem_mem _)] at this
      exact List.length_eq_zero_iff.mp this.1.symm
    · exact List.length_eq_zero_iff.mp hf.1.symm

theorem indexes_readAs {schema name : Str} (hs : schema ≠ []) {is : List NewIndex} {ds : List DDL}
    (h : List.Forall₂ ReadAs (is.map Sentence.index) ds) (ht : ∀ i ∈ is, i.table = { schema := some schema, name := name })
    (ho : ∀ i ∈ is, (i.spec.options.map (·.name)).Nodup) :
    (∀ d ∈ ds, OwnedBy (schema ++ '.' :: name) d) ∧ (indexesFor (schema ++ '.' :: name) ds).map (·.name) = is.map (·.name) ∧
    (∀ i ∈ indexesFor (schema ++ '.' :: name) ds, i.primary = false ∧ (i.options.map (·.optionName)).Nodup) ∧
    foreignKeysFor (schema ++ '.' :: name) ds = [] ∧ policiesFor (schema ++ '.' :: name) ds = [] := by
  induction is generalizing ds with
  | nil =>
    cases h
    simp [indexesFor, foreignKeysFor, policiesFor]
  | cons i is ih =>
    cases h with
    | @cons _ d _ ds hd hds =>
    obtain ⟨i1, i2, i3, i4, i5⟩ := ih hds (fun x hx => ht x (by simp [hx])) (fun x hx => ho x (by simp [hx]))
    obtain ⟨hsame, x, n, j, rfl⟩ := hd
    cases hsame with
    | @createIndex _ _ s _ hsp hn hk =>
      have e1 : i.spec = s := by
        have hx : i.meaning.indexSpec = some s := hsp
        simpa [NewIndex.meaning] using hx
      have e2 : n = schema ++ '.' :: name := by
        have hx : KeepsTableName .postgres i.table.meaning n := hn
        rw [ht i (by simp)] at hx
        exact keeps_dotted hs hx
      subst e2
      refine ⟨?_, ?_, ?_, i4, i5⟩
      · intro d hd
        rcases List.mem_cons.mp hd with rfl | hd
        · rfl
        · exact i1 d hd
      · have : j.name = i.name := by
          rw [hk.name, ← e1]
          unfold NewIndex.spec
          cases i.form <;> rfl
        simp [indexesFor, i2, this]
      · intro k hm
        simp only [indexesFor, if_true, List.mem_cons] at hm
        rcases hm with rfl | hm
        · refine ⟨hk.primary, ?_⟩
          rw [listRel_names (f := (·.name)) (fun _ _ _ hk => hk.name) hk.options, ← e1]
          exact ho i (by simp)
        · exact i3 k hm

theorem foreignKeys_readAs {schema name : Str} (hs : schema ≠ []) {rs : List Pg.FkRow} {as : List Alter} {ds : List DDL}
    (hr : List.Forall₂ ForeignKeySays rs as) (h : List.Forall₂ ReadAs (as.map Sentence.alter) ds)
    (ht : ∀ r ∈ rs, r.tableSchema = schema ∧ r.tableName = name) :
    (∀ d ∈ ds, OwnedBy (schema ++ '.' :: name) d) ∧
    (foreignKeysFor (schema ++ '.' :: name) ds).map (·.constraintName) = rs.map (·.constraintName) ∧
    indexesFor (schema ++ '.' :: name) ds = [] ∧ policiesFor (schema ++ '.' :: name) ds = [] := by
  induction hr generalizing ds with
  | nil =>
    cases h
    simp [indexesFor, foreignKeysFor, policiesFor]
  | @cons r a rs as ha _ ih =>
    cases h with
    | @cons _ d _ ds hd hds =>
    obtain ⟨i1, i2, i3, i4⟩ := ih hds (fun x hx => ht x (by simp [hx]))
    obtain ⟨w, u, v, dl, -, -, -, -, rfl⟩ := ha.actions
    obtain ⟨hsame, x, n, f, rfl⟩ := hd
    cases hsame with
    | @addForeignKey _ k _ _ hsp hn hk =>
      have e1 : k.constraintName = r.constraintName := by
        simp only [Sentence.meaning, Alter.meaning, Option.some.injEq] at hsp
        rw [← hsp]
        rfl
      have e2 : n = schema ++ '.' :: name := by
        have hx : KeepsTableName .postgres (TableRef.meaning { schema := some r.tableSchema, name := r.tableName }) n := hn
        rw [(ht r (by simp)).1, (ht r (by simp)).2] at hx
        exact keeps_dotted hs hx
      subst e2
      refine ⟨?_, ?_, i3, i4⟩
      · intro d hd
        rcases List.mem_cons.mp hd with rfl | hd
        · rfl
        · exact i1 d hd
      · simp [foreignKeysFor, i2, hk.name, e1]

theorem policies_readAs {name : Str} {rs : List Pg.PolicyRow} {ps : List NewPolicy} {ds : List DDL}
    (hr : List.Forall₂ (PolicySays name) rs ps) (h : List.Forall₂ ReadAs (ps.map Sentence.policy) ds) :
    (∀ d ∈ ds, OwnedBy (lit "public" ++ '.' :: name) d) ∧
    (policiesFor (lit "public" ++ '.' :: name) ds).map (·.name) = rs.map (·.policyName) ∧
    ∀ n, indexesFor n ds = [] ∧ foreignKeysFor n ds = [] := by
  induction hr generalizing ds with
  | nil =>
    cases h
    simp [indexesFor, foreignKeysFor, policiesFor]
  | @cons r p rs ps ha _ ih =>
    cases h with
    | @cons _ d _ ds hd hds =>
    obtain ⟨i1, i2, i3⟩ := ih hds
    obtain ⟨hsame, x, n, f, rfl⟩ := hd
    cases hsame with
    | @addPolicy _ k _ _ hsp hn hk =>
      have e1 : k.name = r.policyName := by
        simp only [Sentence.meaning, NewPolicy.meaning, Option.some.injEq] at hsp
        rw [← hsp]
        exact ha.name
      have e2 : n = lit "public" ++ '.' :: name := by
        have hx : KeepsTableName .postgres p.table.meaning n := hn
        rw [ha.table] at hx
        exact keeps_public hx
      subst e2
      refine ⟨?_, ?_, i3⟩
      · intro d hd
        rcases List.mem_cons.mp hd with rfl | hd
        · rfl
        · exact i1 d hd
      · simp [policiesFor, i2, hk.name, e1]

/-- The definitions of a table and of what belongs to it. -/
theorem described_block {cat : Pg.Catalog} {schema name : Str} {d : Described} (h : CatalogSays cat schema name d)
    (ho : Orderly cat schema name d) {ds : List DDL} (hd : List.Forall₂ ReadAs d.sentences ds) :
    ∃ b : TableBlock, ds = b.defs ∧ NormalBlock .postgres b ∧ b.table.name = schema ++ '.' :: name := by
  unfold Described.sentences at hd
  cases hd with
  | @cons _ c _ ds hc hrest =>
  obtain ⟨xs, ds3, h12, h3, rfl⟩ := forall₂_split hrest
  obtain ⟨ds1, ds2, h1, h2, rfl⟩ := forall₂_split h12
  obtain ⟨text, u, rfl, hn, t1, t2, t3, t4, t5⟩ := table_readAs h.table hc
  have hne := bare_ne h.table.bare.1
  obtain ⟨a1, a2, a3, a4, a5⟩ := indexes_readAs (name := name) hne h1 ho.indexTables ho.indexOptions
  obtain ⟨b1, b2, b3, b4⟩ := foreignKeys_readAs hne h.foreignKeys h2 ho.keyTables
  have hp : (∀ d ∈ ds3, OwnedBy (schema ++ '.' :: name) d) ∧
      (policiesFor (schema ++ '.' :: name) ds3).map (·.name) = (cat.policies schema name).map (·.policyName) ∧
      ∀ n, indexesFor n ds3 = [] ∧ foreignKeysFor n ds3 = [] := by
    by_cases he : cat.policies schema name = []
    · have hps := h.policies
      rw [he] at hps
      generalize d.policies = ps at hps h3
      cases hps
      cases h3
      rw [he]
      simp [policiesFor, indexesFor, foreignKeysFor]
    · have := policies_readAs h.policies h3
      rw [← ho.policySchema he] at this
      exact this
  obtain ⟨c1, c2, c3⟩ := hp
  refine ⟨⟨text, u, ds1 ++ ds2 ++ ds3⟩, rfl, ?_, hn⟩
  have ei : indexesFor (schema ++ '.' :: name) (ds1 ++ ds2 ++ ds3) = indexesFor (schema ++ '.' :: name) ds1 := by
    simp [indexesFor_append, b3, c3]
  have ef : foreignKeysFor (schema ++ '.' :: name) (ds1 ++ ds2 ++ ds3) = foreignKeysFor (schema ++ '.' :: name) ds2 := by
    simp [foreignKeysFor_append, a4, c3]
  have ep : policiesFor (schema ++ '.' :: name) (ds1 ++ ds2 ++ ds3) = policiesFor (schema ++ '.' :: name) ds3 := by
    simp [policiesFor_append, a5, b4]
  constructor
  · intro x hx
    simp only [hn]
    simp only [List.mem_append] at hx
    rcases hx with (hx | hx) | hx
    · exact a1 x hx
    · exact b1 x hx
    · exact c1 x hx
  · simp only [t1]
    exact ho.columns
  · simp only [hn, ei, List.map_append, t2, a2]
    split
    · exact ho.indexNames.1
    · exact List.nodup_cons.2 ⟨ho.indexNames.2, ho.indexNames.1⟩
  · simp only [hn, ei]
    intro i hi
    rcases List.mem_append.mp hi with hi | hi
    · rw [t3 i hi]
      simp
    · exact (a3 i hi).2
  · simp only [hn, ei]
    exact fun i hi => (a3 i hi).1
  · simp only [hn, ef, t4, List.nil_append, b2]
    exact ho.keyNames
  · simp only [t4]
    simp
  · simp only [hn, ep, t5, List.nil_append, c2]
    exact ho.policyNames
  · intro hm
    cases hm

/-- The definitions of a database. -/
theorem described_normal {cat : Pg.Catalog} {ts : List (Str × Str)} {ds : List Described} (hn : ts.Nodup)
    (h : List.Forall₂ (fun t d => CatalogSays cat t.1 t.2 d ∧ Orderly cat t.1 t.2 d) ts ds) {defs : List DDL}
    (hd : List.Forall₂ ReadAs (ds.flatMap Described.sentences) defs) : Normal .postgres defs := by
  have key : ∃ bs : List TableBlock, defs = bs.flatMap TableBlock.defs ∧ (∀ b ∈ bs, NormalBlock .postgres b) ∧
      bs.map (·.table.name) = ts.map fun t => t.1 ++ '.' :: t.2 := by
    clear hn
    induction h generalizing defs with
    | nil =>
      cases hd
      exact ⟨[], rfl, by simp, rfl⟩
    | @cons t d ts ds ht _ ih =>
      rw [List.flatMap_cons] at hd
      obtain ⟨ds1, ds2, h1, h2, rfl⟩ := forall₂_split hd
      obtain ⟨bs, e, hbs, hm⟩ := ih h2
      obtain ⟨b, eb, hb, hbn⟩ := described_block ht.1 ht.2 h1
      refine ⟨b :: bs, by rw [e, eb]; rfl, ?_, by simp [hm, hbn]⟩
      intro x hx
      rcases List.mem_cons.mp hx with rfl | hx
      · exact hb
      · exact hbs x hx
  obtain ⟨bs, rfl, hbs, hm⟩ := key
  refine normal_of_blocks hbs ?_
  rw [hm]
  have bare : ∀ t ∈ ts, '.' ∉ t.1 := by
    clear hn hd hm
    induction h with
    | nil => simp
    | cons ht _ ih =>
      intro x hx
      rcases List.mem_cons.mp hx with rfl | hx
      · exact bare_nodot ht.1.table.bare.1
      · exact ih x hx
  rw [List.nodup_map_iff_inj_on hn]
  intro a ha b hb e
  have h1 := (splitDot_eq_some (a.1 ++ '.' :: a.2) a.1 a.2).2 ⟨rfl, bare a ha⟩
  have h2 := (splitDot_eq_some (a.1 ++ '.' :: a.2) b.1 b.2).2 ⟨e, bare b hb⟩
  rw [h1] at h2
  exact Option.some.inj h2

end Sqldef
