import Verif.Proofs.PgStatements
import Verif.Props.Statements
/-
The whole dump of a Postgres database.
-/
namespace Sqldef
open Spec Written Dumped

theorem forall₂_imp {α β : Type} {R S : α → β → Prop} (h : ∀ a b, R a b → S a b) {as : List α} {bs : List β}
    (hab : List.Forall₂ R as bs) : List.Forall₂ S as bs := by
  induction hab with
  | nil => exact .nil
  | cons hr _ ih => exact .cons (h _ _ hr) ih

theorem forall₂_map {α β γ δ : Type} {R : γ → δ → Prop} {f : α → γ} {g : β → δ} {as : List α} {bs : List β}
    (h : List.Forall₂ (fun a b => R (f a) (g b)) as bs) : List.Forall₂ R (as.map f) (bs.map g) := by
  induction h with
  | nil => exact .nil
  | cons hr _ ih => exact .cons hr ih

theorem forall₂_both {α β : Type} {R : α → β → Prop} {as as' : List α} {bs bs' : List β} (h : List.Forall₂ R as bs)
    (h' : List.Forall₂ R as' bs') : List.Forall₂ R (as ++ as') (bs ++ bs') := by
  induction h with
  | nil => exact h'
  | cons hr _ ih => exact .cons hr ih

theorem forall₂_split {α β : Type} {R : α → β → Prop} {as as' : List α} {cs : List β} (h : List.Forall₂ R (as ++ as') cs) :
    ∃ bs bs', List.Forall₂ R as bs ∧ List.Forall₂ R as' bs' ∧ cs = bs ++ bs' := by
  induction as generalizing cs with
  | nil => exact ⟨[], cs, .nil, h, rfl⟩
  | cons a as ih =>
    cases h with
    | @cons _ c _ cs hr hrest =>
      obtain ⟨bs, bs', h1, h2, rfl⟩ := ih hrest
      exact ⟨c :: bs, bs', .cons hr h1, h2, rfl⟩

theorem buildDumpTableDDL_eq (table : Str) (ks : List Pg.Column) (key is fs ps : List Str) :
    Pg.buildDumpTableDDL table ks key is fs ps = join (lit ";\n") (Pg.createText table ks key :: (is ++ fs ++ ps)) := by
  unfold Pg.buildDumpTableDDL
  have := flatMap_join (lit ";\n") (Pg.createText table ks key) (is ++ fs ++ ps)
  rw [List.flatMap_cons] at this
  rw [this, trimSuffix_append]

/-- The dump of a table consists of the statements that describe it. -/
theorem table_glued {cat : Pg.Catalog} {schema name : Str} {d : Described} (h : CatalogSays cat schema name d) :
    ∃ text texts, Pg.dumpTableDDL cat (schema ++ lit "." ++ name) = .ok text ∧ Glued texts text ∧
      List.Forall₂ (fun t s => StatementStands t (Sentence.tokens s)) texts d.sentences := by
  obtain ⟨ks, hks, hc⟩ := create_stands h.table
  have hs : splitTableName (lit "public") (schema ++ lit "." ++ name) = (schema, name) := by
    unfold splitTableName
    rw [(splitDot_eq_some _ schema name).2 ⟨by simp [lit], bare_nodot h.table.bare.1⟩]
    rfl
  refine ⟨_, Pg.createText (schema ++ '.' :: name) ks (cat.primaryKey schema name) :: (Pg.getIndexDefs (cat.indexes schema name) ++
    (cat.foreignKeys schema name).map Pg.FkRow.text ++ (cat.policies schema name).map (Pg.PolicyRow.text name)), ?_, glued_join (w := ['\n']) ?_ _ _, ?_⟩
  · unfold Pg.dumpTableDDL
    simp only [hs, hks]
    change Except.ok _ = _
    rw [buildDumpTableDDL_eq]
    have e : schema ++ lit "." ++ name = schema ++ '.' :: name := by simp [lit]
    rw [e]
    rfl
  · intro c hc
    simp only [List.mem_singleton] at hc
    subst hc
    decide
  · refine .cons hc (forall₂_both (forall₂_both ?_ ?_) ?_)
    · rw [getIndexDefs_eq h.untrimmed]
      exact forall₂_map (forall₂_imp (fun _ _ hi => index_stands hi) h.indexes)
    · exact forall₂_map (forall₂_imp (fun _ _ hi => foreignKey_stands hi) h.foreignKeys)
    · exact forall₂_map (forall₂_imp (fun _ _ hi => policy_stands hi) h.policies)

theorem glued_ne {ts : List Str} {s : Str} (h : Glued ts s) : ts ≠ [] := by cases h <;> simp

theorem contains_glued {texts : List Str} {file : Str} {ss : List Sentence} (hg : Glued texts file)
    (h : List.Forall₂ (fun t s => StatementStands t (Sentence.tokens s)) texts ss) :
    Contains .postgres file ss ∧ Contains .postgres (file ++ lit ";\n") ss := by
  have hall : ∀ t ∈ texts, ';' ∉ t ∧ NoComment t ∧ trimSpace t = t ∧ t ≠ [] := by
    clear hg
    induction h with
    | nil => simp
    | cons hs _ ih =>
      intro t ht
      rcases List.mem_cons.mp ht with rfl | ht
      · exact ⟨hs.semicolon, hs.comment, hs.trimmed, hs.nonempty⟩
      · exact ih t ht
  have e1 : (texts.map trimSpace).filter (· ≠ []) = texts := by
    rw [List.map_congr_left (g := id) (fun t ht => (hall t ht).2.2.1), List.map_id, List.filter_eq_self]
    intro t ht
    simp [(hall t ht).2.2.2]
  have hc : List.Forall₂ (fun t s => tokenize .postgres t = .ok (Sentence.tokens s)) texts ss :=
    forall₂_imp (fun _ _ hs => tokenize_layout hs.layout) h
  constructor
  · unfold Contains
    rw [statementTexts_glued hg (fun t ht => (hall t ht).1) (fun t ht => (hall t ht).2.1), e1]
    exact hc
  · unfold Contains
    have hb : Blank ['\n'] := by
      intro c hc
      simp only [List.mem_singleton] at hc
      subst hc
      decide
    have hg' := glued_append hg hb (.one [])
    have e : file ++ ';' :: (['\n'] ++ []) = file ++ lit ";\n" := rfl
    rw [e] at hg'
    rw [statementTexts_glued hg' ?_ ?_, List.map_append, List.filter_append, e1]
    · have : (List.map trimSpace [[]]).filter (· ≠ []) = [] := by decide
      rw [this, List.append_nil]
      exact hc
    · intro t ht
      rcases List.mem_append.mp ht with ht | ht
      · exact (hall t ht).1
      · simp only [List.mem_singleton] at ht
        simp [ht]
    · intro t ht
      rcases List.mem_append.mp ht with ht | ht
      · exact (hall t ht).2.1
      · simp only [List.mem_singleton] at ht
        subst ht
        exact noComment_nil

/-- The dump of the tables. -/
theorem tables_glued {σ : Type} (db : Db σ) (cat : σ → Pg.Catalog) (s : σ) {ts : List (Str × Str)} {ds : List Described}
    (h : List.Forall₂ (fun t d => CatalogSays (cat s) t.1 t.2 d) ts ds) :
    ∃ ps : List (List Str × Str), dumpTables (Pg.database db cat) s (ts.map fun t => t.1 ++ lit "." ++ t.2) = .ok (ps.map (·.2)) ∧
      (∀ p ∈ ps, Glued p.1 p.2) ∧ (ps = [] ↔ ts = []) ∧
      List.Forall₂ (fun t s => StatementStands t (Sentence.tokens s)) (ps.flatMap (·.1)) (ds.flatMap Described.sentences) := by
  induction h with
  | nil => exact ⟨[], rfl, by simp, by simp, .nil⟩
  | @cons t d ts ds hd _ ih =>
    obtain ⟨ps, h1, h2, -, h4⟩ := ih
    obtain ⟨text, texts, g1, g2, g3⟩ := table_glued hd
    refine ⟨(texts, text) :: ps, ?_, ?_, by simp, forall₂_both g3 h4⟩
    · have : (Pg.database db cat).dumpTableDDL s (t.1 ++ lit "." ++ t.2) = .ok text := g1
      simp only [List.map_cons, dumpTables, this, h1]
      rfl
    · intro p hp
      rcases List.mem_cons.mp hp with rfl | hp
      · exact g2
      · exact h2 p hp

theorem dump_contains {σ : Type} (db : Db σ) (cat : σ → Pg.Catalog) (s : σ) {ds : List Described}
    (h : List.Forall₂ (fun t d => CatalogSays (cat s) t.1 t.2 d) (cat s).tables ds) (hv : (cat s).views = []) :
    ∃ text, dumpDDLs (Pg.database db cat) s = .ok text ∧ Contains .postgres text (ds.flatMap Described.sentences) ∧
      Contains .postgres (text ++ lit ";\n") (ds.flatMap Described.sentences) ∧ (text = [] ↔ (cat s).tables = []) := by
  obtain ⟨ps, h1, h2, h3, h4⟩ := tables_glued db cat s h
  have hd : dumpDDLs (Pg.database db cat) s = .ok (join (lit ";\n\n") (ps.map (·.2))) := by
    have e1 : (Pg.database db cat).tableNames s = .ok ((cat s).tables.map fun t => t.1 ++ lit "." ++ t.2) := rfl
    have e2 : (Pg.database db cat).views s = .ok [] := by
      change Except.ok (Pg.views (cat s)) = _
      simp [Pg.views, hv]
    have e3 : (Pg.database db cat).triggers s = .ok [] := rfl
    simp only [dumpDDLs, e1, e2, e3]
    change (dumpTables (Pg.database db cat) s _ >>= _) = _
    rw [h1]
    change Except.ok _ = _
    simp
  refine ⟨_, hd, ?_⟩
  cases ps with
  | nil =>
    cases ht : (cat s).tables with
    | cons t ts => rw [ht] at h3; simp at h3
    | nil =>
      rw [ht] at h
      cases h
      refine ⟨?_, ?_, by simp [join]⟩
      · unfold Contains
        rw [show statementTexts (join (lit ";\n\n") (([] : List (List Str × Str)).map (·.2))) = [] by decide +kernel]
        exact .nil
      · unfold Contains
        rw [show statementTexts (join (lit ";\n\n") (([] : List (List Str × Str)).map (·.2)) ++ lit ";\n") = [] by decide +kernel]
        exact .nil
  | cons p ps =>
    have hg := glued_files (w := ['\n', '\n']) (by
      intro c hc
      simp only [List.mem_cons, List.not_mem_nil, or_false, or_self] at hc
      subst hc
      decide) h2
    obtain ⟨c1, c2⟩ := contains_glued hg h4
    refine ⟨c1, c2, ?_⟩
    constructor
    · intro e
      exfalso
      have e' : join (';' :: ['\n', '\n']) ((p :: ps).map (·.2)) = [] := e
      rw [e'] at c1
      unfold Contains at c1
      rw [show statementTexts [] = [] by decide +kernel] at c1
      have l1 := c1.length_eq
      have l2 := h4.length_eq
      rw [← l1] at l2
      have := glued_ne (h2 p (by simp))
      simp at l2
      exact this l2.1
    · intro e
      rw [e] at h3
      simp at h3

/-! ### The statements are clear -/

theorem type_known {r : Pg.Row} {ty : Ty} {a : ArrayMark} (h : TypeSays r ty a) : ty.Known := by
  cases h with
  | @simple name _ hm _ _ _ =>
    simp only [simpleTypes, List.mem_cons, List.not_mem_nil, or_false, Prod.mk.injEq] at hm
    rcases hm with ⟨-, rfl⟩ | ⟨-, rfl⟩ | ⟨-, rfl⟩ | ⟨-, rfl⟩ | ⟨-, rfl⟩ | ⟨-, rfl⟩ | ⟨-, rfl⟩ | ⟨-, rfl⟩ | ⟨-, rfl⟩ | ⟨-, rfl⟩ | ⟨-, rfl⟩ |
      ⟨-, rfl⟩ | ⟨-, rfl⟩ | ⟨-, rfl⟩ | ⟨-, rfl⟩ | ⟨-, rfl⟩ | ⟨-, rfl⟩ | ⟨-, rfl⟩ | ⟨-, rfl⟩ | ⟨-, rfl⟩ | ⟨-, rfl⟩ <;>
      first | exact trivial | (simp only [Ty.Known]; decide)
  | @serial name _ hm _ _ _ =>
    simp only [serialTypes, List.mem_cons, List.not_mem_nil, or_false, Prod.mk.injEq] at hm
    rcases hm with ⟨-, rfl⟩ | ⟨-, rfl⟩ | ⟨-, rfl⟩ <;> (simp only [Ty.Known]; decide)
  | @sized name ty n hm _ _ _ _ _ =>
    simp only [Dumped.sizedTypes, List.mem_cons, List.not_mem_nil, or_false, Prod.mk.injEq] at hm
    rcases hm with ⟨-, rfl⟩ | ⟨-, rfl⟩ | ⟨-, rfl⟩ <;> first | exact trivial | (simp only [Ty.Known]; decide)
  | @array name _ hm _ _ _ =>
    simp only [elementTypes, List.mem_cons, List.not_mem_nil, or_false, Prod.mk.injEq] at hm
    rcases hm with ⟨-, rfl⟩ | ⟨-, rfl⟩ | ⟨-, rfl⟩ | ⟨-, rfl⟩ | ⟨-, rfl⟩ | ⟨-, rfl⟩ | ⟨-, rfl⟩ | ⟨-, rfl⟩ | ⟨-, rfl⟩ | ⟨-, rfl⟩ | ⟨-, rfl⟩ |
      ⟨-, rfl⟩ | ⟨-, rfl⟩ | ⟨-, rfl⟩ | ⟨-, rfl⟩ <;>
      first | exact trivial | (simp only [Ty.Known]; decide)

theorem row_clear {r : Pg.Row} {c : Col} (h : RowSays r c) : c.Clear := by
  obtain ⟨d, g, k, hd, hg, hk, ho⟩ := h.options
  have ht := type_known h.type
  generalize r.default = x at hd
  generalize r.identity = y at hg
  generalize r.check = z at hk
  refine ⟨ht, ?_, ?_⟩
  · rw [ho]
    cases hd <;> cases hg <;> cases hk <;> cases r.isUnique <;> by_cases hn : r.isNullable = lit "YES" <;>
      simp [hn, clearOptions]
  · rw [ho]
    intro o hm
    simp only [List.mem_append] at hm
    rcases hm with (((hm | hm) | hm) | hm) | hm
    · split at hm <;> simp at hm
      subst hm
      trivial
    · split at hm <;> simp at hm
      subst hm
      trivial
    · cases hd <;> simp at hm
      subst hm
      trivial
    · cases hg <;> simp at hm <;> subst hm <;> trivial
    · cases hk with
      | none => simp at hm
      | check _ hp hl =>
        simp at hm
        subst hm
        exact ⟨hp, hl⟩

theorem rows_clear {rs : List Pg.Row} {cs : List Col} (h : List.Forall₂ RowSays rs cs) : ∀ c ∈ cs, c.Clear := by
  induction h with
  | nil => simp
  | cons hr _ ih =>
    intro c hc
    rcases List.mem_cons.mp hc with rfl | hc
    · exact row_clear hr
    · exact ih c hc

theorem table_clear {schema name : Str} {rows : List Pg.Row} {key : List Str} {t : Written.Table}
    (h : TableSays schema name rows key t) : (Sentence.table t).Clear ∧ (Sentence.table t).InRange := by
  obtain ⟨cs, hc, hr⟩ := h.columns
  have hall := rows_clear hc
  refine ⟨⟨hall _ (by simp), ?_, ?_⟩, ?_⟩
  · intro i hi
    rw [hr, List.mem_append] at hi
    rcases hi with hi | hi
    · obtain ⟨c, hm, rfl⟩ := List.mem_map.mp hi
      exact hall c (by simp [hm])
    · cases key with
      | nil => simp [keyItems] at hi
      | cons n ns =>
        simp only [keyItems, List.mem_singleton] at hi
        subst hi
        simp [Item.Clear, IndexOpts.all]
  · rw [h.options]
    simp
  · intro c hm n hn
    exfalso
    simp only [Sentence.indexColumns, hr, List.flatMap_append, List.mem_append, List.mem_flatMap, List.mem_map] at hm
    rcases hm with ⟨i, ⟨k, -, rfl⟩, hm⟩ | ⟨i, hi, hm⟩
    · simp [Item.indexColumns] at hm
    · cases key with
      | nil => simp [keyItems] at hi
      | cons m ms =>
        simp only [keyItems, List.mem_singleton] at hi
        subst hi
        simp only [Item.indexColumns, List.mem_cons, List.mem_map] at hm
        rcases hm with rfl | ⟨x, -, rfl⟩ <;> simp at hn

theorem sentences_clear {cat : Pg.Catalog} {schema name : Str} {d : Described} (h : CatalogSays cat schema name d) :
    ∀ s ∈ d.sentences, s.Clear ∧ s.InRange := by
  have mem : ∀ {α β : Type} {R : α → β → Prop} {as : List α} {bs : List β}, List.Forall₂ R as bs → ∀ b ∈ bs, ∃ a, R a b := by
    intro α β R as bs hab
    induction hab with
    | nil => simp
    | cons hr _ ih =>
      intro b hb
      rcases List.mem_cons.mp hb with rfl | hb
      · exact ⟨_, hr⟩
      · exact ih b hb
  intro s hs
  simp only [Described.sentences, List.mem_cons, List.mem_append, List.mem_map] at hs
  rcases hs with rfl | (⟨i, hi, rfl⟩ | ⟨a, ha, rfl⟩) | ⟨p, hp, rfl⟩
  · exact table_clear h.table
  · obtain ⟨row, -, hf, hl, -, -⟩ := mem h.indexes i hi
    refine ⟨hf, ?_⟩
    intro c hc n hn
    rw [hl c hc] at hn
    cases hn
  · obtain ⟨row, hr⟩ := mem h.foreignKeys a ha
    obtain ⟨w, u, v, d, -, -, -, -, rfl⟩ := hr.actions
    refine ⟨trivial, ?_⟩
    intro c hc
    simp [Sentence.indexColumns] at hc
  · obtain ⟨row, hr⟩ := mem h.policies p hp
    have cond : ∀ {c : Option Str} {e : Option Ex}, ConditionSays c e → ClearCondition e := by
      intro c e hc
      cases hc with
      | none => intro e h; cases h
      | some _ _ hp hd =>
        intro e h
        cases h
        exact ⟨hp, hd⟩
    refine ⟨⟨?_, cond hr.condition, cond hr.check⟩, ?_⟩
    · intro w hw
      obtain ⟨x, v, hm, -, hv⟩ := hr.scope
      rw [hv] at hw
      cases hw
      revert hm
      simp only [policyScopes, List.mem_cons, List.not_mem_nil, or_false, Prod.mk.injEq]
      rintro (⟨-, rfl⟩ | ⟨-, rfl⟩ | ⟨-, rfl⟩ | ⟨-, rfl⟩ | ⟨-, rfl⟩) <;> decide
    · intro c hc
      simp [Sentence.indexColumns] at hc

theorem all_clear {cat : Pg.Catalog} {ts : List (Str × Str)} {ds : List Described}
    (h : List.Forall₂ (fun t d => CatalogSays cat t.1 t.2 d) ts ds) : ∀ s ∈ ds.flatMap Described.sentences, s.Clear ∧ s.InRange := by
  induction h with
  | nil => simp
  | cons hd _ ih =>
    intro s hs
    rw [List.flatMap_cons, List.mem_append] at hs
    rcases hs with hs | hs
    · exact sentences_clear hd s hs
    · exact ih s hs

end Sqldef
