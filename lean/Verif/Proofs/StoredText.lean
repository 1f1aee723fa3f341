import Verif.Spec.StoredText
import Verif.Proofs.PgNormal
/-
Dumps that are put together from texts that the server keeps.
-/
namespace Sqldef
open Spec Written Dumped

theorem tokens_ne (s : Sentence) : s.tokens ≠ [] := by
  cases s with
  | table t => simp [Sentence.tokens, Written.Table.tokens]
  | index i => simp [Sentence.tokens, NewIndex.tokens]
  | alter a => simp [Sentence.tokens, Alter.tokens]
  | policy p => simp [Sentence.tokens, NewPolicy.tokens]

theorem textSays_ne {mode : Mode} {text : Str} {s : Sentence} (h : TextSays mode text s) : text ≠ [] := by
  intro e
  subst e
  have := h.tokens
  have h0 : tokenize mode [] = .ok [] := tokenize_layout (lay_end (mode := mode))
  rw [h0] at this
  injection this with this
  exact tokens_ne s this.symm

theorem contains_texts {mode : Mode} {texts : List Str} {file : Str} {ss : List Sentence} (hg : Glued texts file)
    (h : List.Forall₂ (TextSays mode) texts ss) : Contains mode file ss ∧ Contains mode (file ++ lit ";\n") ss := by
  have hall : ∀ t ∈ texts, ';' ∉ t ∧ NoComment t ∧ trimSpace t = t ∧ t ≠ [] := by
    clear hg
    induction h with
    | nil => simp
    | cons hs _ ih =>
      intro t ht
      rcases List.mem_cons.mp ht with rfl | ht
      · exact ⟨hs.semicolon, hs.comment, hs.trimmed, textSays_ne hs⟩
      · exact ih t ht
  have e1 : (texts.map trimSpace).filter (· ≠ []) = texts := by
    rw [List.map_congr_left (g := id) (fun t ht => (hall t ht).2.2.1), List.map_id, List.filter_eq_self]
    intro t ht
    simp [(hall t ht).2.2.2]
  have hc : List.Forall₂ (fun t s => tokenize mode t = .ok (Sentence.tokens s)) texts ss :=
    forall₂_imp (fun _ _ hs => hs.tokens) h
  constructor
  · unfold Contains
    rw [statementTexts_glued hg (fun t ht => (hall t ht).1) (fun t ht => (hall t ht).2.1), e1]
    exact hc
  · unfold Contains
    have hb : Blank ['\n'] := by
      intro c hc
      simp only [List.mem_singleton] at hc
      subst hc
      decide
    have hg' := glued_append hg hb (.one [])
    have e : file ++ ';' :: (['\n'] ++ []) = file ++ lit ";\n" := rfl
    rw [e] at hg'
    rw [statementTexts_glued hg' ?_ ?_, List.map_append, List.filter_append, e1]
    · have : (List.map trimSpace [[]]).filter (· ≠ []) = [] := by decide
      rw [this, List.append_nil]
      exact hc
    · intro t ht
      rcases List.mem_append.mp ht with ht | ht
      · exact (hall t ht).1
      · simp only [List.mem_singleton] at ht
        simp [ht]
    · intro t ht
      rcases List.mem_append.mp ht with ht | ht
      · exact (hall t ht).2.1
      · simp only [List.mem_singleton] at ht
        subst ht
        exact noComment_nil

/-- Texts that the dump joins. -/
theorem contains_joined {mode : Mode} {texts : List Str} {ss : List Sentence} (h : List.Forall₂ (TextSays mode) texts ss) :
    Contains mode (join (lit ";\n\n") texts) ss ∧ Contains mode (join (lit ";\n\n") texts ++ lit ";\n") ss ∧
    (join (lit ";\n\n") texts = [] → ss = []) := by
  cases texts with
  | nil =>
    cases h
    refine ⟨?_, ?_, fun _ => rfl⟩
    · unfold Contains
      rw [show statementTexts (join (lit ";\n\n") []) = [] by decide +kernel]
      exact .nil
    · unfold Contains
      rw [show statementTexts (join (lit ";\n\n") [] ++ lit ";\n") = [] by decide +kernel]
      exact .nil
  | cons t ts =>
    have hg : Glued (t :: ts) (join (lit ";\n\n") (t :: ts)) := glued_join (w := ['\n', '\n']) (by
      intro c hc
      simp only [List.mem_cons, List.not_mem_nil, or_false, or_self] at hc
      subst hc
      decide) t ts
    obtain ⟨c1, c2⟩ := contains_texts hg h
    refine ⟨c1, c2, fun e => ?_⟩
    rw [e] at c1
    unfold Contains at c1
    rw [show statementTexts [] = [] by decide +kernel] at c1
    cases c1
    rfl

theorem dump_joined {σ : Type} {db : Db σ} {s : σ} {names texts : List Str} (h1 : db.tableNames s = .ok names)
    (h2 : dumpTables db s names = .ok texts) (h3 : db.views s = .ok []) (h4 : db.triggers s = .ok []) :
    dumpDDLs db s = .ok (join (lit ";\n\n") texts) := by
  unfold dumpDDLs
  rw [h1, h3, h4]
  change (dumpTables db s names >>= _) = _
  rw [h2]
  change Except.ok _ = _
  simp

theorem dumpTables_texts {σ : Type} {db : Db σ} {s : σ} {R : Str → Sentence → Prop} {names : List Str} {ss : List Sentence}
    (h : List.Forall₂ (fun n x => ∃ text, db.dumpTableDDL s n = .ok text ∧ R text x) names ss) :
    ∃ texts, dumpTables db s names = .ok texts ∧ List.Forall₂ R texts ss := by
  induction h with
  | nil => exact ⟨[], rfl, .nil⟩
  | @cons n x ns xs hx _ ih =>
    obtain ⟨text, h1, h2⟩ := hx
    obtain ⟨texts, h3, h4⟩ := ih
    refine ⟨text :: texts, ?_, .cons h2 h4⟩
    simp only [dumpTables, h1, h3]
    rfl

/-! ### Tables in normal form -/

theorem listRel_of_mem {α β : Type} {R : Nat → α → β → Prop} {as : List α} {bs : List β} (h : ListRel R as bs) {b : β} (hb : b ∈ bs) :
    ∃ i, ∃ a ∈ as, R i a b := by
  obtain ⟨k, hk⟩ := List.getElem?_of_mem hb
  have hl := (List.getElem?_eq_some_iff.mp hk).1
  have ha : as[k]? = some (as[k]'(by rw [h.1]; exact hl)) := List.getElem?_eq_getElem _
  exact ⟨k, _, List.getElem_mem _, h.2 k _ b ha hk⟩

theorem table_block {mode : Mode} (hm : mode ≠ .postgres) {t : Written.Table} (ho : OrderlyTable mode t) {d : DDL}
    (hd : SaysTheSame mode d.statement (Sentence.meaning (.table t)) d ∧ (Sentence.table t).Kind d) :
    ∃ b : TableBlock, d :: [] = b.defs ∧ NormalBlock mode b ∧ b.table.name = t.name.name := by
  obtain ⟨hs, text, u, rfl⟩ := hd
  cases hs with
  | @createTable _ spec _ hspec hn hc hi hf hp =>
    have hsp : spec.columns = t.spec.columns ∧ spec.indexes = t.spec.indexes ∧ spec.foreignKeys = t.spec.foreignKeys := by
      have hx : t.meaning.tableSpec = some spec := hspec
      simp only [Written.Table.meaning, Option.some.injEq] at hx
      rw [← hx]
      exact ⟨rfl, rfl, rfl⟩
    rw [hsp.1] at hc
    rw [hsp.2.1] at hi
    rw [hsp.2.2] at hf
    refine ⟨⟨text, u, []⟩, rfl, ?_, hn.2.2 hm⟩
    constructor
    · simp
    · show (u.columns.map (·.name)).Nodup
      rw [listRel_names (fun _ _ _ hk => hk.name) hc]
      exact ho.columns
    · show ((u.indexes ++ []).map fun i : Index => i.name).Nodup
      rw [List.append_nil, listRel_names (fun _ _ _ hk => hk.name) hi]
      exact ho.indexes
    · intro i hm
      have hm : i ∈ u.indexes := by simpa [indexesFor] using hm
      obtain ⟨k, a, ha, hk⟩ := listRel_of_mem hi hm
      have h1 := listRel_names (f := fun o : SqlIndexOption => o.name) (g := fun o : IndexOption => o.optionName)
        (fun _ _ _ hx => hx.name) hk.options
      show (i.options.map (·.optionName)).Nodup
      rw [h1]
      exact ho.options a ha
    · intro i hm
      simp [indexesFor] at hm
    · show ((u.foreignKeys ++ []).map fun f : ForeignKey => f.constraintName).Nodup
      rw [List.append_nil, listRel_names (fun _ _ _ hk => hk.name) hf]
      exact ho.foreignKeys
    · intro f hm
      obtain ⟨k, a, ha, hk⟩ := listRel_of_mem hf hm
      rw [hk.name]
      exact ho.named a ha
    · show ((u.policies ++ []).map fun p : Policy => p.name).Nodup
      rw [hp]
      exact List.nodup_nil
    · intro e c hc'
      obtain ⟨k, a, ha, hk⟩ := listRel_of_mem hc hc'
      obtain ⟨h1, h2⟩ := ho.mysql e a ha
      constructor
      · have := hk.check
        rw [h1] at this
        generalize c.check = x at this
        cases this
        rfl
      · intro hkey
        rw [hk.notNull]
        refine h2 ?_
        have := hk.key
        rw [hkey] at this
        generalize a.type.keyOpt = x at this
        cases this
        rfl

theorem tables_normal {mode : Mode} (hm : mode ≠ .postgres) {ts : List Written.Table} (h : OrderlyTables mode ts) {ds : List DDL}
    (hd : List.Forall₂ (fun s d => SaysTheSame mode d.statement (Sentence.meaning s) d ∧ s.Kind d) (ts.map Sentence.table) ds) :
    Normal mode ds := by
  have key : ∃ bs : List TableBlock, ds = bs.flatMap TableBlock.defs ∧ (∀ b ∈ bs, NormalBlock mode b) ∧
      bs.map (·.table.name) = ts.map (·.name.name) := by
    have ht := h.tables
    clear h
    induction ts generalizing ds with
    | nil =>
      cases hd
      exact ⟨[], rfl, by simp, rfl⟩
    | cons t ts ih =>
      cases hd with
      | @cons _ d _ ds h1 h2 =>
      obtain ⟨bs, e, hbs, hn⟩ := ih h2 fun x hx => ht x (by simp [hx])
      obtain ⟨b, eb, hb, hbn⟩ := table_block hm (ht t (by simp)) h1
      refine ⟨b :: bs, by rw [e, List.flatMap_cons, ← eb]; rfl, ?_, by simp [hn, hbn]⟩
      intro x hx
      rcases List.mem_cons.mp hx with rfl | hx
      · exact hb
      · exact hbs x hx
  obtain ⟨bs, rfl, hbs, hn⟩ := key
  exact normal_of_blocks hbs (by rw [hn]; exact h.names)

theorem orderly_clear {mode : Mode} {ts : List Written.Table} (h : OrderlyTables mode ts) :
    ∀ s ∈ ts.map Sentence.table, s.Clear ∧ s.InRange := by
  intro s hs
  obtain ⟨t, ht, rfl⟩ := List.mem_map.mp hs
  exact h.clear t ht

/-- A file with the statements that the dump consists of changes nothing. -/
theorem run_same {mode : Mode} (hm : mode ≠ .postgres) (fmtFloat : Str → Str) {σ : Type} {db : Db σ} {s : σ} {ts : List Written.Table}
    (h : OrderlyTables mode ts) {text : Str} (h1 : dumpDDLs db s = .ok text) (h2 : Contains mode text (ts.map Sentence.table))
    {fs : Files} {o : Options} (he : o.export_ = false) {file : Str} (hr : readFile fs o.sqlFile = .ok file)
    (hf : Contains mode file (ts.map Sentence.table)) :
    run (Sql.env fmtFloat) mode db fs o s =
      { events := [.readFile, .print (lit "-- Nothing is modified --\n")], err := none, state := s } := by
  obtain ⟨defs, h3, h4, -⟩ := C57_file_is_understood fmtFloat mode file _ hf (orderly_clear h)
  have hg := C57_rewriting_changes_nothing fmtFloat mode file text _ hf h2 (orderly_clear h) defs h3 (tables_normal hm h h4)
  simp only [run, h1, he, hr, hg]
  rfl

/-- Applying an export changes nothing. -/
theorem export_same {mode : Mode} (hm : mode ≠ .postgres) (fmtFloat : Str → Str) {σ : Type} {db : Db σ} {s : σ} {ts : List Written.Table}
    (h : OrderlyTables mode ts) {texts : List Str} (h1 : dumpDDLs db s = .ok (join (lit ";\n\n") texts))
    (h2 : List.Forall₂ (TextSays mode) texts (ts.map Sentence.table))
    (fs fs' : Files) (o o' : Options) (ho : o.export_ = true) (ho' : o'.export_ = false) :
    ∃ text, run (Sql.env fmtFloat) mode db fs o s = { events := [.print text], err := none, state := s } ∧
      (readFile fs' o'.sqlFile = .ok text →
        run (Sql.env fmtFloat) mode db fs' o' s =
          { events := [.readFile, .print (lit "-- Nothing is modified --\n")], err := none, state := s }) := by
  obtain ⟨c1, c2, c3⟩ := contains_joined h2
  refine ⟨if join (lit ";\n\n") texts = [] then lit "-- No table exists --\n" else join (lit ";\n\n") texts ++ lit ";\n",
    by simp only [run, h1, ho]; rfl, fun hr => ?_⟩
  refine run_same hm fmtFloat h h1 c1 ho' hr ?_
  split
  · rename_i he
    rw [c3 he]
    unfold Contains
    rw [show statementTexts (lit "-- No table exists --\n") = [] by decide +kernel]
    exact .nil
  · exact c2


/-! ### MySQL -/

theorem forall₂_unmap {α β γ : Type} {R : γ → β → Prop} {f : α → γ} {as : List α} {bs : List β} (h : List.Forall₂ R (as.map f) bs) :
    List.Forall₂ (fun a b => R (f a) b) as bs := by
  induction as generalizing bs with
  | nil => cases h; exact .nil
  | cons a as ih =>
    cases h with
    | cons h1 h2 => exact .cons h1 (ih h2)

theorem my_dumped {σ : Type} (db : Db σ) (cat : σ → My.Catalog) (s : σ) {ts : List Written.Table} (h : MyCatalogSays (cat s) ts) :
    ∃ texts, dumpDDLs (My.database db cat) s = .ok (join (lit ";\n\n") texts) ∧
      List.Forall₂ (TextSays .mysql) texts (ts.map Sentence.table) := by
  have key : List.Forall₂ (fun n x => ∃ text, (My.database db cat).dumpTableDDL s n = .ok text ∧ TextSays .mysql text x)
      (cat s).tables (ts.map Sentence.table) := by
    have := forall₂_map (f := id) (g := Sentence.table)
      (R := fun n x => ∃ text, (My.database db cat).dumpTableDDL s n = .ok text ∧ TextSays .mysql text x)
      (forall₂_imp (fun n t hx => ⟨_, rfl, hx⟩) h.tables)
    rwa [List.map_id] at this
  obtain ⟨texts, h1, h2⟩ := dumpTables_texts key
  refine ⟨texts, dump_joined rfl h1 ?_ ?_, h2⟩
  · show Except.ok _ = _
    rw [h.views]
    rfl
  · show Except.ok _ = _
    rw [h.triggers]
    rfl

/-! ### SQLite -/

theorem reserved_test (n : Str) : (hasPrefix (lit "sqlite") (toLower n) = true ∧ 7 ≤ n.length) ↔ Reserved n := by
  unfold Reserved hasPrefix
  rw [List.isPrefixOf_iff_prefix]

theorem lite_dumped {σ : Type} (db : Db σ) (master : σ → List Lite.Object) (s : σ) {ts : List Written.Table}
    (h : LiteCatalogSays (master s) ts) : ∃ texts, dumpDDLs (Lite.database db master) s = .ok (join (lit ";\n\n") texts) ∧
      List.Forall₂ (TextSays .sqlite3) texts (ts.map Sentence.table) := by
  have e : Lite.tableNames (master s) = ((master s).filter fun o => o.type = lit "table" ∧ ¬ Reserved o.tblName).map (·.tblName) := by
    unfold Lite.tableNames
    congr 1
    refine List.filter_congr fun o _ => ?_
    simp only [reserved_test]
  have hv : Lite.views (master s) = [] := by
    unfold Lite.views
    rw [List.filter_eq_nil_iff.mpr (by simpa using h.views)]
    rfl
  have key : List.Forall₂ (fun n x => ∃ text, (Lite.database db master).dumpTableDDL s n = .ok text ∧ TextSays .sqlite3 text x)
      (Lite.tableNames (master s)) (ts.map Sentence.table) := by
    rw [e]
    refine forall₂_map ?_
    have hm : ∀ o ∈ (master s).filter fun o => o.type = lit "table" ∧ ¬ Reserved o.tblName, o ∈ master s ∧ o.type = lit "table" := by
      intro o ho
      obtain ⟨h1, h2⟩ := List.mem_filter.mp ho
      exact ⟨h1, (of_decide_eq_true h2).1⟩
    have ht := h.tables
    have hfirst := h.first
    clear h
    revert hm ht
    generalize (master s).filter (fun o => decide (o.type = lit "table" ∧ ¬ Reserved o.tblName)) = os
    intro hm ht
    induction ht with
    | nil => exact .nil
    | @cons o t os ts ho _ ih =>
      refine .cons ?_ (ih fun x hx => hm x (by simp [hx]))
      obtain ⟨-, text, h1, h2⟩ := ho
      obtain ⟨h3, h4⟩ := hm o (by simp)
      refine ⟨text, ?_, h2⟩
      show Lite.dumpTableDDL (master s) o.tblName = _
      unfold Lite.dumpTableDDL
      rw [hfirst o h3 h4]
      simp only [h1]
  obtain ⟨texts, h1, h2⟩ := dumpTables_texts key
  exact ⟨texts, dump_joined rfl h1 (by show Except.ok _ = _; rw [hv]) rfl, h2⟩


/-- A table is created. -/
theorem lite_created {os : List Lite.Object} {ts : List Written.Table} (h : LiteCatalogSays os ts) {t : Written.Table} {sql : Str}
    {indexes : List Lite.Object} (hs : TextSays .sqlite3 sql (.table t)) (hi : ∀ o ∈ indexes, o.type = lit "index" ∧ o.tblName = t.name.name)
    (hn : t.name.name ∉ os.map (·.tblName)) (hr : ¬ Reserved t.name.name) :
    LiteCatalogSays (os ++ { type := lit "table", tblName := t.name.name, sql := some sql } :: indexes) (ts ++ [t]) := by
  have hidx : indexes.filter (fun o => o.type = lit "table" ∧ ¬ Reserved o.tblName) = [] := by
    rw [List.filter_eq_nil_iff]
    intro o ho
    rw [(hi o ho).1]
    simp [lit]
  constructor
  · rw [List.filter_append, List.filter_cons, hidx]
    simp only [true_and, hr, not_false_eq_true, decide_true, ↓reduceIte]
    exact forall₂_both h.tables (.cons ⟨rfl, sql, rfl, hs⟩ .nil)
  · intro o ho ht
    rw [List.find?_append]
    rcases List.mem_append.mp ho with ho | ho
    · rw [h.first o ho ht]
      rfl
    · rcases List.mem_cons.mp ho with rfl | ho
      · have : os.find? (fun p => decide (p.tblName = t.name.name)) = none := by
          rw [List.find?_eq_none]
          intro p hp
          have : p.tblName ≠ t.name.name := fun e => hn (List.mem_map.mpr ⟨p, hp, e⟩)
          simpa using this
        simp only [this, Option.none_or, List.find?_cons, decide_true]
      · rw [(hi o ho).1] at ht
        simp [lit] at ht
  · intro o ho
    rcases List.mem_append.mp ho with ho | ho
    · obtain ⟨p, hp, h1, h2⟩ := h.owned o ho
      exact ⟨p, by simp [hp], h1, h2⟩
    · refine ⟨_, List.mem_append_right _ List.mem_cons_self, rfl, ?_⟩
      rcases List.mem_cons.mp ho with rfl | ho
      · rfl
      · exact (hi o ho).2.symm
  · intro o ho
    rcases List.mem_append.mp ho with ho | ho
    · exact h.views o ho
    · rcases List.mem_cons.mp ho with rfl | ho
      · simp [lit]
      · rw [(hi o ho).1]
        simp [lit]

theorem lite_names {os : List Lite.Object} {n : Str} {sql : Str} {indexes : List Lite.Object}
    (hi : ∀ o ∈ indexes, o.type = lit "index" ∧ o.tblName = n) {m : Str} (h1 : m ∉ os.map (·.tblName)) (h2 : m ≠ n) :
    m ∉ (os ++ { type := lit "table", tblName := n, sql := some sql } :: indexes).map (·.tblName) := by
  simp only [List.map_append, List.map_cons, List.mem_append, List.mem_cons, not_or]
  refine ⟨h1, h2, ?_⟩
  intro h
  obtain ⟨o, ho, e⟩ := List.mem_map.mp h
  rw [(hi o ho).2] at e
  exact h2 e.symm

/-- Tables are created, and then the rest is executed. -/
theorem lite_applied {σ : Type} {db : Db σ} {master : σ → List Lite.Object} (hdb : LiteServer db master) {texts : List Str}
    {ts : List Written.Table} (h : List.Forall₂ (TextSays .sqlite3) texts (ts.map Sentence.table))
    (hn : (ts.map (·.name.name)).Nodup) (ht : ∀ t ∈ ts, t.ifNotExists = false ∧ t.name.schema = none ∧ ¬ Reserved t.name.name)
    (more : List Str) :
    ∀ (s : σ) (pre : List Written.Table), LiteCatalogSays (master s) pre → (∀ t ∈ ts, t.name.name ∉ (master s).map (·.tblName)) →
      (runLoop db false (texts ++ more) s).err = none → ∃ s', LiteCatalogSays (master s') (pre ++ ts) ∧
        (runLoop db false more s').err = none ∧ (runLoop db false (texts ++ more) s).state = (runLoop db false more s').state := by
  induction ts generalizing texts with
  | nil =>
    cases h
    intro s pre hp _ he
    rw [List.append_nil]
    exact ⟨s, hp, he, rfl⟩
  | cons t ts ih =>
    cases h with
    | @cons text _ texts _ h1 h2 =>
    intro s pre hp hfresh he
    obtain ⟨a1, a2, a3⟩ := ht t (by simp)
    rw [List.map_cons, List.nodup_cons] at hn
    have hskip : isSkipped false text = false := rfl
    rw [List.cons_append] at he ⊢
    cases hx : db.exec text s with
    | mk e s1 =>
    cases e with
    | some m =>
      simp only [runLoop, hskip, hx] at he
      simp at he
    | none =>
      have eq : (runLoop db false (text :: (texts ++ more)) s).err = (runLoop db false (texts ++ more) s1).err ∧
          (runLoop db false (text :: (texts ++ more)) s).state = (runLoop db false (texts ++ more) s1).state := by
        simp only [runLoop, hskip, hx]
        simp
      rw [eq.1] at he
      rw [eq.2]
      obtain ⟨sql, indexes, hm, hs, hi⟩ := hdb.creates s text t h1 a1 a2 (by rw [hx])
      rw [hx] at hm
      simp only at hm
      have := ih h2 hn.2 (fun x hx => ht x (by simp [hx])) s1 (pre ++ [t])
        (by rw [hm]; exact lite_created hp hs hi (hfresh t (by simp)) a3)
        (by
          intro x hx
          rw [hm]
          refine lite_names hi (hfresh x (by simp [hx])) fun e => hn.1 ?_
          rw [← e]
          exact List.mem_map.mpr ⟨x, hx, rfl⟩) he
      simpa using this

theorem lite_dropped {os : List Lite.Object} {ts : List Written.Table} (h : LiteCatalogSays os ts) (n : Str) :
    LiteCatalogSays (os.filter fun o => o.tblName ≠ n) (ts.filter fun t => t.name.name ≠ n) := by
  constructor
  · have h1 := h.tables
    have e : (os.filter fun o => o.tblName ≠ n).filter (fun o => o.type = lit "table" ∧ ¬ Reserved o.tblName) =
        (os.filter fun o => o.type = lit "table" ∧ ¬ Reserved o.tblName).filter fun o => o.tblName ≠ n := by
      rw [List.filter_filter, List.filter_filter]
      exact List.filter_congr fun o _ => Bool.and_comm _ _
    rw [e]
    revert h1
    generalize os.filter (fun o => decide (o.type = lit "table" ∧ ¬ Reserved o.tblName)) = us
    intro h1
    clear h e
    induction h1 with
    | nil => exact .nil
    | @cons o t _ _ ho _ ih =>
      by_cases hc : o.tblName = n
      · rw [List.filter_cons_of_neg (by simp [hc]), List.filter_cons_of_neg (by simp [← ho.1, hc])]
        exact ih
      · rw [List.filter_cons_of_pos (by simp [hc]), List.filter_cons_of_pos (by simp [← ho.1, hc])]
        exact .cons ho ih
  · intro o ho ht
    obtain ⟨h1, h2⟩ := List.mem_filter.mp ho
    have h3 := h.first o h1 ht
    have : ∀ l : List Lite.Object, (l.filter fun o => o.tblName ≠ n).find? (fun p => decide (p.tblName = o.tblName)) =
        l.find? fun p => decide (p.tblName = o.tblName) := by
      intro l
      rw [List.find?_filter]
      congr 1
      funext p
      by_cases hp : p.tblName = o.tblName
      · simpa [hp] using h2
      · simp [hp]
    rw [this]
    exact h3
  · intro o ho
    obtain ⟨h1, h2⟩ := List.mem_filter.mp ho
    obtain ⟨p, hp, h3, h4⟩ := h.owned o h1
    exact ⟨p, List.mem_filter.mpr ⟨hp, by rw [h4]; exact h2⟩, h3, h4⟩
  · intro o ho
    exact h.views o (List.mem_filter.mp ho).1

theorem forall₂_back {α β : Type} {R : α → β → Prop} {as : List α} {bs : List β} (h : List.Forall₂ R as bs) {b : β} (hb : b ∈ bs) :
    ∃ a ∈ as, R a b := by
  induction h with
  | nil => cases hb
  | @cons x y xs ys hr _ ih =>
    rcases List.mem_cons.mp hb with rfl | hb
    · exact ⟨x, by simp, hr⟩
    · obtain ⟨a, ha, h⟩ := ih hb
      exact ⟨a, by simp [ha], h⟩

/-- Tables are dropped. -/
theorem lite_cleaned {σ : Type} {db : Db σ} {master : σ → List Lite.Object} (hdb : LiteServer db master) (names : List Str)
    (hq : ∀ n ∈ names, n ≠ [] ∧ '`' ∉ n) (hd : names.Nodup) : ∀ (s : σ) (ts : List Written.Table), LiteCatalogSays (master s) ts →
      (∀ n ∈ names, n ∈ ts.map (·.name.name)) →
      (runLoop db false (names.map fun n => lit "DROP TABLE `" ++ n ++ lit "`") s).err = none →
      LiteCatalogSays (master (runLoop db false (names.map fun n => lit "DROP TABLE `" ++ n ++ lit "`") s).state)
        (ts.filter fun t => t.name.name ∉ names) := by
  induction names with
  | nil =>
    intro s ts h _ _
    show LiteCatalogSays (master (db.commit s).2) _
    rw [hdb.commits, List.filter_eq_self.mpr (by simp)]
    exact h
  | cons n names ih =>
    intro s ts h hin he
    rw [List.nodup_cons] at hd
    rw [List.map_cons] at he ⊢
    have hskip : isSkipped false (lit "DROP TABLE `" ++ n ++ lit "`") = false := rfl
    cases hx : db.exec (lit "DROP TABLE `" ++ n ++ lit "`") s with
    | mk e s1 =>
    cases e with
    | some m =>
      simp only [runLoop, hskip, hx] at he
      simp at he
    | none =>
      have eq : ∀ l, (runLoop db false ((lit "DROP TABLE `" ++ n ++ lit "`") :: l) s).err = (runLoop db false l s1).err ∧
          (runLoop db false ((lit "DROP TABLE `" ++ n ++ lit "`") :: l) s).state = (runLoop db false l s1).state := by
        intro l
        simp only [runLoop, hskip, hx]
        simp
      rw [(eq _).1] at he
      rw [(eq _).2]
      have hex : ∃ o ∈ master s, o.type = lit "table" ∧ o.tblName = n := by
        obtain ⟨t, ht, e⟩ := List.mem_map.mp (hin n (by simp))
        obtain ⟨o, ho, h1, -⟩ := forall₂_back h.tables ht
        obtain ⟨h2, h3⟩ := List.mem_filter.mp ho
        exact ⟨o, h2, (of_decide_eq_true h3).1, h1.trans e⟩
      have hm := hdb.drops s n (hq n (by simp)).1 (hq n (by simp)).2 hex (by rw [hx])
      rw [hx] at hm
      simp only at hm
      have := ih (fun m hm => hq m (by simp [hm])) hd.2 s1 _ (by rw [hm]; exact lite_dropped h n)
        (by
          intro m hm
          obtain ⟨t, ht, e⟩ := List.mem_map.mp (hin m (by simp [hm]))
          refine List.mem_map.mpr ⟨t, List.mem_filter.mpr ⟨ht, ?_⟩, e⟩
          have : t.name.name ≠ n := by
            intro e'
            rw [e] at e'
            exact hd.1 (e' ▸ hm)
          simpa using this) he
      rw [List.filter_filter] at this
      have e2 : ts.filter (fun t => t.name.name ∉ n :: names) = ts.filter fun a => decide (a.name.name ∉ names) && decide (a.name.name ≠ n) := by
        refine List.filter_congr fun t _ => ?_
        rw [← Bool.decide_and]
        exact decide_eq_decide.mpr (by simp only [List.mem_cons, not_or]; exact and_comm)
      rw [e2]
      exact this

end Sqldef
