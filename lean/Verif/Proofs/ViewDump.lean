import Verif.Proofs.ViewText
import Verif.Proofs.StoredText
import Verif.Props.Views
/-
Dumps with views.
-/
namespace Sqldef
open Spec Written Dumped

/-! ### Files -/

/-- A text for a statement. -/
def Renders (mode : Mode) (text : Str) (s : Written.Statement) : Prop := TextStands mode text s.tokens

theorem statement_tokens_ne (s : Written.Statement) : s.tokens ≠ [] := by
  cases s with
  | sentence s => exact tokens_ne s
  | view v => simp [Statement.tokens, NewView.tokens]
  | trigger t =>
    show t.tokens ≠ []
    unfold NewTrigger.tokens
    split <;> simp

theorem stands_ne {mode : Mode} {text : Str} {ts : List Token} (hn : ts ≠ []) (h : TextStands mode text ts) : text ≠ [] := by
  rintro rfl
  have := tokenize_layout h.layout
  rw [tokenize_layout (lay_end (mode := mode))] at this
  injection this with this
  exact hn this.symm

theorem consists_glued {mode : Mode} {texts : List Str} {file : Str} {ss : List Written.Statement} (hg : Glued texts file)
    (h : List.Forall₂ (Renders mode) texts ss) : Consists mode file ss ∧ Consists mode (file ++ lit ";\n") ss := by
  have hall : ∀ t ∈ texts, ';' ∉ t ∧ NoComment t ∧ trimSpace t = t ∧ t ≠ [] := by
    clear hg
    induction h with
    | nil => simp
    | @cons _ s _ _ hs _ ih =>
      intro t ht
      rcases List.mem_cons.mp ht with rfl | ht
      · exact ⟨hs.semicolon, hs.comment, hs.trimmed, stands_ne (statement_tokens_ne s) hs⟩
      · exact ih t ht
  have e1 : (texts.map trimSpace).filter (· ≠ []) = texts := by
    rw [List.map_congr_left (g := id) (fun t ht => (hall t ht).2.2.1), List.map_id, List.filter_eq_self]
    intro t ht
    simp [(hall t ht).2.2.2]
  have hc : List.Forall₂ (fun t s => Layout mode t (Statement.tokens s)) texts ss :=
    forall₂_imp (fun _ _ hs => hs.layout) h
  constructor
  · unfold Consists
    rw [statementTexts_glued hg (fun t ht => (hall t ht).1) (fun t ht => (hall t ht).2.1), e1]
    exact hc
  · unfold Consists
    have hb : Blank ['\n'] := by
      intro c hc
      simp only [List.mem_singleton] at hc
      subst hc
      decide
    have hg' := glued_append hg hb (.one [])
    have e : file ++ ';' :: (['\n'] ++ []) = file ++ lit ";\n" := rfl
    rw [e] at hg'
    rw [statementTexts_glued hg' ?_ ?_, List.map_append, List.filter_append, e1]
    · have : (List.map trimSpace [[]]).filter (· ≠ []) = [] := by decide
      rw [this, List.append_nil]
      exact hc
    · intro t ht
      rcases List.mem_append.mp ht with ht | ht
      · exact (hall t ht).1
      · simp only [List.mem_singleton] at ht
        simp [ht]
    · intro t ht
      rcases List.mem_append.mp ht with ht | ht
      · exact (hall t ht).2.1
      · simp only [List.mem_singleton] at ht
        subst ht
        exact noComment_nil

/-- What a dump is put together from: files, each of which consists of statements. -/
theorem consists_files {mode : Mode} {ps : List (List Str × Str)} (hg : ∀ p ∈ ps, Glued p.1 p.2) {ss : List Written.Statement}
    (h : List.Forall₂ (Renders mode) (ps.flatMap (·.1)) ss) :
    Consists mode (join (lit ";\n\n") (ps.map (·.2))) ss ∧ Consists mode (join (lit ";\n\n") (ps.map (·.2)) ++ lit ";\n") ss ∧
      (join (lit ";\n\n") (ps.map (·.2)) = [] → ss = []) := by
  cases ps with
  | nil =>
    cases h
    refine ⟨?_, ?_, fun _ => rfl⟩
    · unfold Consists
      rw [show statementTexts (join (lit ";\n\n") (([] : List (List Str × Str)).map (·.2))) = [] by decide +kernel]
      exact .nil
    · unfold Consists
      rw [show statementTexts (join (lit ";\n\n") (([] : List (List Str × Str)).map (·.2)) ++ lit ";\n") = [] by decide +kernel]
      exact .nil
  | cons p ps =>
    have hg := glued_files (w := ['\n', '\n']) (by
      intro c hc
      simp only [List.mem_cons, List.not_mem_nil, or_false, or_self] at hc
      subst hc
      decide) hg
    obtain ⟨c1, c2⟩ := consists_glued hg h
    refine ⟨c1, c2, fun e => ?_⟩
    have e' : join (';' :: ['\n', '\n']) ((p :: ps).map (·.2)) = [] := e
    rw [e'] at c1
    unfold Consists at c1
    rw [show statementTexts [] = [] by decide +kernel] at c1
    cases c1
    rfl

/-! ### Views in a schema in normal form -/

theorem createdNames_views (ds : List DDL) (vs : List View) : createdNames (ds ++ vs.map DDL.view) = createdNames ds := by
  have : createdNames (vs.map DDL.view) = [] := by
    induction vs with
    | nil => rfl
    | cons v vs ih => exact ih
  rw [createdNames_append, this, List.append_nil]

theorem for_views (n : Str) (ds : List DDL) (vs : List View) :
    indexesFor n (ds ++ vs.map DDL.view) = indexesFor n ds ∧ foreignKeysFor n (ds ++ vs.map DDL.view) = foreignKeysFor n ds ∧
    policiesFor n (ds ++ vs.map DDL.view) = policiesFor n ds ∧ triggersOf (ds ++ vs.map DDL.view) = triggersOf ds := by
  have h0 : indexesFor n (vs.map DDL.view) = [] ∧ foreignKeysFor n (vs.map DDL.view) = [] ∧ policiesFor n (vs.map DDL.view) = [] ∧
      triggersOf (vs.map DDL.view) = [] := by
    induction vs with
    | nil => exact ⟨rfl, rfl, rfl, rfl⟩
    | cons v vs ih => exact ih
  induction ds with
  | nil => exact h0
  | cons d ds ih =>
    cases d <;> simp_all [indexesFor, foreignKeysFor, policiesFor, triggersOf]

theorem viewsOf_views (ds : List DDL) (vs : List View) : viewsOf (ds ++ vs.map DDL.view) = viewsOf ds ++ vs := by
  have h0 : viewsOf (vs.map DDL.view) = vs := by
    induction vs with
    | nil => rfl
    | cons v vs ih => simp [viewsOf, ih]
  induction ds with
  | nil => exact h0
  | cons d ds ih => cases d <;> simp_all [viewsOf]

/-- A schema in normal form, with views whose names are different. -/
theorem normal_views {mode : Mode} {ds : List DDL} {vs : List View} (h : Normal mode ds) (h0 : viewsOf ds = [])
    (hv : (vs.map (·.name)).Nodup) : Normal mode (ds ++ vs.map DDL.view) := by
  constructor
  · unfold UniqueTables
    rw [createdNames_views]
    exact h.unique
  · intro pre d post e
    have : (∃ post', ds = pre ++ d :: post') ∨ ∃ us w ws, pre = ds ++ us.map DDL.view ∧ d = .view w ∧ vs = us ++ w :: ws := by
      rcases List.append_eq_append_iff.mp e with ⟨as, h1, h2⟩ | ⟨bs, h1, h2⟩
      · right
        obtain ⟨us, ws, e1, e2, e3⟩ := List.map_eq_append_iff.mp h2
        obtain ⟨w, ws', rfl, e4, e5⟩ := List.map_eq_cons_iff.mp e3
        exact ⟨us, w, ws', by rw [h1, e2], e4.symm, e1⟩
      · cases bs with
        | nil =>
          right
          rw [List.nil_append] at h2
          obtain ⟨w, ws', rfl, e4, e5⟩ := List.map_eq_cons_iff.mp h2.symm
          exact ⟨[], w, ws', by simpa using h1.symm, e4.symm, rfl⟩
        | cons b bs =>
          left
          rw [List.cons_append] at h2
          injection h2 with h2 h3
          subst h2
          exact ⟨bs, h1⟩
    rcases this with ⟨post', e⟩ | ⟨us, w, ws, rfl, rfl, rfl⟩
    · exact h.wellFormed pre d post' e
    · show w.name ∉ _
      rw [viewsOf_views, h0, List.nil_append]
      rw [List.map_append, List.nodup_append] at hv
      intro hm
      exact hv.2.2 _ hm w.name (by simp) rfl
  · intro s n i hm
    rcases List.mem_append.mp hm with hm | hm
    · exact h.noAddIndex s n i hm
    · simp at hm
  · intro s t hm
    rcases List.mem_append.mp hm with hm | hm
    · have ht := h.tables s t hm
      obtain ⟨e1, e2, e3, -⟩ := for_views t.name ds vs
      exact ⟨ht.columns, by rw [e1]; exact ht.indexes, by rw [e1]; exact ht.options, by rw [e1]; exact ht.secondary,
        by rw [e2]; exact ht.foreignKeys, ht.named, by rw [e3]; exact ht.policies, ht.mysql⟩
    · simp at hm
  · rw [(for_views [] ds vs).2.2.2]
    exact h.triggers

/-- Tables and what belongs to them, and then views. -/
theorem mixed_normal {mode : Mode} {xs : List Sentence} {vs : List NewView} {ds : List DDL}
    (hd : List.Forall₂ (fun s d => Statement.DefinedAs mode s d) (xs.map Statement.sentence ++ vs.map Statement.view) ds)
    (hn : ∀ ds, List.Forall₂ (fun s d => SaysTheSame mode d.statement (Sentence.meaning s) d ∧ s.Kind d) xs ds → Normal mode ds)
    (hv : ViewsDiffer vs) : Normal mode ds := by
  obtain ⟨ds1, ds2, g1, g2, rfl⟩ := forall₂_split hd
  have h1 := forall₂_unmap g1
  have h2 := forall₂_unmap g2
  obtain ⟨ws, rfl, hw⟩ : ∃ ws : List View, ds2 = ws.map DDL.view ∧ ws.map (·.name) = vs.map fun v => toLower v.name.name := by
    clear hd hv g2
    induction h2 with
    | nil => exact ⟨[], rfl, rfl⟩
    | @cons v d vs ds h _ ih =>
      obtain ⟨ws, rfl, hw⟩ := ih
      have h : d = .view _ := h
      exact ⟨⟨d.statement, toLower v.name.name, v.query.text⟩ :: ws, by rw [List.map_cons, ← h], by simp [hw]⟩
  refine normal_views (hn ds1 h1) ?_ (by rw [hw]; exact hv)
  clear hd hv h2 hn g1 g2
  induction h1 with
  | nil => rfl
  | @cons s d _ _ h _ ih =>
    have := kind_no_view h.2
    cases d with
    | view v => exact absurd rfl (this v)
    | _ => exact ih

theorem consists_rewritten {mode : Mode} {a b : Str} {ss : List Written.Statement} (ha : Consists mode a ss) (hb : Consists mode b ss) :
    Rewritten mode a b := by
  unfold Rewritten
  unfold Consists at ha hb
  generalize statementTexts a = as at *
  generalize statementTexts b = bs at *
  induction ha generalizing bs with
  | nil => cases hb; exact .nil
  | cons h _ ih =>
    cases hb with
    | cons h' hb => exact .cons ⟨_, h, h'⟩ (ih _ hb)

theorem mixed_clear {xs : List Sentence} {vs : List NewView} (hx : ∀ x ∈ xs, x.Clear ∧ x.InRange) (hq : ∀ v ∈ vs, v.query.Clear) :
    ∀ s ∈ xs.map Statement.sentence ++ vs.map Statement.view, s.Clear := by
  intro s hs
  rcases List.mem_append.mp hs with hs | hs
  · obtain ⟨x, hm, rfl⟩ := List.mem_map.mp hs; exact hx x hm
  · obtain ⟨x, hm, rfl⟩ := List.mem_map.mp hs; exact hq x hm

/-- A run on a database that is described by the statements of the file. -/
theorem run_mixed (fmtFloat : Str → Str) {mode : Mode} {σ : Type} {db : Db σ} {s : σ} {xs : List Sentence} {vs : List NewView}
    (hn : ∀ ds, List.Forall₂ (fun s d => SaysTheSame mode d.statement (Sentence.meaning s) d ∧ s.Kind d) xs ds → Normal mode ds)
    (hv : ViewsDiffer vs) (hx : ∀ x ∈ xs, x.Clear ∧ x.InRange) (hq : ∀ v ∈ vs, v.query.Clear) {text : Str} (h1 : dumpDDLs db s = .ok text)
    (h2 : Consists mode text (xs.map Statement.sentence ++ vs.map Statement.view))
    {fs : Files} {o : Options} (he : o.export_ = false) {file : Str} (hr : readFile fs o.sqlFile = .ok file)
    (hf : Consists mode file (xs.map Statement.sentence ++ vs.map Statement.view)) :
    run (Sql.env fmtFloat) mode db fs o s =
      { events := [.readFile, .print (lit "-- Nothing is modified --\n")], err := none, state := s } := by
  obtain ⟨ds, h3, h4, -⟩ := C67_file_is_understood fmtFloat mode file _ hf (mixed_clear hx hq)
  have hg := C66_rewriting_changes_nothing fmtFloat mode file text (consists_rewritten hf h2) ds h3 (mixed_normal h4 hn hv)
  simp only [run, h1, he, hr, hg]
  rfl

/-- Applying an export changes nothing. -/
theorem export_mixed (fmtFloat : Str → Str) {mode : Mode} {σ : Type} {db : Db σ} {s : σ} {xs : List Sentence} {vs : List NewView}
    (hn : ∀ ds, List.Forall₂ (fun s d => SaysTheSame mode d.statement (Sentence.meaning s) d ∧ s.Kind d) xs ds → Normal mode ds)
    (hv : ViewsDiffer vs) (hx : ∀ x ∈ xs, x.Clear ∧ x.InRange) (hq : ∀ v ∈ vs, v.query.Clear) {text : Str} (h1 : dumpDDLs db s = .ok text)
    (h2 : Consists mode text (xs.map Statement.sentence ++ vs.map Statement.view))
    (h3 : Consists mode (text ++ lit ";\n") (xs.map Statement.sentence ++ vs.map Statement.view))
    (h4 : text = [] → xs.map Statement.sentence ++ vs.map Statement.view = [])
    (fs fs' : Files) (o o' : Options) (ho : o.export_ = true) (ho' : o'.export_ = false) :
    ∃ text, run (Sql.env fmtFloat) mode db fs o s = { events := [.print text], err := none, state := s } ∧
      (readFile fs' o'.sqlFile = .ok text →
        run (Sql.env fmtFloat) mode db fs' o' s =
          { events := [.readFile, .print (lit "-- Nothing is modified --\n")], err := none, state := s }) := by
  refine ⟨if text = [] then lit "-- No table exists --\n" else text ++ lit ";\n",
    by simp only [run, h1, ho]; rfl, fun hr => ?_⟩
  refine run_mixed fmtFloat hn hv hx hq h1 h2 ho' hr ?_
  split
  · rename_i he
    rw [h4 he]
    unfold Consists
    rw [show statementTexts (lit "-- No table exists --\n") = [] by decide +kernel]
    exact .nil
  · exact h3

/-! ### The text of a view -/

/-- `CREATE VIEW name AS`, and then the query. -/
theorem create_view_layout {mode : Mode} {name body : Str} {n : TableRef} {q : Query} (hn : Layout mode name n.tokens)
    (hb : Layout mode body q.tokens) :
    Layout mode (lit "CREATE VIEW " ++ name ++ lit " AS " ++ body) (NewView.tokens { name := n, query := q }) := by
  have h3 : Follow mode (lit " AS " ++ body) (kw "AS" :: q.tokens) := by
    have := follow_append (follow_spaced (mode := mode) (ws := ["AS"]) (by decide)) (follow_part hb)
    simpa [spaced, kws, lit] using this
  have h4 := follow_append (follow_part hn) h3
  have h5 := follow_append (follow_spaced (mode := mode) (ws := ["VIEW"]) (by decide)) h4
  have h6 := lay_kw (mode := mode) "CREATE" (by decide) (endsWord_space _) (layout_of_follow h5)
  have e : lit "CREATE" ++ (spaced ["VIEW"] ++ (' ' :: name ++ (lit " AS " ++ body))) = lit "CREATE VIEW " ++ name ++ lit " AS " ++ body := by
    simp [spaced, lit]
  rw [← e]
  have e2 : kw "CREATE" :: (kws ["VIEW"] ++ (n.tokens ++ kw "AS" :: q.tokens)) = NewView.tokens { name := n, query := q } := by
    simp [kws, NewView.tokens, given]
  rw [← e2]
  exact h6

/-- The text of a view is one line without a semicolon. -/
theorem create_view_stands {mode : Mode} {name body : Str} {n : TableRef} {q : Query} (hn : Layout mode name n.tokens)
    (hb : Layout mode body q.tokens) (hq : Quiet name) (hq' : Quiet body) (hl : ∀ c, body.getLast? = some c → isSpace c = false) :
    TextStands mode (lit "CREATE VIEW " ++ name ++ lit " AS " ++ body) (NewView.tokens { name := n, query := q }) := by
  have hne : body ≠ [] := by
    rintro rfl
    have := tokenize_layout hb
    rw [tokenize_layout (lay_end (mode := mode))] at this
    simp [Query.tokens] at this
  have hqt : Quiet (lit "CREATE VIEW " ++ name ++ lit " AS " ++ body) :=
    quiet_append (quiet_append (quiet_append (by unfold Quiet; decide) hq) (by unfold Quiet; decide)) hq'
  refine ⟨create_view_layout hn hb, hqt.1, noComment_line hqt.2 ?_, trimSpace_id ?_ ?_⟩
  · intro r h
    simp [lit] at h
  · intro c hc
    simp [lit] at hc
    subst hc
    decide
  · intro c hc
    rw [List.getLast?_append_of_ne_nil _ hne] at hc
    exact hl c hc

/-- A text with a schema and a name. -/
theorem pg_view_stands {schema name definition : Str} {v : NewView} (h : PgViewSays schema name definition v) :
    TextStands .postgres (lit "CREATE VIEW " ++ schema ++ lit "." ++ name ++ lit " AS " ++ viewText definition) v.tokens := by
  obtain ⟨body, hd, ht, hs, hb⟩ := h.text
  have hw : viewText definition = onOneLine body := by
    unfold viewText onOneLine
    congr 1
    rcases hd with e | e
    · rw [e]
      unfold trimSuffix
      rw [if_neg]
      intro hx
      have := List.isSuffixOf_iff_suffix.mp hx
      exact hs (List.mem_of_mem_filter (this.subset (by simp [lit])))
    · rw [e, List.filter_append]
      exact trimSuffix_append (lit ";") _
  obtain ⟨hl, -⟩ := tidy_layout ht
  obtain ⟨nm, orr, q⟩ := v
  obtain ⟨e1, e2⟩ := h.view
  simp only at e1 e2
  subst e1 e2
  rw [hw]
  have h1 := lay_dotted (mode := .postgres) h.bare.1 h.bare.2
  have e : lit "CREATE VIEW " ++ schema ++ lit "." ++ name ++ lit " AS " ++ onOneLine body =
      lit "CREATE VIEW " ++ (schema ++ '.' :: name) ++ lit " AS " ++ onOneLine body := by simp [lit]
  rw [e]
  have q1 := bare_quiet h.bare.1
  have q2 := bare_quiet h.bare.2
  refine create_view_stands (n := { schema := some schema, name := name }) (by rw [tableRef_tokens]; exact h1) hl
    (quiet_append q1 (by simpa [Quiet] using q2)) ⟨fun hm => hs (onOneLine_mem hm).1, fun hm => (onOneLine_mem hm).2 rfl⟩ ?_
  intro c hc
  rcases List.eq_nil_or_concat body with rfl | ⟨r, d, rfl⟩
  · cases hc
  · have hsp := trimSpace_last hb d (by simp)
    have h1 : d ≠ ' ' := by rintro rfl; revert hsp; decide
    have h2 : d ≠ '\n' := by rintro rfl; revert hsp; decide
    have e : onOneLine (r.concat d) = onOneLine r ++ [d] := by
      unfold onOneLine
      rw [List.concat_eq_append, List.filter_append, List.filter_cons_of_pos (by simpa using h2), List.filter_nil,
        squeeze_before (by simpa using h1)]
      simp [squeezeSpaces, h1]
    rw [e] at hc
    simp at hc
    subst hc
    exact hsp

/-- A view of MySQL. -/
theorem my_view_stands {r : Str × Str} {v : NewView} (h : MyViewSays r.1 r.2 v) : TextStands .mysql (My.viewText r) v.tokens := by
  obtain ⟨nm, orr, q⟩ := v
  obtain ⟨e1, e2⟩ := h.view
  simp only at e1 e2
  subst e1 e2
  exact create_view_stands (n := { name := r.1 }) (lay_bare h.bare) h.text.layout (bare_quiet h.bare) ⟨h.text.semicolon, h.oneLine⟩
    (trimSpace_last h.text.trimmed)

/-! ### Databases -/

theorem pgViews_clear {rs : List (Str × Str × Str)} {vs : List NewView} (h : List.Forall₂ (fun r v => PgViewSays r.1 r.2.1 r.2.2 v) rs vs) :
    ∀ v ∈ vs, v.query.Clear := fun v hv => by
  obtain ⟨_, -, h⟩ := (forall2_mem h).2 v hv
  exact h.query

theorem myViews_clear {rs : List (Str × Str)} {vs : List NewView} (h : List.Forall₂ (fun r v => MyViewSays r.1 r.2 v) rs vs) :
    ∀ v ∈ vs, v.query.Clear := fun v hv => by
  obtain ⟨_, -, h⟩ := (forall2_mem h).2 v hv
  exact h.query

theorem liteViews_clear {os : List Lite.Object} {vs : List NewView}
    (h : List.Forall₂ (fun (o : Lite.Object) v => (∃ text, o.sql = some text ∧ TextStands .sqlite3 text v.tokens) ∧ v.query.Clear) os vs) :
    ∀ v ∈ vs, v.query.Clear := fun v hv => by
  obtain ⟨_, -, h⟩ := (forall2_mem h).2 v hv
  exact h.2

theorem dump_all {σ : Type} {db : Db σ} {s : σ} {names texts views : List Str} (h1 : db.tableNames s = .ok names)
    (h2 : dumpTables db s names = .ok texts) (h3 : db.views s = .ok views) (h4 : db.triggers s = .ok []) :
    dumpDDLs db s = .ok (join (lit ";\n\n") (texts ++ views)) := by
  unfold dumpDDLs
  rw [h1, h3, h4]
  change (dumpTables db s names >>= _) = _
  rw [h2]
  change Except.ok _ = _
  simp

/-- Texts of which each is one statement. -/
theorem consists_joined {mode : Mode} {texts : List Str} {ss : List Written.Statement} (h : List.Forall₂ (Renders mode) texts ss) :
    Consists mode (join (lit ";\n\n") texts) ss ∧ Consists mode (join (lit ";\n\n") texts ++ lit ";\n") ss ∧
      (join (lit ";\n\n") texts = [] → ss = []) := by
  have := consists_files (mode := mode) (ps := texts.map fun t => ([t], t)) (by
    intro p hp
    obtain ⟨t, -, rfl⟩ := List.mem_map.mp hp
    exact .one t) (ss := ss) (by
    have e : (texts.map fun t => ([t], t)).flatMap (·.1) = texts := by
      induction texts with
      | nil => rfl
      | cons t ts _ => simp [List.flatMap_map]
    rw [e]
    exact h)
  simpa [Function.comp_def] using this

theorem dumpTables_any {α σ : Type} {db : Db σ} {s : σ} {R : Str → α → Prop} {names : List Str} {xs : List α}
    (h : List.Forall₂ (fun n x => ∃ text, db.dumpTableDDL s n = .ok text ∧ R text x) names xs) :
    ∃ texts, dumpTables db s names = .ok texts ∧ List.Forall₂ R texts xs := by
  induction h with
  | nil => exact ⟨[], rfl, .nil⟩
  | @cons n x ns xs hx _ ih =>
    obtain ⟨text, h1, h2⟩ := hx
    obtain ⟨texts, h3, h4⟩ := ih
    refine ⟨text :: texts, ?_, .cons h2 h4⟩
    simp only [dumpTables, h1, h3]
    rfl

/-- The statements of tables and views. -/
def tablesAndViews (ts : List Written.Table) (vs : List NewView) : List Written.Statement :=
  (ts.map Sentence.table).map Statement.sentence ++ vs.map Statement.view

theorem my_all {σ : Type} (db : Db σ) (cat : σ → My.Catalog) (s : σ) {ts : List Written.Table} {vs : List NewView}
    (h : MyDatabaseSays (cat s) ts vs) : ∃ texts, dumpDDLs (My.database db cat) s = .ok (join (lit ";\n\n") texts) ∧
      List.Forall₂ (Renders .mysql) texts (tablesAndViews ts vs) := by
  have key : List.Forall₂ (fun n t => ∃ text, (My.database db cat).dumpTableDDL s n = .ok text ∧ TextStands .mysql text (Written.Table.tokens t))
      (cat s).tables ts := forall₂_imp (fun n t hx => ⟨_, rfl, hx⟩) h.tables
  obtain ⟨texts, h1, h2⟩ := dumpTables_any key
  refine ⟨texts ++ (cat s).views.map My.viewText, dump_all rfl h1 rfl ?_, forall₂_both ?_ ?_⟩
  · show Except.ok _ = _
    rw [h.triggers]
    rfl
  · rw [List.map_map]
    have := forall₂_map (f := id) (g := Statement.sentence ∘ Sentence.table) (R := Renders .mysql) (forall₂_imp (fun n t hx => hx) h2)
    rwa [List.map_id] at this
  · exact forall₂_map (forall₂_imp (fun _ _ hx => my_view_stands hx) h.views)

theorem lite_all {σ : Type} (db : Db σ) (master : σ → List Lite.Object) (s : σ) {ts : List Written.Table} {vs : List NewView}
    (h : LiteDatabaseSays (master s) ts vs) : ∃ texts, dumpDDLs (Lite.database db master) s = .ok (join (lit ";\n\n") texts) ∧
      List.Forall₂ (Renders .sqlite3) texts (tablesAndViews ts vs) := by
  have e : Lite.tableNames (master s) = ((master s).filter fun o => o.type = lit "table" ∧ ¬ Reserved o.tblName).map (·.tblName) := by
    unfold Lite.tableNames
    congr 1
    refine List.filter_congr fun o _ => ?_
    simp only [reserved_test]
  have key : List.Forall₂ (fun n t => ∃ text, (Lite.database db master).dumpTableDDL s n = .ok text ∧ TextStands .sqlite3 text (Written.Table.tokens t))
      (Lite.tableNames (master s)) ts := by
    rw [e]
    rw [← List.map_id ts]
    refine forall₂_map ?_
    have hm : ∀ o ∈ (master s).filter fun o => o.type = lit "table" ∧ ¬ Reserved o.tblName, o ∈ master s ∧ o.type = lit "table" := by
      intro o ho
      obtain ⟨h1, h2⟩ := List.mem_filter.mp ho
      exact ⟨h1, (of_decide_eq_true h2).1⟩
    have ht := h.tables
    have hfirst := h.first
    clear h
    revert hm ht
    generalize (master s).filter (fun o => decide (o.type = lit "table" ∧ ¬ Reserved o.tblName)) = os
    intro hm ht
    induction ht with
    | nil => exact .nil
    | @cons o t os ts ho _ ih =>
      refine .cons ?_ (ih fun x hx => hm x (by simp [hx]))
      obtain ⟨text, h1, h2⟩ := ho
      obtain ⟨h3, h4⟩ := hm o (by simp)
      refine ⟨text, ?_, h2⟩
      show Lite.dumpTableDDL (master s) o.tblName = _
      unfold Lite.dumpTableDDL
      rw [hfirst o h3 h4]
      simp only [h1]
  obtain ⟨texts, h1, h2⟩ := dumpTables_any key
  have hv : ∃ views, (Lite.database db master).views s = .ok views ∧ List.Forall₂ (Renders .sqlite3) views (vs.map Statement.view) := by
    refine ⟨_, rfl, ?_⟩
    unfold Lite.views
    have hv := h.views
    clear h h2 key
    generalize (master s).filter (fun o => decide (o.type = lit "view")) = os at hv
    induction hv with
    | nil => exact .nil
    | @cons o v os vs ho _ ih =>
      obtain ⟨⟨text, ht, hs⟩, -⟩ := ho
      rw [List.filterMap_cons_some ht]
      exact .cons hs ih
  obtain ⟨views, h3, h4⟩ := hv
  refine ⟨texts ++ views, dump_all rfl h1 h3 rfl, forall₂_both ?_ h4⟩
  rw [List.map_map]
  have := forall₂_map (f := id) (g := Statement.sentence ∘ Sentence.table) (R := Renders .sqlite3) (forall₂_imp (fun n t hx => hx) h2)
  rwa [List.map_id] at this

theorem pg_all {σ : Type} (db : Db σ) (cat : σ → Pg.Catalog) (s : σ) {ds : List Described} {vs : List NewView}
    (h : List.Forall₂ (fun t d => CatalogSays (cat s) t.1 t.2 d) (cat s).tables ds)
    (hv : List.Forall₂ (fun r v => PgViewSays r.1 r.2.1 r.2.2 v) (cat s).views vs) :
    ∃ text, dumpDDLs (Pg.database db cat) s = .ok text ∧
      Consists .postgres text ((ds.flatMap Described.sentences).map Statement.sentence ++ vs.map Statement.view) ∧
      Consists .postgres (text ++ lit ";\n") ((ds.flatMap Described.sentences).map Statement.sentence ++ vs.map Statement.view) ∧
      (text = [] → (ds.flatMap Described.sentences).map Statement.sentence ++ vs.map Statement.view = []) := by
  obtain ⟨ps, h1, h2, -, h4⟩ := tables_glued db cat s h
  let qs := (cat s).views.map fun v => ([lit "CREATE VIEW " ++ v.1 ++ lit "." ++ v.2.1 ++ lit " AS " ++ viewText v.2.2],
    lit "CREATE VIEW " ++ v.1 ++ lit "." ++ v.2.1 ++ lit " AS " ++ viewText v.2.2)
  have hd : dumpDDLs (Pg.database db cat) s = .ok (join (lit ";\n\n") ((ps ++ qs).map (·.2))) := by
    have e : (ps ++ qs).map (·.2) = ps.map (·.2) ++ Pg.views (cat s) := by
      simp [qs, Pg.views, Function.comp_def]
    rw [e]
    exact dump_all (names := (cat s).tables.map fun t => t.1 ++ lit "." ++ t.2) rfl h1 rfl rfl
  refine ⟨_, hd, consists_files ?_ ?_⟩
  · intro p hp
    rcases List.mem_append.mp hp with hp | hp
    · exact h2 p hp
    · obtain ⟨v, -, rfl⟩ := List.mem_map.mp hp
      exact .one _
  · rw [List.flatMap_append]
    refine forall₂_both ?_ ?_
    · have := forall₂_map (f := id) (g := Statement.sentence) (R := Renders .postgres)
        (forall₂_imp (fun t s hx => ⟨hx.layout, hx.semicolon, hx.comment, hx.trimmed⟩) h4)
      rwa [List.map_id] at this
    · have e : qs.flatMap (·.1) = (cat s).views.map fun v => lit "CREATE VIEW " ++ v.1 ++ lit "." ++ v.2.1 ++ lit " AS " ++ viewText v.2.2 := by
        simp only [qs]
        clear hv hd
        clear qs
        generalize (cat s).views = l
        induction l with
        | nil => rfl
        | cons v l ih =>
          rw [List.map_cons, List.flatMap_cons, ih]
          rfl
      rw [e]
      exact forall₂_map (forall₂_imp (fun _ _ hx => pg_view_stands hx) hv)

end Sqldef
