import Verif.Proofs.ChangeReads
import Verif.Props.AnyLayout
import Verif.Props.Statements
import Verif.Props.Objects
import Verif.Props.Errors
/-
C67: a view is understood as it is written.
-/
namespace Sqldef
open Spec Written

/-- **C67.** A text that consists of the tokens of a `CREATE VIEW` statement, in whatever layout, is understood as the
statement that it is, with its query as a text. -/
theorem C67_view_is_understood (mode : Mode) (text : Str) (v : NewView) (h : v.query.Clear) (semicolon : Bool)
    (hl : Layout mode text (v.tokens ++ given (semicolon = true) [sym ';'])) :
    Sql.parseStrictDDLWithMode mode text = .ok (.ddl v.meaning) := Sql.parse_view h semicolon hl

/-- **C67.** It is the definition of a view with its name in small letters and its query as it is shown. -/
theorem C67_view_is_a_definition (fmtFloat : Str → Str) (mode : Mode) (text : Str) (v : NewView) (h : v.query.Clear) (semicolon : Bool)
    (hl : Layout mode text (v.tokens ++ given (semicolon = true) [sym ';'])) :
    parseDDL (Sql.env fmtFloat) mode text =
      .ok (.view { statement := text, name := toLower v.name.name, definition := v.query.text }) := by
  unfold parseDDL
  rw [show (Sql.env fmtFloat).parse mode text = _ from C67_view_is_understood mode text v h semicolon hl]
  rfl

/-- What a trigger is understood as: its table without the schema, and its statements as they are shown. -/
def Spec.Written.NewTrigger.defined (t : NewTrigger) (text : Str) : Trigger :=
  { statement := text, name := t.name, tableName := t.table.name, time := toLower (lit t.moment.word),
    event := toLower (lit t.cause.word), body := t.changes.map Change.text }

theorem trigger_defined (fmtFloat : Str → Str) (mode : Mode) (text : Str) (t : NewTrigger) (h : t.Clear) (semicolon : Bool)
    (hl : Layout mode text (t.tokens ++ given (semicolon = true) [sym ';'])) :
    parseDDL (Sql.env fmtFloat) mode text = .ok (.trigger (t.defined text)) := by
  unfold parseDDL
  rw [show (Sql.env fmtFloat).parse mode text = _ from Sql.parse_trigger h semicolon hl]
  rfl

/-! ### Files -/

/-- A statement of a schema. -/
inductive Spec.Written.Statement
  | sentence (s : Sentence)
  | view (v : NewView)
  | trigger (t : NewTrigger)

def Spec.Written.Statement.tokens : Statement → List Token
  | .sentence s => s.tokens
  | .view v => v.tokens
  | .trigger t => t.tokens

/-- The statement can be written as it is. -/
def Spec.Written.Statement.Clear : Statement → Prop
  | .sentence s => s.Clear ∧ s.InRange
  | .view v => v.query.Clear
  | .trigger t => t.Clear

/-- The definition is the one of the statement. -/
def Spec.Written.Statement.DefinedAs (mode : Mode) : Statement → DDL → Prop
  | .sentence s, d => SaysTheSame mode d.statement s.meaning d ∧ s.Kind d
  | .view v, d => d = .view { statement := d.statement, name := toLower v.name.name, definition := v.query.text }
  | .trigger t, d => d = .trigger (t.defined d.statement)

/-- The views among the statements. -/
def Spec.Written.viewsAmong : List Statement → List NewView
  | [] => []
  | .view v :: ss => v :: viewsAmong ss
  | .sentence _ :: ss => viewsAmong ss
  | .trigger _ :: ss => viewsAmong ss

/-- The file consists of the statements, in whatever layout. -/
def Spec.Consists (mode : Mode) (file : Str) (ss : List Written.Statement) : Prop :=
  List.Forall₂ (fun text s => Layout mode text s.tokens) (statementTexts file) ss

/-- **C67.** A file with tables, indexes, keys, policies, views and triggers is understood as it is written, statement by statement. -/
theorem C67_file_is_understood (fmtFloat : Str → Str) (mode : Mode) (file : Str) (ss : List Written.Statement)
    (hf : Consists mode file ss) (h : ∀ s ∈ ss, s.Clear) :
    ∃ ds, parseDDLs (Sql.env fmtFloat) mode file = .ok ds ∧ List.Forall₂ (fun s d => s.DefinedAs mode d) ss ds ∧
      ds.map DDL.statement = statementTexts file := by
  have key : ∀ (ts : List Str) (ss : List Written.Statement), List.Forall₂ (fun text s => Layout mode text s.tokens) ts ss →
      (∀ s ∈ ss, s.Clear) → ∃ ds, List.Forall₂ (fun t d => parseDDL (Sql.env fmtFloat) mode t = .ok d) ts ds ∧
        List.Forall₂ (fun s d => s.DefinedAs mode d) ss ds := by
    intro ts ss hts
    induction hts with
    | nil => exact fun _ => ⟨[], .nil, .nil⟩
    | @cons t s ts ss ht _ ih =>
      intro h
      obtain ⟨ds, h1, h2⟩ := ih fun s hs => h s (List.mem_cons_of_mem _ hs)
      have hc := h s List.mem_cons_self
      cases s with
      | sentence s =>
        obtain ⟨d, hd, hs, hk, hx⟩ := C57_statement_is_a_definition fmtFloat mode t s hc.1 false
          (by simpa [given] using (tokenize_layout ht : tokenize mode t = .ok s.tokens)) hc.2
        exact ⟨d :: ds, .cons hd h1, .cons ⟨by rw [hx]; exact hs, hk⟩ h2⟩
      | view v =>
        have := C67_view_is_a_definition fmtFloat mode t v hc false (by rw [show given (false = true) [sym ';'] = [] from rfl, List.append_nil]; exact ht)
        exact ⟨_ :: ds, .cons this h1, .cons rfl h2⟩
      | trigger v =>
        have := trigger_defined fmtFloat mode t v hc false (by rw [show given (false = true) [sym ';'] = [] from rfl, List.append_nil]; exact ht)
        exact ⟨_ :: ds, .cons this h1, .cons rfl h2⟩
  obtain ⟨ds, h1, h2⟩ := key _ _ hf h
  have hp := (C12_one_definition_per_statement _ mode file ds).2 h1
  exact ⟨ds, hp, h2, C12_texts_are_kept _ mode file ds hp⟩

theorem kind_no_view {s : Sentence} {d : DDL} (h : s.Kind d) : ∀ v, d ≠ .view v := by
  rintro v rfl
  unfold Sentence.Kind at h
  cases s with
  | table t => obtain ⟨_, _, h⟩ := h; cases h
  | index i => obtain ⟨_, _, _, h⟩ := h; cases h
  | policy p => obtain ⟨_, _, _, h⟩ := h; cases h
  | alter a =>
    simp only at h
    split at h <;> · obtain ⟨_, _, _, h⟩ := h; cases h

/-- The definitions of the views are those of the statements. -/
theorem views_of_definitions {mode : Mode} {ss : List Written.Statement} {ds : List DDL} (h : List.Forall₂ (fun s d => s.DefinedAs mode d) ss ds) :
    List.Forall₂ (fun v w => w.name = toLower v.name.name ∧ w.definition = v.query.text) (viewsAmong ss) (viewsOf ds) := by
  induction h with
  | nil => exact .nil
  | @cons s d ss ds hs _ ih =>
    cases s with
    | view v =>
      have hs : d = .view _ := hs
      rw [hs]
      exact .cons ⟨rfl, rfl⟩ ih
    | trigger t =>
      have hs : d = .trigger _ := hs
      rw [hs]
      exact ih
    | sentence s =>
      have hv := kind_no_view hs.2
      cases d with
      | view v => exact absurd rfl (hv v)
      | _ => exact ih

theorem forall2_mem {α β : Type} {R : α → β → Prop} {as : List α} {bs : List β} (h : List.Forall₂ R as bs) :
    (∀ a ∈ as, ∃ b ∈ bs, R a b) ∧ ∀ b ∈ bs, ∃ a ∈ as, R a b := by
  induction h with
  | nil => simp
  | cons h _ ih =>
    refine ⟨fun a ha => ?_, fun b hb => ?_⟩
    · rcases List.mem_cons.mp ha with rfl | ha
      · exact ⟨_, List.mem_cons_self, h⟩
      · obtain ⟨b, hb, h⟩ := ih.1 a ha; exact ⟨b, List.mem_cons_of_mem _ hb, h⟩
    · rcases List.mem_cons.mp hb with rfl | hb
      · exact ⟨_, List.mem_cons_self, h⟩
      · obtain ⟨a, ha, h⟩ := ih.2 b hb; exact ⟨a, List.mem_cons_of_mem _ ha, h⟩

theorem find_view {cs : List NewView} {ws : List View}
    (h : List.Forall₂ (fun v w => w.name = toLower v.name.name ∧ w.definition = v.query.text) cs ws)
    (hn : (cs.map fun v => toLower v.name.name).Nodup) (n : Str) (P : Str → Prop) :
    (∃ c, ws.find? (·.name = n) = some c ∧ P c.definition) ↔ ∃ v ∈ cs, toLower v.name.name = n ∧ P v.query.text := by
  induction h with
  | nil => simp
  | @cons v w cs ws hvw hrest ih =>
    rw [List.map_cons, List.nodup_cons] at hn
    by_cases hw : w.name = n
    · rw [List.find?_cons_of_pos (by simpa using hw)]
      constructor
      · rintro ⟨c, hc, hp⟩
        cases hc
        exact ⟨v, List.mem_cons_self, hvw.1 ▸ hw, hvw.2 ▸ hp⟩
      · rintro ⟨x, hx, hxn, hp⟩
        rcases List.mem_cons.mp hx with rfl | hx
        · exact ⟨w, rfl, hvw.2 ▸ hp⟩
        · refine absurd (List.mem_map_of_mem (f := fun v : NewView => toLower v.name.name) hx) ?_
          rw [show toLower x.name.name = toLower v.name.name from hxn.trans (hw.symm.trans hvw.1)]
          exact hn.1
    · rw [List.find?_cons_of_neg (by simpa using hw), ih hn.2]
      constructor
      · rintro ⟨x, hx, h⟩
        exact ⟨x, List.mem_cons_of_mem _ hx, h⟩
      · rintro ⟨x, hx, h⟩
        rcases List.mem_cons.mp hx with rfl | hx
        · exact absurd (hvw.1.trans h.1) hw
        · exact ⟨x, hx, h⟩

/-- **C67.** MySQL and PostgreSQL: a view is replaced exactly if there is a view of this name and its query, as it is shown,
is another one, up to letter case; its new definition is the query of the desired schema. -/
theorem C67_view_is_replaced_iff_its_query_changes (fmtFloat : Str → Str) (mode : Mode) (desired current : Str)
    (ss cs : List Written.Statement) (hs : Consists mode desired ss) (hc : Consists mode current cs) (h1 : ∀ s ∈ ss, s.Clear) (h2 : ∀ s ∈ cs, s.Clear)
    (ds cu : List DDL) (hd : parseDDLs (Sql.env fmtFloat) mode desired = .ok ds) (hu : parseDDLs (Sql.env fmtFloat) mode current = .ok cu)
    (ud : UniqueTables ds) (uc : UniqueTables cu) (un : ((viewsAmong cs).map fun v => toLower v.name.name).Nodup)
    (out : List Stmt) (h : diff mode ds cu = .ok out) (n q : Str) :
    .replaceView n q ∈ out ↔ (mode = .mysql ∨ mode = .postgres) ∧
      ∃ v ∈ viewsAmong ss, toLower v.name.name = n ∧ v.query.text = q ∧
        ∃ w ∈ viewsAmong cs, toLower w.name.name = toLower v.name.name ∧ toLower w.query.text ≠ toLower v.query.text := by
  obtain ⟨ds', hd', hds, -⟩ := C67_file_is_understood fmtFloat mode desired ss hs h1
  obtain ⟨cu', hu', hcu, -⟩ := C67_file_is_understood fmtFloat mode current cs hc h2
  cases hd.symm.trans hd'
  cases hu.symm.trans hu'
  have vd := views_of_definitions hds
  have vc := views_of_definitions hcu
  rw [C38_replace_view_iff ud uc h n q]
  refine and_congr_right fun _ => ?_
  constructor
  · rintro ⟨w, hw, rfl, rfl, hx⟩
    obtain ⟨v, hv, hvw⟩ := (forall2_mem vd).2 w hw
    refine ⟨v, hv, hvw.1.symm, hvw.2.symm, ?_⟩
    have := (find_view vc un w.name fun d => toLower d ≠ toLower w.definition).1 hx
    rw [hvw.1, hvw.2] at this
    exact this
  · rintro ⟨v, hv, rfl, rfl, hx⟩
    obtain ⟨w, hw, hvw⟩ := (forall2_mem vd).1 v hv
    refine ⟨w, hw, hvw.1, hvw.2, ?_⟩
    unfold ViewDiffers
    rw [hvw.1, hvw.2]
    exact (find_view vc un _ fun d => toLower d ≠ toLower v.query.text).2 hx

/-! ### What is lost -/

/-- **C67**, what is lost: the schema of a view and the case of its name. A file with two views whose names differ in nothing
else is refused. -/
theorem C67_schemas_of_views_are_lost (fmtFloat : Str → Str) (mode : Mode) (file current : Str) (pre mid post : List Written.Statement)
    (v w : NewView) (hf : Consists mode file (pre ++ .view v :: mid ++ .view w :: post)) (h : ∀ s ∈ pre ++ .view v :: mid ++ .view w :: post, s.Clear)
    (hvw : toLower v.name.name = toLower w.name.name) (out : List Str) :
    generateIdempotentDDLs (Sql.env fmtFloat) mode file current ≠ .ok out := by
  obtain ⟨ds, hd, hds, -⟩ := C67_file_is_understood fmtFloat mode file _ hf h
  intro hg
  unfold generateIdempotentDDLs at hg
  rw [hd] at hg
  cases hc : parseDDLs (Sql.env fmtFloat) mode current with
  | error e => rw [hc] at hg; cases hg
  | ok cu =>
    rw [hc] at hg
    obtain ⟨d1, d2, hsplit, h1, h2⟩ : ∃ d1 d2, ds = d1 ++ d2 ∧ List.Forall₂ (fun s d => s.DefinedAs mode d) (pre ++ .view v :: mid) d1 ∧
        List.Forall₂ (fun s d => s.DefinedAs mode d) (.view w :: post) d2 := by
      have := List.forall₂_iff_get.mp hds
      refine ⟨ds.take (pre ++ .view v :: mid).length, ds.drop (pre ++ .view v :: mid).length, (List.take_append_drop ..).symm, ?_, ?_⟩
      · have := List.forall₂_take (pre ++ .view v :: mid).length hds
        rwa [List.take_left'] at this
        rfl
      · have := List.forall₂_drop (pre ++ .view v :: mid).length hds
        rwa [List.drop_left'] at this
        rfl
    obtain ⟨d3, d4, hsplit', h3, h4⟩ : ∃ d3 d4, d1 = d3 ++ d4 ∧ List.Forall₂ (fun s d => s.DefinedAs mode d) pre d3 ∧
        List.Forall₂ (fun s d => s.DefinedAs mode d) (.view v :: mid) d4 := by
      refine ⟨d1.take pre.length, d1.drop pre.length, (List.take_append_drop ..).symm, ?_, ?_⟩
      · have := List.forall₂_take pre.length h1
        rwa [List.take_left'] at this
        rfl
      · have := List.forall₂_drop pre.length h1
        rwa [List.drop_left'] at this
        rfl
    cases h2 with
    | @cons _ x _ d5 hx _ =>
      cases h4 with
      | @cons _ y _ d6 hy _ =>
        have hx : x = .view _ := hx
        have hy : y = .view _ := hy
        obtain ⟨e, he⟩ := C31_view_defined_twice (mode := mode) (current := cu) (desired := ds) (pre := d3) (mid := d6) (post := d5)
          (v := ⟨y.statement, toLower v.name.name, v.query.text⟩) (w := ⟨x.statement, toLower w.name.name, w.query.text⟩)
          (by rw [hsplit, hsplit', ← hx, ← hy]) hvw
        change (diff mode ds cu >>= fun l => pure (l.map (Stmt.render mode))) = _ at hg
        rw [he] at hg
        cases hg

theorem diff_one_view (mode : Mode) {a b n x y : Str} (h : toLower x = toLower y) :
    diff mode [.view ⟨a, n, x⟩] [.view ⟨b, n, y⟩] = .ok [] := by
  have h1 : stepCreateView { mode := mode, desiredTables := [], currentTables := [], desiredViews := [], currentViews := [⟨b, n, y⟩], desiredTriggers := [], currentTriggers := [] } ⟨a, n, x⟩ =
      .ok ({ mode := mode, desiredTables := [], currentTables := [], desiredViews := [⟨a, n, x⟩], currentViews := [⟨b, n, y⟩], desiredTriggers := [], currentTriggers := [] }, []) := by
    simp [stepCreateView, findViewByName, h, containsString, viewNames]
  have h2 : cleanupViews [⟨a, n, x⟩] [⟨b, n, y⟩] = [] := by simp [cleanupViews, containsString, viewNames]
  change generateDDLs { mode := mode, desiredTables := [], currentTables := [], desiredViews := [], currentViews := [⟨b, n, y⟩], desiredTriggers := [], currentTriggers := [] } [.view ⟨a, n, x⟩] = _
  unfold generateDDLs
  rw [steps, step, h1]
  simp only [steps, bind, Except.bind, pure, Except.pure, cleanupTables, h2, List.append_nil]

/-- **C67**, what is lost: letter case. Two views whose queries differ in the case of letters only count as the same, also if
the letters are those of a string or of a quoted name, so that the query means something else. -/
theorem C67_letter_case_of_queries_is_lost (fmtFloat : Str → Str) (mode : Mode) (desired current : Str) (v w : NewView)
    (hs : Consists mode desired [.view v]) (hc : Consists mode current [.view w]) (h1 : v.query.Clear) (h2 : w.query.Clear)
    (hn : toLower v.name.name = toLower w.name.name) (hq : toLower v.query.text = toLower w.query.text) :
    generateIdempotentDDLs (Sql.env fmtFloat) mode desired current = .ok [] := by
  obtain ⟨ds, hd, hds, -⟩ := C67_file_is_understood fmtFloat mode desired _ hs (by simpa [Statement.Clear] using h1)
  obtain ⟨cu, hu, hcu, -⟩ := C67_file_is_understood fmtFloat mode current _ hc (by simpa [Statement.Clear] using h2)
  cases hds with
  | @cons _ d _ _ h1 hnil =>
    cases hnil
    cases hcu with
    | @cons _ c _ _ h2 hnil =>
      cases hnil
      have h1 : d = .view _ := h1
      have h2 : c = .view _ := h2
      unfold generateIdempotentDDLs
      rw [hd, hu]
      change (diff mode [d] [c] >>= fun l => pure (l.map (Stmt.render mode))) = _
      have e : diff mode [d] [c] = .ok [] := by
        rw [h1, h2, hn]
        exact diff_one_view mode hq
      rw [e]
      rfl

/-! ### Examples -/

/-- A view. -/
def exNewView : NewView :=
  { orReplace := true, name := { schema := some (lit "public"), name := lit "Adults" },
    query :=
      { distinct := true, first := .value (.qualified (lit "u") (lit "id")) none,
        rest := [.value (.call (lit "max") [.qualified (lit "u") (lit "age")]) (some { name := lit "top" }), .allOf (lit "o")],
        sources := some (.join (.table { name := lit "users" } (some { name := lit "u", as := false })) .leftOuterJoin
            (.table { name := lit "orders" } (some { name := lit "o" }))
            (.on (.compare .eq (.qualified (lit "o") (lit "owner")) (.qualified (lit "u") (lit "id")))),
          [.group (.join (.table { name := lit "a" } none) .crossJoin (.table { name := lit "b" } none) .none)]),
        condition := some (.compare .gt (.qualified (lit "u") (lit "age")) (.integer (lit "18"))),
        groups := some (.qualified (lit "u") (lit "id"), []),
        having := some (.compare .lt (.integer (lit "1")) (.integer (lit "2"))),
        order := some ({ e := .qualified (lit "u") (lit "id"), direction := some false }, [{ e := .column (lit "top") }]),
        limit := some (.offset (.integer (lit "10")) (.integer (lit "5"))) } }

def exNewViewText : Str := txt "CREATE OR REPLACE VIEW public.Adults AS SELECT DISTINCT u.id, max(u.age) AS top, o.* FROM users u LEFT OUTER JOIN orders AS o ON o.owner = u.id, (a CROSS JOIN b) WHERE u.age > 18 GROUP BY u.id HAVING 1 < 2 ORDER BY u.id DESC, top LIMIT 10 OFFSET 5;"

theorem exNewView_layout : Layout .postgres exNewViewText (exNewView.tokens ++ given (true = true) [sym ';']) :=
  layout_of_test [("", "CREATE"), (" ", "OR"), (" ", "REPLACE"), (" ", "VIEW"), (" ", "public"), ("", "."), ("", "Adults"), (" ", "AS"), (" ", "SELECT"), (" ", "DISTINCT"), (" ", "u"), ("", "."), ("", "id"), ("", ","), (" ", "max"), ("", "("), ("", "u"), ("", "."), ("", "age"), ("", ")"), (" ", "AS"), (" ", "top"), ("", ","), (" ", "o"), ("", "."), ("", "*"), (" ", "FROM"), (" ", "users"), (" ", "u"), (" ", "LEFT"), (" ", "OUTER"), (" ", "JOIN"), (" ", "orders"), (" ", "AS"), (" ", "o"), (" ", "ON"), (" ", "o"), ("", "."), ("", "owner"), (" ", "="), (" ", "u"), ("", "."), ("", "id"), ("", ","), (" ", "("), ("", "a"), (" ", "CROSS"), (" ", "JOIN"), (" ", "b"), ("", ")"), (" ", "WHERE"), (" ", "u"), ("", "."), ("", "age"), (" ", ">"), (" ", "18"), (" ", "GROUP"), (" ", "BY"), (" ", "u"), ("", "."), ("", "id"), (" ", "HAVING"), (" ", "1"), (" ", "<"), (" ", "2"), (" ", "ORDER"), (" ", "BY"), (" ", "u"), ("", "."), ("", "id"), (" ", "DESC"), ("", ","), (" ", "top"), (" ", "LIMIT"), (" ", "10"), (" ", "OFFSET"), (" ", "5"), ("", ";")] (by decide +kernel)

theorem exNewView_clear : exNewView.query.Clear := by
  have g : ∀ n ∈ [lit "u", lit "id", lit "age", lit "top", lit "o", lit "users", lit "orders", lit "owner", lit "a", lit "b"], GoodName n := by
    have h : ∀ n ∈ [lit "u", lit "id", lit "age", lit "top", lit "o", lit "users", lit "orders", lit "owner", lit "a", lit "b"],
        n ≠ [] ∧ ¬ lit "@@" <+: n ∧ ∀ c ∈ n, c.toNat < 65536 := by decide
    exact h
  have i : ∀ n ∈ [lit "1", lit "2", lit "5"], GoodInt n := by
    intro n hn
    refine ⟨n, ?_, ?_, .inl rfl⟩
    · revert n; decide
    · revert n; decide
  have j : ∀ n ∈ [lit "10", lit "18"], GoodInt n := by
    intro n hn
    refine ⟨n, ?_, ?_, .inl rfl⟩
    · revert n; decide
    · revert n; decide
  simp [exNewView, Query.Clear, Picked.Clear, ClearEx, GoodAlias, Source.Clear, Source.Proper, Source.depth, Source.isJoin, JoinOn.Fits, JoinOn.depth,
    LimitPart.Clear, Ex.Proper, Ex.AllProper, Ex.level, Ex.depth, Ex.depths, g, i, j]

/-- What it is understood as. -/
example : parseDDL (Sql.env id) .postgres exNewViewText =
    .ok (.view { statement := exNewViewText, name := lit "adults", definition := exNewView.query.text }) :=
  C67_view_is_a_definition id .postgres exNewViewText exNewView exNewView_clear true exNewView_layout

/-- How its query is shown. -/
example : exNewView.query.text = txt "select distinct u.id, max(u.age) as top, o.* from users as u left join orders as o on o.owner = u.id, (a join b) where u.age > 18 group by u.id having 1 < 2 order by u.id desc, top asc limit 5, 10" := by
  decide +kernel

/-- Two views that are not the same. -/
def exShort (n s : Str) : NewView :=
  { name := { name := n },
    query :=
      { first := .all, sources := some (.table { name := lit "t" } none, []),
        condition := some (.compare .eq (.column (lit "a")) (.string s)) } }

theorem exShort_clear (n s : Str) : (exShort n s).query.Clear := by
  have g : ∀ n ∈ [lit "t", lit "a"], GoodName n := by
    have h : ∀ n ∈ [lit "t", lit "a"], n ≠ [] ∧ ¬ lit "@@" <+: n ∧ ∀ c ∈ n, c.toNat < 65536 := by decide
    exact h
  simp [exShort, Query.Clear, Picked.Clear, ClearEx, GoodAlias, Source.Clear, Source.Proper, Source.depth, Ex.Proper, Ex.level, Ex.depth, g]

theorem exShort_consists : Consists .mysql (txt "CREATE VIEW v AS SELECT * FROM t WHERE a = 'x'") [.view (exShort (lit "v") (lit "x"))] ∧
    Consists .mysql (txt "create view V as select * from t where a = 'X'") [.view (exShort (lit "V") (lit "X"))] ∧
    Consists .mysql (txt "create view v as select * from t where a = 'y';") [.view (exShort (lit "v") (lit "y"))] := by
  unfold Consists
  rw [show statementTexts (txt "CREATE VIEW v AS SELECT * FROM t WHERE a = 'x'") = [txt "CREATE VIEW v AS SELECT * FROM t WHERE a = 'x'"] by decide +kernel,
    show statementTexts (txt "create view V as select * from t where a = 'X'") = [txt "create view V as select * from t where a = 'X'"] by decide +kernel,
    show statementTexts (txt "create view v as select * from t where a = 'y';") = [txt "create view v as select * from t where a = 'y'"] by decide +kernel]
  refine ⟨.cons ?_ .nil, .cons ?_ .nil, .cons ?_ .nil⟩
  · exact layout_of_test [("", "CREATE"), (" ", "VIEW"), (" ", "v"), (" ", "AS"), (" ", "SELECT"), (" ", "*"), (" ", "FROM"), (" ", "t"), (" ", "WHERE"), (" ", "a"), (" ", "="), (" ", "'x'")] (by decide +kernel)
  · exact layout_of_test [("", "create"), (" ", "view"), (" ", "V"), (" ", "as"), (" ", "select"), (" ", "*"), (" ", "from"), (" ", "t"), (" ", "where"), (" ", "a"), (" ", "="), (" ", "'X'")] (by decide +kernel)
  · exact layout_of_test [("", "create"), (" ", "view"), (" ", "v"), (" ", "as"), (" ", "select"), (" ", "*"), (" ", "from"), (" ", "t"), (" ", "where"), (" ", "a"), (" ", "="), (" ", "'y'")] (by decide +kernel)

/-- The view is not replaced although its query is another one. -/
example : generateIdempotentDDLs (Sql.env id) .mysql (txt "create view V as select * from t where a = 'X'")
    (txt "CREATE VIEW v AS SELECT * FROM t WHERE a = 'x'") = .ok [] :=
  C67_letter_case_of_queries_is_lost id .mysql _ _ _ _ exShort_consists.2.1 exShort_consists.1 (exShort_clear _ _) (exShort_clear _ _)
    (by decide) (by decide +kernel)

/-- The view is replaced. -/
example : ∃ ds cu out, parseDDLs (Sql.env id) .mysql (txt "create view v as select * from t where a = 'y';") = .ok ds ∧
    parseDDLs (Sql.env id) .mysql (txt "CREATE VIEW v AS SELECT * FROM t WHERE a = 'x'") = .ok cu ∧ diff .mysql ds cu = .ok out ∧
    .replaceView (lit "v") (exShort (lit "v") (lit "y")).query.text ∈ out := by
  obtain ⟨h1, -, h2⟩ := exShort_consists
  have c : ∀ s, ∀ x ∈ [Statement.view (exShort (lit "v") s)], x.Clear := by
    intro s x hx
    rw [List.mem_singleton.mp hx]
    exact exShort_clear _ _
  obtain ⟨ds, hd, hds, -⟩ := C67_file_is_understood id .mysql _ _ h2 (c _)
  obtain ⟨cu, hu, hcu, -⟩ := C67_file_is_understood id .mysql _ _ h1 (c _)
  cases hds with
  | @cons _ d _ _ e1 hnil =>
    cases hnil
    cases hcu with
    | @cons _ c' _ _ e2 hnil =>
      cases hnil
      have e1 : d = .view _ := e1
      have e2 : c' = .view _ := e2
      have ho : ∃ out, diff .mysql [d] [c'] = .ok out := by
        rw [e1, e2]
        exact ⟨_, rfl⟩
      obtain ⟨out, ho⟩ := ho
      refine ⟨_, _, out, hd, hu, ho, ?_⟩
      rw [C67_view_is_replaced_iff_its_query_changes id .mysql _ _ _ _ h2 h1 (c _) (c _) _ _ hd hu
        (by rw [e1]; exact List.nodup_nil) (by rw [e2]; exact List.nodup_nil) (by decide) out ho]
      exact ⟨.inl rfl, _, List.mem_singleton.mpr rfl, by decide, rfl, _, List.mem_singleton.mpr rfl, rfl, by decide +kernel⟩

/-- Two views with the same name in two schemas. -/
example (out : List Str) : generateIdempotentDDLs (Sql.env id) .postgres
    (txt "CREATE VIEW a.v AS SELECT * FROM t; CREATE VIEW b.v AS SELECT * FROM t") [] ≠ .ok out := by
  let q : Query := { first := .all, sources := some (.table { name := lit "t" } none, []) }
  have hq : q.Clear := by
    have g : GoodName (lit "t") := by
      have h : lit "t" ≠ [] ∧ ¬ lit "@@" <+: lit "t" ∧ ∀ c ∈ lit "t", c.toNat < 65536 := by decide
      exact h
    simp [q, Query.Clear, Picked.Clear, GoodAlias, Source.Clear, Source.Proper, Source.depth, g]
  refine C67_schemas_of_views_are_lost id .postgres _ _ [] [] [] ⟨false, ⟨some (lit "a"), lit "v"⟩, q⟩ ⟨false, ⟨some (lit "b"), lit "v"⟩, q⟩ ?_ ?_ rfl out
  · unfold Consists
    rw [show statementTexts (txt "CREATE VIEW a.v AS SELECT * FROM t; CREATE VIEW b.v AS SELECT * FROM t") =
      [txt "CREATE VIEW a.v AS SELECT * FROM t", txt "CREATE VIEW b.v AS SELECT * FROM t"] by decide +kernel]
    refine .cons ?_ (.cons ?_ .nil)
    · exact layout_of_test [("", "CREATE"), (" ", "VIEW"), (" ", "a"), ("", "."), ("", "v"), (" ", "AS"), (" ", "SELECT"), (" ", "*"), (" ", "FROM"), (" ", "t")] (by decide +kernel)
    · exact layout_of_test [("", "CREATE"), (" ", "VIEW"), (" ", "b"), ("", "."), ("", "v"), (" ", "AS"), (" ", "SELECT"), (" ", "*"), (" ", "FROM"), (" ", "t")] (by decide +kernel)
  · intro s hs
    simp only [List.nil_append, List.cons_append, List.mem_cons, List.not_mem_nil, or_false] at hs
    rcases hs with rfl | rfl <;> exact hq

end Sqldef
