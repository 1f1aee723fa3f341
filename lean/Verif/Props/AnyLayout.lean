import Verif.Spec.Rewritten
import Verif.Proofs.AnyLayout
import Verif.Proofs.RetextPairs
import Verif.Proofs.LayoutCheck
/-
C66: how a schema is written does not matter, whatever statements it consists of.
-/
namespace Sqldef
open Spec

/-- **C66.** Two texts with the same tokens are understood as the same statement, or both are refused, whatever kind of
statement it is. -/
theorem C66_statement_in_any_layout (mode : Mode) (a b : Str) (h : SameTokens mode a b) :
    (∃ s, Sql.parseStrictDDLWithMode mode a = .ok s ∧ Sql.parseStrictDDLWithMode mode b = .ok s) ∨
    ∃ e e', Sql.parseStrictDDLWithMode mode a = .error e ∧ Sql.parseStrictDDLWithMode mode b = .error e' := by
  obtain ⟨ts, h1, h2⟩ := h
  have := Sql.parse_alike (.inr ⟨mode, ts, Sql.stream_of_layout h1, Sql.stream_of_layout h2⟩)
  generalize Sql.parseStrictDDLWithMode mode a = x at *
  generalize Sql.parseStrictDDLWithMode mode b = y at *
  cases this with
  | ok s => exact .inl ⟨s, rfl, rfl⟩
  | rejected m m' => exact .inr ⟨_, _, rfl, rfl⟩
  | stopped e => exact .inr ⟨_, _, rfl, rfl⟩

/-- **C66.** They are made into definitions that differ in nothing but the text. -/
theorem C66_definition_in_any_layout (fmtFloat : Str → Str) (mode : Mode) (a b : Str) (h : SameTokens mode a b) :
    (∃ d, parseDDL (Sql.env fmtFloat) mode a = .ok d ∧ parseDDL (Sql.env fmtFloat) mode b = .ok (d.withText b)) ∨
    ∃ e e', parseDDL (Sql.env fmtFloat) mode a = .error e ∧ parseDDL (Sql.env fmtFloat) mode b = .error e' := by
  unfold parseDDL
  simp only [show (Sql.env fmtFloat).parse = Sql.parseStrictDDLWithMode from rfl]
  rcases C66_statement_in_any_layout mode a b h with ⟨s, h1, h2⟩ | ⟨e, e', h1, h2⟩
  · simp only [h1, h2]
    cases hc : convertStatement (Sql.env fmtFloat) mode a s with
    | ok d => exact .inl ⟨d, rfl, convert_withText _ mode a b s d hc⟩
    | error e =>
      cases hc' : convertStatement (Sql.env fmtFloat) mode b s with
      | ok d =>
        have := convert_withText _ mode b a s d hc'
        rw [hc] at this
        cases this
      | error e' => exact .inr ⟨e, e', rfl, rfl⟩
  · simp only [h1, h2]
    exact .inr ⟨e, e', rfl, rfl⟩

/-- **C66.** A file that is written anew has the same definitions, one by one, or both files are refused. -/
theorem C66_file_in_any_layout (fmtFloat : Str → Str) (mode : Mode) (file file' : Str) (h : Rewritten mode file file') :
    (∃ ds ds', parseDDLs (Sql.env fmtFloat) mode file = .ok ds ∧ parseDDLs (Sql.env fmtFloat) mode file' = .ok ds' ∧
      List.Forall₂ (fun d d' => d.withText d'.statement = d') ds ds') ∨
    ∃ e e', parseDDLs (Sql.env fmtFloat) mode file = .error e ∧ parseDDLs (Sql.env fmtFloat) mode file' = .error e' := by
  rw [parseDDLs_eq, parseDDLs_eq]
  unfold Rewritten at h
  generalize statementTexts file = ts at *
  generalize statementTexts file' = ts' at *
  induction h with
  | nil => exact .inl ⟨[], [], rfl, rfl, .nil⟩
  | @cons a b as bs hab _ ih =>
    rw [List.mapM_cons, List.mapM_cons]
    rcases C66_definition_in_any_layout fmtFloat mode a b hab with ⟨d, h1, h2⟩ | ⟨e, e', h1, h2⟩
    · rw [h1, h2]
      rcases ih with ⟨ds, ds', i1, i2, i3⟩ | ⟨e, e', i1, i2⟩
      · refine .inl ⟨d :: ds, d.withText b :: ds', ?_, ?_, .cons ?_ i3⟩
        · simp only [i1]; rfl
        · simp only [i2]; rfl
        · rw [withText_statement]
      · refine .inr ⟨e, e', ?_, ?_⟩
        · simp only [i1]; rfl
        · simp only [i2]; rfl
    · rw [h1, h2]
      exact .inr ⟨e, e', rfl, rfl⟩

/-- **C66.** How the current schema is written does not matter: the changes are the same, to the letter. -/
theorem C66_layout_of_the_current_schema_is_irrelevant (fmtFloat : Str → Str) (mode : Mode) (desired file file' : Str)
    (h : Rewritten mode file file') (out : List Str) :
    generateIdempotentDDLs (Sql.env fmtFloat) mode desired file = .ok out ↔
      generateIdempotentDDLs (Sql.env fmtFloat) mode desired file' = .ok out := by
  unfold generateIdempotentDDLs
  cases parseDDLs (Sql.env fmtFloat) mode desired with
  | error e => exact Iff.rfl
  | ok want =>
    rcases C66_file_in_any_layout fmtFloat mode file file' h with ⟨ds, ds', h1, h2, h3⟩ | ⟨e, e', h1, h2⟩
    · rw [h1, h2]
      change (diff mode want ds >>= fun l => pure (l.map (Stmt.render mode))) = _ ↔
        (diff mode want ds' >>= fun l => pure (l.map (Stmt.render mode))) = _
      rw [diff_current mode want h3]
    · rw [h1, h2]
      constructor <;> intro h <;> cases h

/-- **C66.** How the desired schema is written does not matter: the changes are the same, one by one, except that a
statement of the file that is passed on is passed on as it is written. -/
theorem C66_layout_of_the_desired_schema_is_irrelevant (fmtFloat : Str → Str) (mode : Mode) (file file' current : Str)
    (h : Rewritten mode file file') (out : List Str)
    (hg : generateIdempotentDDLs (Sql.env fmtFloat) mode file current = .ok out) :
    ∃ out', generateIdempotentDDLs (Sql.env fmtFloat) mode file' current = .ok out' ∧
      List.Forall₂ (fun x y => x = y ∨ (x, y) ∈ (statementTexts file).zip (statementTexts file')) out out' := by
  unfold generateIdempotentDDLs at hg ⊢
  rcases C66_file_in_any_layout fmtFloat mode file file' h with ⟨ds, ds', h1, h2, h3⟩ | ⟨e, e', h1, h2⟩
  · have t1 : ds.map DDL.statement = statementTexts file := C12_texts_are_kept _ mode file ds h1
    have t2 : ds'.map DDL.statement = statementTexts file' := C12_texts_are_kept _ mode file' ds' h2
    rw [h1] at hg
    rw [h2]
    cases hc : parseDDLs (Sql.env fmtFloat) mode current with
    | error e => rw [hc] at hg; cases hg
    | ok cur =>
      rw [hc] at hg
      change (diff mode ds cur >>= fun l => pure (l.map (Stmt.render mode))) = _ at hg
      change ∃ out', (diff mode ds' cur >>= fun l => pure (l.map (Stmt.render mode))) = _ ∧ _
      rcases diff_pairs mode cur h3 with ⟨e, d1, d2⟩ | ⟨l, l', d1, d2, d3⟩
      · rw [d1] at hg; cases hg
      · rw [d1] at hg
        cases hg
        rw [d2]
        rw [t1, t2] at d3
        exact ⟨_, rfl, d3⟩
  · rw [h1] at hg
    cases hg

theorem sameTokens_symm {mode : Mode} {a b : Str} (h : SameTokens mode a b) : SameTokens mode b a := by
  obtain ⟨ts, h1, h2⟩ := h
  exact ⟨ts, h2, h1⟩

/-- **C66.** Whether there is anything to do at all does not depend on how the schemas are written. -/
theorem C66_nothing_to_do_in_any_layout (fmtFloat : Str → Str) (mode : Mode) (desired desired' current current' : Str)
    (hd : Rewritten mode desired desired') (hc : Rewritten mode current current') :
    generateIdempotentDDLs (Sql.env fmtFloat) mode desired current = .ok [] ↔
      generateIdempotentDDLs (Sql.env fmtFloat) mode desired' current' = .ok [] := by
  have one : ∀ {a b : Str}, Rewritten mode a b → generateIdempotentDDLs (Sql.env fmtFloat) mode a current = .ok [] →
      generateIdempotentDDLs (Sql.env fmtFloat) mode b current = .ok [] := by
    intro a b hab h
    obtain ⟨out', h1, h2⟩ := C66_layout_of_the_desired_schema_is_irrelevant fmtFloat mode a b current hab [] h
    cases h2
    exact h1
  have hd' : Rewritten mode desired' desired := by
    unfold Rewritten at hd ⊢
    exact (List.Forall₂.imp (fun _ _ h => sameTokens_symm h) hd.flip)
  rw [← C66_layout_of_the_current_schema_is_irrelevant fmtFloat mode desired' current current' hc []]
  exact ⟨one hd, one hd'⟩

/-- **C66.** A schema is not changed by writing it anew: views, triggers and policies included. -/
theorem C66_rewriting_changes_nothing (fmtFloat : Str → Str) (mode : Mode) (file file' : Str) (h : Rewritten mode file file')
    (ds : List DDL) (hd : parseDDLs (Sql.env fmtFloat) mode file = .ok ds) (hn : Normal mode ds) :
    generateIdempotentDDLs (Sql.env fmtFloat) mode file file' = .ok [] := by
  rw [← C66_layout_of_the_current_schema_is_irrelevant fmtFloat mode file file file' h]
  unfold generateIdempotentDDLs
  rw [hd]
  change (diff mode ds ds >>= fun l => pure (l.map (Stmt.render mode))) = _
  rw [C18_self_diff_is_empty hn]
  rfl

/-! ### Example -/

/-- A schema of MySQL with a view and a trigger. -/
def exAny : Str := txt "CREATE TABLE t (a int);
CREATE VIEW v AS SELECT a FROM t WHERE a > 1;
CREATE TRIGGER g AFTER INSERT ON t FOR EACH ROW DELETE FROM u;"

/-- The same schema, written by somebody else. -/
def exAnew : Str := txt "create table `t`(a int)
;create view v as select a from t where a>1;
create trigger g after insert on t for each row delete from u"

theorem exAny_rewritten : Rewritten .mysql exAny exAnew := by
  unfold Rewritten
  rw [show statementTexts exAny = [txt "CREATE TABLE t (a int)",
      txt "CREATE VIEW v AS SELECT a FROM t WHERE a > 1",
      txt "CREATE TRIGGER g AFTER INSERT ON t FOR EACH ROW DELETE FROM u"] by decide +kernel,
    show statementTexts exAnew = [txt "create table `t`(a int)",
      txt "create view v as select a from t where a>1",
      txt "create trigger g after insert on t for each row delete from u"] by decide +kernel]
  refine .cons ⟨(tokenize .mysql (txt "CREATE TABLE t (a int)")).toOption.getD [], ?_, ?_⟩ (.cons ⟨(tokenize .mysql (txt "CREATE VIEW v AS SELECT a FROM t WHERE a > 1")).toOption.getD [], ?_, ?_⟩
    (.cons ⟨(tokenize .mysql (txt "CREATE TRIGGER g AFTER INSERT ON t FOR EACH ROW DELETE FROM u")).toOption.getD [], ?_, ?_⟩ .nil))
  · exact layout_of_test [("", "CREATE"), (" ", "TABLE"), (" ", "t"), (" ", "("), ("", "a"), (" ", "int"), ("", ")")] (by decide +kernel)
  · exact layout_of_test [("", "create"), (" ", "table"), (" ", "`t`"), ("", "("), ("", "a"), (" ", "int"), ("", ")")] (by decide +kernel)
  · exact layout_of_test [("", "CREATE"), (" ", "VIEW"), (" ", "v"), (" ", "AS"), (" ", "SELECT"), (" ", "a"), (" ", "FROM"), (" ", "t"), (" ", "WHERE"), (" ", "a"), (" ", ">"), (" ", "1")] (by decide +kernel)
  · exact layout_of_test [("", "create"), (" ", "view"), (" ", "v"), (" ", "as"), (" ", "select"), (" ", "a"), (" ", "from"), (" ", "t"), (" ", "where"), (" ", "a"), ("", ">"), ("", "1")] (by decide +kernel)
  · exact layout_of_test [("", "CREATE"), (" ", "TRIGGER"), (" ", "g"), (" ", "AFTER"), (" ", "INSERT"), (" ", "ON"), (" ", "t"), (" ", "FOR"), (" ", "EACH"), (" ", "ROW"), (" ", "DELETE"), (" ", "FROM"), (" ", "u")] (by decide +kernel)
  · exact layout_of_test [("", "create"), (" ", "trigger"), (" ", "g"), (" ", "after"), (" ", "insert"), (" ", "on"), (" ", "t"), (" ", "for"), (" ", "each"), (" ", "row"), (" ", "delete"), (" ", "from"), (" ", "u")] (by decide +kernel)

/-- The definitions of the schema. -/
def exAnyDefs : List DDL :=
  [.createTable (txt "CREATE TABLE t (a int)") { name := lit "t", columns := [{ name := lit "a", position := 0, typeName := lit "int" }] },
   .view { statement := txt "CREATE VIEW v AS SELECT a FROM t WHERE a > 1", name := lit "v", definition := txt "select a from t where a > 1" },
   .trigger { statement := txt "CREATE TRIGGER g AFTER INSERT ON t FOR EACH ROW DELETE FROM u", name := lit "g", tableName := lit "t",
              time := lit "after", event := lit "insert", body := [txt "delete from u"] }]

theorem exAny_parsed : parseDDLs (Sql.env id) .mysql exAny = .ok exAnyDefs := ok_of_check (by decide +kernel)

theorem exAny_normal : Normal .mysql exAnyDefs where
  unique := by decide
  wellFormed := by
    have e : exAnyDefs = [] ++ [exAnyDefs[0]] ++ [exAnyDefs[1]] ++ [exAnyDefs[2]] := rfl
    rw [e, wellFormed_snoc, wellFormed_snoc, wellFormed_snoc]
    refine ⟨⟨⟨wellFormed_nil, trivial⟩, ?_⟩, ?_⟩
    · change lit "v" ∉ _
      decide
    · trivial
  noAddIndex := by intro s n i h; simp [exAnyDefs] at h
  tables := by
    intro s t h
    simp [exAnyDefs] at h
    obtain ⟨-, rfl⟩ := h
    exact ⟨by decide, by decide, by decide, by decide, by decide, by decide, by decide, fun _ => by decide⟩
  triggers := by decide

/-- There is nothing to change. -/
example : generateIdempotentDDLs (Sql.env id) .mysql exAny exAnew = .ok [] :=
  C66_rewriting_changes_nothing id .mysql exAny exAnew exAny_rewritten exAnyDefs exAny_parsed exAny_normal

theorem exAny_first : generateIdempotentDDLs (Sql.env id) .mysql exAny (txt "CREATE TABLE t (b int)") =
    .ok [txt "ALTER TABLE `t` ADD COLUMN `a` int FIRST", txt "CREATE VIEW v AS SELECT a FROM t WHERE a > 1",
      txt "CREATE TRIGGER `g` after insert ON `t` FOR EACH ROW delete from u", txt "ALTER TABLE `t` DROP COLUMN `b`"] :=
  ok_of_check (by decide +kernel)

/-- From another schema the changes are the same except for the text of the view. -/
example : ∃ out', generateIdempotentDDLs (Sql.env id) .mysql exAnew (txt "CREATE TABLE t (b int)") = .ok out' ∧
    List.Forall₂ (fun x y => x = y ∨ (x, y) ∈ (statementTexts exAny).zip (statementTexts exAnew))
      [txt "ALTER TABLE `t` ADD COLUMN `a` int FIRST", txt "CREATE VIEW v AS SELECT a FROM t WHERE a > 1",
       txt "CREATE TRIGGER `g` after insert ON `t` FOR EACH ROW delete from u", txt "ALTER TABLE `t` DROP COLUMN `b`"] out' :=
  C66_layout_of_the_desired_schema_is_irrelevant id .mysql exAny exAnew _ exAny_rewritten _ exAny_first

/-- **C66**, the limit: comments belong to the layout as long as they are not in a query. In a view they are a part of the
definition, so that a database that reports the view without them is changed in every run. -/
theorem C66_comments_in_views_matter :
    generateIdempotentDDLs (Sql.env id) .mysql (txt "CREATE VIEW v AS SELECT /* all */ a FROM t") (txt "CREATE VIEW v AS SELECT a FROM t") =
      .ok [txt "CREATE OR REPLACE VIEW `v` AS select /* all */ a from t"] ∧
    generateIdempotentDDLs (Sql.env id) .mysql (txt "CREATE TABLE t (a /* all */ int)") (txt "CREATE TABLE t (a int)") = .ok [] :=
  ⟨ok_of_check (by decide +kernel), ok_of_check (by decide +kernel)⟩

end Sqldef
