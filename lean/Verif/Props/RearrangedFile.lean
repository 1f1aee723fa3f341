import Verif.Proofs.RearrangedFile
import Verif.Props.Rearranged
import Verif.Props.Triggers
/-
C71, continued: the order of views and triggers does not matter either.
-/
namespace Sqldef
open Spec Written

/-- **C71.** Files with tables, views and triggers: nothing is to be changed from a file to another one with the same
statements, in whatever layout and order, as long as what belongs to a table comes after it, and with the items of every
CREATE TABLE in whatever order. -/
theorem C71_order_of_statements_is_irrelevant (fmtFloat : Str → Str) {mode : Mode} (hm : mode ≠ .mysql) (file file' : Str)
    (ss rs ss' : List Written.Statement) (hs : List.Forall₂ SameStatement ss rs) (hp : rs.Perm ss') (hf : Consists mode file ss)
    (hf' : Consists mode file' ss') (h : ∀ s ∈ ss, s.Clear) (ds ds' : List DDL)
    (hd : parseDDLs (Sql.env fmtFloat) mode file = .ok ds) (hn : Normal mode ds) (hk : ∀ s t, .createTable s t ∈ ds → OneKey t)
    (hd' : parseDDLs (Sql.env fmtFloat) mode file' = .ok ds') (hw : WellFormedCurrent ds') :
    generateIdempotentDDLs (Sql.env fmtFloat) mode file file' = .ok [] :=
  file_rearranged_nothing fmtFloat hm hs hp hf hf' h hd hn hk hd' hw

/-! ### An example -/

def exMixed : List Written.Statement :=
  [.sentence exWritten[0], .view (exShort (lit "v") (lit "x")), .trigger (exSmallTrigger none (lit "u") (lit "old"))]

def exMixedOther : List Written.Statement :=
  [.trigger (exSmallTrigger none (lit "u") (lit "old")), .view (exShort (lit "v") (lit "x")), .sentence (exShuffledTable exWritten[0])]

def exMixedFile : Str := txt "CREATE TABLE users (id int NOT NULL, name text);
CREATE VIEW v AS SELECT * FROM t WHERE a = 'x';
create trigger g after update on t for each row update u set a = 'old'"

def exMixedOtherFile : Str := txt "create trigger g after update on t for each row update u set a = 'old';
create view v as select * from t where a = 'x';
create table users (name text, id int not null);"

theorem exMixed_consists : Consists .postgres exMixedFile exMixed := by
  unfold Consists
  rw [show statementTexts exMixedFile = [txt "CREATE TABLE users (id int NOT NULL, name text)", txt "CREATE VIEW v AS SELECT * FROM t WHERE a = 'x'",
    txt "create trigger g after update on t for each row update u set a = 'old'"] by decide +kernel]
  refine .cons ?_ (.cons ?_ (.cons ?_ .nil))
  · exact layout_of_test [("", "CREATE"), (" ", "TABLE"), (" ", "users"), (" ", "("), ("", "id"), (" ", "int"), (" ", "NOT"), (" ", "NULL"), ("", ","), (" ", "name"), (" ", "text"), ("", ")")] (by decide +kernel)
  · exact layout_of_test [("", "CREATE"), (" ", "VIEW"), (" ", "v"), (" ", "AS"), (" ", "SELECT"), (" ", "*"), (" ", "FROM"), (" ", "t"), (" ", "WHERE"), (" ", "a"), (" ", "="), (" ", "'x'")] (by decide +kernel)
  · exact layout_of_test [("", "create"), (" ", "trigger"), (" ", "g"), (" ", "after"), (" ", "update"), (" ", "on"), (" ", "t"), (" ", "for"), (" ", "each"), (" ", "row"), (" ", "update"), (" ", "u"), (" ", "set"), (" ", "a"), (" ", "="), (" ", "'old'")] (by decide +kernel)

theorem exMixedOther_consists : Consists .postgres exMixedOtherFile exMixedOther := by
  unfold Consists
  rw [show statementTexts exMixedOtherFile = [txt "create trigger g after update on t for each row update u set a = 'old'",
    txt "create view v as select * from t where a = 'x'", txt "create table users (name text, id int not null)"] by decide +kernel]
  refine .cons ?_ (.cons ?_ (.cons ?_ .nil))
  · exact layout_of_test [("", "create"), (" ", "trigger"), (" ", "g"), (" ", "after"), (" ", "update"), (" ", "on"), (" ", "t"), (" ", "for"), (" ", "each"), (" ", "row"), (" ", "update"), (" ", "u"), (" ", "set"), (" ", "a"), (" ", "="), (" ", "'old'")] (by decide +kernel)
  · exact layout_of_test [("", "create"), (" ", "view"), (" ", "v"), (" ", "as"), (" ", "select"), (" ", "*"), (" ", "from"), (" ", "t"), (" ", "where"), (" ", "a"), (" ", "="), (" ", "'x'")] (by decide +kernel)
  · exact layout_of_test [("", "create"), (" ", "table"), (" ", "users"), (" ", "("), ("", "name"), (" ", "text"), ("", ","), (" ", "id"), (" ", "int"), (" ", "not"), (" ", "null"), ("", ")")] (by decide +kernel)

theorem exMixed_clear : ∀ s ∈ exMixed, s.Clear := by
  intro s hs
  simp only [exMixed, List.mem_cons, List.not_mem_nil, or_false] at hs
  rcases hs with rfl | rfl | rfl
  · exact exWritten_clear _ (List.getElem_mem _)
  · exact exShort_clear _ _
  · exact (exSmallTrigger_clear _ _).1

def exMixedDefs : List DDL :=
  [.createTable (txt "CREATE TABLE users (id int NOT NULL, name text)") { name := txt "public.users", columns :=
     [{ name := lit "id", position := 0, typeName := lit "int", notNull := some true }, { name := lit "name", position := 1, typeName := lit "text" }] },
   .view { statement := txt "CREATE VIEW v AS SELECT * FROM t WHERE a = 'x'", name := lit "v", definition := (exShort (lit "v") (lit "x")).query.text },
   .trigger ((exSmallTrigger none (lit "u") (lit "old")).defined (txt "create trigger g after update on t for each row update u set a = 'old'"))]

def exMixedOtherDefs : List DDL :=
  [.trigger ((exSmallTrigger none (lit "u") (lit "old")).defined (txt "create trigger g after update on t for each row update u set a = 'old'")),
   .view { statement := txt "create view v as select * from t where a = 'x'", name := lit "v", definition := (exShort (lit "v") (lit "x")).query.text },
   .createTable (txt "create table users (name text, id int not null)") { name := txt "public.users", columns :=
     [{ name := lit "name", position := 0, typeName := lit "text" }, { name := lit "id", position := 1, typeName := lit "int", notNull := some true }] }]

theorem exMixed_parsed : parseDDLs (Sql.env id) .postgres exMixedFile =
    .ok exMixedDefs :=
  ok_of_check (by decide +kernel)

theorem exMixedOther_parsed : parseDDLs (Sql.env id) .postgres exMixedOtherFile =
    .ok exMixedOtherDefs :=
  ok_of_check (by decide +kernel)

theorem exMixed_normal : Normal .postgres exMixedDefs := by
  have e : ∀ a b c : DDL, [a, b, c] = [] ++ [a] ++ [b] ++ [c] := fun _ _ _ => rfl
  refine ⟨by decide, ?_, ?_, ?_, by decide⟩
  · rw [exMixedDefs, e, wellFormed_snoc, wellFormed_snoc, wellFormed_snoc]
    refine ⟨⟨⟨wellFormed_nil, ?_⟩, ?_⟩, ?_⟩ <;> simp [Follows, viewsOf]
  · intro s n i h
    simp [exMixedDefs] at h
  · intro s t h
    simp [exMixedDefs] at h
    obtain ⟨-, rfl⟩ := h
    exact ⟨by decide, by decide, by decide, by decide, by decide, by decide, by decide, fun _ => by decide⟩

theorem exMixed_oneKey : ∀ s t, .createTable s t ∈ exMixedDefs → OneKey t := by
  intro s t h
  simp [exMixedDefs] at h
  obtain ⟨-, rfl⟩ := h
  exact ⟨by decide, by decide⟩

theorem exMixedOther_wellFormed : WellFormedCurrent exMixedOtherDefs := by
  have e : ∀ a b c : DDL, [a, b, c] = [] ++ [a] ++ [b] ++ [c] := fun _ _ _ => rfl
  rw [exMixedOtherDefs, e, wellFormedCurrent_snoc, wellFormedCurrent_snoc, wellFormedCurrent_snoc]
  refine ⟨⟨⟨fun a x b e => by simp at e, ?_⟩, ?_⟩, ?_⟩ <;> simp [FollowsCurrent]

/-- A table, a view and a trigger, and the same with the columns and the statements in another order. -/
example : generateIdempotentDDLs (Sql.env id) .postgres exMixedFile exMixedOtherFile = .ok [] :=
  C71_order_of_statements_is_irrelevant id (by decide) _ _ exMixed exMixedOther.reverse exMixedOther
    (.cons (.sentence (.table rfl (.swap _ _ _) rfl)) (.cons (.view _) (.cons (.trigger _) .nil))) (List.reverse_perm _)
    exMixed_consists exMixedOther_consists exMixed_clear _ _ exMixed_parsed exMixed_normal exMixed_oneKey exMixedOther_parsed
    exMixedOther_wellFormed

end Sqldef
