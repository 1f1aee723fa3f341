import Verif.Proofs.RearrangedText
import Verif.Props.Reorder
/-
C71: the order in which a table is written does not matter, except for MySQL.
-/
namespace Sqldef
open Spec Written

/-- **C71.** For Postgres, SQL Server and SQLite, two schemas that differ only in the order of the columns, indexes and
foreign keys within their CREATE TABLEs are the same to the tool: nothing is to be changed from one to the other. -/
theorem C71_order_within_a_table_is_irrelevant {mode : Mode} (hm : mode ≠ .mysql) {ds cs : List DDL} (h : Normal mode ds)
    (hk : ∀ s t, .createTable s t ∈ ds → OneKey t) (hr : List.Forall₂ SameButOrder ds cs) : diff mode ds cs = .ok [] :=
  diff_rearranged hm h hk hr (.refl _) (wellFormedCurrent_rearranged hr (wellFormed_noMarks h.wellFormed)
    (wellFormedCurrent_of_wellFormed h.wellFormed h.noAddIndex))

/-- **C71.** The statements may be in another order as well, as long as every statement comes after the table it is
about. -/
theorem C71_order_is_irrelevant {mode : Mode} (hm : mode ≠ .mysql) {ds es cs : List DDL} (h : Normal mode ds)
    (hk : ∀ s t, .createTable s t ∈ ds → OneKey t) (hr : List.Forall₂ SameButOrder ds es) (hp : es.Perm cs)
    (hw : WellFormedCurrent cs) : diff mode ds cs = .ok [] :=
  diff_rearranged hm h hk hr hp hw

/-- **C71.** The same for files: nothing is to be changed from a file to another one with the same statements, in whatever
layout, in whatever order in which every statement comes after the table it is about, and with the items of every CREATE
TABLE in whatever order. -/
theorem C71_order_of_items_is_irrelevant (fmtFloat : Str → Str) {mode : Mode} (hm : mode ≠ .mysql) (file file' : Str)
    (ss rs ss' : List Sentence) (hs : List.Forall₂ SameItems ss rs) (hp : rs.Perm ss') (hf : Contains mode file ss)
    (hf' : Contains mode file' ss') (h : ∀ s ∈ ss, s.Clear ∧ s.InRange) (ds ds' : List DDL)
    (hd : parseDDLs (Sql.env fmtFloat) mode file = .ok ds) (hn : Normal mode ds) (hk : ∀ s t, .createTable s t ∈ ds → OneKey t)
    (hd' : parseDDLs (Sql.env fmtFloat) mode file' = .ok ds') (hw : WellFormedCurrent ds') :
    generateIdempotentDDLs (Sql.env fmtFloat) mode file file' = .ok [] :=
  rearranged_nothing fmtFloat hm hs hp hf hf' h hd hn hk hd' hw

/-! ### Examples -/

/-- `exWritten` with the columns of its table, and its statements, in another order. -/
def exShuffledTable : Sentence → Sentence
  | .table t =>
    match t.rest with
    | .column c :: rest => .table { t with first := c, rest := .column t.first :: rest }
    | _ => .table t
  | s => s

def exShuffled : List Sentence := [exShuffledTable exWritten[0], exWritten[3], exWritten[2], exWritten[1]]

def exShuffledFile : Str := txt "create table users (name text, id int not null);
CREATE POLICY mine ON users AS RESTRICTIVE FOR SELECT TO alice USING (id = 7);
ALTER TABLE ONLY users ADD CONSTRAINT fk FOREIGN KEY (id) REFERENCES users (id);
CREATE UNIQUE INDEX by_name ON public.users USING btree (name, id) WHERE (id > 0);
"

theorem exShuffled_contains : Contains .postgres exShuffledFile exShuffled := by
  unfold Contains
  rw [show statementTexts exShuffledFile = [txt "create table users (name text, id int not null)",
    txt "CREATE POLICY mine ON users AS RESTRICTIVE FOR SELECT TO alice USING (id = 7)",
    txt "ALTER TABLE ONLY users ADD CONSTRAINT fk FOREIGN KEY (id) REFERENCES users (id)",
    txt "CREATE UNIQUE INDEX by_name ON public.users USING btree (name, id) WHERE (id > 0)"] by decide +kernel]
  exact .cons (ok_of_check (by decide +kernel)) (.cons (ok_of_check (by decide +kernel))
    (.cons (ok_of_check (by decide +kernel)) (.cons (ok_of_check (by decide +kernel)) .nil)))

theorem exShuffled_same : List.Forall₂ SameItems exWritten [exShuffledTable exWritten[0], exWritten[1], exWritten[2], exWritten[3]] :=
  .cons (.table rfl (.swap _ _ _) rfl) (.cons (.same _) (.cons (.same _) (.cons (.same _) .nil)))

theorem exShuffled_perm : [exShuffledTable exWritten[0], exWritten[1], exWritten[2], exWritten[3]].Perm exShuffled :=
  (show exShuffled.Perm [exShuffledTable exWritten[0], exWritten[1], exWritten[2], exWritten[3]] from
    .cons _ (.trans (.swap exWritten[2] exWritten[3] [exWritten[1]])
      (.trans (.cons exWritten[2] (.swap exWritten[1] exWritten[3] [])) (.swap exWritten[1] exWritten[2] [exWritten[3]])))).symm

def exShuffledDefs : List DDL :=
  [.createTable (txt "create table users (name text, id int not null)") { name := txt "public.users", columns :=
     [{ name := lit "name", position := 0, typeName := lit "text" },
      { name := lit "id", position := 1, typeName := lit "int", notNull := some true }] },
   exWrittenDefs[3], exWrittenDefs[2], exWrittenDefs[1]]

theorem exShuffled_parsed : parseDDLs (Sql.env id) .postgres exShuffledFile = .ok exShuffledDefs :=
  ok_of_check (by decide +kernel)

theorem exShuffled_wellFormed : WellFormedCurrent exShuffledDefs := by
  have e : ∀ a b c d : DDL, [a, b, c, d] = [] ++ [a] ++ [b] ++ [c] ++ [d] := fun _ _ _ _ => rfl
  rw [exShuffledDefs, e, wellFormedCurrent_snoc, wellFormedCurrent_snoc, wellFormedCurrent_snoc, wellFormedCurrent_snoc]
  refine ⟨⟨⟨⟨fun a x b e => by simp at e, trivial⟩, ?_⟩, ?_⟩, ?_⟩ <;>
    simp [exWrittenDefs, FollowsCurrent, createdNames, created]

theorem exWritten_oneKey : ∀ s t, .createTable s t ∈ exWrittenDefs → OneKey t := by
  intro s t h
  simp [exWrittenDefs] at h
  obtain ⟨-, rfl⟩ := h
  exact ⟨by decide, by decide⟩

/-- From the file to the one with the columns and the statements in another order there is nothing to change. -/
example : generateIdempotentDDLs (Sql.env id) .postgres exWrittenFile exShuffledFile = .ok [] :=
  C71_order_of_items_is_irrelevant id (by decide) exWrittenFile exShuffledFile exWritten _ exShuffled exShuffled_same exShuffled_perm
    exWritten_contains.1 exShuffled_contains exWritten_clear _ _ exWritten_parsed exWritten_normal exWritten_oneKey exShuffled_parsed
    exShuffled_wellFormed

/-- The definitions in the same order, the columns of the table in another one. -/
example : diff .postgres exWrittenDefs [exShuffledDefs[0], exWrittenDefs[1], exWrittenDefs[2], exWrittenDefs[3]] = .ok [] :=
  C71_order_within_a_table_is_irrelevant (by decide) exWritten_normal exWritten_oneKey
    (.cons ⟨rfl, .swap _ _ _, .refl _, .refl _, .refl _⟩ (.cons ⟨rfl, rfl⟩ (.cons ⟨rfl, rfl⟩ (.cons ⟨rfl, rfl⟩ .nil))))

/-- A table, and the same one with its columns in the opposite order. -/
def exTwoWays (swapped : Bool) : List DDL :=
  [.createTable [] { name := lit "t", columns :=
    if swapped then [{ name := lit "b", position := 0, typeName := lit "int" }, { name := lit "a", position := 1, typeName := lit "int" }]
    else [{ name := lit "a", position := 0, typeName := lit "int" }, { name := lit "b", position := 1, typeName := lit "int" }] }]

/-- **C71.** For MySQL the order of the columns is part of the schema: a table in normal form is changed if its columns are
in another order. -/
theorem C71_order_matters_for_mysql : ∃ ds cs, Normal .mysql ds ∧ (∀ s t, .createTable s t ∈ ds → OneKey t) ∧
    List.Forall₂ SameButOrder ds cs ∧ diff .mysql ds cs ≠ .ok [] := by
  refine ⟨exTwoWays false, exTwoWays true, ⟨by decide, ?_, ?_, ?_, by decide⟩, ?_, ?_, ?_⟩
  · rw [exTwoWays, show ∀ a : DDL, [a] = [] ++ [a] from fun _ => rfl, wellFormed_snoc]
    exact ⟨wellFormed_nil, trivial⟩
  · intro s n i h
    simp [exTwoWays] at h
  · intro s t h
    simp [exTwoWays] at h
    obtain ⟨-, rfl⟩ := h
    exact ⟨by decide, by decide, by decide, by decide, by decide, by decide, by decide, fun _ => by decide⟩
  · intro s t h
    simp [exTwoWays] at h
    obtain ⟨-, rfl⟩ := h
    exact ⟨by decide, by decide⟩
  · exact .cons ⟨rfl, .swap _ _ _, .refl _, .refl _, .refl _⟩ .nil
  · intro h
    have : (diff .mysql (exTwoWays false) (exTwoWays true)).toOption.map (·.isEmpty) = some false := by decide +kernel
    rw [h] at this
    cases this

end Sqldef
