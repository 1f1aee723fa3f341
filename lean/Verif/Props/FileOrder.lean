import Verif.Proofs.FileOrder
/-
C76: every statement of the file is compared with the database by itself.
-/
namespace Sqldef
open Spec

/-- C76: for a database there is a way to say for every statement which changes it leads to, whatever file it is in. The script for a file
is the changes of its statements, one after the other, and then the removal of what is in no statement. If the statements of the file come
in any other order, each after its table, the script has the same parts in that order and ends with the same removals in the same order. -/
theorem C76_statement_by_statement (env : Env) (mode : Mode) (current : Str) (cur : List DDL) (hc : parseDDLs env mode current = .ok cur)
    (hu : UniqueTables cur) : ∃ changes : Str → List Str, ∀ (file : Str) (des : List DDL), parseDDLs env mode file = .ok des → UniqueTables des →
      ∀ script, generateIdempotentDDLs env mode file current = .ok script →
      ∃ removals : List Stmt, (∀ s ∈ removals, TakesAway s) ∧ script = (statementTexts file).flatMap changes ++ removals.map (Stmt.render mode) ∧
        ∀ file', (statementTexts file).Perm (statementTexts file') → (∀ des', parseDDLs env mode file' = .ok des' → TablesFirst des') →
          generateIdempotentDDLs env mode file' current = .ok ((statementTexts file').flatMap changes ++ removals.map (Stmt.render mode)) :=
  ⟨changesFor env mode cur, fun _ _ hp hd _ h => file_reordered hc hu hp hd h⟩

/-- C76: so a file with the same statements in another order leads to the same script but for the order. -/
theorem C76_same_statements (env : Env) (mode : Mode) (file file' current : Str) (des des' cur : List DDL) (hp : parseDDLs env mode file = .ok des)
    (hd : UniqueTables des) (hc : parseDDLs env mode current = .ok cur) (hu : UniqueTables cur)
    (hs : (statementTexts file).Perm (statementTexts file')) (hp' : parseDDLs env mode file' = .ok des') (ht : TablesFirst des')
    (script : List Str) (h : generateIdempotentDDLs env mode file current = .ok script) :
    ∃ script', generateIdempotentDDLs env mode file' current = .ok script' ∧ script.Perm script' := by
  obtain ⟨changes, k⟩ := C76_statement_by_statement env mode current cur hc hu
  obtain ⟨removals, -, rfl, k⟩ := k file des hp hd script h
  exact ⟨_, k file' hs fun d hd => by cases hp'.symm.trans hd; exact ht, (hs.flatMap_right _).append_right _⟩

/-- C76: and a file with nothing to change has nothing to change in any order. -/
theorem C76_nothing_in_any_order (env : Env) (mode : Mode) (file file' current : Str) (des des' cur : List DDL)
    (hp : parseDDLs env mode file = .ok des) (hd : UniqueTables des) (hc : parseDDLs env mode current = .ok cur) (hu : UniqueTables cur)
    (hs : (statementTexts file).Perm (statementTexts file')) (hp' : parseDDLs env mode file' = .ok des') (ht : TablesFirst des')
    (h : generateIdempotentDDLs env mode file current = .ok []) : generateIdempotentDDLs env mode file' current = .ok [] := by
  obtain ⟨s, h1, h2⟩ := C76_same_statements env mode file file' current des des' cur hp hd hc hu hs hp' ht [] h
  rw [h1, List.nil_perm.mp h2]

/-! ### A case -/

def exHave : Str := txt "CREATE TABLE users (id int, email text);
CREATE TABLE logs (id int);"

def exFirst : Str := txt "create table users (id int, age int);
create index age on users (age);
create table posts (id int);
create view v as select * from users"

def exThen : Str := txt "create view v as select * from users;
create table posts (id int);
create table users (id int, age int);
create index age on users (age);"

def exUsersText : Str := txt "create table users (id int, age int)"
def exPostsText : Str := txt "create table posts (id int)"
def exAgeText : Str := txt "create index age on users (age)"
def exViewText : Str := txt "create view v as select * from users"

def exHaveDefs : List DDL :=
  [.createTable (txt "CREATE TABLE users (id int, email text)") { name := txt "public.users", columns :=
      [{ name := lit "id", position := 0, typeName := lit "int" }, { name := lit "email", position := 1, typeName := lit "text" }] },
    .createTable (txt "CREATE TABLE logs (id int)") { name := txt "public.logs", columns := [{ name := lit "id", position := 0, typeName := lit "int" }] }]

def exUsersDef : DDL := .createTable exUsersText { name := txt "public.users", columns :=
  [{ name := lit "id", position := 0, typeName := lit "int" }, { name := lit "age", position := 1, typeName := lit "int" }] }
def exPostsDef : DDL := .createTable exPostsText { name := txt "public.posts", columns := [{ name := lit "id", position := 0, typeName := lit "int" }] }
def exAgeDef : DDL := .createIndex exAgeText (txt "public.users")
  { name := lit "age", indexType := [], columns := [{ column := lit "age", length := none, direction := lit "asc" }], primary := false, unique := false, clustered := true }
def exViewDef : DDL := .view { statement := exViewText, name := lit "v", definition := txt "select * from users" }

theorem exHave_parsed : parseDDLs (Sql.env id) .postgres exHave = .ok exHaveDefs := ok_of_check (by decide +kernel)

theorem exFirst_parsed : parseDDLs (Sql.env id) .postgres exFirst = .ok [exUsersDef, exAgeDef, exPostsDef, exViewDef] :=
  ok_of_check (by decide +kernel)

theorem exThen_parsed : parseDDLs (Sql.env id) .postgres exThen = .ok [exViewDef, exPostsDef, exUsersDef, exAgeDef] :=
  ok_of_check (by decide +kernel)

theorem exThen_tablesFirst : TablesFirst [exViewDef, exPostsDef, exUsersDef, exAgeDef] := tablesFirst_of_check (by decide +kernel)

theorem exFirst_texts : statementTexts exFirst = [exUsersText, exAgeText, exPostsText, exViewText] := by decide +kernel

theorem exThen_texts : statementTexts exThen = [exViewText, exPostsText, exUsersText, exAgeText] := by decide +kernel

theorem ex_sameStatements : (statementTexts exFirst).Perm (statementTexts exThen) := by
  rw [exFirst_texts, exThen_texts]
  decide +kernel

theorem exFirst_script : generateIdempotentDDLs (Sql.env id) .postgres exFirst exHave =
    .ok [txt "ALTER TABLE \"public\".\"users\" ADD COLUMN \"age\" int", exAgeText, exPostsText, exViewText,
      txt "ALTER TABLE \"public\".\"users\" DROP COLUMN \"email\"", txt "DROP TABLE \"public\".\"logs\""] := ok_of_check (by decide +kernel)

example : ∃ script', generateIdempotentDDLs (Sql.env id) .postgres exThen exHave = .ok script' ∧
    [txt "ALTER TABLE \"public\".\"users\" ADD COLUMN \"age\" int", exAgeText, exPostsText, exViewText,
      txt "ALTER TABLE \"public\".\"users\" DROP COLUMN \"email\"", txt "DROP TABLE \"public\".\"logs\""].Perm script' :=
  C76_same_statements (Sql.env id) .postgres exFirst exThen exHave _ _ _ exFirst_parsed (by decide +kernel) exHave_parsed (by decide +kernel)
    ex_sameStatements exThen_parsed exThen_tablesFirst _ exFirst_script

/-- The changes in the order of the file, then the same removals. -/
example : generateIdempotentDDLs (Sql.env id) .postgres exThen exHave =
    .ok [exViewText, exPostsText, txt "ALTER TABLE \"public\".\"users\" ADD COLUMN \"age\" int", exAgeText,
      txt "ALTER TABLE \"public\".\"users\" DROP COLUMN \"email\"", txt "DROP TABLE \"public\".\"logs\""] := ok_of_check (by decide +kernel)

end Sqldef
