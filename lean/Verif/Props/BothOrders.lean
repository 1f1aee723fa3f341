import Verif.Props.Listed
import Verif.Props.FileOrder
/-
C76 with C75: neither the order of the file nor that of the database matters but for the order of the script.
-/
namespace Sqldef
open Spec

/-- C76: if both the statements of the file and the description of the database come in another order, the same statements are generated, in
another order. -/
theorem C76_both_orders (fmtFloat : Str → Str) (mode : Mode) (file file' current current' : Str) (des des' cur cur' : List DDL)
    (hp : parseDDLs (Sql.env fmtFloat) mode file = .ok des) (hd : UniqueTables des) (hs : (statementTexts file).Perm (statementTexts file'))
    (hp' : parseDDLs (Sql.env fmtFloat) mode file' = .ok des') (ht : TablesFirst des') (hr : Reordered mode current current')
    (hc : parseDDLs (Sql.env fmtFloat) mode current = .ok cur) (hn : NamesDiffer cur)
    (hc' : parseDDLs (Sql.env fmtFloat) mode current' = .ok cur') (hu : UniqueTables cur') (hw : WellFormedCurrent cur') (script : List Str)
    (h : generateIdempotentDDLs (Sql.env fmtFloat) mode file current = .ok script) :
    ∃ script', generateIdempotentDDLs (Sql.env fmtFloat) mode file' current' = .ok script' ∧ script.Perm script' := by
  obtain ⟨s1, h1, same, rest, rest', -, hp1, rfl, rfl⟩ :=
    C75_description_in_any_order fmtFloat mode file current current' hr des cur cur' hp hd hc hn hc' hw script h
  obtain ⟨s2, h2, hp2⟩ := C76_same_statements (Sql.env fmtFloat) mode file file' current' des des' cur' hp hd hc' hu hs hp' ht _ h1
  exact ⟨s2, h2, ((hp1.map _).append_left _).trans hp2⟩

/-! ### A case -/

/-- The database of the example of C76, which lists its tables in the other order. -/
def exHaveTurned : Str := txt "CREATE TABLE logs (id int);
CREATE TABLE users (id int, email text);"

theorem exHaveTurned_parsed : parseDDLs (Sql.env id) .postgres exHaveTurned = .ok exHaveDefs.reverse := ok_of_check (by decide +kernel)

theorem exHave_differ : NamesDiffer exHaveDefs where
  tables := by decide +kernel
  parts := by
    intro t ht
    have h : t = { name := txt "public.users", columns :=
          [{ name := lit "id", position := 0, typeName := lit "int" }, { name := lit "email", position := 1, typeName := lit "text" }] } ∨
        t = { name := txt "public.logs", columns := [{ name := lit "id", position := 0, typeName := lit "int" }] } := by
      rw [show tablesOf exHaveDefs = [{ name := txt "public.users", columns :=
          [{ name := lit "id", position := 0, typeName := lit "int" }, { name := lit "email", position := 1, typeName := lit "text" }] },
        { name := txt "public.logs", columns := [{ name := lit "id", position := 0, typeName := lit "int" }] }] by decide +kernel] at ht
      simpa using ht
    rcases h with rfl | rfl <;> exact ⟨by decide +kernel, by decide +kernel, by decide +kernel⟩
  secondary := by intro n i hi; simp [exHaveDefs, indexesFor] at hi
  views := by decide +kernel
  triggers := by decide +kernel

theorem exHaveTurned_wellFormed : WellFormedCurrent exHaveDefs.reverse := by
  have e : ∀ a b : DDL, [a, b].reverse = [] ++ [b] ++ [a] := fun _ _ => rfl
  rw [exHaveDefs, e, wellFormedCurrent_snoc, wellFormedCurrent_snoc]
  refine ⟨⟨fun a x b e => by simp at e, ?_⟩, ?_⟩ <;> simp [FollowsCurrent]

theorem exHave_reordered : Reordered .postgres exHave exHaveTurned := by
  have h1 : Layout .postgres (txt "CREATE TABLE users (id int, email text)")
      ((tokenize .postgres (txt "CREATE TABLE users (id int, email text)")).toOption.getD []) :=
    layout_of_test [("", "CREATE"), (" ", "TABLE"), (" ", "users"), (" ", "("), ("", "id"), (" ", "int"), ("", ","), (" ", "email"),
      (" ", "text"), ("", ")")] (by decide +kernel)
  have h2 : Layout .postgres (txt "CREATE TABLE logs (id int)") ((tokenize .postgres (txt "CREATE TABLE logs (id int)")).toOption.getD []) :=
    layout_of_test [("", "CREATE"), (" ", "TABLE"), (" ", "logs"), (" ", "("), ("", "id"), (" ", "int"), ("", ")")] (by decide +kernel)
  refine ⟨[txt "CREATE TABLE users (id int, email text)", txt "CREATE TABLE logs (id int)"], ?_, ?_⟩
  · rw [show statementTexts exHave = [txt "CREATE TABLE users (id int, email text)", txt "CREATE TABLE logs (id int)"] by decide +kernel]
    exact .cons ⟨_, h1, h1⟩ (.cons ⟨_, h2, h2⟩ .nil)
  · rw [show statementTexts exHaveTurned = [txt "CREATE TABLE logs (id int)", txt "CREATE TABLE users (id int, email text)"] by decide +kernel]
    exact .swap _ _ _

example : ∃ script', generateIdempotentDDLs (Sql.env id) .postgres exThen exHaveTurned = .ok script' ∧
    [txt "ALTER TABLE \"public\".\"users\" ADD COLUMN \"age\" int", exAgeText, exPostsText, exViewText,
      txt "ALTER TABLE \"public\".\"users\" DROP COLUMN \"email\"", txt "DROP TABLE \"public\".\"logs\""].Perm script' :=
  C76_both_orders id .postgres exFirst exThen exHave exHaveTurned _ _ _ _ exFirst_parsed (by decide +kernel) ex_sameStatements exThen_parsed
    exThen_tablesFirst exHave_reordered exHave_parsed exHave_differ exHaveTurned_parsed (by decide +kernel) exHaveTurned_wellFormed _ exFirst_script

end Sqldef
