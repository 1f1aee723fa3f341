import Verif.Proofs.MovedText
import Verif.Props.MsServer
import Verif.Props.RearrangedFile
/-
C75, continued: except for MySQL, the order of the columns in the database does not matter either.
-/
namespace Sqldef
open Spec Spec.MsServer Dumped Written Ms

/-- **C75.** Except for MySQL, the columns may be listed in another order as well. -/
theorem C75_order_within_tables (mode : Mode) (hm : mode ≠ .mysql) (desired current moved current' : List DDL) (hd : UniqueTables desired)
    (hn : Normal mode current) (hk : ∀ s t, .createTable s t ∈ current → OneKey t) (hr : List.Forall₂ SameButOrder current moved)
    (hp : moved.Perm current') (hw : WellFormedCurrent current') (script : List Stmt) (hs : diff mode desired current = .ok script) :
    ∃ same rest rest', script = same ++ rest ∧ diff mode desired current' = .ok (same ++ rest') ∧ rest.Perm rest' ∧ ∀ s ∈ rest, TakesAway s :=
  diff_current_moved hm hd hn hk hr hp hw hs

/-- **C75.** The same for descriptions of the database as text: the statements may come in any order and layout, and so may
the items of each CREATE TABLE. -/
theorem C75_items_in_any_order (fmtFloat : Str → Str) (mode : Mode) (hm : mode ≠ .mysql) (current current' : Str)
    (ss rs ss' : List Written.Statement) (hs : List.Forall₂ SameStatement ss rs) (hp : rs.Perm ss') (hf : Consists mode current ss)
    (hf' : Consists mode current' ss') (h : ∀ s ∈ ss, s.Clear) (ds ds' : List DDL)
    (hc : parseDDLs (Sql.env fmtFloat) mode current = .ok ds) (hn : Normal mode ds) (hk : ∀ s t, .createTable s t ∈ ds → OneKey t)
    (hc' : parseDDLs (Sql.env fmtFloat) mode current' = .ok ds') (hw : WellFormedCurrent ds')
    (desired : Str) (des : List DDL) (hd : parseDDLs (Sql.env fmtFloat) mode desired = .ok des) (hu : UniqueTables des) (script : List Str)
    (ho : generateIdempotentDDLs (Sql.env fmtFloat) mode desired current = .ok script) :
    ∃ script', generateIdempotentDDLs (Sql.env fmtFloat) mode desired current' = .ok script' ∧ SameButRemovals mode script script' :=
  scripts_moved fmtFloat hm hs hp hf hf' h hc hn hk hc' hw hd hu ho

/-- **C75.** Two answers of a SQL Server lead to the same script but for the order of the removals, whatever the order of the
rows and whatever is desired. Only the columns of each index have to come in the same order. -/
theorem C75_sql_server_answers (fmtFloat : Str → Str) {σ τ : Type} (db : Db σ) (db' : Db τ) (cat : σ → Ms.Catalog)
    (cat' : τ → Ms.Catalog) (ha : MsAdapter db cat) (ha' : MsAdapter db' cat') (s : σ) (s' : τ) (srv : Server) (hs : Sound srv)
    (hp : ∀ o, IsTable srv o → Simple srv o) (hq : Answers srv (cat s)) (hq' : Answers srv (cat' s'))
    (hk : SameKeyOrder (cat s) (cat' s')) (ds : List MsDescribed) (vs : List NewView) (gs : List NewTrigger)
    (hn : ((cat s).tables.map (·.2)).Nodup) (hv : ViewsDiffer vs) (hg : TriggersDiffer gs) (h : MsDatabaseSays (cat s) ds vs gs) :
    ∃ text text', dumpDDLs db s = .ok text ∧ dumpDDLs db' s' = .ok text' ∧
      ∀ (desired : Str) (des : List DDL) (script : List Str), parseDDLs (Sql.env fmtFloat) .mssql desired = .ok des → UniqueTables des →
        generateIdempotentDDLs (Sql.env fmtFloat) .mssql desired text = .ok script →
        ∃ script', generateIdempotentDDLs (Sql.env fmtFloat) .mssql desired text' = .ok script' ∧ SameButRemovals .mssql script script' :=
  msServers_alike fmtFloat ha ha' s s' hs hp hq hq' hk hn hv hg h

/-! ### Examples -/

/-- The server of C72, which answers in two orders. -/
example : ∃ text text', dumpDDLs (msDatabase exMsAnswer) () = .ok text ∧ dumpDDLs (msDatabase exMsOtherAnswer) () = .ok text' ∧
      ∀ (desired : Str) (des : List DDL) (script : List Str), parseDDLs (Sql.env id) .mssql desired = .ok des → UniqueTables des →
        generateIdempotentDDLs (Sql.env id) .mssql desired text = .ok script →
        ∃ script', generateIdempotentDDLs (Sql.env id) .mssql desired text' = .ok script' ∧ SameButRemovals .mssql script script' :=
  C75_sql_server_answers id _ _ _ _ (msDatabase_adapter exMsAnswer) (msDatabase_adapter exMsOtherAnswer) () () exMsServer
    exMsServer_sound exMsServer_simple exMsAnswer_answers exMsOtherAnswer_answers
    (C72_single_keys_are_in_order _ _ _ exMsServer_sound exMsServer_simple exMsServer_single exMsAnswer_answers exMsOtherAnswer_answers)
    exMsDescribed [exMsView] [exMsTrigger] (by decide +kernel) (by unfold ViewsDiffer; decide) (by unfold TriggersDiffer; decide) exMsAnswer_says

/-- The table of C71 loses its columns and gets another one. -/
def exNewColumns : Str := txt "create table users (age int)"

def exNewColumnsDefs : List DDL :=
  [.createTable exNewColumns { name := txt "public.users", columns := [{ name := lit "age", position := 0, typeName := lit "int" }] }]

theorem exNewColumns_parsed : parseDDLs (Sql.env id) .postgres exNewColumns = .ok exNewColumnsDefs := ok_of_check (by decide +kernel)

theorem exNewColumns_script : generateIdempotentDDLs (Sql.env id) .postgres exNewColumns exMixedFile =
    .ok [txt "ALTER TABLE \"public\".\"users\" ADD COLUMN \"age\" int", txt "ALTER TABLE \"public\".\"users\" DROP COLUMN \"id\"",
      txt "ALTER TABLE \"public\".\"users\" DROP COLUMN \"name\"", txt "DROP VIEW \"public\".\"v\""] := ok_of_check (by decide +kernel)

/-- A description with the columns and the statements in another order. -/
example : ∃ script', generateIdempotentDDLs (Sql.env id) .postgres exNewColumns exMixedOtherFile = .ok script' ∧
    SameButRemovals .postgres [txt "ALTER TABLE \"public\".\"users\" ADD COLUMN \"age\" int", txt "ALTER TABLE \"public\".\"users\" DROP COLUMN \"id\"",
      txt "ALTER TABLE \"public\".\"users\" DROP COLUMN \"name\"", txt "DROP VIEW \"public\".\"v\""] script' :=
  C75_items_in_any_order id .postgres (by decide) _ _ exMixed exMixedOther.reverse exMixedOther
    (.cons (.sentence (.table rfl (.swap _ _ _) rfl)) (.cons (.view _) (.cons (.trigger _) .nil))) (List.reverse_perm _)
    exMixed_consists exMixedOther_consists exMixed_clear _ _ exMixed_parsed exMixed_normal exMixed_oneKey exMixedOther_parsed
    exMixedOther_wellFormed exNewColumns exNewColumnsDefs exNewColumns_parsed (by decide) _ exNewColumns_script

/-- The columns are dropped in the order in which the database lists them. -/
example : generateIdempotentDDLs (Sql.env id) .postgres exNewColumns exMixedOtherFile =
    .ok [txt "ALTER TABLE \"public\".\"users\" ADD COLUMN \"age\" int", txt "ALTER TABLE \"public\".\"users\" DROP COLUMN \"name\"",
      txt "ALTER TABLE \"public\".\"users\" DROP COLUMN \"id\"", txt "DROP VIEW \"public\".\"v\""] := ok_of_check (by decide +kernel)

end Sqldef
