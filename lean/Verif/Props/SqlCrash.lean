import Verif.Proofs.WholeRun
import Verif.Props.SqlText

/-!
C32 from the texts, with the parser of sqldef itself: it neither panics nor exits on a text without trouble, what it builds
is complete, and so the whole run returns.
-/
namespace Sqldef
open Spec Yy

/-- **C32**: a text without trouble is parsed without a panic, and the statement that comes out is complete: whatever the
statement, every part that the later stages take for granted is there and can be written. -/
theorem C32_plain_text_is_parsed_partial (mode : Mode) (text : Str) (h : PlainText mode text) :
    ¬ Crashes (Sql.parseStrictDDLWithMode mode text) ∧
    ∀ a, Sql.parseStrictDDLWithMode mode text = .ok (.ddl a) → WholeStatement mode a := by
  rcases C54_result_of_a_text mode text _ (Nat.le_refl _) with ⟨v, k, hr, he⟩ | ⟨k, msg, hr, he⟩ | ⟨e, hr, he⟩
  · rcases Sql.parse_quiet h _ hr with ⟨v', k', ho, hw⟩ | ⟨k', ho⟩
    · cases ho
      rw [he]
      refine ⟨returns_ok _, fun a ha => hw a ?_⟩
      generalize k.parseTree = s at ha
      cases s with
      | ddl d => cases ha; rfl
      | _ => cases ha
    · cases ho
  · rw [he]
    exact ⟨returns_error (by simp) (by simp), (fun a ha => by cases ha)⟩
  · rcases Sql.parse_quiet h _ hr with ⟨v', k', ho, hw⟩ | ⟨k', ho⟩ <;> cases ho

/-- **C32**, from the texts of the two schemas to the text of the statements: if no statement of either schema makes
trouble and no table that is to be dropped is created twice, the run ends with statements or with an error. However floats
are printed (`fmtFloat`). -/
theorem C32_plain_schemas_return_partial (fmtFloat : Str → Str) (mode : Mode) (desiredText currentText : Str)
    (h : ∀ text ∈ statementTexts desiredText ++ statementTexts currentText, PlainText mode text)
    (ho : ∀ desired current, parseDDLs (Sql.env fmtFloat) mode desiredText = .ok desired →
      parseDDLs (Sql.env fmtFloat) mode currentText = .ok current → ObsoleteOnce desired current) :
    ¬ Crashes (generateIdempotentDDLs (Sql.env fmtFloat) mode desiredText currentText) :=
  returns_run (fun text ht => C32_plain_text_is_parsed_partial mode text (h text ht)) ho

/-- The outcome of a run in one word: 1 for statements, 4 for a panic, 6 for the end of the process, 3 for an error. -/
def exRunVerdict : Except Err (List Str) → Nat
  | .ok _ => 1
  | .error .panic => 4
  | .error .fatal => 6
  | .error _ => 3

theorem exRunVerdict_crash {r : Except Err (List Str)} (h : exRunVerdict r = 4) : Crashes r := by
  unfold exRunVerdict at h
  split at h
  · cases h
  · exact .inl rfl
  · cases h
  · cases h

theorem exVerdict_crash {r : Except Err SqlStatement} (h : exVerdict r = 4) : Crashes r := by
  unfold exVerdict at h
  split at h
  · cases h
  · cases h
  · cases h
  · exact .inl rfl
  · cases h

/-- C32 does not hold for the code: `NOT FOR REPLICATION` on a column without `IDENTITY` panics in the parser. -/
theorem C32_replication_without_identity :
    Crashes (Sql.parseStrictDDLWithMode .mssql (txt "CREATE TABLE t (id int NOT FOR REPLICATION)")) :=
  exVerdict_crash (by decide +kernel)

/-- C32 does not hold for the code: an empty executable comment panics in the tokenizer. -/
theorem C32_empty_executable_comment :
    Crashes (Sql.parseStrictDDLWithMode .mysql (txt "CREATE TABLE t (id int) /*!*/")) :=
  exVerdict_crash (by decide +kernel)

/-- C32 does not hold for the code: a `::` without operand in a CHECK panics. -/
theorem C32_cast_of_nothing :
    Crashes (generateIdempotentDDLs (Sql.env id) .postgres (txt "CREATE TABLE t (id int CHECK (id > ::text))") []) :=
  exRunVerdict_crash (by decide +kernel)

/-- C32 does not hold for the code: adding a MySQL index with `USING BTREE` to a table that exists panics. -/
theorem C32_using_btree :
    Crashes (generateIdempotentDDLs (Sql.env id) .mysql (txt "CREATE TABLE t (id int, KEY k (id) USING BTREE);")
      (txt "CREATE TABLE t (id int);")) :=
  exRunVerdict_crash (by decide +kernel)

/-- A PostgreSQL schema with a check that casts, an index with a condition and a view. -/
def exPlainDesired : Str := lit
  ("CREATE TABLE users (id bigint NOT NULL PRIMARY KEY, name text DEFAULT 'a', age int CHECK (age > '1'::int));\n" ++
   "CREATE INDEX i ON users (age) WHERE age > 0;")

def exPlainCurrent : Str := txt "CREATE TABLE public.users (id bigint NOT NULL, name text);"

/-- The hypotheses are met by it, and the run ends with statements. -/
example : ¬ Crashes (generateIdempotentDDLs (Sql.env id) .postgres exPlainDesired exPlainCurrent) := by
  refine C32_plain_schemas_return_partial id .postgres _ _ ?_ ?_
  · have : (statementTexts exPlainDesired ++ statementTexts exPlainCurrent).all (Sql.plainText .postgres) = true := by
      decide +kernel
    exact fun text ht => Sql.plainText_holds (List.all_eq_true.mp this text ht)
  · intro desired current hd hc
    have h : (match parseDDLs (Sql.env id) .postgres exPlainDesired, parseDDLs (Sql.env id) .postgres exPlainCurrent with
      | .ok d, .ok c => decide (ObsoleteOnce d c)
      | _, _ => false) = true := by decide +kernel
    rw [hd, hc] at h
    exact of_decide_eq_true h

example : exRunVerdict (generateIdempotentDDLs (Sql.env id) .postgres exPlainDesired exPlainCurrent) = 1 := by
  decide +kernel

end Sqldef
