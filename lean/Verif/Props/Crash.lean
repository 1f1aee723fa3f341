import Verif.Proofs.Crash
import Verif.Proofs.Wellformed
import Verif.Props.Objects
/-
C32: the generator returns statements or an error, it neither panics nor exits. The full statement is

  `∀ mode desired current, ¬ Crashes (diff mode desired current)`

and it is false for the code: see `C32_index_option_without_value` and `C32_obsolete_table_twice`.
-/
namespace Sqldef
open Spec

/-- **C32**, for complete definitions: every DEFAULT has a value, every index has a column, in MySQL and SQL Server
every index option of a CREATE TABLE has a value, and no table to be dropped is created twice. -/
theorem C32_generation_returns_partial (mode : Mode) (desired current : List DDL)
    (hd : ∀ d ∈ desired, CompleteDesired mode d) (hc : ∀ d ∈ current, CompleteCurrent d)
    (ho : ObsoleteOnce desired current) : ¬ Crashes (diff mode desired current) :=
  returns_diff hd hc ho

/-- **C32**, from the texts of the two schemas, for a grammar that returns and whose syntax trees are complete. -/
theorem C32_whole_run_returns_partial (env : Env) (mode : Mode) (desiredText currentText : Str)
    (hp : ∀ text, ¬ Crashes (env.parse mode text))
    (hw : ∀ text a, env.parse mode text = .ok (.ddl a) → WholeStatement mode a)
    (ho : ∀ desired current, parseDDLs env mode desiredText = .ok desired → parseDDLs env mode currentText = .ok current →
      ObsoleteOnce desired current) : ¬ Crashes (generateIdempotentDDLs env mode desiredText currentText) := by
  refine returns_bind (returns_parsePieces hp hw _) fun desired hd => returns_bind (returns_parsePieces hp hw _) fun current hc =>
    returns_bind (returns_diff (fun d hd' => ?_) (fun d hc' => ?_) (ho desired current hd hc)) fun _ _ => returns_pure _
  · obtain ⟨text, a, ha, hs⟩ := parsePieces_says hd d hd'
    exact completeDesired_of_says hs (hw text a ha)
  · obtain ⟨text, a, ha, hs⟩ := parsePieces_says hc d hc'
    exact completeCurrent_of_says hs (hw text a ha)

/-- **C32**: for complete definitions the only cause of a crash is a table that is to be dropped and that the current
schema creates twice. -/
theorem C32_exit_means_duplicate (mode : Mode) (desired current : List DDL)
    (hd : ∀ d ∈ desired, CompleteDesired mode d) (hc : ∀ d ∈ current, CompleteCurrent d)
    (h : Crashes (diff mode desired current)) :
    ∃ n ∉ createdNames desired, 2 ≤ (createdNames current).count n := by
  have hn : ¬ ObsoleteOnce desired current := fun ho => returns_diff hd hc ho h
  unfold ObsoleteOnce at hn
  rw [List.nodup_iff_count] at hn
  simp only [Classical.not_forall, Nat.not_le] at hn
  obtain ⟨n, hn⟩ := hn
  have hm : n ∈ (createdNames current).filter (· ∉ createdNames desired) :=
    List.count_pos_iff.1 (by omega)
  refine ⟨n, by simpa using (List.mem_filter.1 hm).2, ?_⟩
  rw [List.count_filter (by simpa using (List.mem_filter.1 hm).2)] at hn
  omega

/-- An index `USING BTREE` as MySQL dumps and accepts it: the grammar gives the option no value. -/
def exUsingIndex : Index :=
  { name := lit "i", indexType := lit "key", columns := [{ column := lit "id" }],
    options := [{ optionName := lit "using", value := none }] }

/-- C32 does not hold for the code: adding a MySQL index with `USING BTREE` to an existing table panics. -/
theorem C32_index_option_without_value :
    Crashes (diff .mysql [exCreate { exUsers with indexes := [exUsingIndex] }] [exCreate exUsers]) :=
  .inl (by decide +kernel)

/-- C32 does not hold for the code: two tables of the same name in two schemas (SQL Server, MySQL) that are both
to be dropped end the process. -/
theorem C32_obsolete_table_twice : Crashes (diff .mssql [] [exCreate exUsers, exCreate exUsers]) :=
  .inr (by decide +kernel)

/-- A table of SQL Server with an identity, a default and an index with options. -/
def exWholeTable : Table :=
  { name := lit "dbo.t",
    columns := [{ name := lit "id", position := 0, typeName := lit "int", identity := some ⟨[], false⟩,
                  sequence := some { startWith := some 1, incrementBy := some 1 } },
                { name := lit "a", position := 1, typeName := lit "int",
                  defaultDef := some { value := some { valueType := .int, raw := lit "3", intVal := 3 } } }],
    indexes := [{ name := lit "k", indexType := lit "index", columns := [{ column := lit "a" }],
                  options := [{ optionName := lit "fillfactor", value := some { valueType := .int, raw := lit "9" } }] }] }

/-- The hypotheses are met by a schema with an identity column, a default and an index option, against a current
schema with an obsolete table. -/
example : ¬ Crashes (diff .mssql [exCreate exWholeTable, .createIndex [] (lit "dbo.t") exUsingIndex] [exCreate exUsers]) := by
  apply C32_generation_returns_partial
  · intro d hd
    simp only [List.mem_cons, List.not_mem_nil, or_false] at hd
    rcases hd with rfl | rfl
    · refine ⟨by simp, ?_, ?_, ?_⟩
      · intro c hc
        simp only [exWholeTable, List.mem_cons, List.not_mem_nil, or_false] at hc
        rcases hc with rfl | rfl
        · exact ⟨by simp, fun _ s hs => ⟨_, rfl, .inr (by simp at hs; simp [← hs])⟩⟩
        · exact ⟨by simp, fun _ s hs => by simp at hs⟩
      · simp [exWholeTable, HasColumns]
      · simp [exWholeTable, HasOptionValues]
    · simp [CompleteDesired, HasColumns, exUsingIndex]
  · intro d hd
    simp only [List.mem_cons, List.not_mem_nil, or_false] at hd
    subst hd
    simp [exCreate, exUsers, CompleteCurrent]
  · decide

/-- **C32**: a statement is generated only if all its parts could be written; there is no statement with a missing
part. `Stmt.Written` lists the parts that the code computes with functions that can fail. -/
theorem C32_statements_are_complete (mode : Mode) (desired current : List DDL) (out : List Stmt)
    (h : diff mode desired current = .ok out) : ∀ s ∈ out, s.Written mode :=
  diff_wellformed h

end Sqldef
