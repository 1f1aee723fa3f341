import Verif.Proofs.SqlShrinks
import Verif.Props.Parsing

/-!
The parser on texts: the tokenizer, the generated parser and the actions of the grammar together.
-/
namespace Sqldef
open Spec Yy

/-! ### C54 -/

/-- Whatever the text, the parser returns after at most 23 steps for every character and 30 more: it accepts, it
refuses, or a panic of the tokenizer or of an action has stopped it. -/
theorem C54_every_text_is_parsed_to_an_end (mode : Mode) (sql : Str) :
    ∃ o, (∀ n, 23 * sql.length + 30 ≤ n → run Sql.host n (start {} (Sql.newTokenizer sql mode)) = some o) ∧
      ((∃ v k, o = .accepted v k) ∨ (∃ k, o = .rejected k) ∨ (∃ e, o = .stopped e)) := by
  obtain ⟨o, h1, h2⟩ := C54_parser_returns Sql.host _ Sql.host_shrinks {} (Sql.newTokenizer sql mode)
  refine ⟨o, fun n hn => h1 n ?_, h2⟩
  rw [Sql.newTokenizer_size]
  omega

/-- What parsing a text gives is what any long enough run of the generated parser gives: the statement if it accepts, a
syntax error that quotes the text if it refuses, and otherwise the error that stopped it. -/
theorem C54_result_of_a_text (mode : Mode) (sql : Str) (n : Nat) (hn : 23 * sql.length + 30 ≤ n) :
    (∃ v k, run Sql.host n (start {} (Sql.newTokenizer sql mode)) = some (.accepted v k) ∧
      Sql.parseStrictDDLWithMode mode sql = .ok (Sql.statement k.parseTree)) ∨
    (∃ k msg, run Sql.host n (start {} (Sql.newTokenizer sql mode)) = some (.rejected k) ∧
      Sql.parseStrictDDLWithMode mode sql =
        .error (.parse (lit "found syntax error when parsing DDL \"" ++ sql ++ lit "\": " ++ msg))) ∨
    (∃ e, run Sql.host n (start {} (Sql.newTokenizer sql mode)) = some (.stopped e) ∧
      Sql.parseStrictDDLWithMode mode sql = .error e) := by
  obtain ⟨o, h1, h2⟩ := C54_every_text_is_parsed_to_an_end mode sql
  have hp := h1 (23 * (Sql.newTokenizer sql mode).scanner.size + 7) (by rw [Sql.newTokenizer_size]; omega)
  rw [h1 n hn]
  unfold Sql.parseStrictDDLWithMode
  simp only [hp]
  rcases h2 with ⟨v, k, rfl⟩ | ⟨k, rfl⟩ | ⟨e, rfl⟩
  · exact .inl ⟨v, k, rfl, rfl⟩
  · exact .inr (.inl ⟨k, _, rfl, rfl⟩)
  · exact .inr (.inr ⟨e, rfl, rfl⟩)

/-- The outcome of a parse in one word. -/
def exVerdict : Except Err SqlStatement → Nat
  | .ok (.ddl _) => 1
  | .ok .other => 2
  | .error (.parse _) => 3
  | .error .panic => 4
  | .error _ => 5

/-- The four ways in which parsing a text can end: a definition, another statement, a syntax error, and a panic. -/
example :
    (["CREATE TABLE t (id int NOT NULL)", "SELECT 1 FROM dual", "CREATE TABLE t (id int",
      "CREATE TABLE t (id int NOT FOR REPLICATION)"].map fun s =>
        exVerdict (Sql.parseStrictDDLWithMode .mysql (lit s))) = [1, 2, 3, 4] := by decide +kernel

end Sqldef
