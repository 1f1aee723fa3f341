import Verif.Model.Lexer

/-!
The texts on which the parser of sqldef panics or builds an incomplete tree, told by their tokens.
-/
namespace Sqldef.Spec

/-- After such a token an operand has to come: an opening bracket, a comma, an operator, a word such as WHERE or AND; a
comment is counted among them. -/
def AsksOperand : TokenType → Prop
  | .char c => c ∈ ['(', ',', '=', '<', '>', '!', '|', '&', '+', '-', '*', '/', '%', '^', '~']
  | .code w => w ∈ [lit "SELECT", lit "STREAM", lit "INSERT", lit "UPDATE", lit "DELETE", lit "FROM", lit "WHERE",
      lit "HAVING", lit "BY", lit "LIMIT", lit "OFFSET", lit "FOR", lit "DISTINCT", lit "SET", lit "SQL_NO_CACHE",
      lit "SQL_CACHE", lit "STRAIGHT_JOIN", lit "ON", lit "USING", lit "OR", lit "AND", lit "NOT", lit "BETWEEN",
      lit "CASE", lit "WHEN", lit "THEN", lit "ELSE", lit "LE", lit "GE", lit "NE", lit "NULL_SAFE_EQUAL", lit "LIKE",
      lit "REGEXP", lit "SHIFT_LEFT", lit "SHIFT_RIGHT", lit "DIV", lit "MOD", lit "BINARY", lit "UNDERSCORE_BINARY",
      lit "INTERVAL", lit "ESCAPE", lit "REPLACE", lit "CHECK"]
  | .comment => True
  | _ => False

instance (t : TokenType) : Decidable (AsksOperand t) := by
  unfold AsksOperand
  split <;> infer_instance

/-- What makes no trouble: there is no `REPLICATION`; in MySQL and SQL Server there is no `USING`; and the operator `::`
comes neither first nor after a token that asks for an operand (so it has something to cast). -/
structure TroubleFree (mode : Mode) (ts : List Token) : Prop where
  replication : ∀ t ∈ ts, t.type ≠ .code (lit "REPLICATION")
  usings : mode = .mysql ∨ mode = .mssql → ∀ t ∈ ts, t.type ≠ .code (lit "USING")
  casts : ∀ before t after, ts = before ++ t :: after → t.type = .code (lit "TYPECAST") →
    ∃ p, before.getLast? = some p ∧ ¬ AsksOperand p.type

/-- A text that the scanner reads to its end, and whose tokens make no trouble. -/
def PlainText (mode : Mode) (text : Str) : Prop :=
  ∃ ts, scanAll (newScanner mode text) = .ok ts ∧ TroubleFree mode ts

end Sqldef.Spec
