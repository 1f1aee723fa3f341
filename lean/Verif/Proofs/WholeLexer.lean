import Verif.Proofs.TokenMade
import Verif.Proofs.WholeTable
import Verif.Spec.Trouble

/-! The tokens of a text without trouble, as the parser sees them. -/
namespace Sqldef.Sql
open Spec Yy

/-- The token that the parser sees. -/
def seen (t : TokenType) : Nat := (tokenOf (tokenCode t)).toNat

/-- What is checked of a word: its class, the cast and the openers. -/
def wordOk (key : Bool) (n : Str) : Bool :=
  (match classOf (seen (.code n) + 2000) with
    | .any => true
    | .rendered => key
    | .word => key
    | .replication => decide (n = lit "REPLICATION")
    | .using => decide (n = lit "USING")
    | _ => false) &&
  (!(Nat.beq (seen (.code n)) 311) || decide (n = lit "TYPECAST")) &&
  (!(isOpener (seen (.code n))) || decide (AsksOperand (.code n)))

theorem keywords_ok : (keywordWords.map (·.2)).all (wordOk true) = true := by decide +kernel
theorem codes_ok : madeCodes.all (wordOk false) = true := by decide +kernel

def charOk (c : Char) : Bool :=
  decide (classOf (seen (.char c) + 2000) = .any) && !(Nat.beq (seen (.char c)) 311) &&
  (!(isOpener (seen (.char c))) || decide (AsksOperand (.char c)))

theorem chars_ok : madeChars.all charOk = true := by decide +kernel

def plainOk (t : TokenType) : Bool :=
  decide (classOf (seen t + 2000) = .any) && !(Nat.beq (seen t) 311) && (!(isOpener (seen t)) || decide (AsksOperand t))

theorem plain_ok : [.eof, .lexError, .id, .string, .float, .hexNum, .hex, .bitLiteral, .valueArg, .listArg,
    TokenType.comment].all plainOk = true := by decide +kernel

theorem integral_ok : classOf (seen .integral + 2000) = .integral ∧ seen .integral ≠ 311 ∧
    isOpener (seen .integral) = false := by decide +kernel

theorem seen_eof : seen .eof = 1 := by decide +kernel

end Sqldef.Sql
