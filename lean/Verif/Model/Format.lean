import Verif.Model.Lexer
import Verif.Model.SqlAst
/-
Model of the functions that print names and literals back as SQL: `/repo/sqlparser/ast.go` (`Backtick`, `formatID`,
`SQLVal.Format`) and `/repo/sqlparser/dependency/sqltypes/value.go` (`encodeBytesSQL`).
-/
namespace Sqldef

/-- `SQLEncodeMap`, /repo/sqlparser/dependency/sqltypes/value.go:347-379: `none` is `DontEscape`. -/
def sqlEncode (c : Char) : Option Char := (encodeRef.find? fun p => p.1 = c).map Prod.snd

/-- The body of the loop of `encodeBytesSQL`, /repo/sqlparser/dependency/sqltypes/value.go:325-330. -/
def encodeChar (c : Char) : Str :=
  match sqlEncode c with
  | none => [c]
  | some e => ['\\', e]

/-- `encodeBytesSQL`, /repo/sqlparser/dependency/sqltypes/value.go:321-334. -/
def encodeBytesSQL (val : Str) : Str := '\'' :: val.flatMap encodeChar ++ ['\'']

/-- `Backtick`, /repo/sqlparser/ast.go:3572-3583. -/
def backtick (name : Str) : Str :=
  '`' :: (name.flatMap fun c => if c = '`' then [c, '`'] else [c]) ++ ['`']

/-- The conversion `uint16(c)` of a rune. A value that is not a character (a surrogate) is given as NUL: neither is
a letter, a digit or a carat. -/
def uint16 (c : Char) : Char := Char.ofNat (c.toNat % 65536)

/-- The loop of `formatID`, /repo/sqlparser/ast.go:3591-3597: whether some character needs quotes. `first` says that
the character at the head is the first one (`i == 0`). -/
def needsQuotes (sysVar : Bool) : (first : Bool) → Str → Bool
  | _, [] => false
  | first, c :: s =>
    (!isLetter (uint16 c) && (!sysVar || !isCarat (uint16 c)) && (first || !isDigit (uint16 c))) ||
      needsQuotes sysVar false s

/-- `formatID`, /repo/sqlparser/ast.go:3585-3613; `lowered` is the name in lower case at both calls
(`ColIdent.Format` and `TableIdent.Format`, /repo/sqlparser/ast.go:3449-3452 and 3528-3530). Simplification:
`strings.ToLower` is `toLower`, which changes ASCII letters only; the keywords are ASCII and a name with other
letters is quoted before it is looked up, except for characters beyond U+FFFF that `uint16` takes for letters. -/
def formatID (name : Str) : Str :=
  if needsQuotes ((lit "@@").isPrefixOf name) true name || (keywordCode (toLower name)).isSome then backtick name
  else name

end Sqldef
