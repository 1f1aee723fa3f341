import Verif.Model.YyActions
import Verif.Model.TokenCodes
import Verif.Model.Yy
import Verif.Model.Lexer
import Verif.Model.Parser
/-
Model of `ParseStrictDDLWithMode`, /repo/sqlparser/ast.go:67-75: the tokenizer, the generated parser and the actions
of the grammar put together.
-/
namespace Sqldef.Sql
open Yy

/-- The code of a token, the first result of `Scan` (/repo/sqlparser/token.go:511-680) and the constants of
/repo/sqlparser/parser.go:110-401. -/
def tokenCode : TokenType → Nat
  | .eof => 0
  | .char c => c.toNat
  | .lexError => codeOfName (lit "LEX_ERROR")
  | .id => codeOfName (lit "ID")
  | .string => codeOfName (lit "STRING")
  | .integral => codeOfName (lit "INTEGRAL")
  | .float => codeOfName (lit "FLOAT")
  | .hexNum => codeOfName (lit "HEXNUM")
  | .hex => codeOfName (lit "HEX")
  | .bitLiteral => codeOfName (lit "BIT_LITERAL")
  | .valueArg => codeOfName (lit "VALUE_ARG")
  | .listArg => codeOfName (lit "LIST_ARG")
  | .comment => codeOfName (lit "COMMENT")
  | .code name => codeOfName name

/-- `Tokenizer`, /repo/sqlparser/token.go:43-62. The text and the place in it, `mode`, `multi`, `ForceEOF`,
`posVarIndex` and `specialComment` are in `scanner`; `partialDDL` is left out, since
`ParseStrictDDLWithMode` does not read it. -/
structure Tokenizer where
  sql : Str
  scanner : Scanner
  allowComments : Bool := false
  nesting : Nat := 0
  lastToken : Str := []
  lastError : Option Str := none
  parseTree : Go.Statement := .other

/-- `NewStringTokenizer`, /repo/sqlparser/token.go:66-73. -/
def newTokenizer (sql : Str) (mode : Mode) : Tokenizer := { sql, scanner := newScanner mode sql }

/-- `Lex`, /repo/sqlparser/token.go:480-491. -/
def Tokenizer.next (k : Tokenizer) : Except Err (Int × SymType × Tokenizer) :=
  match lex k.allowComments k.scanner with
  | .error e => .error e
  | .ok (t, st) => .ok (tokenCode t.type, { bytes := t.val }, { k with scanner := st, lastToken := t.val })

/-- The message of `Error`, /repo/sqlparser/token.go:494-501; `lastToken` is nil if it is empty. That `Error` skips the
rest of the statement is left out: the parser returns after it. -/
def Tokenizer.message (k : Tokenizer) (err : Str) : Str :=
  err ++ lit " at position " ++ showInt (k.scanner.base.position k.sql) ++
    (if k.lastToken = [] then [] else lit " near '" ++ k.lastToken ++ lit "'")

/-- `Error`, /repo/sqlparser/token.go:494-507, followed by `return 1`. -/
def Tokenizer.fail (k : Tokenizer) (err : Str) : Tokenizer := { k with lastError := some (k.message err) }

/-- `forceEOF`, /repo/sqlparser/parser.y:49-51. -/
def Tokenizer.force (k : Tokenizer) : Tokenizer := { k with scanner := { k.scanner with forceEOF := true } }

/-- An integer without characters: `num.Val[0]` panics, /repo/sqlparser/parser.y:3015. -/
def isEmptyInt (e : Go.ExprNode) : Bool :=
  match e.kind with
  | .val ⟨.intVal, []⟩ => true
  | _ => false

/-- What the actions of the grammar do to the tokenizer (/repo/sqlparser/parser.y:18-51; the actions are at
/repo/sqlparser/parser.go:3408-7848) and how they fail: `.inl` is a panic, `.inr` a `return 1`. `d n` is `$n`. -/
def effect (r : Nat) (d : Nat → SymType) (k : Tokenizer) : Except (Err ⊕ Tokenizer) Tokenizer :=
  if r = 1 then .ok { k with parseTree := (d 1).statement }
  else if r = 131 then if (d 5).expr.isNone then .error (.inl .panic) else .ok k
  else if r = 132 then if (d 7).expr.isNone then .error (.inl .panic) else .ok k
  else if r = 139 then if (d 1).columnType.identity.isNone then .error (.inl .panic) else .ok k
  else if r = 430 then .ok { k with allowComments := true }
  else if r = 431 then .ok { k with allowComments := false }
  else if r = 577 then
    if (d 2).expr.any isEmptyInt then .error (.inl .panic) else .ok k
  else if r = 667 then
    if toLower (d 1).colIdent = lit "value" then .ok k
    else .error (.inr (k.fail (lit "expecting value after next")))
  else if r = 993 then
    if k.nesting + 1 = 200 then
      .error (.inr (({ k with nesting := k.nesting + 1 } : Tokenizer).fail (lit "max nesting level reached")))
    else .ok { k with nesting := k.nesting + 1 }
  else if r = 994 then .ok { k with nesting := k.nesting - 1 }
  else if 995 ≤ r then .ok k.force
  else .ok k

/-- The actions of the grammar, /repo/sqlparser/parser.go:3408-7848: what they do and the values they compute. -/
def act (r : Nat) (vals : List SymType) (k : Tokenizer) : Except (Err ⊕ Tokenizer) (SymType × Tokenizer) :=
  match effect r (fun n => vals.getD (n - 1) {}) k with
  | .ok k => .ok (value r (fun n => vals.getD (n - 1) {}), k)
  | .error e => .error e

/-- The tokenizer and the actions, as the generated parser uses them. -/
def host : Host SymType Tokenizer Err where
  lex := Tokenizer.next
  act := act

/-- The statement that the conversion of /repo/schema/parser.go:281-420 sees. -/
def statement : Go.Statement → SqlStatement
  | .ddl d => .ddl d
  | _ => .other

/-- `ParseStrictDDLWithMode`, /repo/sqlparser/ast.go:67-75. The generated parser (`yyParse`) runs for at most
`23 * size + 7` steps, where `size` counts the characters of the text; that it is done by then is part of
`C54_parser_returns`. -/
def parseStrictDDLWithMode (mode : Mode) (sql : Str) : Except Err SqlStatement :=
  let k := newTokenizer sql mode
  match run host (23 * k.scanner.size + 7) (start {} k) with
  | some (.accepted _ k) => .ok (statement k.parseTree)
  | some (.rejected k) =>
    .error (.parse (lit "found syntax error when parsing DDL \"" ++ sql ++ lit "\": " ++
      k.lastError.getD (k.message (lit "syntax error"))))
  | some (.stopped e) => .error e
  | _ => .error .panic

/-- The parser as the rest of the program uses it; how a float is printed (`strconv.ParseFloat`,
/repo/schema/parser.go:50-57) stays open. -/
def env (fmtFloat : Str → Str) : Env := { parse := parseStrictDDLWithMode, fmtFloat }

end Sqldef.Sql
