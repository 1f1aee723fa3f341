import Verif.Model.Generator
import Verif.Model.Keywords
/-
Model of the tokenizer `/repo/sqlparser/token.go`.

The state of a tokenizer is `lastChar` (the character under the cursor) and the part of the buffer
after it. The model keeps both in one list `input`: its head is `lastChar`, and it is empty when
`lastChar` is `eofChar`. `next` (/repo/sqlparser/token.go:975-995, for a tokenizer made from a string,
so without a stream to refill from) is then the tail of the list. A new tokenizer has `lastChar = 0`: its
list is the text with a NUL in front. `Position` grows by one with every call of `next` that changes
`lastChar`: it is the length of the first list minus the length of the present one (`Cursor.position`).

Text is a list of characters, not of bytes. The tokenizer compares the bytes it reads with ASCII
characters only, so that the bytes of a character outside ASCII are always treated alike; the exception is
the value of the `LEX_ERROR` token for such a character (its first byte, here the character).
-/
namespace Sqldef

/-- The token codes: 0 at the end, a character that is its own code, the codes of the lexical classes and
those that are only named by their constant (keywords and operators). -/
inductive TokenType
  | eof
  | char (c : Char)
  | lexError
  | id
  | string
  | integral
  | float
  | hexNum
  | hex
  | bitLiteral
  | valueArg
  | listArg
  | comment
  | code (name : Str)
  deriving DecidableEq, Repr

/-- A token and its value; the value `nil` is the empty list. -/
structure Token where
  type : TokenType
  val : Str := []
  deriving DecidableEq, Repr

/-- `isLetter`, /repo/sqlparser/token.go:1007-1009. -/
def isLetter (c : Char) : Bool :=
  ('a' ≤ c && c ≤ 'z') || ('A' ≤ c && c ≤ 'Z') || c = '_' || c = '@'

/-- `isCarat`, /repo/sqlparser/token.go:1011-1013. -/
def isCarat (c : Char) : Bool := c = '.' || c = '\'' || c = '"' || c = '`'

/-- `isDigit`, /repo/sqlparser/token.go:1027-1029. -/
def isDigit (c : Char) : Bool := '0' ≤ c && c ≤ '9'

/-- `digitVal`, /repo/sqlparser/token.go:1015-1025. -/
def digitVal (c : Char) : Nat :=
  if '0' ≤ c ∧ c ≤ '9' then c.toNat - '0'.toNat
  else if 'a' ≤ c ∧ c ≤ 'f' then c.toNat - 'a'.toNat + 10
  else if 'A' ≤ c ∧ c ≤ 'F' then c.toNat - 'A'.toNat + 10
  else 16

/-- The characters skipped by `skipBlank`. -/
def isBlank (c : Char) : Bool := c = ' ' || c = '\n' || c = '\r' || c = '\t'

/-- `skipBlank`, /repo/sqlparser/token.go:691-697. -/
def skipBlank (s : Str) : Str := s.dropWhile isBlank

/-- `skipStatement`, /repo/sqlparser/token.go:683-689. -/
def skipStatement (s : Str) : Str := s.dropWhile (· ≠ ';')

/-- `unicode.IsDigit`: the ASCII digits and, in blocks of ten starting at the listed code points, the other
decimal digits of Unicode 13 (the mathematical digits are five blocks). -/
def isUnicodeDigit (c : Char) : Bool :=
  [0x30, 0x660, 0x6f0, 0x7c0, 0x966, 0x9e6, 0xa66, 0xae6, 0xb66, 0xbe6, 0xc66, 0xce6, 0xd66, 0xde6, 0xe50,
   0xed0, 0xf20, 0x1040, 0x1090, 0x17e0, 0x1810, 0x1946, 0x19d0, 0x1a80, 0x1a90, 0x1b50, 0x1bb0, 0x1c40,
   0x1c50, 0xa620, 0xa8d0, 0xa900, 0xa9d0, 0xa9f0, 0xaa50, 0xabf0, 0xff10, 0x104a0, 0x10d30, 0x11066,
   0x110f0, 0x11136, 0x111d0, 0x112f0, 0x11450, 0x114d0, 0x11650, 0x116c0, 0x11730, 0x118e0, 0x11950,
   0x11c50, 0x11d50, 0x11da0, 0x16a60, 0x16b50, 0x1d7ce, 0x1d7d8, 0x1d7e2, 0x1d7ec, 0x1d7f6, 0x1e140,
   0x1e2f0, 0x1e950, 0x1fbf0].any fun z => z ≤ c.toNat && c.toNat < z + 10

/-- `strings.IndexFunc` in `ExtractMysqlComment`, /repo/sqlparser/comments.go:165-169: the number of digits
at the start, at most five; `none` (the index -1) if the text ends before another character is seen. `n` is
the number of further digits allowed. -/
def versionEnd : Nat → Str → Option Nat
  | _, [] => none
  | 0, _ :: _ => some 0
  | n + 1, c :: s => if isUnicodeDigit c then (versionEnd n s).map (· + 1) else some 0

/-- `ExtractMysqlComment`, /repo/sqlparser/comments.go:162-174, applied to the text between the delimiters:
the SQL without the version. The index -1 makes the slice expression panic. -/
def extractMysqlComment (body : Str) : Except Err Str :=
  match versionEnd 5 body with
  | none => .error .panic
  | some i => .ok (trimSpace (body.drop i))

/-- `scanIdentifier`, /repo/sqlparser/token.go:699-716. -/
def scanIdentifier (first : Char) (sysVar : Bool) (s : Str) : Token × Str :=
  let more := fun c => isLetter c || isDigit c || (sysVar && isCarat c)
  let word := first :: s.takeWhile more
  let rest := s.dropWhile more
  let lowered := toLower word
  match keywordCode lowered with
  | some code => (⟨.code code, lowered⟩, rest)
  | none => if lowered = lit "dual" then (⟨.id, lowered⟩, rest) else (⟨.id, word⟩, rest)

/-- `scanMantissa`, /repo/sqlparser/token.go:797-801: the digits read and what follows. `consumeNext` panics
at the end of the text; here it is never called there. -/
def scanMantissa (base : Nat) (s : Str) : Str × Str :=
  (s.takeWhile fun c => digitVal c < base, s.dropWhile fun c => digitVal c < base)

/-- `scanHex`, /repo/sqlparser/token.go:718-729. -/
def scanHex (s : Str) : Token × Str :=
  let (digits, rest) := scanMantissa 16 s
  match rest with
  | '\'' :: rest => if digits.length % 2 ≠ 0 then (⟨.lexError, digits⟩, rest) else (⟨.hex, digits⟩, rest)
  | rest => (⟨.lexError, digits⟩, rest)

/-- `scanBitLiteral`, /repo/sqlparser/token.go:731-739. -/
def scanBitLiteral (s : Str) : Token × Str :=
  let (digits, rest) := scanMantissa 2 s
  match rest with
  | '\'' :: rest => (⟨.bitLiteral, digits⟩, rest)
  | rest => (⟨.lexError, digits⟩, rest)

/-- The loop of `scanLiteralIdentifier`, /repo/sqlparser/token.go:741-765: the text read and what follows,
`none` for the latter at a premature end. -/
def literalIdentifierLoop (sep : Char) : (seen : Bool) → Str → Str × Option Str
  | true, [] => ([], some [])
  | true, c :: s =>
    if c ≠ sep then ([], some (c :: s))
    else let (buf, r) := literalIdentifierLoop sep false s; (sep :: buf, r)
  | false, [] => ([], none)
  | false, c :: s =>
    if c = sep then literalIdentifierLoop sep true s
    else let (buf, r) := literalIdentifierLoop sep false s; (c :: buf, r)

/-- `scanLiteralIdentifier`, /repo/sqlparser/token.go:741-770. -/
def scanLiteralIdentifier (sep : Char) (s : Str) : Token × Str :=
  match literalIdentifierLoop sep false s with
  | (buf, none) => (⟨.lexError, buf⟩, [])
  | (buf, some rest) => if buf.length = 0 then (⟨.lexError, buf⟩, rest) else (⟨.id, buf⟩, rest)

/-- The end of `scanBindVar`, /repo/sqlparser/token.go:787-795. -/
def scanBindName (token : TokenType) (buf s : Str) : Token × Str :=
  match s with
  | [] => (⟨.lexError, buf⟩, [])
  | c :: s =>
    if !isLetter c then (⟨.lexError, buf⟩, c :: s)
    else
      let more := fun c => isLetter c || isDigit c || c = '.'
      (⟨token, buf ++ (c :: s).takeWhile more⟩, (c :: s).dropWhile more)

/-- `scanBindVar`, /repo/sqlparser/token.go:772-795; `s` is the text after the colon. -/
def scanBindVar (mode : Mode) (s : Str) : Token × Str :=
  match s with
  | ':' :: s =>
    if mode = .postgres then (⟨.code (lit "TYPECAST"), lit "::"⟩, s) else scanBindName .listArg (lit "::") s
  | s => scanBindName .valueArg (lit ":") s

/-- The end of `scanNumber`, /repo/sqlparser/token.go:842-848. -/
def numberExit (token : TokenType) (buf s : Str) : Token × Str :=
  match s with
  | c :: s => if isLetter c then (⟨.lexError, buf⟩, c :: s) else (⟨token, buf⟩, c :: s)
  | [] => (⟨token, buf⟩, [])

/-- The sign of an exponent, /repo/sqlparser/token.go:836-838. -/
def takeSign (s : Str) : Str × Str :=
  match s with
  | c :: r => if c = '+' || c = '-' then ([c], r) else ([], c :: r)
  | [] => ([], [])

/-- The label `exponent` of `scanNumber`, /repo/sqlparser/token.go:832-848. -/
def numberExponent (token : TokenType) (buf s : Str) : Token × Str :=
  match s with
  | c :: r =>
    if c = 'e' || c = 'E' then
      let (sign, r) := takeSign r
      let (digits, r) := scanMantissa 10 r
      numberExit .float (buf ++ [c] ++ sign ++ digits) r
    else numberExit token buf (c :: r)
  | [] => numberExit token buf []

/-- `scanNumber` from the integer part on, /repo/sqlparser/token.go:822-848. -/
def numberInteger (buf s : Str) : Token × Str :=
  let (digits, r) := scanMantissa 10 s
  match r with
  | '.' :: r =>
    let (frac, r) := scanMantissa 10 r
    numberExponent .float (buf ++ digits ++ ['.'] ++ frac) r
  | r => numberExponent .integral (buf ++ digits) r

/-- `scanNumber(false)`, /repo/sqlparser/token.go:803-849. -/
def scanNumber (s : Str) : Token × Str :=
  match s with
  | '0' :: 'x' :: r => let (digits, r) := scanMantissa 16 r; numberExit .hexNum (lit "0x" ++ digits) r
  | '0' :: 'X' :: r => let (digits, r) := scanMantissa 16 r; numberExit .hexNum (lit "0X" ++ digits) r
  | '0' :: r => numberInteger ['0'] r
  | s => numberInteger [] s

/-- `scanNumber(true)`, /repo/sqlparser/token.go:803-811; `s` is the text after the decimal point. -/
def scanFraction (s : Str) : Token × Str :=
  let (digits, r) := scanMantissa 10 s
  numberExponent .float ('.' :: digits) r

/-- `encodeRef`, /repo/sqlparser/dependency/sqltypes/value.go:354-364. -/
def encodeRef : List (Char × Char) :=
  [('\x00', '0'), ('\'', '\''), ('"', '"'), ('\x08', 'b'), ('\n', 'n'), ('\r', 'r'), ('\t', 't'),
   ('\x1a', 'Z'), ('\\', '\\')]

/-- `SQLDecodeMap`, /repo/sqlparser/dependency/sqltypes/value.go:366-377, with the use made of it at
/repo/sqlparser/token.go:892-896: a character without an entry stands for itself. -/
def sqlDecode (c : Char) : Char := ((encodeRef.find? fun p => p.2 = c).map Prod.fst).getD c

/-- The loop of `scanString`, /repo/sqlparser/token.go:851-908: `buf` is the buffer. The inner loop that
scans ahead to the next interesting character is the call of `takeWhile`. -/
def scanStringLoop (delim : Char) (buf : Str) (s : Str) : Token × Str :=
  match s with
  | [] => (⟨.lexError, buf⟩, [])
  | c :: s =>
    if c ≠ delim ∧ c ≠ '\\' then
      let ahead := s.takeWhile fun c => !(c = delim || c = '\\')
      match h : s.dropWhile fun c => !(c = delim || c = '\\') with
      | [] => (⟨.lexError, buf ++ c :: ahead⟩, [])
      | c' :: s' =>
        have : s'.length < s.length := by
          have := congrArg List.length h
          have h2 := (List.dropWhile_sublist (fun c => !(decide (c = delim) || decide (c = '\\'))) (l := s)).length_le
          simp only [List.length_cons] at this
          omega
        step c' (buf ++ c :: ahead) s'
    else step c buf s
termination_by 2 * s.length
where
  /-- The part of the loop after the delimiter or escape character `c` has been passed,
  /repo/sqlparser/token.go:884-905. -/
  step (c : Char) (buf : Str) (s : Str) : Token × Str :=
    if c = '\\' then
      match s with
      | [] => (⟨.lexError, buf⟩, [])
      | e :: s => scanStringLoop delim (buf ++ [sqlDecode e]) s
    else
      match s with
      | [] => (⟨.string, buf⟩, [])
      | d :: s => if d ≠ delim then (⟨.string, buf⟩, d :: s) else scanStringLoop delim (buf ++ [c]) s
  termination_by 2 * s.length + 1

/-- `scanString`, /repo/sqlparser/token.go:851-908; `s` is the text after the opening delimiter. -/
def scanString (delim : Char) (s : Str) : Token × Str := scanStringLoop delim [] s

/-- `scanCommentType1`, /repo/sqlparser/token.go:910-921. -/
def scanCommentType1 (pre s : Str) : Token × Str :=
  let line := s.takeWhile (· ≠ '\n')
  match s.dropWhile (· ≠ '\n') with
  | [] => (⟨.comment, pre ++ line⟩, [])
  | c :: rest => (⟨.comment, pre ++ line ++ [c]⟩, rest)

/-- The loop of `scanCommentType2` and of `scanMySQLSpecificComment`, /repo/sqlparser/token.go:926-938 and
947-959: the text up to and without the first `*/` and what follows it; `none` if there is none. -/
def commentLoop : Str → Option (Str × Str)
  | [] => none
  | c :: s =>
    if c = '*' then
      match s with
      | '/' :: rest => some ([], rest)
      | s => (commentLoop s).map fun (body, rest) => (c :: body, rest)
    else (commentLoop s).map fun (body, rest) => (c :: body, rest)

/-- `scanCommentType2`, /repo/sqlparser/token.go:923-941. -/
def scanCommentType2 (s : Str) : Token × Str :=
  match commentLoop s with
  | none => (⟨.lexError, lit "/*" ++ s⟩, [])
  | some (body, rest) => (⟨.comment, lit "/*" ++ body ++ lit "*/"⟩, rest)

/-- One tokenizer: its text from the cursor on and the number of `?` seen. -/
structure Cursor where
  input : Str
  posVar : Nat := 0
  deriving DecidableEq, Repr

/-- What one tokenizer does before it delegates: a token, or the text of a MySQL-specific comment, for which
another tokenizer is made. -/
inductive Step
  | token (t : Token) (c : Cursor)
  | special (sql : Str) (c : Cursor)
  | panic
  deriving DecidableEq, Repr

/-- `scanMySQLSpecificComment`, /repo/sqlparser/token.go:943-964, up to the creation of the tokenizer for
the text of the comment; `s` is the text after `/*!`. -/
def scanMySQLSpecificComment (posVar : Nat) (s : Str) : Step :=
  match commentLoop s with
  | none => .token ⟨.lexError, lit "/*!" ++ s⟩ ⟨[], posVar⟩
  | some (body, rest) =>
    match extractMysqlComment body with
    | .error _ => .panic
    | .ok sql => .special sql ⟨rest, posVar⟩

/-- The case `/` of `Scan`, /repo/sqlparser/token.go:589-604; `s` is the text after the slash. -/
def scanSlash (posVar : Nat) (s : Str) : Step :=
  match s with
  | '/' :: s => let (t, r) := scanCommentType1 (lit "//") s; .token t ⟨r, posVar⟩
  | '*' :: '!' :: s => scanMySQLSpecificComment posVar s
  | '*' :: s => let (t, r) := scanCommentType2 s; .token t ⟨r, posVar⟩
  | s => .token ⟨.char '/', []⟩ ⟨s, posVar⟩

/-- The cases `&`, `|` and `!` of `Scan`, /repo/sqlparser/token.go:567-578 and 654-659: the operator of two
characters if `second` follows, otherwise the character itself. -/
def scanTwo (first second : Char) (code s : Str) : Token × Str :=
  match s with
  | c :: r => if c = second then (⟨.code code, []⟩, r) else (⟨.char first, []⟩, c :: r)
  | [] => (⟨.char first, []⟩, [])

/-- The case `.` of `Scan`, /repo/sqlparser/token.go:584-588. -/
def scanDot (s : Str) : Token × Str :=
  match s with
  | c :: s => if isDigit c then scanFraction (c :: s) else (⟨.char '.', []⟩, c :: s)
  | [] => (⟨.char '.', []⟩, [])

/-- The case `-` of `Scan`, /repo/sqlparser/token.go:607-624. -/
def scanMinus (s : Str) : Token × Str :=
  match s with
  | '-' :: s => scanCommentType1 (lit "--") s
  | '>' :: '>' :: s => (⟨.code (lit "JSON_UNQUOTE_EXTRACT_OP"), []⟩, s)
  | '>' :: s => (⟨.code (lit "JSON_EXTRACT_OP"), []⟩, s)
  | c :: s =>
    if isDigit c then
      let (t, r) := scanNumber (c :: s)
      (⟨t.type, '-' :: t.val⟩, r)
    else (⟨.char '-', []⟩, c :: s)
  | [] => (⟨.char '-', []⟩, [])

/-- The case `<` of `Scan`, /repo/sqlparser/token.go:625-643. -/
def scanLess (s : Str) : Token × Str :=
  match s with
  | '>' :: s => (⟨.code (lit "NE"), []⟩, s)
  | '<' :: s => (⟨.code (lit "SHIFT_LEFT"), []⟩, s)
  | '=' :: '>' :: s => (⟨.code (lit "NULL_SAFE_EQUAL"), []⟩, s)
  | '=' :: s => (⟨.code (lit "LE"), []⟩, s)
  | s => (⟨.char '<', []⟩, s)

/-- The case `>` of `Scan`, /repo/sqlparser/token.go:644-653. -/
def scanGreater (s : Str) : Token × Str :=
  match s with
  | '=' :: s => (⟨.code (lit "GE"), []⟩, s)
  | '>' :: s => (⟨.code (lit "SHIFT_RIGHT"), []⟩, s)
  | s => (⟨.char '>', []⟩, s)

/-- The characters that are tokens, /repo/sqlparser/token.go:562. -/
def singleChars : List Char := ['=', ',', ';', '(', ')', '[', ']', '+', '*', '%', '^', '~']

/-- The other cases of the `default` branch of `Scan`, /repo/sqlparser/token.go:559-679: `ch` is the
character under the cursor, `s` the text after it. -/
def scanSymbol (mode : Mode) (ch : Char) (s : Str) : Token × Str :=
  if ch ∈ singleChars then
    if mode = .mssql ∧ ch = '[' then scanLiteralIdentifier ']' s else (⟨.char ch, []⟩, s)
  else if ch = '&' then scanTwo '&' '&' (lit "AND") s
  else if ch = '|' then scanTwo '|' '|' (lit "OR") s
  else if ch = '.' then scanDot s
  else if ch = '#' then scanCommentType1 (lit "#") s
  else if ch = '-' then scanMinus s
  else if ch = '<' then scanLess s
  else if ch = '>' then scanGreater s
  else if ch = '!' then scanTwo '!' '=' (lit "NE") s
  else if ch = '\'' then scanString ch s
  else if ch = '"' then
    if mode ≠ .mysql then scanLiteralIdentifier '"' s else scanString ch s
  else if mode ≠ .postgres ∧ ch = '`' then scanLiteralIdentifier '`' s
  else (⟨.lexError, [ch]⟩, s)

/-- `tkn.next()` followed by the `default` branch of `Scan`, /repo/sqlparser/token.go:559-679. -/
def scanOperator (mode : Mode) (posVar : Nat) (ch : Char) (s : Str) : Step :=
  if ch = '/' then scanSlash posVar s
  else if ch = '?' then
    .token ⟨.valueArg, lit ":v" ++ showInt (posVar + 1 : Nat)⟩ ⟨s, posVar + 1⟩
  else
    let (t, r) := scanSymbol mode ch s
    .token t ⟨r, posVar⟩

/-- The letter case of `Scan`, /repo/sqlparser/token.go:535-552. -/
def scanWord (ch : Char) (s : Str) : Token × Str :=
  match s with
  | c :: s =>
    if (ch = 'X' ∨ ch = 'x') ∧ c = '\'' then scanHex s
    else if (ch = 'B' ∨ ch = 'b') ∧ c = '\'' then scanBitLiteral s
    else scanIdentifier ch (ch = '@' && c = '@') (c :: s)
  | [] => scanIdentifier ch false []

/-- `if tkn.lastChar == 0 { tkn.next() }`, /repo/sqlparser/token.go:524-526. -/
def dropNul (s : Str) : Str :=
  match s with
  | [] => []
  | c :: r => if c = '\x00' then r else c :: r

/-- The `switch` of `Scan`, /repo/sqlparser/token.go:534-679: `ch` is the character under the cursor, `s` the
text after it. -/
def scanToken (mode : Mode) (multi : Bool) (posVar : Nat) (ch : Char) (s : Str) : Step :=
  if isLetter ch then
    let (t, r) := scanWord ch s
    .token t ⟨r, posVar⟩
  else if isDigit ch then
    let (t, r) := scanNumber (ch :: s)
    .token t ⟨r, posVar⟩
  else if ch = ':' then
    let (t, r) := scanBindVar mode s
    .token t ⟨r, posVar⟩
  else if ch = ';' ∧ multi then .token ⟨.eof, []⟩ ⟨ch :: s, posVar⟩
  else scanOperator mode posVar ch s

/-- `Scan` without the part for the MySQL-specific comment, /repo/sqlparser/token.go:524-680. `multi` and
`forceEOF` are the fields of the tokenizer. -/
def scanCursor (mode : Mode) (multi forceEOF : Bool) (c : Cursor) : Step :=
  if forceEOF then .token ⟨.eof, []⟩ ⟨skipStatement (dropNul c.input), c.posVar⟩
  else
    match skipBlank (dropNul c.input) with
    | [] => .token ⟨.eof, []⟩ ⟨[], c.posVar⟩
    | ch :: s => scanToken mode multi c.posVar ch s

/-- The tokenizer of a text together with the chain of tokenizers reached by `specialComment`, innermost
first (`Tokenizer`, /repo/sqlparser/token.go:43-62). -/
structure Scanner where
  mode : Mode
  inner : List Cursor := []
  base : Cursor
  multi : Bool := false
  forceEOF : Bool := false
  deriving DecidableEq, Repr

/-- `NewStringTokenizer`, /repo/sqlparser/token.go:66-73. -/
def newCursor (sql : Str) : Cursor := ⟨'\x00' :: sql, 0⟩

/-- `NewStringTokenizer`, /repo/sqlparser/token.go:66-73. -/
def newScanner (mode : Mode) (sql : Str) : Scanner := { mode := mode, base := newCursor sql }

/-- `Position`, /repo/sqlparser/token.go:48 and 975-995, for a tokenizer of the text `sql`. -/
def Cursor.position (sql : Str) (c : Cursor) : Nat := sql.length + 1 - c.input.length

/-! Lemmas needed to see that `Scan` terminates. -/

theorem commentLoop_length {s body rest : Str} (h : commentLoop s = some (body, rest)) :
    body.length + 2 + rest.length = s.length := by
  induction s generalizing body rest with
  | nil => simp [commentLoop] at h
  | cons c s ih =>
    unfold commentLoop at h
    split at h
    · split at h
      · cases h; simp; omega
      · simp only [Option.map_eq_some_iff, Prod.mk.injEq] at h
        obtain ⟨⟨b, r⟩, hr, rfl, rfl⟩ := h
        have := ih hr
        simp; omega
    · simp only [Option.map_eq_some_iff, Prod.mk.injEq] at h
      obtain ⟨⟨b, r⟩, hr, rfl, rfl⟩ := h
      have := ih hr
      simp; omega

theorem trimSpace_length (s : Str) : (trimSpace s).length ≤ s.length := by
  unfold trimSpace trimRight trimLeft
  have h1 := (List.dropWhile_sublist isSpace (l := s)).length_le
  have h2 := (List.dropWhile_sublist isSpace (l := (s.dropWhile isSpace).reverse)).length_le
  simp at *
  omega

theorem scanMySQLSpecificComment_length {n : Nat} {s sql : Str} {c : Cursor}
    (h : scanMySQLSpecificComment n s = .special sql c) : sql.length + 2 + c.input.length ≤ s.length := by
  unfold scanMySQLSpecificComment at h
  split at h
  · cases h
  · next body rest hl =>
    have h1 := commentLoop_length hl
    unfold extractMysqlComment at h
    split at h
    · cases h
    · next sql' he =>
      cases h
      split at he
      · cases he
      · next i _ =>
        cases he
        have := trimSpace_length (body.drop i)
        simp at *
        omega

theorem scanOperator_special {mode : Mode} {n : Nat} {ch : Char} {s sql : Str} {c : Cursor}
    (h : scanOperator mode n ch s = .special sql c) :
    ch = '/' ∧ ∃ s', s = '*' :: '!' :: s' ∧ scanMySQLSpecificComment n s' = .special sql c := by
  unfold scanOperator at h
  split at h
  · next hc =>
    refine ⟨hc, ?_⟩
    unfold scanSlash at h
    split at h
    · cases h
    · next s' => exact ⟨s', rfl, h⟩
    · cases h
    · cases h
  · split at h
    · cases h
    · cases h

theorem dropNul_length (s : Str) : (dropNul s).length ≤ s.length := by
  unfold dropNul
  split
  · simp
  · split <;> simp

theorem skipBlank_length (s : Str) : (skipBlank s).length ≤ s.length :=
  (List.dropWhile_sublist isBlank).length_le

theorem scanToken_special {mode : Mode} {multi : Bool} {n : Nat} {ch : Char} {s sql : Str} {c : Cursor}
    (h : scanToken mode multi n ch s = .special sql c) : scanOperator mode n ch s = .special sql c := by
  unfold scanToken at h
  split at h
  · cases h
  split at h
  · cases h
  split at h
  · cases h
  split at h
  · cases h
  exact h

/-- The text of a MySQL-specific comment is shorter than what was read for it. -/
theorem scanCursor_special_length {mode : Mode} {multi forceEOF : Bool} {c c' : Cursor} {sql : Str}
    (h : scanCursor mode multi forceEOF c = .special sql c') :
    sql.length + 5 + c'.input.length ≤ c.input.length := by
  unfold scanCursor at h
  split at h
  · cases h
  · split at h
    · cases h
    · next ch s hs =>
      have h1 := congrArg List.length hs
      have h2 := skipBlank_length (dropNul c.input)
      have h3 := dropNul_length c.input
      obtain ⟨_, s', rfl, h4⟩ := scanOperator_special (scanToken_special h)
      have := scanMySQLSpecificComment_length h4
      simp at h1
      omega

/-- The characters still to be read, over the whole chain. -/
def Scanner.size (st : Scanner) : Nat :=
  (st.inner.map fun c => c.input.length + 1).sum + st.base.input.length

/-- `Scan`, /repo/sqlparser/token.go:511-680, and the recursive call at the end of
`scanMySQLSpecificComment`, /repo/sqlparser/token.go:960-963. The innermost tokenizer is asked first; when
it is at its end it is dropped. The result is the token and the state after it, or a panic. -/
def scan (st : Scanner) : Except Err (Token × Scanner) :=
  match hi : st.inner with
  | c :: cs =>
    match hs : scanCursor st.mode false false c with
    | .panic => .error .panic
    | .special sql c' => scan { st with inner := newCursor sql :: c' :: cs }
    | .token t c' =>
      if t.type = .eof then scan { st with inner := cs }
      else .ok (t, { st with inner := c' :: cs })
  | [] =>
    match hs : scanCursor st.mode st.multi st.forceEOF st.base with
    | .panic => .error .panic
    | .special sql c' => scan { st with inner := [newCursor sql], base := c' }
    | .token t c' => .ok (t, { st with base := c' })
termination_by st.size
decreasing_by
  · have := scanCursor_special_length hs
    simp [Scanner.size, hi, newCursor]
    omega
  · simp [Scanner.size, hi]
  · have := scanCursor_special_length hs
    simp [Scanner.size, hi, newCursor]
    omega

end Sqldef
