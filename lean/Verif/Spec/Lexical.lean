import Verif.Model.Lexer
/-
What the texts of SQL mean as sequences of tokens, said without the scanner's own functions: how a name or a
string is written between quotes, what a word is, what white space is.
-/
namespace Sqldef.Spec

/-- The next call of `Scan` on a text returns the token `t` and leaves `rest`. -/
def Reads (mode : Mode) (text : Str) (t : Token) (rest : Str) : Prop :=
  ∀ n, scan { mode := mode, base := ⟨text, n⟩ } = .ok (t, { mode := mode, base := ⟨rest, n⟩ })

/-- Successive calls of `Scan` on a text return the tokens `ts` and leave `rest`. -/
inductive ReadsAll (mode : Mode) : Str → List Token → Str → Prop
  | nil (text : Str) : ReadsAll mode text [] text
  | cons {text rest rest' : Str} {t : Token} {ts : List Token} :
    Reads mode text t rest → ReadsAll mode rest ts rest' → ReadsAll mode text (t :: ts) rest'

/-- Successive calls of `Scan`, with the tokens returned. -/
inductive Calls : Scanner → List Token → Scanner → Prop
  | nil (st : Scanner) : Calls st [] st
  | cons {st st' st'' : Scanner} {t : Token} {ts : List Token} :
    scan st = .ok (t, st') → Calls st' ts st'' → Calls st (t :: ts) st''

/-- The pairs of quotes that a dialect puts around names. -/
def nameQuotes : Mode → List (Char × Char)
  | .mysql => [('`', '`')]
  | .postgres => [('"', '"')]
  | .sqlite3 => [('"', '"'), ('`', '`')]
  | .mssql => [('"', '"'), ('`', '`'), ('[', ']')]

/-- The quotes that a dialect puts around strings. -/
def stringQuotes : Mode → List Char
  | .mysql => ['\'', '"']
  | _ => ['\'']

/-- The closing quote that a dialect puts behind a name in a generated statement. -/
def closingQuote : Mode → Char
  | .postgres => '"'
  | .mssql => ']'
  | _ => '`'

/-- A name between quotes: a closing quote inside is written twice. -/
def doubled (q : Char) (name : Str) : Str := name.flatMap fun c => if c = q then [q, q] else [c]

/-- The characters that an escape sequence of MySQL stands for; others stand for themselves. -/
def unescape (c : Char) : Char :=
  if c = '0' then '\x00' else if c = 'b' then '\x08' else if c = 'n' then '\n' else if c = 'r' then '\r'
  else if c = 't' then '\t' else if c = 'Z' then '\x1a' else c

/-- `StringBody q src v`: the text `src`, between two quotes `q`, denotes the string `v`. -/
inductive StringBody (q : Char) : Str → Str → Prop
  | nil : StringBody q [] []
  | plain {c : Char} {src v : Str} : c ≠ q → c ≠ '\\' → StringBody q src v → StringBody q (c :: src) (c :: v)
  | doubled {src v : Str} : StringBody q src v → StringBody q (q :: q :: src) (q :: v)
  | escape {e : Char} {src v : Str} : StringBody q src v → StringBody q ('\\' :: e :: src) (unescape e :: v)

/-- A word: a letter (or `_`, `@`) followed by letters and digits. The words that start with `@@` are not meant:
more characters can belong to them. -/
def IsWord (w : Str) : Prop :=
  (∃ c s, w = c :: s ∧ isLetter c = true ∧ ∀ d ∈ s, isLetter d = true ∨ isDigit d = true) ∧ ¬ lit "@@" <+: w

/-- The text that follows a word does not continue it, and does not make it the start of a hexadecimal or
binary literal. -/
def EndsWord (rest : Str) : Prop := ∀ c, rest.head? = some c → isLetter c = false ∧ isDigit c = false ∧ c ≠ '\''

/-- A run of white space. -/
def BlankRun (w : Str) : Prop := w ≠ [] ∧ ∀ c ∈ w, c = ' ' ∨ c = '\n' ∨ c = '\r' ∨ c = '\t'

/-- A MySQL-specific comment with nothing in it but (the start of) a version number. -/
def EmptySpecialComment (s : Str) : Prop :=
  ∃ d : Str, s = lit "/*!" ++ d ++ lit "*/" ∧ d.length ≤ 5 ∧ ∀ c ∈ d, isUnicodeDigit c = true

/-- None of the tokens is cut short by the end of the text: there is no lexical error and no comment to the end
of the line without the end of the line. -/
def Whole (ts : List Token) : Prop :=
  ∀ t ∈ ts, t.type ≠ .lexError ∧
    ¬ (t.type = .comment ∧ t.val.getLast? ≠ some '\n' ∧ ¬ lit "/*" <+: t.val)

end Sqldef.Spec
