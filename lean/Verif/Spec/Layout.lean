import Verif.Spec.StatementText
/-
How a sequence of tokens can be written as a text: keywords in capital or small letters, names with or without quotes,
and any amount of white space between tokens.
-/
namespace Sqldef.Spec

/-- The operators of one or more characters, with the characters that may not follow at once. -/
def operators : List (String × Token × List Char) :=
  [("<", ⟨.char '<', []⟩, ['<', '=', '>']), ("<=", ⟨.code (lit "LE"), []⟩, ['>']),
   ("<=>", ⟨.code (lit "NULL_SAFE_EQUAL"), []⟩, []), ("<>", ⟨.code (lit "NE"), []⟩, []), ("!=", ⟨.code (lit "NE"), []⟩, []),
   ("<<", ⟨.code (lit "SHIFT_LEFT"), []⟩, []), (">", ⟨.char '>', []⟩, ['=', '>']), (">=", ⟨.code (lit "GE"), []⟩, []),
   (">>", ⟨.code (lit "SHIFT_RIGHT"), []⟩, []), ("&", ⟨.char '&', []⟩, ['&']), ("|", ⟨.char '|', []⟩, ['|']),
   ("!", ⟨.char '!', []⟩, ['=']), ("/", ⟨.char '/', []⟩, ['/', '*']),
   ("-", ⟨.char '-', []⟩, ['-', '>', '0', '1', '2', '3', '4', '5', '6', '7', '8', '9'])]

/-- A number ends here: no letter, digit or point follows. -/
def EndsNumber (rest : Str) : Prop := ∀ c, rest.head? = some c → isLetter c = false ∧ isDigit c = false ∧ c ≠ '.'

/-- `Spells mode t a rest`: the text `a` is a way to write the token `t` if `rest` follows. -/
inductive Spells (mode : Mode) : Token → Str → Str → Prop
  /-- A keyword, in any mixture of capital and small letters. -/
  | keyword {w rest code : Str} : IsWord w → keywordCode (toLower w) = some code → EndsWord rest →
    Spells mode ⟨.code code, toLower w⟩ w rest
  /-- A name without quotes. -/
  | bare {w rest : Str} : IsWord w → keywordCode (toLower w) = none → toLower w ≠ lit "dual" → EndsWord rest →
    Spells mode ⟨.id, w⟩ w rest
  /-- A name between quotes of the dialect. -/
  | quoted {o c : Char} {n rest : Str} : (o, c) ∈ nameQuotes mode → n ≠ [] → rest.head? ≠ some c →
    Spells mode ⟨.id, n⟩ (o :: doubled c n ++ [c]) rest
  /-- A string. -/
  | string {q : Char} {src v rest : Str} : q ∈ stringQuotes mode → StringBody q src v → rest.head? ≠ some q →
    Spells mode ⟨.string, v⟩ (q :: src ++ [q]) rest
  /-- A whole number. -/
  | digits {n rest : Str} : n ≠ [] → (∀ c ∈ n, isDigit c = true) → EndsNumber rest → Spells mode ⟨.integral, n⟩ n rest
  /-- A whole number with a minus sign. -/
  | negative {n rest : Str} : n ≠ [] → (∀ c ∈ n, isDigit c = true) → EndsNumber rest →
    Spells mode ⟨.integral, '-' :: n⟩ ('-' :: n) rest
  /-- A number with a fraction. -/
  | fraction {n f rest : Str} : n ≠ [] → (∀ c ∈ n, isDigit c = true) → (∀ c ∈ f, isDigit c = true) → EndsNumber rest →
    Spells mode ⟨.float, n ++ '.' :: f⟩ (n ++ '.' :: f) rest
  /-- A string of bits. -/
  | bits {p : Char} {b rest : Str} : p ∈ ['b', 'B'] → (∀ c ∈ b, c ∈ ['0', '1']) →
    Spells mode ⟨.bitLiteral, b⟩ (p :: '\'' :: b ++ ['\'']) rest
  /-- A punctuation mark. -/
  | mark {c : Char} {rest : Str} : c ∈ ['(', ')', ',', '=', ';', '+', '*', '%', '^', '~'] → Spells mode ⟨.char c, []⟩ [c] rest
  /-- The dot between a schema and a table. -/
  | dot {c : Char} {rest : Str} : isDigit c = false → Spells mode ⟨.char '.', []⟩ ['.'] (c :: rest)
  /-- The brackets of an array type. -/
  | bracket {c : Char} {rest : Str} : mode ≠ .mssql → c ∈ ['[', ']'] → Spells mode ⟨.char c, []⟩ [c] rest
  /-- An operator. -/
  | operator {a : String} {t : Token} {cs : List Char} {rest : Str} : (a, t, cs) ∈ operators →
    (∀ c ∈ cs, rest.head? ≠ some c) → Spells mode t (lit a) rest
  /-- The mark of a cast. -/
  | cast {rest : Str} : mode = .postgres → Spells mode ⟨.code (lit "TYPECAST"), lit "::"⟩ (lit "::") rest

/-- The text is a way to write the tokens. -/
inductive Layout (mode : Mode) : Str → List Token → Prop
  | nil {w : Str} : (∀ c ∈ w, c = ' ' ∨ c = '\n' ∨ c = '\r' ∨ c = '\t') → Layout mode w []
  | cons {w a rest : Str} {t : Token} {ts : List Token} : (∀ c ∈ w, c = ' ' ∨ c = '\n' ∨ c = '\r' ∨ c = '\t') →
    Spells mode t a rest → Layout mode rest ts → Layout mode (w ++ a ++ rest) (t :: ts)

end Sqldef.Spec
