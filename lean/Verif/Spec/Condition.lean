import Verif.Model.SqlAst
import Verif.Spec.StatementText
/-
The language of conditions, as they are written after `CHECK`, `WHERE` or `USING`: what can be written, how it is
written (as a sequence of tokens), how it is shown (as a text), and when it can be written without more parentheses.
Nothing here refers to the grammar or its actions.

Names are identifiers (quoted ones, and words that are no keywords).  Numbers and strings are given by their text.
Not covered: subqueries, `CASE`, `ESCAPE`, the functions whose names are keywords (except those of the present time).
-/
namespace Sqldef.Spec.Written

/-! ### Operators -/

/-- A sign before an operand. -/
inductive Sign
  | plus
  | minus
  | tilde
  | bang
  deriving DecidableEq

/-- An operation on two values. -/
inductive Arith
  | bitOr
  | bitAnd
  | shiftLeft
  | shiftRight
  | add
  | sub
  | mul
  | div
  | intDiv
  | percent
  | mod
  | xor
  deriving DecidableEq

/-- A comparison. -/
inductive Cmp
  | eq
  | lt
  | gt
  | le
  | ge
  | ne
  | nullSafe
  deriving DecidableEq

/-- What follows `IS`. -/
inductive IsWhat
  | null
  | true
  | false
  deriving DecidableEq

/-- The type of a cast. -/
inductive CastTo
  | word (w : String)
  | varying
  deriving DecidableEq

/-- The words for the type of a cast. -/
def castWords : List String :=
  ["binary", "date", "datetime", "text", "bool", "boolean", "bit", "tinyint", "smallint", "smallserial", "mediumint",
   "int", "integer", "serial", "bigint", "bigserial"]

/-- The words for the present time. -/
def nowWords : List String :=
  ["current_timestamp", "utc_timestamp", "utc_time", "utc_date", "localtime", "localtimestamp", "current_date", "current_time"]

/-- An operator of two or more characters. -/
def mark (code : String) : Token := ⟨.code (lit code), []⟩

def Sign.char : Sign → Char
  | .plus => '+'
  | .minus => '-'
  | .tilde => '~'
  | .bang => '!'

def Arith.token : Arith → Token
  | .bitOr => sym '|'
  | .bitAnd => sym '&'
  | .shiftLeft => mark "SHIFT_LEFT"
  | .shiftRight => mark "SHIFT_RIGHT"
  | .add => sym '+'
  | .sub => sym '-'
  | .mul => sym '*'
  | .div => sym '/'
  | .intDiv => kw "DIV"
  | .percent => sym '%'
  | .mod => kw "MOD"
  | .xor => sym '^'

/-- How an operation is shown. (`MOD` is shown as `%`.) -/
def Arith.text : Arith → Str
  | .bitOr => lit "|"
  | .bitAnd => lit "&"
  | .shiftLeft => lit "<<"
  | .shiftRight => lit ">>"
  | .add => lit "+"
  | .sub => lit "-"
  | .mul => lit "*"
  | .div => lit "/"
  | .intDiv => lit "div"
  | .percent => lit "%"
  | .mod => lit "%"
  | .xor => lit "^"

/-- How tightly an operation binds. -/
def Arith.level : Arith → Nat
  | .bitOr => 6
  | .bitAnd => 7
  | .shiftLeft => 8
  | .shiftRight => 8
  | .add => 9
  | .sub => 9
  | .mul => 10
  | .div => 10
  | .intDiv => 10
  | .percent => 10
  | .mod => 10
  | .xor => 11

def Cmp.token : Cmp → Token
  | .eq => sym '='
  | .lt => sym '<'
  | .gt => sym '>'
  | .le => mark "LE"
  | .ge => mark "GE"
  | .ne => mark "NE"
  | .nullSafe => mark "NULL_SAFE_EQUAL"

def Cmp.text : Cmp → Str
  | .eq => lit "="
  | .lt => lit "<"
  | .gt => lit ">"
  | .le => lit "<="
  | .ge => lit ">="
  | .ne => lit "!="
  | .nullSafe => lit "<=>"

def IsWhat.token : IsWhat → Token
  | .null => kw "NULL"
  | .true => kw "TRUE"
  | .false => kw "FALSE"

def IsWhat.text : IsWhat → Str
  | .null => lit "null"
  | .true => lit "true"
  | .false => lit "false"

/-- The mark of a cast. -/
def castMark : Token := ⟨.code (lit "TYPECAST"), lit "::"⟩

def CastTo.tokens : CastTo → List Token
  | .word w => [kw w]
  | .varying => [kw "CHARACTER", kw "VARYING"]

def CastTo.text : CastTo → Str
  | .word w => lit w
  | .varying => lit "character varying"

/-! ### Names, strings and numbers as they are shown -/

/-- The name can be written without quotes. -/
def isPlainName : Str → Bool
  | [] => false
  | c :: s => isLetter c && s.all (fun c => isLetter c || isDigit c) && (keywordCode (toLower (c :: s))).isNone

/-- A name as it is shown: between backquotes if it has to be. -/
def shownName (n : Str) : Str :=
  if isPlainName n then n else '`' :: (n.flatMap fun c => if c = '`' then ['`', '`'] else [c]) ++ ['`']

/-- A character of a string as it is shown. -/
def shownChar (c : Char) : Str :=
  if c = '\x00' then ['\\', '0']
  else if c = '\x08' then ['\\', 'b']
  else if c = '\n' then ['\\', 'n']
  else if c = '\r' then ['\\', 'r']
  else if c = '\t' then ['\\', 't']
  else if c = '\x1a' then ['\\', 'Z']
  else if c = '\'' ∨ c = '"' ∨ c = '\\' then ['\\', c]
  else [c]

/-- A string as it is shown. -/
def shownString (s : Str) : Str := '\'' :: s.flatMap shownChar ++ ['\'']

/-- A number with the other sign. -/
def negated : Str → Str
  | '-' :: s => s
  | s => '-' :: s

/-- A name of ordinary characters, and not that of a system variable. -/
def GoodName (n : Str) : Prop := n ≠ [] ∧ ¬ lit "@@" <+: n ∧ ∀ c ∈ n, c.toNat < 65536

/-- A whole number, maybe with a minus sign. -/
def GoodInt (n : Str) : Prop := ∃ d : Str, d ≠ [] ∧ (∀ c ∈ d, isDigit c = true) ∧ (n = d ∨ n = '-' :: d)

/-! ### Expressions -/

/-- An expression. -/
inductive Ex
  | string (s : Str)
  | integer (n : Str)
  | float (n : Str)
  | bits (b : Str)
  | null
  | bool (b : Bool)
  | now (w : String) (call : Bool)
  | column (n : Str)
  | qualified (t n : Str)
  | full (s t n : Str)
  /-- `f(a, b)` -/
  | call (f : Str) (args : List Ex)
  /-- `(a, b)`; with one element, an expression in parentheses. -/
  | tuple (first : Ex) (rest : List Ex)
  | cast (e : Ex) (to : CastTo)
  | collate (e : Ex) (name : Str)
  | sign (op : Sign) (e : Ex)
  | arith (op : Arith) (l r : Ex)
  | compare (op : Cmp) (l r : Ex)
  | like (neg : Bool) (l r : Ex)
  | regexp (neg : Bool) (l r : Ex)
  | among (neg : Bool) (l first : Ex) (rest : List Ex)
  | between (neg : Bool) (l a b : Ex)
  | is (e : Ex) (neg : Bool) (what : IsWhat)
  | not (e : Ex)
  | and (l r : Ex)
  | or (l r : Ex)

/-- How tightly the outermost operator binds. -/
def Ex.level : Ex → Nat
  | .or _ _ => 1
  | .and _ _ => 2
  | .not _ => 3
  | .is _ _ _ => 5
  | .compare _ _ _ => 5
  | .like _ _ _ => 5
  | .regexp _ _ _ => 5
  | .among _ _ _ _ => 5
  | .between _ _ _ _ => 5
  | .arith op _ _ => op.level
  | .sign _ _ => 12
  | .collate _ _ => 13
  | .cast _ _ => 17
  | _ => 18

/-- `NOT` or nothing. -/
def notTokens (neg : Bool) : List Token := if neg then [kw "NOT"] else []

mutual
/-- The tokens of an expression. -/
def Ex.tokens : Ex → List Token
  | .string s => [⟨.string, s⟩]
  | .integer n => [⟨.integral, n⟩]
  | .float n => [⟨.float, n⟩]
  | .bits b => [⟨.bitLiteral, b⟩]
  | .null => [kw "NULL"]
  | .bool b => [if b then kw "TRUE" else kw "FALSE"]
  | .now w c => kw w :: (if c then parens [] else [])
  | .column n => [named n]
  | .qualified t n => [named t, sym '.', named n]
  | .full s t n => [named s, sym '.', named t, sym '.', named n]
  | .call f [] => named f :: parens []
  | .call f (a :: as) => named f :: parens (a.tokens ++ Ex.moreTokens as)
  | .tuple a as => parens (a.tokens ++ Ex.moreTokens as)
  | .cast e t => e.tokens ++ castMark :: t.tokens
  | .collate e n => e.tokens ++ [kw "COLLATE", named n]
  | .sign op e => sym op.char :: e.tokens
  | .arith op l r => l.tokens ++ op.token :: r.tokens
  | .compare op l r => l.tokens ++ op.token :: r.tokens
  | .like neg l r => l.tokens ++ (notTokens neg ++ kw "LIKE" :: r.tokens)
  | .regexp neg l r => l.tokens ++ (notTokens neg ++ kw "REGEXP" :: r.tokens)
  | .among neg l a as => l.tokens ++ (notTokens neg ++ kw "IN" :: parens (a.tokens ++ Ex.moreTokens as))
  | .between neg l a b => l.tokens ++ (notTokens neg ++ kw "BETWEEN" :: (a.tokens ++ kw "AND" :: b.tokens))
  | .is e neg w => e.tokens ++ kw "IS" :: (notTokens neg ++ [w.token])
  | .not e => kw "NOT" :: e.tokens
  | .and l r => l.tokens ++ kw "AND" :: r.tokens
  | .or l r => l.tokens ++ kw "OR" :: r.tokens
/-- More expressions, with a comma before each. -/
def Ex.moreTokens : List Ex → List Token
  | [] => []
  | e :: es => sym ',' :: (e.tokens ++ Ex.moreTokens es)
end

/-- The whole number that the expression is: signs become part of it. -/
def Ex.number : Ex → Option Str
  | .integer n => some n
  | .sign .plus e => e.number
  | .sign .minus e => e.number.map negated
  | _ => none

/-- The expression has a sign and is no number. -/
def Ex.isSigned (e : Ex) : Bool :=
  match e with
  | .sign _ _ => e.number.isNone
  | _ => false

/-- `not ` or nothing. -/
def notText (neg : Bool) : Str := if neg then lit "not " else []

mutual
/-- The text of an expression. -/
def Ex.text : Ex → Str
  | .string s => shownString s
  | .integer n => n
  | .float n => n
  | .bits b => lit "B'" ++ b ++ lit "'"
  | .null => lit "null"
  | .bool b => if b then lit "true" else lit "false"
  | .now w _ => lit w ++ lit "()"
  | .column n => shownName n
  | .qualified t n => shownName t ++ lit "." ++ shownName n
  | .full s t n => shownName s ++ lit "." ++ shownName t ++ lit "." ++ shownName n
  | .call f [] => f ++ lit "()"
  | .call f (a :: as) => f ++ lit "(" ++ (a.text ++ Ex.moreText as) ++ lit ")"
  | .tuple a as => lit "(" ++ (a.text ++ Ex.moreText as) ++ lit ")"
  | .cast e t => lit "convert(" ++ e.text ++ lit ", " ++ t.text ++ lit ")"
  | .collate e n => e.text ++ lit " collate " ++ n
  | .sign op e =>
    match (Ex.sign op e).number with
    | some n => n
    | none => op.char :: ((if e.isSigned then lit " " else []) ++ e.text)
  | .arith op l r => l.text ++ lit " " ++ op.text ++ lit " " ++ r.text
  | .compare op l r => l.text ++ lit " " ++ op.text ++ lit " " ++ r.text
  | .like neg l r => l.text ++ lit " " ++ notText neg ++ lit "like " ++ r.text
  | .regexp neg l r => l.text ++ lit " " ++ notText neg ++ lit "regexp " ++ r.text
  | .among neg l a as => l.text ++ lit " " ++ notText neg ++ lit "in (" ++ (a.text ++ Ex.moreText as) ++ lit ")"
  | .between neg l a b => l.text ++ lit " " ++ notText neg ++ lit "between " ++ a.text ++ lit " and " ++ b.text
  | .is e neg w => e.text ++ lit " is " ++ notText neg ++ w.text
  | .not e => lit "not " ++ e.text
  | .and l r => l.text ++ lit " and " ++ r.text
  | .or l r => l.text ++ lit " or " ++ r.text
@[inherit_doc Ex.text]
def Ex.moreText : List Ex → Str
  | [] => []
  | e :: es => lit ", " ++ e.text ++ Ex.moreText es
end

mutual
/-- The expression can be written as it is: operands bind at least as tightly as their operators (on the right of an
operation on two operands, more tightly), the words are known, and names and numbers are in order. -/
def Ex.Proper : Ex → Prop
  | .integer n => GoodInt n
  | .now w _ => w ∈ nowWords
  | .column n => GoodName n
  | .qualified t n => GoodName t ∧ GoodName n
  | .full s t n => GoodName s ∧ GoodName t ∧ GoodName n
  | .call _ args => Ex.AllProper args
  | .tuple a as => a.Proper ∧ Ex.AllProper as
  | .cast e t => 17 ≤ e.level ∧ (∀ w, t = .word w → w ∈ castWords) ∧ e.Proper
  | .collate e _ => 13 ≤ e.level ∧ e.Proper
  | .sign _ e => 12 ≤ e.level ∧ e.Proper
  | .arith op l r => (op.level ≤ l.level ∧ op.level < r.level) ∧ l.Proper ∧ r.Proper
  | .compare _ l r => (6 ≤ l.level ∧ 6 ≤ r.level) ∧ l.Proper ∧ r.Proper
  | .like _ l r => (6 ≤ l.level ∧ 6 ≤ r.level) ∧ l.Proper ∧ r.Proper
  | .regexp _ l r => (6 ≤ l.level ∧ 6 ≤ r.level) ∧ l.Proper ∧ r.Proper
  | .among _ l a as => 6 ≤ l.level ∧ l.Proper ∧ a.Proper ∧ Ex.AllProper as
  | .between _ l a b => (6 ≤ l.level ∧ 6 ≤ a.level ∧ 6 ≤ b.level) ∧ l.Proper ∧ a.Proper ∧ b.Proper
  | .is e _ _ => 5 ≤ e.level ∧ e.Proper
  | .not e => 3 ≤ e.level ∧ e.Proper
  | .and l r => (2 ≤ l.level ∧ 3 ≤ r.level) ∧ l.Proper ∧ r.Proper
  | .or l r => (1 ≤ l.level ∧ 2 ≤ r.level) ∧ l.Proper ∧ r.Proper
  | _ => True
@[inherit_doc Ex.Proper]
def Ex.AllProper : List Ex → Prop
  | [] => True
  | e :: es => e.Proper ∧ Ex.AllProper es
end

mutual
/-- How deeply parentheses are nested. -/
def Ex.depth : Ex → Nat
  | .now _ c => if c then 1 else 0
  | .call _ args => Ex.depths args + 1
  | .tuple a as => max a.depth (Ex.depths as) + 1
  | .cast e _ => e.depth
  | .collate e _ => e.depth
  | .sign _ e => e.depth
  | .arith _ l r => max l.depth r.depth
  | .compare _ l r => max l.depth r.depth
  | .like _ l r => max l.depth r.depth
  | .regexp _ l r => max l.depth r.depth
  | .among _ l a as => max l.depth (max a.depth (Ex.depths as) + 1)
  | .between _ l a b => max l.depth (max a.depth b.depth)
  | .is e _ _ => e.depth
  | .not e => e.depth
  | .and l r => max l.depth r.depth
  | .or l r => max l.depth r.depth
  | _ => 0
@[inherit_doc Ex.depth]
def Ex.depths : List Ex → Nat
  | [] => 0
  | e :: es => max e.depth (Ex.depths es)
end

/-- What a condition means to the tool: its text and, if it is in parentheses, the text between them. -/
def Ex.meaning (e : Ex) : SqlExpr :=
  { text := e.text
    inner := match e with
      | .tuple a [] => some a.text
      | _ => none }

end Sqldef.Spec.Written
