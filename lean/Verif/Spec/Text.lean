import Verif.Base.Str
/-!
Specification vocabulary for reading a schema text: lines, comment lines, blank texts, the pieces
between semicolons, and the number written by a decimal literal.
-/
namespace Sqldef.Spec

/-- The lines of a text. -/
def lines (s : Str) : List Str := splitOn '\n' s

/-- The text made of the given lines. -/
def ofLines (ls : List Str) : Str := join (lit "\n") ls

/-- A comment line: it starts with two dashes. -/
def CommentLine (l : Str) : Prop := ∃ rest, l = '-' :: '-' :: rest

instance (l : Str) : Decidable (CommentLine l) :=
  match l with
  | '-' :: '-' :: rest => .isTrue ⟨rest, rfl⟩
  | [] => .isFalse (by rintro ⟨r, h⟩; cases h)
  | [a] => .isFalse (by rintro ⟨r, h⟩; cases h)
  | a :: b :: rest =>
    if h : a = '-' ∧ b = '-' then .isTrue ⟨rest, by rw [h.1, h.2]⟩
    else .isFalse (by rintro ⟨r, e⟩; simp at e; exact h ⟨e.1, e.2.1⟩)

/-- No line of the text is a comment. -/
def NoComment (s : Str) : Prop := ∀ l ∈ lines s, ¬ CommentLine l

/-- Only white space. -/
def Blank (s : Str) : Prop := ∀ c ∈ s, isSpace c = true

/-- The text with every comment line made empty. -/
def withoutComments (s : Str) : Str :=
  ofLines ((lines s).map fun l => if CommentLine l then [] else l)

/-- The statements of a text: the pieces between semicolons of the text without comments, trimmed of
surrounding white space, without the blank ones. -/
def statementTexts (s : Str) : List Str :=
  ((splitOn ';' (withoutComments s)).map trimSpace).filter (· ≠ [])

/-- The value of a decimal digit. -/
def digit (c : Char) : Nat := c.toNat - '0'.toNat

/-- The number written by a sequence of decimal digits: the sum of the digits times their weights. -/
def decimal : Str → Nat
  | [] => 0
  | c :: s => digit c * 10 ^ s.length + decimal s

/-- The text is a non-empty sequence of decimal digits. -/
def Digits (s : Str) : Prop := s ≠ [] ∧ ∀ c ∈ s, '0' ≤ c ∧ c ≤ '9'

end Sqldef.Spec
