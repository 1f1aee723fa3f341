import Verif.Spec.Grammar
import Verif.Model.Yy

/-!
What it means that a parser goes by the grammar: derivation trees of the grammar of parser.y, what
they read, and what the actions make of them.  Nothing here knows of states or tables.
-/
namespace Sqldef.Spec
open Yy

/-- A derivation: a token (with the value the lexer gave it), or a rule applied to derivations of
the symbols of its right hand side. -/
inductive Tree (V : Type)
  | leaf (token : Nat) (v : V)
  | node (rule : Nat) (children : List (Tree V))

mutual
/-- The tokens a derivation reads, from left to right. -/
def Tree.tokens {V : Type} : Tree V → List (Nat × V)
  | .leaf t v => [(t, v)]
  | .node _ cs => tokensRead cs
@[inherit_doc Tree.tokens]
def tokensRead {V : Type} : List (Tree V) → List (Nat × V)
  | [] => []
  | c :: cs => c.tokens ++ tokensRead cs
end

mutual
/-- The value of a derivation: the actions applied from the leaves up. -/
def Tree.value {V : Type} (act : Nat → List V → V) : Tree V → V
  | .leaf _ v => v
  | .node r cs => act r (valuesOf act cs)
@[inherit_doc Tree.value]
def valuesOf {V : Type} (act : Nat → List V → V) : List (Tree V) → List V
  | [] => []
  | c :: cs => c.value act :: valuesOf act cs
end

mutual
/-- `Derives A d`: `d` is a derivation of the symbol `A` by the rules of the grammar. -/
inductive Derives {V : Type} : String → Tree V → Prop
  | leaf {name : String} {t : Nat} {v : V} (h : terminals[t]? = some name) :
      Derives name (.leaf (t + 1) v)
  | node {r : Nat} {A : String} {rhs : List String} {cs : List (Tree V)}
      (h : grammar[r]? = some (A, rhs)) (hc : DerivesAll rhs cs) : Derives A (.node r cs)
@[inherit_doc Derives]
inductive DerivesAll {V : Type} : List String → List (Tree V) → Prop
  | nil : DerivesAll [] []
  | cons {A : String} {As : List String} {c : Tree V} {cs : List (Tree V)}
      (h : Derives A c) (hs : DerivesAll As cs) : DerivesAll (A :: As) (c :: cs)
end

/-- The lexer makes its text smaller with every token but the end, and actions do not make it larger. -/
structure Shrinks {V L E : Type} (h : Host V L E) (size : L → Nat) : Prop where
  token : ∀ l char v l', h.lex l = .ok (char, v, l') → 0 < char → size l' < size l
  finish : ∀ l char v l', h.lex l = .ok (char, v, l') → size l' ≤ size l
  action : ∀ r vs l w l', h.act r vs l = .ok (w, l') → size l' ≤ size l

/-- The relation holds between derivations and values one by one. -/
def Each {V : Type} (R : Tree V → V → Prop) : List (Tree V) → List V → Prop
  | [], [] => True
  | c :: cs, v :: vs => R c v ∧ Each R cs vs
  | _, _ => False

/-- A relation between derivations and values that the lexer and the actions keep. -/
structure Kept {V L E : Type} (h : Host V L E) (R : Tree V → V → Prop) : Prop where
  leaf : ∀ t v, R (.leaf t v) v
  node : ∀ {r A rhs cs vs l w l'}, grammar[r]? = some (A, rhs) → DerivesAll rhs cs → Each R cs vs →
    h.act r vs l = .ok (w, l') → R (.node r cs) w

/-- The same lexer and the same actions, with a note of every token handed out. -/
def noting {V L E : Type} (h : Host V L E) : Host V (L × List (Int × V)) E where
  lex := fun l =>
    match h.lex l.1 with
    | .error e => .error e
    | .ok (char, v, l') => .ok (char, v, (l', l.2 ++ [(tokenOf char, v)]))
  act := fun r vs l =>
    match h.act r vs l.1 with
    | .ok (w, l') => .ok (w, (l', l.2))
    | .error (.inl e) => .error (.inl e)
    | .error (.inr l') => .error (.inr (l', l.2))

/-- The outcome without the notes. -/
def forget {V L E N : Type} : Outcome V (L × N) E → Outcome V L E
  | .accepted v l => .accepted v l.1
  | .rejected l => .rejected l.1
  | .fault => .fault
  | .resumes => .resumes
  | .stopped e => .stopped e

/-- Tokens as the notes have them. -/
def noted {V : Type} (ts : List (Nat × V)) : List (Int × V) := ts.map (fun p => ((p.1 : Int), p.2))

/-- A lexer that reads from a list of tokens (their character codes, all above 0, with values) and
then reports the end, with actions that only compute values. -/
def listHost {V : Type} (z : V) (act : Nat → List V → V) : Host V (List (Int × V)) Empty where
  lex := fun l => match l with
    | [] => .ok (0, z, [])
    | (c, v) :: rest => .ok (c, v, rest)
  act := fun r vs l => .ok (act r vs, l)

end Sqldef.Spec
