import Verif.Proofs.SqlReads
import Verif.Spec.Written

/-! Derivations of what is written: their tokens, and what the tables do with them. -/
namespace Sqldef.Sql
open Spec Yy Written

/-- The number of a token in the tables. -/
def no (t : TokenType) : Nat := (tokenOf (tokenCode t)).toNat

/-- The derivation that is one token. -/
def lf (t : Token) : Tree SymType := .leaf (no t.type) { bytes := t.val }

/-- The tokens of a derivation, as the driver sees them. -/
def said (d : Tree SymType) : List (Int × SymType) := noted d.tokens
@[inherit_doc said] def saidAll (cs : List (Tree SymType)) : List (Int × SymType) := noted (tokensRead cs)

theorem tokenOf_nonneg (c : Int) : ((tokenOf c).toNat : Int) = tokenOf c := by
  have key : ∀ (f d : Nat), ((((if f = 0 then (d : Int) else (f : Int))).toNat : Nat) : Int) =
      if f = 0 then (d : Int) else (f : Int) := by
    intro f d
    split <;> rw [Int.toNat_natCast]
  exact key _ _

theorem said_lf (t : Token) : said (lf t) = [seenAs t] := by
  rw [said, lf, Tree.tokens, noted, seenAs, no]
  simp only [List.map_cons, List.map_nil, tokenOf_nonneg]

-- from here on the tables are left to the kernel
attribute [irreducible] no

theorem said_node (r : Nat) (cs : List (Tree SymType)) : said (.node r cs) = saidAll cs := rfl
theorem saidAll_nil : saidAll [] = [] := rfl
theorem saidAll_cons (c : Tree SymType) (cs : List (Tree SymType)) : saidAll (c :: cs) = said c ++ saidAll cs := by
  simp [said, saidAll, tokensRead, noted]

mutual
/-- The derivation without the values. -/
def blank {V : Type} : Tree V → Tree Unit
  | .leaf t _ => .leaf t ()
  | .node r cs => .node r (blankAll cs)
@[inherit_doc blank]
def blankAll {V : Type} : List (Tree V) → List (Tree Unit)
  | [] => []
  | c :: cs => blank c :: blankAll cs
end

mutual
theorem tokens_blank {V : Type} : ∀ d : Tree V, (blank d).tokens.map (·.1) = d.tokens.map (·.1)
  | .leaf t v => rfl
  | .node r cs => by rw [blank, Tree.tokens, Tree.tokens]; exact tokens_blankAll cs
theorem tokens_blankAll {V : Type} : ∀ cs : List (Tree V),
    (tokensRead (blankAll cs)).map (·.1) = (tokensRead cs).map (·.1)
  | [] => rfl
  | c :: cs => by
    rw [blankAll, tokensRead, tokensRead, List.map_append, List.map_append, tokens_blank c, tokens_blankAll cs]
end

theorem length_blankAll {V : Type} : ∀ cs : List (Tree V), (blankAll cs).length = cs.length
  | [] => rfl
  | c :: cs => by rw [blankAll, List.length_cons, List.length_cons, length_blankAll cs]

theorem headToken_blank {V : Type} (cs : List (Tree V)) (la : Nat) : headToken (blankAll cs) la = headToken cs la := by
  have h := tokens_blankAll cs
  unfold headToken
  cases h1 : tokensRead (blankAll cs) with
  | nil =>
    cases h2 : tokensRead cs with
    | nil => rfl
    | cons p ps => rw [h1, h2] at h; cases h
  | cons q qs =>
    cases h2 : tokensRead cs with
    | nil => rw [h1, h2] at h; cases h
    | cons p ps =>
      rw [h1, h2] at h
      simp only [List.map_cons, List.cons.injEq] at h
      exact h.1

mutual
/-- The tables do not look at the values. -/
theorem readsTree_blank {V M : Type} (eff : Nat → M → Option M) : ∀ (d : Tree V) (s : Int) (m : M) (la : Nat),
    readsTree eff s m d la = readsTree eff s m (blank d) la
  | .leaf t v, s, m, la => by rw [blank, readsTree, readsTree]
  | .node r cs, s, m, la => by
    rw [blank, readsTree, readsTree, readsAll_blank eff cs s m la, length_blankAll]
@[inherit_doc readsTree_blank]
theorem readsAll_blank {V M : Type} (eff : Nat → M → Option M) : ∀ (cs : List (Tree V)) (s : Int) (m : M) (la : Nat),
    readsAll eff s m cs la = readsAll eff s m (blankAll cs) la
  | [], s, m, la => rfl
  | c :: cs, s, m, la => by
    rw [blankAll, readsAll, readsAll, headToken_blank, readsTree_blank eff c]
    cases readsTree eff s m (blank c) (headToken cs la) with
    | none => rfl
    | some q => exact readsAll_blank eff cs q.1 q.2 la
end

/-- What a derivation starts with may be exchanged for something that the tables treat alike. -/
theorem reads_first {V M : Type} {eff : Nat → M → Option M} {s : Int} {m : M} {d d' : Tree V} {cs : List (Tree V)} {la r : Nat}
    (h : readsTree eff s m d (headToken cs la) = readsTree eff s m d' (headToken cs la)) :
    readsTree eff s m (.node r (d :: cs)) la = readsTree eff s m (.node r (d' :: cs)) la := by
  rw [readsTree, readsTree, readsAll, readsAll, h]
  rfl

/-- The rules that ask something of their values. -/
def asking (r : Nat) : Bool := r == 131 || r == 132 || r == 139 || r == 577

mutual
/-- A derivation without such rules. -/
def tame {V : Type} : Tree V → Bool
  | .leaf _ _ => true
  | .node r cs => !asking r && tameAll cs
@[inherit_doc tame]
def tameAll {V : Type} : List (Tree V) → Bool
  | [] => true
  | c :: cs => tame c && tameAll cs
end

theorem asks_of_tame {r : Nat} (h : asking r = false) (vs : List SymType) : asks r vs := by
  simp only [asking, Bool.or_eq_false_iff, beq_eq_false_iff_ne, ne_eq] at h
  obtain ⟨⟨⟨h1, h2⟩, h3⟩, h4⟩ := h
  exact ⟨fun e => absurd e h1, fun e => absurd e h2, fun e => absurd e h3, fun e => absurd e h4⟩

mutual
theorem fine_of_tame : ∀ d : Tree SymType, tame d = true → fine valueOf asks d
  | .leaf t v, _ => trivial
  | .node r cs, h => by
    rw [tame, Bool.and_eq_true, Bool.not_eq_true'] at h
    exact ⟨asks_of_tame h.1 _, fineAll_of_tame cs h.2⟩
theorem fineAll_of_tame : ∀ cs : List (Tree SymType), tameAll cs = true → fineAll valueOf asks cs
  | [], _ => trivial
  | c :: cs, h => by
    rw [tameAll, Bool.and_eq_true] at h
    exact ⟨fine_of_tame c h.1, fineAll_of_tame cs h.2⟩
end

end Sqldef.Sql
