import Verif.Proofs.WrittenBase

/-! Lists in derivations: a rule adds one more to what is there. -/
namespace Sqldef.Sql
open Spec Yy Written

theorem blank_lf (t : Token) : blank (lf t) = .leaf (no t.type) () := rfl
theorem value_lf (t : Token) : (lf t).value valueOf = { bytes := t.val } := rfl
theorem value_node (r : Nat) (cs : List (Tree SymType)) : (Tree.node r cs).value valueOf = valueOf r (valuesOf valueOf cs) := rfl
theorem tame_lf (t : Token) : tame (lf t) = true := rfl

/-- A derivation that grows to the right: `f x` is the rule for `x` and what it adds. -/
def grow {X : Type} (f : X → Nat × List (Tree SymType)) (d : Tree SymType) : List X → Tree SymType
  | [] => d
  | x :: xs => grow f (.node (f x).1 (d :: (f x).2)) xs

variable {X : Type} {f : X → Nat × List (Tree SymType)}

theorem grow_append (d : Tree SymType) : ∀ xs ys : List X, grow f d (xs ++ ys) = grow f (grow f d xs) ys := by
  intro xs
  induction xs generalizing d with
  | nil => intro ys; rfl
  | cons x xs ih => intro ys; exact ih _ ys

theorem said_grow (d : Tree SymType) (xs : List X) : said (grow f d xs) = said d ++ xs.flatMap fun x => saidAll (f x).2 := by
  induction xs generalizing d with
  | nil => simp [grow]
  | cons x xs ih => rw [grow, ih, said_node, saidAll_cons, List.flatMap_cons, List.append_assoc]

theorem tame_grow (d : Tree SymType) (xs : List X) (hd : tame d = true)
    (h : ∀ x ∈ xs, asking (f x).1 = false ∧ tameAll (f x).2 = true) : tame (grow f d xs) = true := by
  induction xs generalizing d with
  | nil => exact hd
  | cons x xs ih =>
    refine ih _ ?_ fun y hy => h y (List.mem_cons_of_mem _ hy)
    have hx := h x List.mem_cons_self
    rw [tame, tameAll, hx.1, hd, hx.2]
    rfl

theorem value_grow {A : Type} {g : SymType → A} {ap : A → X → A} (d : Tree SymType) (xs : List X)
    (h : ∀ x ∈ xs, ∀ v, g (valueOf (f x).1 (v :: valuesOf valueOf (f x).2)) = ap (g v) x) :
    g ((grow f d xs).value valueOf) = xs.foldl ap (g (d.value valueOf)) := by
  induction xs generalizing d with
  | nil => rfl
  | cons x xs ih =>
    rw [grow, ih _ (fun y hy => h y (List.mem_cons_of_mem _ hy)), List.foldl_cons, value_node, valuesOf,
      h x List.mem_cons_self]

/-- A list is read like a fixed derivation `d₀`. -/
theorem reads_grow {P : Nat → Prop} {s : Int} {t : Int × Nat} {d d₀ : Tree SymType} {xs : List X}
    (hd : ∀ la, P la → readsTree nestEff s 0 d la = some t) (h0 : ∀ la, P la → readsTree nestEff s 0 d₀ la = some t)
    (h : ∀ x ∈ xs, ∀ la, P la → P (headToken (f x).2 la) ∧
      readsTree nestEff s 0 (.node (f x).1 (d₀ :: (f x).2)) la = some t) :
    ∀ la, P la → readsTree nestEff s 0 (grow f d xs) la = some t := by
  induction xs generalizing d with
  | nil => exact hd
  | cons x xs ih =>
    refine ih (fun la hla => ?_) fun y hy => h y (List.mem_cons_of_mem _ hy)
    have hx := h x List.mem_cons_self la hla
    rw [reads_first ((hd _ hx.1).trans (h0 _ hx.1).symm)]
    exact hx.2

/-- The first token of a derivation. -/
def first (d : Tree SymType) : Option Nat := d.tokens.head?.map (·.1)

theorem headToken_cons (d : Tree SymType) (cs : List (Tree SymType)) (la : Nat) :
    headToken (d :: cs) la = (first d).getD (headToken cs la) := by
  unfold headToken first
  rw [tokensRead]
  cases h : d.tokens with
  | nil => rfl
  | cons p ps => rfl

theorem first_node (r : Nat) (d : Tree SymType) (cs : List (Tree SymType)) (h : first d ≠ none) :
    first (.node r (d :: cs)) = first d := by
  unfold first at *
  rw [Tree.tokens, tokensRead]
  cases h' : d.tokens with
  | nil => rw [h'] at h; exact absurd rfl h
  | cons p ps => rfl

theorem first_grow (d : Tree SymType) (xs : List X) (h : first d ≠ none) : first (grow f d xs) = first d := by
  induction xs generalizing d with
  | nil => rfl
  | cons x xs ih => rw [grow, ih _ (by rw [first_node _ _ _ h]; exact h), first_node _ _ _ h]

theorem first_blank {d d' : Tree SymType} (h : blank d = blank d') : first d = first d' := by
  have h1 := tokens_blank d
  rw [h, tokens_blank d'] at h1
  unfold first
  rw [← List.head?_map, ← List.head?_map, h1]

theorem readsAll_append {s : Int} {m : Nat} (xs ys : List (Tree SymType)) (la : Nat) :
    readsAll nestEff s m (xs ++ ys) la =
      (readsAll nestEff s m xs (headToken ys la)).bind fun q => readsAll nestEff q.1 q.2 ys la := by
  induction xs generalizing s m with
  | nil => rfl
  | cons x xs ih =>
    have hh : headToken (xs ++ ys) la = headToken xs (headToken ys la) := by
      unfold headToken
      have : tokensRead (xs ++ ys) = tokensRead xs ++ tokensRead ys := by
        clear ih
        induction xs with
        | nil => rfl
        | cons x xs ih => rw [List.cons_append, tokensRead, tokensRead, ih, List.append_assoc]
      rw [this]
      cases tokensRead xs with
      | nil => rfl
      | cons p ps => rfl
    rw [List.cons_append, readsAll, readsAll, hh]
    cases readsTree nestEff s m x (headToken xs (headToken ys la)) with
    | none => rfl
    | some q => exact ih

/-- A part of a derivation may be exchanged for one that starts alike and is read alike. -/
theorem reads_part {s : Int} {r la : Nat} {q : Int × Nat} (xs cs : List (Tree SymType)) {d d' : Tree SymType}
    (hf : first d = first d') (hq : readsAll nestEff s 0 xs ((first d').getD (headToken cs la)) = some q)
    (h : readsTree nestEff q.1 q.2 d (headToken cs la) = readsTree nestEff q.1 q.2 d' (headToken cs la)) :
    readsTree nestEff s 0 (.node r (xs ++ d :: cs)) la = readsTree nestEff s 0 (.node r (xs ++ d' :: cs)) la := by
  have key : readsAll nestEff s 0 (xs ++ d :: cs) la = readsAll nestEff s 0 (xs ++ d' :: cs) la := by
    rw [readsAll_append, readsAll_append, headToken_cons, headToken_cons, hf, hq]
    show readsAll _ _ _ _ _ = readsAll _ _ _ _ _
    rw [readsAll, readsAll, h]
  rw [readsTree, readsTree, key]
  simp only [List.length_append, List.length_cons]

/-- Two derivations with the same shape are read alike. -/
theorem reads_alike {s : Int} {m : Nat} {d d' : Tree SymType} (h : blank d = blank d') (la : Nat) :
    readsTree nestEff s m d la = readsTree nestEff s m d' la := by
  rw [readsTree_blank nestEff d, readsTree_blank nestEff d', h]

theorem blank_first_child {r : Nat} {d d' : Tree SymType} (h : blank d = blank d') (cs : List (Tree SymType)) :
    blank (.node r (d :: cs)) = blank (.node r (d' :: cs)) := by
  rw [blank, blank, blankAll, blankAll, h]

end Sqldef.Sql
