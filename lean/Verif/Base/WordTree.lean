import Verif.Base.Str
/-
Search trees of words. A Go map with constant words is looked up in such a tree, since a list takes the kernel long; that the
tree finds what the list of the map's entries holds is proved beside each of them.
-/
namespace Sqldef

/-- The number of a word: its characters as digits, the first one last. -/
def wordKey : Str → Nat
  | [] => 0
  | c :: s => Nat.add (Nat.succ c.toNat) (Nat.mul (nat_lit 2097152) (wordKey s))

theorem wordKey_inj : ∀ {a b : Str}, wordKey a = wordKey b → a = b
  | [], [], _ => rfl
  | [], c :: s, h => by
    have : wordKey (c :: s) = (c.toNat + 1) + 2097152 * wordKey s := rfl
    rw [this, wordKey] at h
    omega
  | c :: s, [], h => by
    have : wordKey (c :: s) = (c.toNat + 1) + 2097152 * wordKey s := rfl
    rw [this, wordKey] at h
    omega
  | c :: s, d :: t, h => by
    have e : ∀ (c : Char) s, wordKey (c :: s) = (c.toNat + 1) + 2097152 * wordKey s := fun _ _ => rfl
    rw [e, e] at h
    have hc : ∀ c : Char, c.toNat < 1114112 := fun c => by
      have := c.valid
      have e : c.toNat = c.val.toNat := rfl
      rw [e]
      rcases this with h | h
      · exact Nat.lt_trans h (by decide)
      · exact h.2
    have h1 := hc c
    have h2 := hc d
    have hn : c.toNat = d.toNat := by omega
    have hk : wordKey s = wordKey t := by omega
    rw [wordKey_inj hk, Char.ext (UInt32.toNat_inj.mp hn)]

/-- A tree of numbers with something at each; smaller numbers on the left. -/
inductive WordTree (α : Type)
  | leaf
  | node (left : WordTree α) (key : Nat) (val : α) (right : WordTree α)

def WordTree.find {α : Type} : WordTree α → Nat → Option α
  | .leaf, _ => none
  | .node l k v r, n =>
    match Nat.beq n k with
    | true => some v
    | false =>
      match Nat.ble n k with
      | true => l.find n
      | false => r.find n

def WordTree.keys {α : Type} : WordTree α → List Nat
  | .leaf => []
  | .node l k _ r => l.keys ++ k :: r.keys

theorem WordTree.find_mem {α : Type} : ∀ (t : WordTree α) {n : Nat} {v : α}, t.find n = some v → n ∈ t.keys
  | .leaf, n, v, h => by cases h
  | .node l k w r, n, v, h => by
    rw [WordTree.find] at h
    rw [WordTree.keys, List.mem_append, List.mem_cons]
    split at h
    · rename_i hk
      exact .inr (.inl (Nat.eq_of_beq_eq_true hk))
    · split at h
      · exact .inl (l.find_mem h)
      · exact .inr (.inr (r.find_mem h))

/-- A tree finds what a list holds. -/
theorem WordTree.find_eq {α : Type} {t : WordTree α} {xs : List (Str × α)}
    (h1 : ∀ p ∈ xs, t.find (wordKey p.1) = some p.2) (h2 : ∀ k ∈ t.keys, k ∈ xs.map fun p => wordKey p.1) (w : Str) :
    t.find (wordKey w) = (xs.find? fun p => decide (p.1 = w)).map fun p => p.2 := by
  cases hx : xs.find? fun p => decide (p.1 = w) with
  | some p =>
    have hp := List.mem_of_find?_eq_some hx
    have hw := List.find?_some hx
    simp only [decide_eq_true_eq] at hw
    subst hw
    exact h1 p hp
  | none =>
    cases ht : t.find (wordKey w) with
    | none => rfl
    | some v =>
      obtain ⟨p, hp, hk⟩ := List.mem_map.mp (h2 _ (t.find_mem ht))
      have := List.find?_eq_none.mp hx p hp
      simp only [decide_eq_true_eq] at this
      exact absurd (wordKey_inj hk) this

end Sqldef
