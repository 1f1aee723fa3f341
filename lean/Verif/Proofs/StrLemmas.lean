import Verif.Base.Str
/-! Lemmas about the string functions of `Verif.Base.Str`. -/
namespace Sqldef

theorem contains_iff (sub s : Str) : contains sub s = true ↔ sub <:+: s := by
  induction s with
  | nil => simp [contains]
  | cons c s ih =>
    simp only [contains, Bool.or_eq_true, ih, List.isPrefixOf_iff_prefix]
    exact List.infix_cons_iff.symm

theorem contains_append_mid (sub a b : Str) : contains sub (a ++ (sub ++ b)) = true := by
  rw [contains_iff]; exact ⟨a, b, by simp⟩

theorem contains_append_left {sub a : Str} (b : Str) (h : contains sub a = true) :
    contains sub (a ++ b) = true := by
  rw [contains_iff] at *; exact h.trans (List.prefix_append a b).isInfix

theorem contains_append_right {sub b : Str} (a : Str) (h : contains sub b = true) :
    contains sub (a ++ b) = true := by
  rw [contains_iff] at *; exact h.trans (List.suffix_append a b).isInfix

theorem any_eq_iff_mem (l : List Str) (s : Str) : (l.any (· = s)) = true ↔ s ∈ l := by
  simp

/-! ### splitting and joining -/

theorem splitOn_ne_nil (sep : Char) (s : Str) : splitOn sep s ≠ [] := by
  cases s with
  | nil => simp [splitOn]
  | cons c s =>
    simp only [splitOn]
    split
    · simp
    · split <;> simp

/-- Splitting a text with a separator-free head. -/
theorem splitOn_append_sep (sep : Char) (a s : Str) (h : sep ∉ a) :
    splitOn sep (a ++ sep :: s) = a :: splitOn sep s := by
  induction a with
  | nil => simp [splitOn]
  | cons c a ih =>
    simp only [List.mem_cons, not_or] at h
    have hc : c ≠ sep := fun e => h.1 e.symm
    simp [splitOn, hc, ih h.2]

theorem splitOn_no_sep (sep : Char) (a : Str) (h : sep ∉ a) : splitOn sep a = [a] := by
  induction a with
  | nil => simp [splitOn]
  | cons c a ih =>
    simp only [List.mem_cons, not_or] at h
    have hc : c ≠ sep := fun e => h.1 e.symm
    simp [splitOn, hc, ih h.2]

/-- No piece contains the separator. -/
theorem not_mem_splitOn (sep : Char) (s p : Str) (h : p ∈ splitOn sep s) : sep ∉ p := by
  induction s generalizing p with
  | nil => simp [splitOn] at h; simp [h]
  | cons c s ih =>
    simp only [splitOn] at h
    split at h
    · rcases List.mem_cons.1 h with h | h
      · simp [h]
      · exact ih p h
    next hc =>
      split at h
      · next hs => exact absurd hs (splitOn_ne_nil sep s)
      · next q qs hs =>
        rcases List.mem_cons.1 h with h | h
        · subst h
          have := ih q (by simp [hs])
          simp only [List.mem_cons, not_or]
          exact ⟨fun e => hc e.symm, this⟩
        · exact ih p (by simp [hs, h])

/-- Joining the pieces with the separator gives the text back. -/
theorem join_splitOn (sep : Char) (s : Str) : join [sep] (splitOn sep s) = s := by
  induction s with
  | nil => simp [splitOn, join]
  | cons c s ih =>
    simp only [splitOn]
    split
    · next hc =>
      cases hs : splitOn sep s with
      | nil => exact absurd hs (splitOn_ne_nil sep s)
      | cons q qs => rw [hs] at ih; simp [join, hc, ih]
    · split
      · next hs => exact absurd hs (splitOn_ne_nil sep s)
      · next q qs hs =>
        rw [hs] at ih
        cases qs with
        | nil => simp_all [join]
        | cons r rs => simp_all [join]

theorem splitDot_eq_none (s : Str) : splitDot s = none ↔ '.' ∉ s := by
  induction s with
  | nil => simp [splitDot]
  | cons c s ih =>
    simp only [splitDot]
    split
    · next h => simp [h]
    · next h =>
      split
      · next hs => simp [ih.1 hs]; exact fun e => h e.symm
      · next a b hs =>
        simp only [List.mem_cons, not_or]
        constructor
        · intro h'; cases h'
        · intro h'; rw [ih.2 h'.2] at hs; cases hs

theorem splitDot_eq_some (s a b : Str) : splitDot s = some (a, b) ↔ s = a ++ '.' :: b ∧ '.' ∉ a := by
  induction s generalizing a with
  | nil => simp [splitDot]
  | cons c s ih =>
    simp only [splitDot]
    split
    · next h =>
      subst h
      constructor
      · intro h; simp at h; obtain ⟨rfl, rfl⟩ := h; simp
      · rintro ⟨h, hn⟩
        cases a with
        | nil => simp at h; simp [h]
        | cons x a => simp at h; simp [h.1.symm] at hn
    · next h =>
      split
      · next hs =>
        constructor
        · intro h'; cases h'
        · rintro ⟨e, hn⟩
          cases a with
          | nil => simp at e; exact absurd e.1 h
          | cons x a =>
            simp at e
            have := (ih a).2 ⟨e.2, by simp at hn; exact hn.2⟩
            rw [hs] at this; cases this
      · next a' b' hs =>
        constructor
        · intro h'
          simp at h'
          obtain ⟨rfl, rfl⟩ := h'
          have := (ih a').1 hs
          simp [this.1, this.2]; exact fun e => h e.symm
        · rintro ⟨e, hn⟩
          cases a with
          | nil => simp at e; exact absurd e.1 h
          | cons x a =>
            simp at e
            have := (ih a).2 ⟨e.2, by simp at hn; exact hn.2⟩
            rw [hs] at this; simp at this; simp [this, e.1]

/-! ### trimming -/

theorem trimSuffixSpace_append_nonspace (s : Str) (c : Char) (h : c ≠ ' ') :
    trimSuffixSpace (s ++ [c]) = s ++ [c] := by
  induction s with
  | nil => simp [trimSuffixSpace, h]
  | cons d s ih =>
    cases s with
    | nil => simp [trimSuffixSpace, h]
    | cons e s => simp [trimSuffixSpace] at ih ⊢; exact ih

theorem trimSuffixSpace_append_space (s : Str) : trimSuffixSpace (s ++ [' ']) = s := by
  induction s with
  | nil => simp [trimSuffixSpace]
  | cons d s ih =>
    cases s with
    | nil => simp [trimSuffixSpace]
    | cons e s => simp [trimSuffixSpace] at ih ⊢; exact ih

theorem trimSuffixSpace_append (a b : Str) (h : b ≠ []) :
    trimSuffixSpace (a ++ b) = a ++ trimSuffixSpace b := by
  induction a with
  | nil => rfl
  | cons c a ih =>
    cases hab : a ++ b with
    | nil => simp at hab; exact absurd hab.2 h
    | cons d r => simp only [List.cons_append, hab, trimSuffixSpace]; rw [← hab, ih]

end Sqldef
