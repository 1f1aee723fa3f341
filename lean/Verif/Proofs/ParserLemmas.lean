import Mathlib.Data.List.Forall2
import Verif.Model.Parser
import Verif.Spec.Text
import Verif.Proofs.StrLemmas
/-! Lemmas about reading a schema text. -/
namespace Sqldef
open Spec

/-- The line with a comment made empty. -/
def blankComment (l : Str) : Str := if CommentLine l then [] else l

theorem hasPrefix_dashes (s : Str) : hasPrefix (lit "--") s = true ↔ CommentLine s := by
  unfold hasPrefix
  rw [List.isPrefixOf_iff_prefix]
  constructor
  · rintro ⟨r, h⟩; exact ⟨r, by rw [← h]; rfl⟩
  · rintro ⟨r, h⟩; exact ⟨r, by rw [h]; rfl⟩

theorem splitOn_cons_ne (sep c : Char) (s : Str) (h : c ≠ sep) :
    ∃ p ps, splitOn sep s = p :: ps ∧ splitOn sep (c :: s) = (c :: p) :: ps := by
  cases hs : splitOn sep s with
  | nil => exact absurd hs (splitOn_ne_nil sep s)
  | cons p ps => exact ⟨p, ps, rfl, by simp [splitOn, h, hs]⟩

theorem commentLine_head (c : Char) (s p : Str) (ps : List Str) (h : splitOn '\n' s = p :: ps) :
    CommentLine (c :: s) ↔ CommentLine (c :: p) := by
  constructor
  · rintro ⟨r, e⟩
    simp at e
    obtain ⟨rfl, rfl⟩ := e
    obtain ⟨q, qs, h1, h2⟩ := splitOn_cons_ne '\n' '-' r (by decide)
    rw [h2] at h
    cases h
    exact ⟨q, rfl⟩
  · rintro ⟨r, e⟩
    simp at e
    obtain ⟨rfl, rfl⟩ := e
    have := join_splitOn '\n' s
    rw [h] at this
    cases ps with
    | nil => simp [join] at this; exact ⟨r, by rw [← this]⟩
    | cons q qs => simp [join] at this; exact ⟨r ++ '\n' :: join ['\n'] (q :: qs), by rw [← this]⟩

theorem join_cons (sep x : Str) (xs : List Str) (h : xs ≠ []) : join sep (x :: xs) = x ++ sep ++ join sep xs := by
  cases xs with
  | nil => exact absurd rfl h
  | cons y ys => rfl

/-- The three states of the comment remover, by lines. -/
theorem stripComments_lines (s : Str) :
    ∀ l ls, splitOn '\n' s = l :: ls →
      (∀ b, stripComments b true s = join ['\n'] ([] :: ls.map blankComment)) ∧
      stripComments false false s = join ['\n'] (l :: ls.map blankComment) ∧
      stripComments true false s = join ['\n'] (blankComment l :: ls.map blankComment) := by
  induction s with
  | nil =>
    intro l ls h
    simp [splitOn] at h
    obtain ⟨rfl, rfl⟩ := h
    refine ⟨fun b => ?_, ?_, ?_⟩ <;> simp [stripComments, join, blankComment]
  | cons c s ih =>
    intro l ls h
    by_cases hc : c = '\n'
    · subst hc
      simp [splitOn] at h
      obtain ⟨rfl, rfl⟩ := h
      obtain ⟨l, ls, hl⟩ : ∃ l ls, splitOn '\n' s = l :: ls := by
        cases hs : splitOn '\n' s with
        | nil => exact absurd hs (splitOn_ne_nil _ s)
        | cons l ls => exact ⟨l, ls, rfl⟩
      have := ih l ls hl
      have hn : blankComment ([] : Str) = [] := by simp [blankComment]
      refine ⟨fun b => ?_, ?_, ?_⟩ <;>
        simp [stripComments, this.2.2, hl, hn, join]
    · obtain ⟨p, ps, h1, h2⟩ := splitOn_cons_ne '\n' c s hc
      rw [h2] at h
      obtain ⟨rfl, rfl⟩ := (List.cons.inj h)
      have := ih p ps h1
      refine ⟨fun b => ?_, ?_, ?_⟩
      · simp [stripComments, hc, this.1]
      · simp only [stripComments, hc, if_false, Bool.false_and, Bool.false_eq_true, this.2.1]
        cases ps <;> simp [join]
      · simp only [stripComments, hc, if_false, Bool.true_and, Bool.false_eq_true]
        by_cases hp : CommentLine (c :: s)
        · rw [if_pos ((hasPrefix_dashes _).2 hp)]
          rw [this.1]
          simp [blankComment, (commentLine_head c s p ps h1).1 hp]
        · rw [if_neg (fun h => hp ((hasPrefix_dashes _).1 h))]
          rw [this.2.1]
          have hn : blankComment (c :: p) = c :: p := by
            unfold blankComment
            rw [if_neg fun h => hp ((commentLine_head c s p ps h1).2 h)]
          rw [hn]
          cases ps <;> simp [join]

theorem stripComments_eq (s : Str) : stripComments true false s = withoutComments s := by
  cases hs : splitOn '\n' s with
  | nil => exact absurd hs (splitOn_ne_nil _ s)
  | cons l ls =>
    rw [(stripComments_lines s l ls hs).2.2]
    simp only [withoutComments, ofLines, lines, hs, List.map_cons]
    rfl

theorem withoutComments_id (s : Str) (h : NoComment s) : withoutComments s = s := by
  unfold withoutComments ofLines
  have : (lines s).map (fun l => if CommentLine l then [] else l) = lines s := by
    rw [List.map_congr_left (g := id)]
    · simp
    · intro l hl; simp [h l hl]
  rw [this]
  exact join_splitOn '\n' s

/-! ### trimming -/

theorem dropWhile_append_of_all {p : Char → Bool} (a b : Str) (h : ∀ c ∈ a, p c = true) :
    (a ++ b).dropWhile p = b.dropWhile p := by
  induction a with
  | nil => rfl
  | cons c a ih =>
    simp [h c (by simp)]
    exact ih fun c hc => h c (by simp [hc])

theorem trimSpace_blank_left (w s : Str) (h : Blank w) : trimSpace (w ++ s) = trimSpace s := by
  simp [trimSpace, trimLeft, dropWhile_append_of_all w s h]

theorem trimRight_blank_right (s w : Str) (h : Blank w) : trimRight (s ++ w) = trimRight s := by
  simp only [trimRight, List.reverse_append]
  rw [dropWhile_append_of_all w.reverse s.reverse (fun c hc => h c (by simpa using hc))]

theorem dropWhile_all {p : Char → Bool} (a : Str) (h : ∀ c ∈ a, p c = true) : a.dropWhile p = [] := by
  have := dropWhile_append_of_all a [] h
  simpa using this

theorem trimSpace_blank (w : Str) (h : Blank w) : trimSpace w = [] := by
  simp [trimSpace, trimLeft, dropWhile_all w h, trimRight]

theorem dropWhile_append_of_exists {p : Char → Bool} (a b : Str) (h : ∃ c ∈ a, p c = false) :
    (a ++ b).dropWhile p = a.dropWhile p ++ b := by
  induction a with
  | nil => simp at h
  | cons c a ih =>
    by_cases hc : p c = true
    · simp [hc]
      apply ih
      obtain ⟨d, hd, hpd⟩ := h
      rcases List.mem_cons.1 hd with rfl | hd
      · rw [hc] at hpd; cases hpd
      · exact ⟨d, hd, hpd⟩
    · simp [hc]

theorem trimSpace_blank_right (s w : Str) (h : Blank w) : trimSpace (s ++ w) = trimSpace s := by
  by_cases hs : Blank s
  · rw [trimSpace_blank s hs, trimSpace_blank]
    intro c hc
    rcases List.mem_append.1 hc with hc | hc
    · exact hs c hc
    · exact h c hc
  · have : ∃ c ∈ s, isSpace c = false := by
      simp only [Blank, not_forall] at hs
      obtain ⟨c, hc, hp⟩ := hs
      exact ⟨c, hc, by simpa using hp⟩
    simp only [trimSpace, trimLeft]
    rw [dropWhile_append_of_exists s w this, trimRight_blank_right _ _ h]

theorem dropWhile_nil {p : Char → Bool} (a : Str) (h : a.dropWhile p = []) : ∀ c ∈ a, p c = true := by
  induction a with
  | nil => simp
  | cons c a ih =>
    by_cases hc : p c = true
    · simp [hc] at h ⊢; exact ih (by simpa using h)
    · simp [hc] at h

theorem head_dropWhile {p : Char → Bool} (a : Str) (x : Char) (t : Str) (h : a.dropWhile p = x :: t) :
    p x = false := by
  induction a with
  | nil => simp at h
  | cons c a ih =>
    by_cases hc : p c = true
    · simp [hc] at h; exact ih h
    · simp [hc] at h; rw [← h.1]; simpa using hc

theorem trimSpace_eq_nil (s : Str) : trimSpace s = [] ↔ Blank s := by
  constructor
  · intro h
    simp only [trimSpace, trimRight, trimLeft, List.reverse_eq_nil_iff] at h
    have h := dropWhile_nil _ h
    cases hd : s.dropWhile isSpace with
    | nil => exact dropWhile_nil s hd
    | cons x t =>
      have := h x (by simp [hd])
      rw [head_dropWhile s x t hd] at this; cases this
  · exact trimSpace_blank s

/-- A text without white space at its ends is what remains of it between white space. -/
theorem trimSpace_core (w1 s w2 : Str) (h1 : Blank w1) (h2 : Blank w2)
    (hh : ∀ c r, s = c :: r → isSpace c = false) (ht : ∀ r c, s = r ++ [c] → isSpace c = false) :
    trimSpace (w1 ++ s ++ w2) = s := by
  rw [trimSpace_blank_right _ _ h2, trimSpace_blank_left _ _ h1]
  have hl : trimLeft s = s := by
    unfold trimLeft
    cases s with
    | nil => rfl
    | cons c r => simp [hh c r rfl]
  unfold trimSpace
  rw [hl]
  unfold trimRight
  rcases List.eq_nil_or_concat s with rfl | ⟨r, c, rfl⟩
  · rfl
  · simp [ht r c (by simp)]

/-! ### pieces -/

/-- Concatenating two texts merges the last piece of the first with the first piece of the second. -/
theorem splitOn_append (sep : Char) (a b : Str) :
    ∃ init last first rest, splitOn sep a = init ++ [last] ∧ splitOn sep b = first :: rest ∧
      splitOn sep (a ++ b) = init ++ (last ++ first) :: rest := by
  induction a with
  | nil =>
    cases hb : splitOn sep b with
    | nil => exact absurd hb (splitOn_ne_nil sep b)
    | cons first rest => exact ⟨[], [], first, rest, by simp [splitOn], rfl, by simp [hb]⟩
  | cons c a ih =>
    obtain ⟨init, last, first, rest, h1, h2, h3⟩ := ih
    by_cases hc : c = sep
    · exact ⟨[] :: init, last, first, rest, by simp [splitOn, hc, h1], h2, by simp [splitOn, hc, h3]⟩
    · cases init with
      | nil =>
        exact ⟨[], c :: last, first, rest, by simp [splitOn, hc, h1], h2, by simp [splitOn, hc, h3]⟩
      | cons x xs =>
        exact ⟨(c :: x) :: xs, last, first, rest, by simp [splitOn, hc, h1], h2, by simp [splitOn, hc, h3]⟩

theorem parsePieces_eq (env : Env) (mode : Mode) (ps : List Str) :
    parsePieces env mode ps = ((ps.map trimSpace).filter (· ≠ [])).mapM (parseDDL env mode) := by
  induction ps with
  | nil => rfl
  | cons p ps ih =>
    simp only [parsePieces, List.map_cons]
    by_cases hp : trimSpace p = []
    · simp [hp, ih]
    · simp [hp, ih]

theorem parseDDLs_eq (env : Env) (mode : Mode) (s : Str) :
    parseDDLs env mode s = (statementTexts s).mapM (parseDDL env mode) := by
  rw [parseDDLs, stripComments_eq, parsePieces_eq]; rfl

theorem mapM_ok_iff {α β ε : Type} (f : α → Except ε β) (l : List α) (r : List β) :
    l.mapM f = .ok r ↔ List.Forall₂ (fun a b => f a = .ok b) l r := by
  induction l generalizing r with
  | nil =>
    constructor
    · intro h; cases h; exact .nil
    · intro h; cases h; rfl
  | cons a l ih =>
    rw [List.mapM_cons]
    cases ha : f a with
    | error e =>
      constructor
      · intro h; cases h
      · intro h; cases h with | cons h _ => rw [ha] at h; cases h
    | ok b =>
      cases hl : l.mapM f with
      | error e =>
        constructor
        · intro h; cases h
        · intro h; cases h with | cons _ h => rw [(ih _).2 h] at hl; cases hl
      | ok bs =>
        constructor
        · intro h; cases h; exact .cons ha ((ih _).1 hl)
        · intro h
          cases h with
          | cons h h' => rw [ha] at h; cases h; rw [(ih _).2 h'] at hl; cases hl; rfl

theorem mapM_error_iff {α β ε : Type} (f : α → Except ε β) (l : List α) (e : ε) :
    l.mapM f = .error e ↔ ∃ pre a post, l = pre ++ a :: post ∧ (∀ x ∈ pre, ∃ b, f x = .ok b) ∧ f a = .error e := by
  induction l with
  | nil => simp [pure, Except.pure]
  | cons x l ih =>
    rw [List.mapM_cons]
    cases hx : f x with
    | error e' =>
      simp only [bind, Except.bind, Except.error.injEq]
      constructor
      · rintro rfl; exact ⟨[], x, l, rfl, by simp, hx⟩
      · rintro ⟨pre, a, post, h1, h2, h3⟩
        cases pre with
        | nil => simp at h1; rw [h1.1] at hx; rw [hx] at h3; simpa using h3
        | cons y ys =>
          simp at h1
          obtain ⟨b, hb⟩ := h2 x (by simp [h1.1])
          rw [hx] at hb; cases hb
    | ok b =>
      simp only [bind, Except.bind]
      constructor
      · intro h
        cases hl : l.mapM f with
        | ok bs => rw [hl] at h; cases h
        | error e' =>
          rw [hl] at h
          simp at h
          subst h
          obtain ⟨pre, a, post, h1, h2, h3⟩ := ih.1 hl
          exact ⟨x :: pre, a, post, by simp [h1], by simpa [hx] using h2, h3⟩
      · rintro ⟨pre, a, post, h1, h2, h3⟩
        cases pre with
        | nil => simp at h1; rw [h1.1] at hx; rw [hx] at h3; cases h3
        | cons y ys =>
          simp at h1
          have := ih.2 ⟨ys, a, post, h1.2, fun z hz => h2 z (by simp [hz]), h3⟩
          rw [this]

/-- The definition made from a statement carries the text of the statement. -/
theorem convertStatement_statement (env : Env) (mode : Mode) (ddl : Str) (s : SqlStatement) (d : DDL)
    (h : convertStatement env mode ddl s = .ok d) : d.statement = ddl := by
  unfold convertStatement at h
  split at h
  · cases h
  · next x =>
    revert h
    simp only [bind, Except.bind, pure, Except.pure]
    repeat' split
    all_goals intro h
    all_goals first
      | (cases h; done)
      | (cases h; rfl)

end Sqldef
