import Verif.Proofs.LayoutText
/-
A test for layouts: for the texts of the examples.
-/
namespace Sqldef
open Spec

def blankTest (w : Str) : Bool := w.all fun c => c = ' ' ∨ c = '\n' ∨ c = '\r' ∨ c = '\t'

def wordTest (w : Str) : Bool :=
  (match w with | [] => false | c :: s => isLetter c && s.all fun d => isLetter d || isDigit d) && !(lit "@@").isPrefixOf w

def endsWordTest (rest : Str) : Bool :=
  match rest with | [] => true | c :: _ => !isLetter c && !isDigit c && decide (c ≠ '\'')

def endsNumberTest (rest : Str) : Bool :=
  match rest with | [] => true | c :: _ => !isLetter c && !isDigit c && decide (c ≠ '.')

def spellsTest (mode : Mode) (t : Token) (a rest : Str) : Bool :=
  (wordTest a && endsWordTest rest && match keywordCode (toLower a) with
    | some code => decide (t = ⟨.code code, toLower a⟩)
    | none => decide (toLower a ≠ lit "dual" ∧ t = ⟨.id, a⟩)) ||
  ((nameQuotes mode).any fun q => decide (t = ⟨.id, t.val⟩ ∧ t.val ≠ [] ∧ a = q.1 :: doubled q.2 t.val ++ [q.2] ∧ rest.head? ≠ some q.2)) ||
  ((stringQuotes mode).any fun q => decide (t = ⟨.string, t.val⟩ ∧ a = q :: t.val ++ [q] ∧ (∀ c ∈ t.val, c ≠ q ∧ c ≠ '\\') ∧
    rest.head? ≠ some q)) ||
  (decide (t = ⟨.integral, a⟩ ∧ a ≠ [] ∧ ∀ c ∈ a, isDigit c = true) && endsNumberTest rest) ||
  (['(', ')', ',', '=', ';', '+', '*', '%', '^', '~'].any fun c => decide (t = ⟨.char c, []⟩ ∧ a = [c])) ||
  (match rest with | [] => false | c :: _ => decide (isDigit c = false ∧ t = ⟨.char '.', []⟩ ∧ a = ['.'])) ||
  (['[', ']'].any fun c => decide (mode ≠ .mssql ∧ t = ⟨.char c, []⟩ ∧ a = [c])) ||
  (operators.any fun o => decide (t = o.2.1 ∧ a = lit o.1 ∧ ∀ c ∈ o.2.2, rest.head? ≠ some c)) ||
  decide (mode = .postgres ∧ t = ⟨.code (lit "TYPECAST"), lit "::"⟩ ∧ a = lit "::")

theorem word_of_test {w : Str} (h : wordTest w = true) : IsWord w := by
  unfold wordTest at h
  rw [Bool.and_eq_true] at h
  obtain ⟨h1, h2⟩ := h
  refine ⟨?_, fun hp => by rw [List.isPrefixOf_iff_prefix.mpr hp] at h2; simp at h2⟩
  cases w with
  | nil => simp at h1
  | cons c s =>
    simp only [Bool.and_eq_true, List.all_eq_true, Bool.or_eq_true] at h1
    exact ⟨c, s, rfl, h1.1, h1.2⟩

theorem endsWord_of_test {rest : Str} (h : endsWordTest rest = true) : EndsWord rest := by
  intro c hc
  cases rest with
  | nil => cases hc
  | cons d s =>
    cases hc
    simpa [endsWordTest, and_assoc] using h

theorem endsNumber_of_test {rest : Str} (h : endsNumberTest rest = true) : EndsNumber rest := by
  intro c hc
  cases rest with
  | nil => cases hc
  | cons d s =>
    cases hc
    simpa [endsNumberTest, and_assoc] using h

theorem stringBody_plain {q : Char} : ∀ {v : Str}, (∀ c ∈ v, c ≠ q ∧ c ≠ '\\') → StringBody q v v
  | [], _ => .nil
  | c :: v, h => .plain (h c (by simp)).1 (h c (by simp)).2 (stringBody_plain fun d hd => h d (by simp [hd]))

theorem spells_of_test {mode : Mode} {t : Token} {a rest : Str} (h : spellsTest mode t a rest = true) : Spells mode t a rest := by
  unfold spellsTest at h
  simp only [Bool.or_eq_true] at h
  rcases h with (((((((h | h) | h) | h) | h) | h) | h) | h) | h
  · simp only [Bool.and_eq_true] at h
    obtain ⟨⟨h1, h2⟩, h3⟩ := h
    cases hk : keywordCode (toLower a) with
    | some code =>
      rw [hk] at h3
      rw [of_decide_eq_true h3]
      exact .keyword (word_of_test h1) hk (endsWord_of_test h2)
    | none =>
      rw [hk] at h3
      have h3 := of_decide_eq_true h3
      rw [h3.2]
      exact .bare (word_of_test h1) hk h3.1 (endsWord_of_test h2)
  · rw [List.any_eq_true] at h
    obtain ⟨q, hq, h⟩ := h
    obtain ⟨h1, h2, h3, h4⟩ := of_decide_eq_true h
    rw [h1, h3]
    exact .quoted hq h2 h4
  · rw [List.any_eq_true] at h
    obtain ⟨q, hq, h⟩ := h
    obtain ⟨h1, h2, h3, h4⟩ := of_decide_eq_true h
    rw [h1, h2]
    exact .string hq (stringBody_plain h3) h4
  · rw [Bool.and_eq_true] at h
    obtain ⟨h1, h2, h3⟩ := of_decide_eq_true h.1
    rw [h1]
    exact .digits h2 h3 (endsNumber_of_test h.2)
  · rw [List.any_eq_true] at h
    obtain ⟨c, hc, h⟩ := h
    obtain ⟨h1, h2⟩ := of_decide_eq_true h
    rw [h1, h2]
    exact .mark hc
  · cases rest with
    | nil => simp at h
    | cons c rest =>
      obtain ⟨h1, h2, h3⟩ := of_decide_eq_true h
      rw [h2, h3]
      exact .dot h1
  · rw [List.any_eq_true] at h
    obtain ⟨c, hc, h⟩ := h
    obtain ⟨h0, h1, h2⟩ := of_decide_eq_true h
    rw [h1, h2]
    exact .bracket h0 hc
  · rw [List.any_eq_true] at h
    obtain ⟨⟨o, t', cs⟩, ho, h⟩ := h
    obtain ⟨h1, h2, h3⟩ := of_decide_eq_true h
    rw [h1, h2]
    exact .operator ho h3
  · obtain ⟨h1, h2, h3⟩ := of_decide_eq_true h
    rw [h2, h3]
    exact .cast h1

/-- The pieces are spellings of the tokens, with white space before each of them. -/
def layoutTest (mode : Mode) : List (String × String) → List Token → Bool
  | [], [] => true
  | (w, a) :: ps, t :: ts =>
    blankTest (lit w) && spellsTest mode t (lit a) (ps.flatMap fun p => lit p.1 ++ lit p.2) && layoutTest mode ps ts
  | _, _ => false

theorem layout_of_pieces {mode : Mode} : ∀ {ps : List (String × String)} {ts : List Token}, layoutTest mode ps ts = true →
    Layout mode (ps.flatMap fun p => lit p.1 ++ lit p.2) ts
  | [], [], _ => .nil (by simp)
  | [], _ :: _, h => by simp [layoutTest] at h
  | _ :: _, [], h => by simp [layoutTest] at h
  | (w, a) :: ps, t :: ts, h => by
    simp only [layoutTest, Bool.and_eq_true] at h
    rw [List.flatMap_cons]
    exact .cons (by simpa [blankTest] using h.1.1) (spells_of_test h.1.2) (layout_of_pieces h.2)

/-- The text, cut into these pieces, is a layout of the tokens. -/
theorem layout_of_test {mode : Mode} {text : Str} {ts : List Token} (ps : List (String × String))
    (h : (decide (text = ps.flatMap fun p => lit p.1 ++ lit p.2) && layoutTest mode ps ts) = true) : Layout mode text ts := by
  rw [Bool.and_eq_true] at h
  rw [of_decide_eq_true h.1]
  exact layout_of_pieces h.2

end Sqldef
