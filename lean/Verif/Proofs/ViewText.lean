import Verif.Spec.ViewRows
import Verif.Proofs.PgFile
import Verif.Proofs.LayoutCheck
/-
The text of a view after the adapters have put it on one line.
-/
namespace Sqldef
open Spec

/-- The text without line breaks and runs of spaces. -/
def onOneLine (s : Str) : Str := squeezeSpaces false (s.filter (· ≠ '\n'))

theorem squeeze_mem {run : Bool} {s : Str} {c : Char} (h : c ∈ squeezeSpaces run s) : c ∈ s := by
  induction s generalizing run with
  | nil => simp [squeezeSpaces] at h
  | cons d s ih =>
    unfold squeezeSpaces at h
    split at h
    · split at h
      · exact List.mem_cons_of_mem _ (ih h)
      · rcases List.mem_cons.mp h with rfl | h
        · rename_i hd _; simp [hd]
        · exact List.mem_cons_of_mem _ (ih h)
    · rcases List.mem_cons.mp h with rfl | h
      · simp
      · exact List.mem_cons_of_mem _ (ih h)

theorem onOneLine_mem {s : Str} {c : Char} (h : c ∈ onOneLine s) : c ∈ s ∧ c ≠ '\n' := by
  have := List.mem_filter.mp (squeeze_mem h)
  simpa using this

/-- Something after a first part that ends and something that begins without a space. -/
theorem squeeze_before {run : Bool} {x y : Str} (h : y.head? ≠ some ' ') :
    squeezeSpaces run (x ++ y) = squeezeSpaces run x ++ squeezeSpaces false y := by
  induction x generalizing run with
  | nil =>
    cases y with
    | nil => rfl
    | cons c y =>
      have hc : c ≠ ' ' := by simpa using h
      simp [squeezeSpaces, hc]
  | cons c x ih =>
    simp only [List.cons_append, squeezeSpaces]
    split
    · split
      · exact ih
      · simp [ih]
    · simp [ih]

theorem squeeze_double {run : Bool} (x y : Str) : squeezeSpaces run (x ++ (lit "  " ++ y)) = squeezeSpaces run (x ++ (lit " " ++ y)) := by
  induction x generalizing run with
  | nil => cases run <;> simp [lit, squeezeSpaces]
  | cons c x ih => simp only [List.cons_append, squeezeSpaces, ih]

theorem trimSuffix_mark {c : Char} {x y : Str} (hy : y ≠ []) : trimSuffix [c] (x ++ y) = x ++ trimSuffix [c] y := by
  rcases List.eq_nil_or_concat y with rfl | ⟨r, d, rfl⟩
  · exact absurd rfl hy
  · rw [List.concat_eq_append]
    by_cases h : d = c
    · subst h
      rw [trimSuffix_append, ← List.append_assoc, trimSuffix_append]
    · have no : ∀ z : Str, trimSuffix [c] (z ++ [d]) = z ++ [d] := by
        intro z
        unfold trimSuffix
        rw [if_neg]
        intro hs
        obtain ⟨w, hw⟩ := List.isSuffixOf_iff_suffix.mp hs
        have := List.append_inj_right' hw rfl
        simp at this
        exact h this.symm
      rw [no, ← List.append_assoc, no]

theorem squeeze_alone {run : Bool} {a y : Str} (hr : run = true → a.head? ≠ some ' ') (hd : ¬ [' ', ' '] <:+: a) (hl : a.getLast? ≠ some ' ')
    (hn : a ≠ []) : squeezeSpaces run (a ++ y) = a ++ squeezeSpaces false y := by
  induction a generalizing run with
  | nil => exact absurd rfl hn
  | cons c a ih =>
    have hd' : ¬ [' ', ' '] <:+: a := fun h => hd (h.trans (List.infix_cons (List.infix_refl _)))
    cases a with
    | nil =>
      have hc : c ≠ ' ' := by simpa using hl
      simp [squeezeSpaces, hc]
    | cons d a =>
      have hl' : (d :: a).getLast? ≠ some ' ' := by simpa using hl
      by_cases hc : c = ' '
      · subst hc
        have hr' : run = false := by
          cases run with
          | false => rfl
          | true => exact absurd rfl (hr rfl)
        subst hr'
        have hdd : d ≠ ' ' := by
          rintro rfl
          exact hd ⟨[], a, rfl⟩
        simp only [List.cons_append, squeezeSpaces]
        have := ih (run := true) (fun _ => by simpa using hdd) hd' hl' (by simp)
        simpa [squeezeSpaces] using this
      · have := ih (run := false) (by simp) hd' hl' (by simp)
        rw [List.cons_append, squeezeSpaces, if_neg hc, this]
        rfl

/-- The ways to write a token begin and end without a space. -/
theorem spells_ends {mode : Mode} {t : Token} {a rest : Str} (h : Spells mode t a rest) :
    a ≠ [] ∧ a.head? ≠ some ' ' ∧ a.getLast? ≠ some ' ' := by
  have word : ∀ {w : Str}, (∀ c ∈ w, isLetter c = true ∨ isDigit c = true) → ' ' ∉ w := fun hw hm => (by
    rcases hw ' ' hm with h | h <;> exact absurd h (by decide))
  have none_ : ∀ {w : Str}, w ≠ [] → ' ' ∉ w → w ≠ [] ∧ w.head? ≠ some ' ' ∧ w.getLast? ≠ some ' ' := fun hn hw =>
    ⟨hn, fun h => hw (List.mem_of_head? h), fun h => hw (List.mem_of_getLast? h)⟩
  have digit : ∀ {w : Str}, (∀ c ∈ w, isDigit c = true) → ' ' ∉ w := fun hw hm => absurd (hw ' ' hm) (by decide)
  cases h with
  | keyword hw =>
    refine none_ ?_ (word (word_letters hw))
    obtain ⟨⟨c, s, rfl, -⟩, -⟩ := hw
    simp
  | bare hw =>
    refine none_ ?_ (word (word_letters hw))
    obtain ⟨⟨c, s, rfl, -⟩, -⟩ := hw
    simp
  | @quoted o c n _ ho =>
    have key : ∀ p ∈ nameQuotes mode, p.1 ≠ ' ' ∧ p.2 ≠ ' ' := by cases mode <;> decide
    have := key _ ho
    refine ⟨by simp, by simpa using this.1, ?_⟩
    rw [List.getLast?_append]
    simpa using this.2
  | @string q src v _ hq =>
    have key : ∀ c ∈ stringQuotes mode, c ≠ ' ' := by cases mode <;> decide
    have := key _ hq
    refine ⟨by simp, by simpa using this, ?_⟩
    rw [List.getLast?_append]
    simpa using this
  | digits hn hs => exact none_ hn (digit hs)
  | negative hn hs =>
    refine none_ (by simp) ?_
    simp [digit hs]
  | fraction hn hs hf =>
    refine none_ (by simp) ?_
    simp [digit hs, digit hf]
  | @bits p b _ hp =>
    refine ⟨by simp, ?_, ?_⟩
    · rintro h
      have : p = ' ' := by simpa using h
      subst this
      revert hp
      decide
    · rw [List.getLast?_append]
      simp
  | @mark c _ hc =>
    have key : ∀ c ∈ ['(', ')', ',', '=', ';', '+', '*', '%', '^', '~'], c ≠ ' ' := by decide
    have := key c hc
    simpa using this
  | dot => simp
  | @bracket c _ _ hc =>
    have key : ∀ c ∈ ['[', ']'], c ≠ ' ' := by decide
    have := key c hc
    simpa using this
  | @operator a t cs _ ho =>
    have key : ∀ p ∈ operators, lit p.1 ≠ [] ∧ ' ' ∉ lit p.1 := by decide
    exact none_ (key _ ho).1 (key _ ho).2
  | cast => decide

/-- Whether a text spells a token depends on the next character only, and white space can follow every token. -/
theorem spells_next {mode : Mode} {t : Token} {a b b' : Str} (h : Spells mode t a b)
    (hb : b'.head? = b.head? ∨ ∃ c, b'.head? = some c ∧ (c = ' ' ∨ c = '\n' ∨ c = '\r' ∨ c = '\t')) : Spells mode t a b' := by
  have ends : ∀ {P : Char → Prop}, (∀ c, b.head? = some c → P c) → P ' ' → P '\n' → P '\r' → P '\t' → ∀ c, b'.head? = some c → P c := by
    intro P hP h1 h2 h3 h4 c hc
    rcases hb with e | ⟨d, hd, hbl⟩
    · exact hP c (e ▸ hc)
    · rw [hd] at hc
      cases hc
      rcases hbl with rfl | rfl | rfl | rfl <;> assumption
  have not_ : ∀ {d : Char}, d ∉ [' ', '\n', '\r', '\t'] → b.head? ≠ some d → b'.head? ≠ some d := by
    intro d hd hne he
    refine ends (P := (· ≠ d)) (fun c hc => ?_) ?_ ?_ ?_ ?_ d he rfl
    · rintro rfl; exact hne hc
    all_goals
      rintro rfl
      simp at hd
  cases h with
  | keyword hw hk he => exact .keyword hw hk (ends he (by decide) (by decide) (by decide) (by decide))
  | bare hw hk hd he => exact .bare hw hk hd (ends he (by decide) (by decide) (by decide) (by decide))
  | @quoted o q n _ ho hn he =>
    have key : ∀ p ∈ nameQuotes mode, p.2 ∉ [' ', '\n', '\r', '\t'] := by cases mode <;> decide
    exact .quoted ho hn (not_ (key _ ho) he)
  | @string q src v _ hq hs he =>
    have key : ∀ c ∈ stringQuotes mode, c ∉ [' ', '\n', '\r', '\t'] := by cases mode <;> decide
    exact .string hq hs (not_ (key _ hq) he)
  | digits hn hs he => exact .digits hn hs (ends he (by decide) (by decide) (by decide) (by decide))
  | negative hn hs he => exact .negative hn hs (ends he (by decide) (by decide) (by decide) (by decide))
  | fraction hn hs hf he => exact .fraction hn hs hf (ends he (by decide) (by decide) (by decide) (by decide))
  | bits hp hx => exact .bits hp hx
  | mark hc => exact .mark hc
  | @dot c rest hc =>
    cases b' with
    | nil =>
      rcases hb with e | ⟨d, hd, -⟩
      · cases e
      · cases hd
    | cons d b' =>
      refine .dot ?_
      exact ends (P := fun c => isDigit c = false) (fun x hx => by cases hx; exact hc) (by decide) (by decide) (by decide) (by decide) d rfl
  | bracket hm hc => exact .bracket hm hc
  | @operator a t cs _ ho he =>
    have key : ∀ p ∈ operators, ∀ c ∈ p.2.2, c ∉ [' ', '\n', '\r', '\t'] := by decide
    exact .operator ho fun c hc => not_ (key _ ho c hc) (he c hc)
  | cast hm => exact .cast hm

theorem onOneLine_blank {w : Str} (hw : ∀ c ∈ w, c = ' ' ∨ c = '\n' ∨ c = '\r' ∨ c = '\t') (hi : Indented w) (s : Str) :
    (squeezeSpaces false ((w ++ s).filter (· ≠ '\n'))).head? = (if w = [] then onOneLine s else onOneLine w).head? ∧
    (w ≠ [] → ∃ c, (onOneLine w).head? = some c ∧ (c = ' ' ∨ c = '\n' ∨ c = '\r' ∨ c = '\t')) := by
  cases w with
  | nil => simp [onOneLine]
  | cons c w =>
    by_cases hc : c = '\n'
    · subst hc
      obtain ⟨d, rfl⟩ := hi [] w rfl
      simp [onOneLine, squeezeSpaces]
    · have : ∀ x : Str, (squeezeSpaces false (c :: x)).head? = some c := by
        intro x
        rw [squeezeSpaces]
        split
        · rename_i h; simp [h]
        · rfl
      have hcm := hw c (by simp)
      refine ⟨?_, fun _ => ⟨c, ?_, hcm⟩⟩
      · simp only [onOneLine, List.cons_append]
        rw [List.filter_cons_of_pos (by simpa using hc), this, if_neg (by simp), List.filter_cons_of_pos (by simpa using hc), this]
      · rw [onOneLine, List.filter_cons_of_pos (by simpa using hc), this]

theorem onOneLine_piece {w a rest : Str} (ha : a ≠ [] ∧ a.head? ≠ some ' ' ∧ a.getLast? ≠ some ' ') (hn : '\n' ∉ a) (hd : ¬ [' ', ' '] <:+: a) :
    onOneLine (w ++ a ++ rest) = onOneLine w ++ a ++ onOneLine rest := by
  have e : a.filter (· ≠ '\n') = a := List.filter_eq_self.mpr fun c hc => by
    have : c ≠ '\n' := fun h => hn (h ▸ hc)
    simpa using this
  unfold onOneLine
  rw [List.append_assoc, List.filter_append, List.filter_append, e, squeeze_before, squeeze_alone (by simp) hd ha.2.2 ha.1, List.append_assoc]
  cases a with
  | nil => exact absurd rfl ha.1
  | cons c a => simpa using ha.2.1

/-- A tidy text means the same on one line. -/
theorem tidy_layout {mode : Mode} {text : Str} {ts : List Token} (h : IndentedText mode text ts) :
    Layout mode (onOneLine text) ts ∧ ((onOneLine text).head? = text.head? ∨ ∃ c, (onOneLine text).head? = some c ∧ (c = ' ' ∨ c = '\n' ∨ c = '\r' ∨ c = '\t')) := by
  induction h with
  | @nil w hw hi =>
    refine ⟨.nil fun c hc => hw c (onOneLine_mem hc).1, ?_⟩
    by_cases e : w = []
    · subst e; exact .inl rfl
    · exact .inr ((onOneLine_blank hw hi []).2 e)
  | @cons w a rest t ts hw hi hs hn hd _ ih =>
    have ha := spells_ends hs
    rw [onOneLine_piece ha hn hd]
    refine ⟨.cons (fun c hc => hw c (onOneLine_mem hc).1) (spells_next hs ih.2) ih.1, ?_⟩
    by_cases e : w = []
    · subst e
      refine .inl ?_
      cases a with
      | nil => exact absurd rfl ha.1
      | cons c a => rfl
    · refine .inr ?_
      obtain ⟨c, hc, hb⟩ := (onOneLine_blank hw hi []).2 e
      refine ⟨c, ?_, hb⟩
      cases hx : onOneLine w with
      | nil => rw [hx] at hc; cases hc
      | cons d x => rw [hx] at hc; simpa using hc

/-! ### A test -/

def indentedTest : Str → Bool
  | [] => true
  | c :: w => (decide (c ≠ '\n') || decide (w.head? = some ' ')) && indentedTest w

theorem indented_of_test {w : Str} (h : indentedTest w = true) : Indented w := by
  intro a b e
  induction a generalizing w with
  | nil =>
    subst e
    simp only [List.nil_append, indentedTest, Bool.and_eq_true, Bool.or_eq_true, decide_eq_true_eq] at h
    rcases h.1 with h | h
    · exact absurd rfl h
    · cases b with
      | nil => cases h
      | cons c b =>
        have : c = ' ' := by simpa using h
        exact ⟨b, by rw [this]⟩
  | cons c a ih =>
    subst e
    simp only [List.cons_append, indentedTest, Bool.and_eq_true] at h
    exact ih h.2 rfl

/-- The pieces are spellings of the tokens on one line, and lines are indented. -/
def tidyTest (mode : Mode) : List (String × String) → List Token → Bool
  | [], [] => true
  | (w, a) :: ps, t :: ts =>
    blankTest (lit w) && indentedTest (lit w) && spellsTest mode t (lit a) (ps.flatMap fun p => lit p.1 ++ lit p.2) &&
      decide ('\n' ∉ lit a ∧ ¬ [' ', ' '] <:+: lit a) && tidyTest mode ps ts
  | _, _ => false

theorem tidy_of_pieces {mode : Mode} : ∀ {ps : List (String × String)} {ts : List Token}, tidyTest mode ps ts = true →
    IndentedText mode (ps.flatMap fun p => lit p.1 ++ lit p.2) ts
  | [], [], _ => .nil (by simp) (by intro a b h; simp at h)
  | [], _ :: _, h => by simp [tidyTest] at h
  | _ :: _, [], h => by simp [tidyTest] at h
  | (w, a) :: ps, t :: ts, h => by
    simp only [tidyTest, Bool.and_eq_true, decide_eq_true_eq] at h
    rw [List.flatMap_cons]
    obtain ⟨⟨⟨⟨h1, h2⟩, h3⟩, h4, h5⟩, h6⟩ := h
    exact .cons (by simpa [blankTest] using h1) (indented_of_test h2) (spells_of_test h3) h4 h5 (tidy_of_pieces h6)

/-- The text, cut into these pieces, is a tidy way to write the tokens. -/
theorem tidy_of_test {mode : Mode} {text : Str} {ts : List Token} (ps : List (String × String))
    (h : (decide (text = ps.flatMap fun p => lit p.1 ++ lit p.2) && tidyTest mode ps ts) = true) : IndentedText mode text ts := by
  rw [Bool.and_eq_true] at h
  rw [of_decide_eq_true h.1]
  exact tidy_of_pieces h.2

end Sqldef
