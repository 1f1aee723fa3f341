import Verif.Model.Lexer
/-!
Reading a token does not depend on what follows after a separator.
-/
namespace Sqldef

/-- White space, parentheses, comma and semicolon: they end every token and never continue one. -/
def isSep (c : Char) : Bool := isBlank c || c = '(' || c = ')' || c = ',' || c = ';'

/-- A comment up to the end of the line whose end of line has not been seen. -/
def openComment (t : Token) : Prop :=
  t.type = .comment ∧ t.val.getLast? ≠ some '\n' ∧ ¬ (lit "/*") <+: t.val

/-- The token is complete, whatever follows after a separator. -/
def complete (t : Token) : Prop := t.type ≠ .lexError ∧ ¬ openComment t

theorem isSep_cases {c : Char} (h : isSep c = true) :
    c = ' ' ∨ c = '\n' ∨ c = '\r' ∨ c = '\t' ∨ c = '(' ∨ c = ')' ∨ c = ',' ∨ c = ';' := by
  simpa [isSep, isBlank, or_assoc] using h

theorem isSep_letter {c : Char} (h : isSep c = true) : isLetter c = false := by
  rcases isSep_cases h with rfl|rfl|rfl|rfl|rfl|rfl|rfl|rfl <;> rfl

theorem isSep_digit {c : Char} (h : isSep c = true) : isDigit c = false := by
  rcases isSep_cases h with rfl|rfl|rfl|rfl|rfl|rfl|rfl|rfl <;> rfl

theorem isSep_carat {c : Char} (h : isSep c = true) : isCarat c = false := by
  rcases isSep_cases h with rfl|rfl|rfl|rfl|rfl|rfl|rfl|rfl <;> rfl

theorem isSep_digitVal {c : Char} (h : isSep c = true) : digitVal c = 16 := by
  rcases isSep_cases h with rfl|rfl|rfl|rfl|rfl|rfl|rfl|rfl <;> rfl

/-- A separator is none of the characters that can continue a token. -/
theorem isSep_ne {c d : Char} (h : isSep c = true)
    (hd : d ∈ ['\'', '"', '`', ']', '\\', '+', '-', '.', 'e', 'E', 'x', 'X', '&', '|', '=', '<', '>', '/', '*', '!',
      '\x00', ':']) : c ≠ d := by
  rcases isSep_cases h with rfl|rfl|rfl|rfl|rfl|rfl|rfl|rfl <;> (rintro rfl; revert hd; decide)

theorem takeWhile_append_stop {p : Char → Bool} {s w : Str} {b : Char} (hb : p b = false) :
    (s ++ b :: w).takeWhile p = s.takeWhile p := by
  induction s with
  | nil => simp [hb]
  | cons c s ih => by_cases hc : p c <;> simp [List.takeWhile_cons, hc, ih]

theorem dropWhile_append_stop {p : Char → Bool} {s w : Str} {b : Char} (hb : p b = false) :
    (s ++ b :: w).dropWhile p = s.dropWhile p ++ b :: w := by
  induction s with
  | nil => simp [hb]
  | cons c s ih => by_cases hc : p c <;> simp [List.dropWhile_cons, hc, ih]

section
variable {b : Char} {w : Str} (hb : isSep b = true)
include hb

theorem scanIdentifier_local (c : Char) (sysVar : Bool) (s : Str) :
    scanIdentifier c sysVar (s ++ b :: w) =
      ((scanIdentifier c sysVar s).1, (scanIdentifier c sysVar s).2 ++ b :: w) := by
  have hp : (isLetter b || isDigit b || (sysVar && isCarat b)) = false := by
    simp [isSep_letter hb, isSep_digit hb, isSep_carat hb]
  unfold scanIdentifier
  dsimp only
  rw [takeWhile_append_stop (p := fun c => isLetter c || isDigit c || (sysVar && isCarat c)) hp,
    dropWhile_append_stop (p := fun c => isLetter c || isDigit c || (sysVar && isCarat c)) hp]
  split
  · rfl
  · split <;> rfl

theorem scanMantissa_local (n : Nat) (hn : n ≤ 16) (s : Str) :
    scanMantissa n (s ++ b :: w) = ((scanMantissa n s).1, (scanMantissa n s).2 ++ b :: w) := by
  have hp : decide (digitVal b < n) = false := by simp [isSep_digitVal hb, hn]
  unfold scanMantissa
  rw [takeWhile_append_stop hp, dropWhile_append_stop hp]

theorem scanHex_local (s : Str) (h : (scanHex s).1.type ≠ .lexError) :
    scanHex (s ++ b :: w) = ((scanHex s).1, (scanHex s).2 ++ b :: w) := by
  unfold scanHex at *
  rw [scanMantissa_local hb 16 (by decide) s]
  generalize scanMantissa 16 s = r at *
  obtain ⟨digits, rest⟩ := r
  cases rest with
  | nil => simp at h
  | cons c rest =>
    by_cases hc : c = '\''
    · subst hc; simp; split <;> rfl
    · simp [hc] at h

theorem scanBitLiteral_local (s : Str) (h : (scanBitLiteral s).1.type ≠ .lexError) :
    scanBitLiteral (s ++ b :: w) = ((scanBitLiteral s).1, (scanBitLiteral s).2 ++ b :: w) := by
  unfold scanBitLiteral at *
  rw [scanMantissa_local hb 2 (by decide) s]
  generalize scanMantissa 2 s = r at *
  obtain ⟨digits, rest⟩ := r
  cases rest with
  | nil => simp at h
  | cons c rest =>
    by_cases hc : c = '\''
    · subst hc; simp
    · simp [hc] at h

omit hb in
theorem literalIdentifierLoop_local {sep : Char} (hsep : b ≠ sep) (seen : Bool) (s buf rest : Str)
    (h : literalIdentifierLoop sep seen s = (buf, some rest)) :
    literalIdentifierLoop sep seen (s ++ b :: w) = (buf, some (rest ++ b :: w)) := by
  induction s generalizing seen buf with
  | nil =>
    cases seen <;> simp [literalIdentifierLoop] at h
    obtain ⟨rfl, rfl⟩ := h
    simp [literalIdentifierLoop, hsep]
  | cons c s ih =>
    cases seen with
    | true =>
      simp only [List.cons_append]
      rw [literalIdentifierLoop] at h ⊢
      split
      · next hc => rw [if_pos hc] at h; cases h; rfl
      · next hc =>
        rw [if_neg hc] at h
        cases hl : literalIdentifierLoop sep false s with
        | mk b' r =>
          rw [hl] at h
          cases h
          rw [ih _ _ hl]
    | false =>
      simp only [List.cons_append]
      rw [literalIdentifierLoop] at h ⊢
      split
      · next hc => rw [if_pos hc] at h; exact ih _ _ h
      · next hc =>
        rw [if_neg hc] at h
        cases hl : literalIdentifierLoop sep false s with
        | mk b' r =>
          rw [hl] at h
          cases h
          rw [ih _ _ hl]

omit hb in
theorem scanLiteralIdentifier_local {sep : Char} (hsep : b ≠ sep) (s : Str)
    (h : (scanLiteralIdentifier sep s).1.type ≠ .lexError) :
    scanLiteralIdentifier sep (s ++ b :: w) =
      ((scanLiteralIdentifier sep s).1, (scanLiteralIdentifier sep s).2 ++ b :: w) := by
  unfold scanLiteralIdentifier at h ⊢
  cases hl : literalIdentifierLoop sep false s with
  | mk buf r =>
    cases r with
    | none => rw [hl] at h; simp at h
    | some rest =>
      rw [literalIdentifierLoop_local hsep _ _ _ _ hl]
      dsimp only
      split <;> rfl

theorem scanBindName_local (t : TokenType) (buf s : Str) (h : (scanBindName t buf s).1.type ≠ .lexError) :
    scanBindName t buf (s ++ b :: w) = ((scanBindName t buf s).1, (scanBindName t buf s).2 ++ b :: w) := by
  have hp : (isLetter b || isDigit b || decide (b = '.')) = false := by
    simp [isSep_letter hb, isSep_digit hb, isSep_ne hb (d := '.') (by decide)]
  unfold scanBindName at *
  cases s with
  | nil => simp at h
  | cons c s =>
    cases hc : isLetter c with
    | false => simp [hc] at h
    | true =>
      have h1 := takeWhile_append_stop (s := c :: s) (w := w)
        (p := fun c => isLetter c || isDigit c || decide (c = '.')) hp
      have h2 := dropWhile_append_stop (s := c :: s) (w := w)
        (p := fun c => isLetter c || isDigit c || decide (c = '.')) hp
      simp only [List.cons_append] at h1 h2
      simp only [hc, List.cons_append, Bool.not_true, Bool.false_eq_true, if_false, h1, h2]

theorem scanBindVar_local (mode : Mode) (s : Str) (h : (scanBindVar mode s).1.type ≠ .lexError) :
    scanBindVar mode (s ++ b :: w) = ((scanBindVar mode s).1, (scanBindVar mode s).2 ++ b :: w) := by
  cases s with
  | nil => simp [scanBindVar, scanBindName] at h
  | cons c s =>
    by_cases hc : c = ':'
    · subst hc
      unfold scanBindVar at h ⊢
      simp only [List.cons_append] at h ⊢
      split
      · rfl
      · next hm => rw [if_neg hm] at h; exact scanBindName_local hb _ _ _ h
    · have e1 : scanBindVar mode (c :: s) = scanBindName .valueArg (lit ":") (c :: s) := by
        unfold scanBindVar; split
        · next heq => exact absurd (List.cons.inj heq).1 hc
        · rfl
      have e2 : scanBindVar mode (c :: s ++ b :: w) = scanBindName .valueArg (lit ":") (c :: s ++ b :: w) := by
        unfold scanBindVar; split
        · next heq => exact absurd (List.cons.inj heq).1 hc
        · rfl
      rw [e1] at h ⊢
      rw [e2]
      exact scanBindName_local hb _ _ _ h

theorem numberExit_local (t : TokenType) (buf s : Str) :
    numberExit t buf (s ++ b :: w) = ((numberExit t buf s).1, (numberExit t buf s).2 ++ b :: w) := by
  unfold numberExit
  cases s with
  | nil => simp [isSep_letter hb]
  | cons c s => simp only [List.cons_append]; split <;> rfl

theorem takeSign_local (s : Str) : takeSign (s ++ b :: w) = ((takeSign s).1, (takeSign s).2 ++ b :: w) := by
  unfold takeSign
  cases s with
  | nil => simp [isSep_ne hb (d := '+') (by decide), isSep_ne hb (d := '-') (by decide)]
  | cons c s => simp only [List.cons_append]; split <;> rfl

theorem numberExponent_local (t : TokenType) (buf s : Str) :
    numberExponent t buf (s ++ b :: w) = ((numberExponent t buf s).1, (numberExponent t buf s).2 ++ b :: w) := by
  cases s with
  | nil =>
    have e : numberExponent t buf ([] ++ b :: w) = numberExit t buf (b :: w) := by
      simp [numberExponent, isSep_ne hb (d := 'e') (by decide), isSep_ne hb (d := 'E') (by decide)]
    rw [e]
    exact numberExit_local hb t buf []
  | cons c s =>
    unfold numberExponent
    simp only [List.cons_append]
    split
    · rw [takeSign_local hb, scanMantissa_local hb 10 (by decide)]
      exact numberExit_local hb _ _ _
    · exact numberExit_local hb t buf (c :: s)

theorem numberInteger_local (buf s : Str) :
    numberInteger buf (s ++ b :: w) = ((numberInteger buf s).1, (numberInteger buf s).2 ++ b :: w) := by
  unfold numberInteger
  rw [scanMantissa_local hb 10 (by decide)]
  generalize scanMantissa 10 s = r
  obtain ⟨digits, rest⟩ := r
  cases rest with
  | nil =>
    dsimp only [List.nil_append]
    split
    · next heq => exact absurd (List.cons.inj heq).1 (isSep_ne hb (by decide))
    · exact numberExponent_local hb _ _ []
  | cons c rest =>
    dsimp only [List.cons_append]
    by_cases hc : c = '.'
    · subst hc
      change numberExponent .float (buf ++ digits ++ ['.'] ++ (scanMantissa 10 (rest ++ b :: w)).1)
        (scanMantissa 10 (rest ++ b :: w)).2 = _
      rw [scanMantissa_local hb 10 (by decide)]
      exact numberExponent_local hb _ _ _
    · split
      · next heq => exact absurd (List.cons.inj heq).1 hc
      · split
        · next heq => exact absurd (List.cons.inj heq).1 hc
        · exact numberExponent_local hb _ _ (c :: rest)

theorem scanNumber_local (s : Str) :
    scanNumber (s ++ b :: w) = ((scanNumber s).1, (scanNumber s).2 ++ b :: w) := by
  have hx := isSep_ne hb (d := 'x') (by decide)
  have hX := isSep_ne hb (d := 'X') (by decide)
  have h0 : b ≠ '0' := by rintro rfl; simp [isSep, isBlank] at hb
  rcases s with _ | ⟨c, _ | ⟨d, s⟩⟩
  · have : scanNumber ([] ++ b :: w) = numberInteger [] (b :: w) := by
      unfold scanNumber; split <;> first | (next heq => exact absurd (List.cons.inj heq).1 h0) | rfl
    rw [this]
    exact numberInteger_local hb [] []
  · by_cases hc : c = '0'
    · subst hc
      have : scanNumber (['0'] ++ b :: w) = numberInteger ['0'] (b :: w) := by
        unfold scanNumber
        split
        · next heq => exact absurd (List.cons.inj (List.cons.inj heq).2).1 hx
        · next heq => exact absurd (List.cons.inj (List.cons.inj heq).2).1 hX
        · next heq => rw [← (List.cons.inj heq).2]; rfl
        · next h => exact absurd rfl (h _)
      rw [this]
      exact numberInteger_local hb ['0'] []
    · have e1 : scanNumber ([c] ++ b :: w) = numberInteger [] ([c] ++ b :: w) := by
        unfold scanNumber; split <;> first | (next heq => exact absurd (List.cons.inj heq).1 hc) | rfl
      have e2 : scanNumber [c] = numberInteger [] [c] := by
        unfold scanNumber; split <;> first | (next heq => exact absurd (List.cons.inj heq).1 hc) | rfl
      rw [e1, e2]
      exact numberInteger_local hb [] [c]
  · by_cases hc : c = '0'
    · subst hc
      by_cases hd : d = 'x'
      · subst hd
        simp only [scanNumber, List.cons_append]
        rw [scanMantissa_local hb 16 (by decide)]
        exact numberExit_local hb _ _ _
      · by_cases hD : d = 'X'
        · subst hD
          simp only [scanNumber, List.cons_append]
          rw [scanMantissa_local hb 16 (by decide)]
          exact numberExit_local hb _ _ _
        · have e : ∀ r, scanNumber ('0' :: d :: r) = numberInteger ['0'] (d :: r) := by
            intro r
            unfold scanNumber
            split
            · next heq => exact absurd (List.cons.inj (List.cons.inj heq).2).1 hd
            · next heq => exact absurd (List.cons.inj (List.cons.inj heq).2).1 hD
            · next heq => rw [← (List.cons.inj heq).2]
            · next h => exact absurd rfl (h _)
          simp only [List.cons_append, e]
          exact numberInteger_local hb ['0'] (d :: s)
    · have e : ∀ r, scanNumber (c :: r) = numberInteger [] (c :: r) := by
        intro r
        unfold scanNumber; split <;> first | (next heq => exact absurd (List.cons.inj heq).1 hc) | rfl
      simp only [List.cons_append, e]
      exact numberInteger_local hb [] (c :: d :: s)

theorem scanFraction_local (s : Str) :
    scanFraction (s ++ b :: w) = ((scanFraction s).1, (scanFraction s).2 ++ b :: w) := by
  unfold scanFraction
  rw [scanMantissa_local hb 10 (by decide)]
  exact numberExponent_local hb _ _ _

end

/-! The loop of `scanString` one character at a time. -/

theorem scanStringLoop_nil (delim : Char) (buf : Str) : scanStringLoop delim buf [] = (⟨.lexError, buf⟩, []) := by
  rw [scanStringLoop]

theorem scanStringLoop_special {delim c : Char} (buf s : Str) (hc : c = delim ∨ c = '\\') :
    scanStringLoop delim buf (c :: s) = scanStringLoop.step delim c buf s := by
  rw [scanStringLoop]
  rw [if_neg (by rintro ⟨h1, h2⟩; exact hc.elim h1 h2)]

theorem scanStringLoop_plain {delim c : Char} (buf s : Str) (h1 : c ≠ delim) (h2 : c ≠ '\\') :
    scanStringLoop delim buf (c :: s) = scanStringLoop delim (buf ++ [c]) s := by
  rw [scanStringLoop, if_pos ⟨h1, h2⟩]
  cases s with
  | nil => simp [scanStringLoop_nil]
  | cons d s =>
    by_cases hd : d = delim ∨ d = '\\'
    · rw [scanStringLoop_special _ _ hd]
      have hp : (!(decide (d = delim) || decide (d = '\\'))) = false := by
        rcases hd with rfl | rfl <;> simp
      dsimp only
      split
      · next h => rw [List.dropWhile_cons, hp] at h; simp at h
      · next c' s' h =>
        rw [List.dropWhile_cons, hp] at h
        simp only [Bool.false_eq_true, if_false] at h
        obtain ⟨rfl, rfl⟩ := List.cons.inj h
        rw [List.takeWhile_cons, hp]
        simp
    · have hd' : d ≠ delim ∧ d ≠ '\\' := by simpa using hd
      have hp : (!(decide (d = delim) || decide (d = '\\'))) = true := by simpa using hd'
      conv => rhs; rw [scanStringLoop, if_pos hd']
      dsimp only
      rw [List.takeWhile_cons, hp]
      simp only [if_true]
      split
      · next h =>
        rw [List.dropWhile_cons, hp] at h
        simp only [if_true] at h
        split
        · simp
        · next h' => rw [h] at h'; cases h'
      · next c' s' h =>
        rw [List.dropWhile_cons, hp] at h
        simp only [if_true] at h
        split
        · next h' => rw [h] at h'; cases h'
        · next h' =>
          rw [h] at h'
          obtain ⟨rfl, rfl⟩ := List.cons.inj h'
          simp

theorem scanStringLoop_escape {delim : Char} (buf : Str) (e : Char) (s : Str) :
    scanStringLoop delim buf ('\\' :: e :: s) = scanStringLoop delim (buf ++ [sqlDecode e]) s := by
  rw [scanStringLoop_special _ _ (.inr rfl), scanStringLoop.step, if_pos rfl]

theorem scanStringLoop_double {delim : Char} (buf s : Str) (hd : delim ≠ '\\') :
    scanStringLoop delim buf (delim :: delim :: s) = scanStringLoop delim (buf ++ [delim]) s := by
  rw [scanStringLoop_special _ _ (.inl rfl), scanStringLoop.step, if_neg hd]
  simp

theorem scanStringLoop_end {delim : Char} (buf s : Str) (hd : delim ≠ '\\') (hs : s.head? ≠ some delim) :
    scanStringLoop delim buf (delim :: s) = (⟨.string, buf⟩, s) := by
  rw [scanStringLoop_special _ _ (.inl rfl)]
  unfold scanStringLoop.step
  rw [if_neg hd]
  cases s with
  | nil => rfl
  | cons d s => simp at hs; simp [hs]

theorem scanStringLoop_local {b : Char} {w : Str} {delim : Char} (hd : delim ≠ '\\') (hbd : b ≠ delim) (n : Nat)
    (buf s : Str) (hn : s.length ≤ n) (h : (scanStringLoop delim buf s).1.type ≠ .lexError) :
    scanStringLoop delim buf (s ++ b :: w) =
      ((scanStringLoop delim buf s).1, (scanStringLoop delim buf s).2 ++ b :: w) := by
  induction n generalizing s buf with
  | zero =>
    have : s = [] := by simpa using hn
    subst this
    simp [scanStringLoop_nil] at h
  | succ n ih =>
    rcases s with _ | ⟨c, s⟩
    · simp [scanStringLoop_nil] at h
    · by_cases hc : c = '\\'
      · subst hc
        rcases s with _ | ⟨e, s⟩
        · rw [scanStringLoop_special _ _ (.inr rfl)] at h; unfold scanStringLoop.step at h; simp at h
        · simp only [List.cons_append]
          rw [scanStringLoop_escape] at h ⊢
          rw [scanStringLoop_escape]
          exact ih _ _ (by simp at hn; omega) h
      · by_cases hcd : c = delim
        · subst hcd
          rcases s with _ | ⟨e, s⟩
          · rw [scanStringLoop_end _ _ hd (by simp)]
            simp only [List.cons_append, List.nil_append]
            rw [scanStringLoop_end _ _ hd (by simpa using hbd)]
          · simp only [List.cons_append]
            by_cases he : e = c
            · subst he
              rw [scanStringLoop_double _ _ hd] at h ⊢
              rw [scanStringLoop_double _ _ hd]
              exact ih _ _ (by simp at hn; omega) h
            · rw [scanStringLoop_end _ _ hd (by simpa using he), scanStringLoop_end _ _ hd (by simpa using he)]
              rfl
        · simp only [List.cons_append]
          rw [scanStringLoop_plain _ _ hcd hc] at h ⊢
          rw [scanStringLoop_plain _ _ hcd hc]
          exact ih _ _ (by simp at hn; omega) h

theorem scanString_local {b : Char} {w : Str} {delim : Char} (hd : delim ≠ '\\') (hbd : b ≠ delim) (s : Str)
    (h : (scanString delim s).1.type ≠ .lexError) :
    scanString delim (s ++ b :: w) = ((scanString delim s).1, (scanString delim s).2 ++ b :: w) :=
  scanStringLoop_local hd hbd s.length [] s (Nat.le_refl _) h

theorem getLast_takeWhile_newline {s : Str} : (s.takeWhile (· ≠ '\n')).getLast? ≠ some '\n' := by
  intro h
  have hm := List.mem_of_getLast? h
  have := List.all_eq_true.1 (List.all_takeWhile (p := (· ≠ '\n')) (l := s)) _ hm
  simp at this

theorem scanCommentType1_local {b : Char} {w : Str} (pre s : Str) (hp : pre.getLast? ≠ some '\n')
    (hc : ∀ x, ¬ (lit "/*") <+: pre ++ x)
    (h : ¬ openComment (scanCommentType1 pre s).1) :
    scanCommentType1 pre (s ++ b :: w) = ((scanCommentType1 pre s).1, (scanCommentType1 pre s).2 ++ b :: w) := by
  unfold scanCommentType1 at h ⊢
  dsimp only at h ⊢
  cases hd : s.dropWhile (· ≠ '\n') with
  | nil =>
    exfalso
    rw [hd] at h
    refine h ⟨rfl, ?_, hc _⟩
    intro hl
    rw [List.getLast?_append] at hl
    cases ht : (s.takeWhile (· ≠ '\n')).getLast? with
    | none => rw [ht] at hl; exact hp (by simpa using hl)
    | some x =>
      rw [ht] at hl
      simp at hl
      subst hl
      exact getLast_takeWhile_newline ht
  | cons c r =>
    have hc' : c = '\n' := by
      have := List.head?_dropWhile_not (· ≠ '\n') s
      rw [hd] at this
      simpa using this
    have e : ∀ s : Str, s.dropWhile (· ≠ '\n') = c :: r →
        (s ++ b :: w).takeWhile (· ≠ '\n') = s.takeWhile (· ≠ '\n') ∧
        (s ++ b :: w).dropWhile (· ≠ '\n') = c :: (r ++ b :: w) := by
      intro s
      induction s with
      | nil => intro h; simp at h
      | cons d s ih =>
        intro h
        by_cases hdn : d = '\n'
        · subst hdn
          simp at h
          obtain ⟨rfl, rfl⟩ := h
          simp
        · rw [List.dropWhile_cons] at h
          simp only [ne_eq, hdn, not_false_eq_true, decide_true, if_true] at h
          have := ih h
          simp only [List.cons_append, List.takeWhile_cons, List.dropWhile_cons]
          simp only [ne_eq, hdn, not_false_eq_true, decide_true, if_true]
          exact ⟨by rw [this.1], this.2⟩
    rw [(e s hd).1, (e s hd).2]

theorem commentLoop_local {s body rest : Str} (w : Str) (h : commentLoop s = some (body, rest)) :
    commentLoop (s ++ w) = some (body, rest ++ w) := by
  induction s generalizing body rest with
  | nil => simp [commentLoop] at h
  | cons c s ih =>
    by_cases hc : c = '*'
    · subst hc
      cases s with
      | nil => simp [commentLoop] at h
      | cons d s =>
        by_cases hd : d = '/'
        · subst hd
          simp [commentLoop] at h
          obtain ⟨rfl, rfl⟩ := h
          simp [commentLoop]
        · have e : ∀ r, commentLoop ('*' :: d :: r) =
              (commentLoop (d :: r)).map fun (body, rest) => ('*' :: body, rest) := by
            intro r
            conv => lhs; unfold commentLoop
            rw [if_pos rfl]
            split
            · next heq => exact absurd (List.cons.inj heq).1 hd
            · rfl
          rw [e] at h
          simp only [List.cons_append] at ih ⊢
          rw [e]
          simp only [Option.map_eq_some_iff, Prod.mk.injEq] at h ⊢
          obtain ⟨⟨b, r⟩, hr, rfl, rfl⟩ := h
          exact ⟨(b, r ++ w), ih hr, rfl, rfl⟩
    · have e : ∀ r, commentLoop (c :: r) = (commentLoop r).map fun (body, rest) => (c :: body, rest) := by
        intro r
        conv => lhs; unfold commentLoop
        rw [if_neg hc]
      rw [e] at h
      simp only [List.cons_append]
      rw [e]
      simp only [Option.map_eq_some_iff, Prod.mk.injEq] at h ⊢
      obtain ⟨⟨b, r⟩, hr, rfl, rfl⟩ := h
      exact ⟨(b, r ++ w), ih hr, rfl, rfl⟩

theorem scanCommentType2_local (w s : Str) (h : (scanCommentType2 s).1.type ≠ .lexError) :
    scanCommentType2 (s ++ w) = ((scanCommentType2 s).1, (scanCommentType2 s).2 ++ w) := by
  unfold scanCommentType2 at h ⊢
  cases hl : commentLoop s with
  | none => rw [hl] at h; simp at h
  | some p =>
    obtain ⟨body, rest⟩ := p
    rw [commentLoop_local w hl]

section
variable {b : Char} {w : Str} (hb : isSep b = true)
include hb

theorem scanWord_local (ch : Char) (s : Str) (h : (scanWord ch s).1.type ≠ .lexError) :
    scanWord ch (s ++ b :: w) = ((scanWord ch s).1, (scanWord ch s).2 ++ b :: w) := by
  cases s with
  | nil =>
    have e : scanWord ch ([] ++ b :: w) = scanIdentifier ch false (b :: w) := by
      have h1 := isSep_ne hb (d := '\'') (by decide)
      have h2 : b ≠ '@' := by rintro rfl; simp [isSep, isBlank] at hb
      simp [scanWord, h1, h2]
    rw [e]
    exact scanIdentifier_local hb ch false []
  | cons c s =>
    unfold scanWord at h ⊢
    dsimp only at h
    simp only [List.cons_append]
    split
    · next hc => rw [if_pos hc] at h; exact scanHex_local hb _ h
    · next hc =>
      rw [if_neg hc] at h
      split
      · next hc => rw [if_pos hc] at h; exact scanBitLiteral_local hb _ h
      · exact scanIdentifier_local hb _ _ (c :: s)

theorem scanTwo_local (x y : Char) (code s : Str) (hy : b ≠ y) :
    scanTwo x y code (s ++ b :: w) = ((scanTwo x y code s).1, (scanTwo x y code s).2 ++ b :: w) := by
  cases s with
  | nil => simp [scanTwo, hy]
  | cons c s => simp only [scanTwo, List.cons_append]; split <;> rfl

theorem scanDot_local (s : Str) : scanDot (s ++ b :: w) = ((scanDot s).1, (scanDot s).2 ++ b :: w) := by
  cases s with
  | nil => simp [scanDot, isSep_digit hb]
  | cons c s =>
    simp only [scanDot, List.cons_append]
    split
    · exact scanFraction_local hb (c :: s)
    · rfl

omit hb in
theorem scanMinus_other {c : Char} (s : Str) (h1 : c ≠ '-') (h2 : c ≠ '>') :
    scanMinus (c :: s) = if isDigit c then
      (⟨(scanNumber (c :: s)).1.type, '-' :: (scanNumber (c :: s)).1.val⟩, (scanNumber (c :: s)).2)
      else (⟨.char '-', []⟩, c :: s) := by
  simp [scanMinus, h1, h2]

omit hb in
theorem scanMinus_arrow {d : Char} (s : Str) (h : d ≠ '>') :
    scanMinus ('>' :: d :: s) = (⟨.code (lit "JSON_EXTRACT_OP"), []⟩, d :: s) := by
  simp [scanMinus, h]

theorem scanMinus_local (s : Str) (h : complete (scanMinus s).1) :
    scanMinus (s ++ b :: w) = ((scanMinus s).1, (scanMinus s).2 ++ b :: w) := by
  have h1 := isSep_ne hb (d := '-') (by decide)
  have h2 := isSep_ne hb (d := '>') (by decide)
  cases s with
  | nil =>
    simp only [List.nil_append]
    rw [scanMinus_other _ h1 h2]
    simp [isSep_digit hb, scanMinus]
  | cons c s =>
    by_cases hc : c = '-'
    · subst hc
      exact scanCommentType1_local _ _ (by decide) (by intro x; simp [lit]) h.2
    · by_cases hg : c = '>'
      · subst hg
        cases s with
        | nil =>
          simp only [List.cons_append, List.nil_append]
          rw [scanMinus_arrow _ h2]
          rfl
        | cons d s =>
          by_cases hd : d = '>'
          · subst hd; rfl
          · simp only [List.cons_append, scanMinus_arrow _ hd]
      · simp only [List.cons_append, scanMinus_other _ hc hg]
        have := scanNumber_local (w := w) hb (c :: s)
        simp only [List.cons_append] at this
        rw [this]
        split <;> rfl

theorem scanLess_local (s : Str) : scanLess (s ++ b :: w) = ((scanLess s).1, (scanLess s).2 ++ b :: w) := by
  have h1 := isSep_ne hb (d := '<') (by decide)
  have h2 := isSep_ne hb (d := '>') (by decide)
  have h3 := isSep_ne hb (d := '=') (by decide)
  rcases s with _ | ⟨c, _ | ⟨d, s⟩⟩
  · simp [scanLess, h1, h2, h3]
  · by_cases hc : c = '='
    · subst hc; simp [scanLess, h2]
    · by_cases hc2 : c = '<'
      · subst hc2; rfl
      · by_cases hc3 : c = '>'
        · subst hc3; rfl
        · simp [scanLess, hc, hc2, hc3]
  · by_cases hc : c = '='
    · subst hc
      by_cases hd : d = '>'
      · subst hd; rfl
      · simp [scanLess, hd]
    · by_cases hc2 : c = '<'
      · subst hc2; rfl
      · by_cases hc3 : c = '>'
        · subst hc3; rfl
        · simp [scanLess, hc, hc2, hc3]

theorem scanGreater_local (s : Str) :
    scanGreater (s ++ b :: w) = ((scanGreater s).1, (scanGreater s).2 ++ b :: w) := by
  have h2 := isSep_ne hb (d := '>') (by decide)
  have h3 := isSep_ne hb (d := '=') (by decide)
  cases s with
  | nil => simp [scanGreater, h2, h3]
  | cons c s =>
    by_cases hc : c = '='
    · subst hc; rfl
    · by_cases hc2 : c = '>'
      · subst hc2; rfl
      · simp [scanGreater, hc, hc2]

omit hb in
theorem Local_ite {p : Prop} [Decidable p] {f f' g g' : Token × Str} (h : complete (if p then f else g).1)
    (hf : p → complete f.1 → f' = (f.1, f.2 ++ b :: w)) (hg : ¬ p → complete g.1 → g' = (g.1, g.2 ++ b :: w)) :
    (if p then f' else g') = ((if p then f else g).1, (if p then f else g).2 ++ b :: w) := by
  split
  · next hp => rw [if_pos hp] at h; exact hf hp h
  · next hp => rw [if_neg hp] at h; exact hg hp h

theorem scanSymbol_local (mode : Mode) (c : Char) (s : Str) (h : complete (scanSymbol mode c s).1) :
    scanSymbol mode c (s ++ b :: w) = ((scanSymbol mode c s).1, (scanSymbol mode c s).2 ++ b :: w) := by
  unfold scanSymbol at h ⊢
  refine Local_ite h (fun _ h => Local_ite h (fun _ h => ?_) (fun _ _ => rfl)) fun _ h => ?_
  · exact scanLiteralIdentifier_local (isSep_ne hb (by decide)) _ h.1
  refine Local_ite h (fun _ _ => scanTwo_local hb _ _ _ _ (isSep_ne hb (by decide))) fun _ h => ?_
  refine Local_ite h (fun _ _ => scanTwo_local hb _ _ _ _ (isSep_ne hb (by decide))) fun _ h => ?_
  refine Local_ite h (fun _ _ => scanDot_local hb _) fun _ h => ?_
  refine Local_ite h (fun _ h => scanCommentType1_local _ _ (by decide) (by intro x; simp [lit]) h.2) fun _ h => ?_
  refine Local_ite h (fun _ h => scanMinus_local hb _ h) fun _ h => ?_
  refine Local_ite h (fun _ _ => scanLess_local hb _) fun _ h => ?_
  refine Local_ite h (fun _ _ => scanGreater_local hb _) fun _ h => ?_
  refine Local_ite h (fun _ _ => scanTwo_local hb _ _ _ _ (isSep_ne hb (by decide))) fun _ h => ?_
  refine Local_ite h (fun hc h => scanString_local (by rw [hc]; decide) (isSep_ne hb (by rw [hc]; decide)) _ h.1)
    fun _ h => ?_
  refine Local_ite h (fun hc h => Local_ite h
    (fun _ h => scanLiteralIdentifier_local (isSep_ne hb (by decide)) _ h.1)
    (fun _ h => scanString_local (by rw [hc]; decide) (isSep_ne hb (by rw [hc]; decide)) _ h.1)) fun _ h => ?_
  exact Local_ite h (fun _ h => scanLiteralIdentifier_local (isSep_ne hb (by decide)) _ h.1) (fun _ _ => rfl)

/-- What follows after a separator is carried along. -/
def Step.carry (w : Str) : Step → Step
  | .token t c => .token t ⟨c.input ++ w, c.posVar⟩
  | .special sql c => .special sql ⟨c.input ++ w, c.posVar⟩
  | .panic => .panic

/-- The step does not stop in the middle of something. -/
def Step.Complete : Step → Prop
  | .token t _ => complete t
  | .special _ _ => True
  | .panic => True

omit hb in
theorem scanMySQLSpecificComment_local (w : Str) (n : Nat) (s : Str) (h : (scanMySQLSpecificComment n s).Complete) :
    scanMySQLSpecificComment n (s ++ w) = (scanMySQLSpecificComment n s).carry w := by
  unfold scanMySQLSpecificComment at h ⊢
  cases hl : commentLoop s with
  | none => rw [hl] at h; exact absurd rfl h.1
  | some p =>
    obtain ⟨body, rest⟩ := p
    rw [commentLoop_local w hl]
    dsimp only
    split <;> rfl

theorem scanSlash_local (n : Nat) (s : Str) (h : (scanSlash n s).Complete) :
    scanSlash n (s ++ b :: w) = (scanSlash n s).carry (b :: w) := by
  have h1 := isSep_ne hb (d := '/') (by decide)
  have h2 := isSep_ne hb (d := '*') (by decide)
  rcases s with _ | ⟨c, s⟩
  · simp [scanSlash, h1, h2, Step.carry]
  · by_cases hc : c = '/'
    · subst hc
      have := scanCommentType1_local (b := b) (w := w) (lit "//") s (by decide) (by intro x; simp [lit]) h.2
      simp only [scanSlash, List.cons_append, this, Step.carry]
    · by_cases hc2 : c = '*'
      · subst hc2
        rcases s with _ | ⟨d, s⟩
        · exact absurd rfl h.1
        · by_cases hd : d = '!'
          · subst hd
            exact scanMySQLSpecificComment_local _ n s h
          · have e : ∀ r, scanSlash n ('*' :: d :: r) =
                .token (scanCommentType2 (d :: r)).1 ⟨(scanCommentType2 (d :: r)).2, n⟩ := by
              intro r; simp [scanSlash, hd]
            rw [e] at h
            simp only [List.cons_append, e, Step.carry]
            have := scanCommentType2_local (b :: w) (d :: s) h.1
            simp only [List.cons_append] at this
            rw [this]
      · have e : ∀ r, scanSlash n (c :: r) = .token ⟨.char '/', []⟩ ⟨c :: r, n⟩ := by
          intro r; simp [scanSlash, hc, hc2]
        simp only [List.cons_append, e, Step.carry]

theorem scanOperator_local (mode : Mode) (n : Nat) (ch : Char) (s : Str) (h : (scanOperator mode n ch s).Complete) :
    scanOperator mode n ch (s ++ b :: w) = (scanOperator mode n ch s).carry (b :: w) := by
  unfold scanOperator at h ⊢
  split
  · next hc => rw [if_pos hc] at h; exact scanSlash_local hb _ _ h
  · next hc =>
    rw [if_neg hc] at h
    split
    · rfl
    · next hc =>
      rw [if_neg hc] at h
      rw [scanSymbol_local hb mode ch s h]
      rfl

theorem scanToken_local (mode : Mode) (n : Nat) (ch : Char) (s : Str) (h : (scanToken mode false n ch s).Complete) :
    scanToken mode false n ch (s ++ b :: w) = (scanToken mode false n ch s).carry (b :: w) := by
  unfold scanToken at h ⊢
  split
  · next hc => rw [if_pos hc] at h; rw [scanWord_local hb ch s h.1]; rfl
  · next hc =>
    rw [if_neg hc] at h
    split
    · next hc =>
      have := scanNumber_local (w := w) hb (ch :: s)
      simp only [List.cons_append] at this
      rw [this]; rfl
    · next hc =>
      rw [if_neg hc] at h
      split
      · next hc => rw [if_pos hc] at h; rw [scanBindVar_local hb mode s h.1]; rfl
      · next hc =>
        rw [if_neg hc] at h
        simp only [Bool.false_eq_true, and_false, if_false] at h ⊢
        exact scanOperator_local hb _ _ _ _ h

omit hb in
/-- Nothing but blanks is left. -/
theorem scanCursor_blank {mode : Mode} {c : Cursor} (h : skipBlank (dropNul c.input) = []) :
    scanCursor mode false false c = .token ⟨.eof, []⟩ ⟨[], c.posVar⟩ := by
  unfold scanCursor
  simp [h]

omit hb in
theorem scanCursor_cons {mode : Mode} {c : Cursor} {ch : Char} {s : Str} (h : skipBlank (dropNul c.input) = ch :: s) :
    scanCursor mode false false c = scanToken mode false c.posVar ch s := by
  unfold scanCursor
  simp [h]

omit hb in
theorem scanCursor_congr {mode : Mode} {multi forceEOF : Bool} {s s' : Str} {n : Nat}
    (h : skipBlank (dropNul s) = skipBlank (dropNul s')) (hf : forceEOF = false) :
    scanCursor mode multi forceEOF ⟨s, n⟩ = scanCursor mode multi forceEOF ⟨s', n⟩ := by
  subst hf
  unfold scanCursor
  simp only [Bool.false_eq_true, if_false]
  rw [h]

omit hb in
theorem dropNul_append_sep {s : Str} {b : Char} {w : Str} (hb : b ≠ '\x00') :
    dropNul (s ++ b :: w) = dropNul s ++ b :: w := by
  cases s with
  | nil => simp [dropNul, hb]
  | cons c s => simp only [dropNul, List.cons_append]; split <;> rfl

omit hb in
theorem skipBlank_append {s w : Str} : skipBlank (s ++ w) =
    match skipBlank s with
    | [] => skipBlank w
    | c :: r => c :: r ++ w := by
  unfold skipBlank
  induction s with
  | nil => rfl
  | cons c s ih => by_cases hc : isBlank c <;> simp [List.dropWhile_cons, hc, ih]

/-- Reading a token is not influenced by what follows after a separator. -/
theorem scanCursor_local (mode : Mode) (s : Str) (n : Nat) (hs : skipBlank (dropNul s) ≠ [])
    (h : (scanCursor mode false false ⟨s, n⟩).Complete) :
    scanCursor mode false false ⟨s ++ b :: w, n⟩ = (scanCursor mode false false ⟨s, n⟩).carry (b :: w) := by
  cases hsb : skipBlank (dropNul s) with
  | nil => exact absurd hsb hs
  | cons ch r =>
    rw [scanCursor_cons (c := ⟨s, n⟩) hsb] at h ⊢
    have : skipBlank (dropNul (s ++ b :: w)) = ch :: (r ++ b :: w) := by
      rw [dropNul_append_sep (isSep_ne hb (by decide)), skipBlank_append, hsb]
      rfl
    rw [scanCursor_cons (c := ⟨s ++ b :: w, n⟩) this]
    exact scanToken_local hb _ _ _ _ h

end

end Sqldef
