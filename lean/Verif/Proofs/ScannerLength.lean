import Verif.Model.Scanner
/-!
Reading a token uses up characters: the lengths of what the scanning functions leave.
-/
namespace Sqldef

/-! Every token except the end of the text uses up at least one character. -/

theorem dropWhile_length (p : Char → Bool) (s : Str) : (s.dropWhile p).length ≤ s.length :=
  (List.dropWhile_sublist p).length_le

theorem scanIdentifier_length (c : Char) (b : Bool) (s : Str) : (scanIdentifier c b s).2.length ≤ s.length := by
  unfold scanIdentifier
  dsimp only
  split
  · exact dropWhile_length _ _
  · split <;> exact dropWhile_length _ _

theorem scanMantissa_length (n : Nat) (s : Str) : (scanMantissa n s).2.length ≤ s.length := dropWhile_length _ _

theorem scanHex_length (s : Str) : (scanHex s).2.length ≤ s.length := by
  have h := scanMantissa_length 16 s
  unfold scanHex
  split
  next digits rest hm =>
  rw [hm] at h
  split
  · split <;> simp at h ⊢ <;> omega
  · exact h

theorem scanBitLiteral_length (s : Str) : (scanBitLiteral s).2.length ≤ s.length := by
  have h := scanMantissa_length 2 s
  unfold scanBitLiteral
  split
  next digits rest hm =>
  rw [hm] at h
  split
  · simp at h ⊢; omega
  · exact h

theorem literalIdentifierLoop_length (sep : Char) (b : Bool) (s buf rest : Str)
    (h : literalIdentifierLoop sep b s = (buf, some rest)) : rest.length ≤ s.length := by
  induction s generalizing b buf with
  | nil => cases b <;> simp [literalIdentifierLoop] at h; simp [← h.2]
  | cons c s ih =>
    cases b with
    | true =>
      rw [literalIdentifierLoop] at h
      split at h
      · simp at h; simp [← h.2]
      · cases hl : literalIdentifierLoop sep false s with
        | mk b r =>
          rw [hl] at h
          simp at h
          obtain ⟨_, rfl⟩ := h
          have := ih _ _ hl
          simp; omega
    | false =>
      rw [literalIdentifierLoop] at h
      split at h
      · have := ih _ _ h
        simp; omega
      · cases hl : literalIdentifierLoop sep false s with
        | mk b r =>
          rw [hl] at h
          simp at h
          obtain ⟨_, rfl⟩ := h
          have := ih _ _ hl
          simp; omega

theorem scanLiteralIdentifier_length (sep : Char) (s : Str) : (scanLiteralIdentifier sep s).2.length ≤ s.length := by
  unfold scanLiteralIdentifier
  split
  · simp
  · next buf rest h =>
    have := literalIdentifierLoop_length _ _ _ _ _ h
    split <;> exact this

theorem scanBindName_length (t : TokenType) (buf s : Str) : (scanBindName t buf s).2.length ≤ s.length := by
  unfold scanBindName
  split
  · simp
  · split
    · simp
    · exact dropWhile_length _ _

theorem scanBindVar_length (mode : Mode) (s : Str) : (scanBindVar mode s).2.length ≤ s.length := by
  unfold scanBindVar
  split
  · next s =>
    split
    · simp
    · have := scanBindName_length .listArg (lit "::") s
      simp; omega
  · exact scanBindName_length _ _ _

theorem numberExit_length (t : TokenType) (buf s : Str) : (numberExit t buf s).2.length = s.length := by
  unfold numberExit
  split
  · split <;> rfl
  · rfl

theorem takeSign_length (s : Str) : (takeSign s).2.length ≤ s.length := by
  unfold takeSign
  split
  · split <;> simp
  · simp

theorem numberExponent_length (t : TokenType) (buf s : Str) : (numberExponent t buf s).2.length ≤ s.length := by
  unfold numberExponent
  split
  · next c r =>
    split
    · dsimp only
      rw [numberExit_length]
      have h1 := takeSign_length r
      have h2 := scanMantissa_length 10 (takeSign r).2
      simp; omega
    · rw [numberExit_length]; exact Nat.le_refl _
  · rw [numberExit_length]; exact Nat.le_refl _

theorem numberInteger_length (buf s : Str) : (numberInteger buf s).2.length ≤ s.length := by
  have h := scanMantissa_length 10 s
  unfold numberInteger
  split
  next digits r hm =>
  rw [hm] at h
  split
  · next r =>
    have h1 := numberExponent_length .float (buf ++ digits ++ ['.'] ++ (scanMantissa 10 r).1) (scanMantissa 10 r).2
    have h2 := scanMantissa_length 10 r
    simp at h ⊢
    simp at h1
    omega
  · have := numberExponent_length .integral (buf ++ digits) r
    simp at h ⊢
    omega

/-- Reading a number that starts with a digit passes that digit. -/
theorem scanNumber_length (c : Char) (s : Str) (hc : isDigit c = true) : (scanNumber (c :: s)).2.length ≤ s.length := by
  unfold scanNumber
  split
  · next r h =>
    obtain ⟨rfl, rfl⟩ := List.cons.inj h
    have := scanMantissa_length 16 r
    simp [numberExit_length]; omega
  · next r h =>
    obtain ⟨rfl, rfl⟩ := List.cons.inj h
    have := scanMantissa_length 16 r
    simp [numberExit_length]; omega
  · next r _ _ h =>
    obtain ⟨rfl, rfl⟩ := List.cons.inj h
    exact numberInteger_length _ _
  · have hd : digitVal c < 10 := by
      unfold isDigit at hc
      unfold digitVal
      simp only [Bool.and_eq_true, decide_eq_true_eq] at hc
      rw [if_pos hc]
      have : c.toNat ≤ '9'.toNat := hc.2
      have h9 : '9'.toNat = 57 := rfl
      have h0 : '0'.toNat = 48 := rfl
      omega
    have hm : scanMantissa 10 (c :: s) = (c :: (scanMantissa 10 s).1, (scanMantissa 10 s).2) := by
      simp [scanMantissa, List.takeWhile_cons, List.dropWhile_cons, hd]
    have hl := scanMantissa_length 10 s
    unfold numberInteger
    rw [hm]
    dsimp only
    generalize (scanMantissa 10 s).2 = r at *
    split
    · next r =>
      have h1 := numberExponent_length .float
        ([] ++ (c :: (scanMantissa 10 s).1) ++ ['.'] ++ (scanMantissa 10 r).1) (scanMantissa 10 r).2
      have h2 := scanMantissa_length 10 r
      simp at hl h1 ⊢
      omega
    · have := numberExponent_length .integral ([] ++ (c :: (scanMantissa 10 s).1)) r
      simp at hl this ⊢
      omega

theorem scanFraction_length (s : Str) : (scanFraction s).2.length ≤ s.length := by
  unfold scanFraction
  have h1 := scanMantissa_length 10 s
  have h2 := numberExponent_length .float ('.' :: (scanMantissa 10 s).1) (scanMantissa 10 s).2
  dsimp only
  omega

theorem scanStringLoop_length (delim : Char) (n : Nat) (s buf : Str) (hn : s.length ≤ n) :
    (scanStringLoop delim buf s).2.length ≤ s.length ∧
    ∀ c, (scanStringLoop.step delim c buf s).2.length ≤ s.length := by
  induction n generalizing s buf with
  | zero =>
    have : s = [] := by simpa using hn
    subst this
    refine ⟨by simp [scanStringLoop], fun c => ?_⟩
    unfold scanStringLoop.step
    split <;> simp
  | succ n ih =>
    have hstep : ∀ (s buf : Str), s.length ≤ n + 1 → ∀ c, (scanStringLoop.step delim c buf s).2.length ≤ s.length := by
      intro s buf hs c
      unfold scanStringLoop.step
      split
      · split
        · simp
        · next e s =>
          have := (ih s (buf ++ [sqlDecode e]) (by simpa using hs)).1
          simp; omega
      · split
        · simp
        · next d s =>
          split
          · simp
          · have := (ih s (buf ++ [c]) (by simpa using hs)).1
            simp; omega
    refine ⟨?_, hstep s buf hn⟩
    unfold scanStringLoop
    split
    · simp
    · next c s =>
      split
      · dsimp only
        have hl := dropWhile_length (fun c => !(decide (c = delim) || decide (c = '\\'))) s
        split
        · simp
        · next c' s' h =>
          rw [h] at hl
          simp at hl hn
          have := hstep s' (buf ++ c :: List.takeWhile (fun c => !(decide (c = delim) || decide (c = '\\'))) s)
            (by omega) c'
          simp only [List.length_cons]; omega
      · have := hstep s buf (by simp at hn; omega) c
        simp; omega

theorem scanString_length (delim : Char) (s : Str) : (scanString delim s).2.length ≤ s.length :=
  (scanStringLoop_length delim s.length s [] (Nat.le_refl _)).1

theorem scanCommentType1_length (pre s : Str) : (scanCommentType1 pre s).2.length ≤ s.length := by
  unfold scanCommentType1
  have h := dropWhile_length (· ≠ '\n') s
  dsimp only
  split
  · simp
  · next hd => rw [hd] at h; simp at h ⊢; omega

theorem scanCommentType2_length (s : Str) : (scanCommentType2 s).2.length ≤ s.length := by
  unfold scanCommentType2
  split
  · simp
  · next h => have := commentLoop_length h; simp; omega

theorem scanWord_length (c : Char) (s : Str) : (scanWord c s).2.length ≤ s.length := by
  unfold scanWord
  split
  · next d s =>
    split
    · have := scanHex_length s; simp; omega
    · split
      · have := scanBitLiteral_length s; simp; omega
      · exact scanIdentifier_length _ _ _
  · exact scanIdentifier_length _ _ _

private theorem ite_length {p : Prop} [Decidable p] {a b : Token × Str} {n : Nat} (ha : a.2.length ≤ n)
    (hb : b.2.length ≤ n) : (if p then a else b).2.length ≤ n := by
  split
  · exact ha
  · exact hb

theorem scanTwo_length (a b : Char) (code s : Str) : (scanTwo a b code s).2.length ≤ s.length := by
  unfold scanTwo
  split
  · split <;> simp
  · simp

theorem scanDot_length (s : Str) : (scanDot s).2.length ≤ s.length := by
  unfold scanDot
  split
  · split
    · exact scanFraction_length _
    · simp
  · simp

theorem scanMinus_length (s : Str) : (scanMinus s).2.length ≤ s.length := by
  unfold scanMinus
  split
  · next s => exact Nat.le_trans (scanCommentType1_length (lit "--") s) (by simp)
  · simp; omega
  · simp
  · next c s _ _ _ =>
    split
    · next hd => exact Nat.le_trans (scanNumber_length c s hd) (by simp)
    · simp
  · simp

theorem scanLess_length (s : Str) : (scanLess s).2.length ≤ s.length := by
  unfold scanLess
  split <;> simp only [List.length_cons] <;> omega

theorem scanGreater_length (s : Str) : (scanGreater s).2.length ≤ s.length := by
  unfold scanGreater
  split <;> simp only [List.length_cons] <;> omega

theorem scanSymbol_length (mode : Mode) (c : Char) (s : Str) : (scanSymbol mode c s).2.length ≤ s.length := by
  unfold scanSymbol
  exact ite_length (ite_length (scanLiteralIdentifier_length _ _) (Nat.le_refl _)) <|
    ite_length (scanTwo_length _ _ _ _) <| ite_length (scanTwo_length _ _ _ _) <|
    ite_length (scanDot_length _) <| ite_length (scanCommentType1_length _ _) <|
    ite_length (scanMinus_length _) <| ite_length (scanLess_length _) <| ite_length (scanGreater_length _) <|
    ite_length (scanTwo_length _ _ _ _) <| ite_length (scanString_length _ _) <|
    ite_length (ite_length (scanLiteralIdentifier_length _ _) (scanString_length _ _)) <|
    ite_length (scanLiteralIdentifier_length _ _) (Nat.le_refl _)

theorem scanOperator_length {mode : Mode} {n : Nat} {ch : Char} {s : Str} {t : Token} {c : Cursor}
    (h : scanOperator mode n ch s = .token t c) : c.input.length ≤ s.length := by
  unfold scanOperator at h
  split at h
  · unfold scanSlash at h
    split at h
    · next s =>
      obtain ⟨rfl, rfl⟩ := Step.token.inj h
      exact Nat.le_trans (scanCommentType1_length (lit "//") s) (by simp)
    · next s =>
      unfold scanMySQLSpecificComment at h
      split at h
      · cases h; simp
      · split at h <;> cases h
    · next s _ =>
      obtain ⟨rfl, rfl⟩ := Step.token.inj h
      exact Nat.le_trans (scanCommentType2_length s) (by simp)
    · cases h; simp
  split at h
  · cases h; simp
  · cases h; exact scanSymbol_length _ _ _

theorem scanToken_length {mode : Mode} {multi : Bool} {n : Nat} {ch : Char} {s : Str} {t : Token} {c : Cursor}
    (h : scanToken mode multi n ch s = .token t c) (ht : t.type ≠ .eof) : c.input.length ≤ s.length := by
  unfold scanToken at h
  split at h
  · cases h; exact scanWord_length _ _
  split at h
  · next hd => cases h; exact scanNumber_length _ _ hd
  split at h
  · cases h; exact scanBindVar_length _ _
  split at h
  · cases h; exact absurd rfl ht
  exact scanOperator_length h

theorem scanCursor_length {mode : Mode} {multi forceEOF : Bool} {c c' : Cursor} {t : Token}
    (h : scanCursor mode multi forceEOF c = .token t c') (ht : t.type ≠ .eof) :
    c'.input.length < c.input.length := by
  unfold scanCursor at h
  split at h
  · cases h; exact absurd rfl ht
  split at h
  · cases h; exact absurd rfl ht
  · next ch s hs =>
    have h1 := congrArg List.length hs
    have h2 := skipBlank_length (dropNul c.input)
    have h3 := dropNul_length c.input
    have := scanToken_length h ht
    simp at h1
    omega

theorem scan_inner_token {st : Scanner} {c c' : Cursor} {cs : List Cursor} {t : Token} (hi : st.inner = c :: cs)
    (hs : scanCursor st.mode false false c = .token t c') :
    scan st = if t.type = .eof then scan { st with inner := cs } else .ok (t, { st with inner := c' :: cs }) := by
  rw [scan]
  split
  · next hi' =>
    rw [hi] at hi'
    obtain ⟨rfl, rfl⟩ := List.cons.inj hi'
    split
    · next h => rw [hs] at h; cases h
    · next h => rw [hs] at h; cases h
    · next h => rw [hs] at h; cases h; rfl
  · next hi' => rw [hi] at hi'; cases hi'

theorem scan_inner_special {st : Scanner} {c c' : Cursor} {cs : List Cursor} {sql : Str} (hi : st.inner = c :: cs)
    (hs : scanCursor st.mode false false c = .special sql c') :
    scan st = scan { st with inner := newCursor sql :: c' :: cs } := by
  rw [scan]
  split
  · next hi' =>
    rw [hi] at hi'
    obtain ⟨rfl, rfl⟩ := List.cons.inj hi'
    split
    · next h => rw [hs] at h; cases h
    · next h => rw [hs] at h; cases h; rfl
    · next h => rw [hs] at h; cases h
  · next hi' => rw [hi] at hi'; cases hi'

theorem scan_inner_panic {st : Scanner} {c : Cursor} {cs : List Cursor} (hi : st.inner = c :: cs)
    (hs : scanCursor st.mode false false c = .panic) : scan st = .error .panic := by
  rw [scan]
  split
  · next hi' =>
    rw [hi] at hi'
    obtain ⟨rfl, rfl⟩ := List.cons.inj hi'
    split
    · rfl
    · next h => rw [hs] at h; cases h
    · next h => rw [hs] at h; cases h
  · next hi' => rw [hi] at hi'; cases hi'

theorem scan_base_token {st : Scanner} {c' : Cursor} {t : Token} (hi : st.inner = [])
    (hs : scanCursor st.mode st.multi st.forceEOF st.base = .token t c') :
    scan st = .ok (t, { st with base := c' }) := by
  rw [scan]
  split
  · next hi' => rw [hi] at hi'; cases hi'
  · split
    · next h => rw [hs] at h; cases h
    · next h => rw [hs] at h; cases h
    · next h => rw [hs] at h; cases h; rfl

theorem scan_base_special {st : Scanner} {c' : Cursor} {sql : Str} (hi : st.inner = [])
    (hs : scanCursor st.mode st.multi st.forceEOF st.base = .special sql c') :
    scan st = scan { st with inner := [newCursor sql], base := c' } := by
  rw [scan]
  split
  · next hi' => rw [hi] at hi'; cases hi'
  · split
    · next h => rw [hs] at h; cases h
    · next h => rw [hs] at h; cases h; rfl
    · next h => rw [hs] at h; cases h

theorem scan_base_panic {st : Scanner} (hi : st.inner = [])
    (hs : scanCursor st.mode st.multi st.forceEOF st.base = .panic) : scan st = .error .panic := by
  rw [scan]
  split
  · next hi' => rw [hi] at hi'; cases hi'
  · split
    · rfl
    · next h => rw [hs] at h; cases h
    · next h => rw [hs] at h; cases h

/-- Every token except the end of the text uses up at least one character. -/
theorem scan_progress {st st' : Scanner} {t : Token} (h : scan st = .ok (t, st')) (ht : t.type ≠ .eof) :
    st'.size < st.size := by
  induction hn : st.size using Nat.strongRecOn generalizing st with
  | ind n ih =>
  subst hn
  cases hi : st.inner with
  | cons c cs =>
    cases hs : scanCursor st.mode false false c with
    | panic => rw [scan_inner_panic hi hs] at h; cases h
    | special sql c' =>
      have hl := scanCursor_special_length hs
      rw [scan_inner_special hi hs] at h
      have hlt : Scanner.size { st with inner := newCursor sql :: c' :: cs } < st.size := by
        simp [Scanner.size, hi, newCursor]; omega
      exact Nat.lt_trans (ih _ hlt h rfl) hlt
    | token t' c' =>
      rw [scan_inner_token hi hs] at h
      split at h
      · have hlt : Scanner.size { st with inner := cs } < st.size := by simp [Scanner.size, hi]
        exact Nat.lt_trans (ih _ hlt h rfl) hlt
      · next hne =>
        cases h
        have := scanCursor_length hs hne
        simp [Scanner.size, hi]; omega
  | nil =>
    cases hs : scanCursor st.mode st.multi st.forceEOF st.base with
    | panic => rw [scan_base_panic hi hs] at h; cases h
    | special sql c' =>
      have hl := scanCursor_special_length hs
      rw [scan_base_special hi hs] at h
      have hlt : Scanner.size { st with inner := [newCursor sql], base := c' } < st.size := by
        simp [Scanner.size, hi, newCursor]; omega
      exact Nat.lt_trans (ih _ hlt h rfl) hlt
    | token t' c' =>
      rw [scan_base_token hi hs] at h
      cases h
      have := scanCursor_length hs ht
      simp [Scanner.size, hi]; omega

end Sqldef
