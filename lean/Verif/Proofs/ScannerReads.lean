import Verif.Proofs.ScannerCompose
import Verif.Spec.Lexical
/-
Lemmas on the scanner for the theorems of `Verif.Props.Scanner`.
-/
namespace Sqldef
open Spec

/-! ### The number of tokens -/

/-- The characters to be read, without the NUL that a new tokenizer has under its cursor. -/
def Scanner.left (st : Scanner) : Nat :=
  (st.inner.map fun c => (dropNul c.input).length + 1).sum + (dropNul st.base.input).length

theorem scanCursor_left {mode : Mode} {multi forceEOF : Bool} {c c' : Cursor} {t : Token}
    (h : scanCursor mode multi forceEOF c = .token t c') (ht : t.type ≠ .eof) :
    c'.input.length < (dropNul c.input).length := by
  unfold scanCursor at h
  split at h
  · cases h; exact absurd rfl ht
  split at h
  · cases h; exact absurd rfl ht
  · next ch s hs =>
    have h1 := congrArg List.length hs
    have h2 := skipBlank_length (dropNul c.input)
    have := scanToken_length h ht
    simp at h1
    omega

theorem scanCursor_special_left {mode : Mode} {multi forceEOF : Bool} {c c' : Cursor} {sql : Str}
    (h : scanCursor mode multi forceEOF c = .special sql c') :
    sql.length + 5 + c'.input.length ≤ (dropNul c.input).length := by
  unfold scanCursor at h
  split at h
  · cases h
  · split at h
    · cases h
    · next ch s hs =>
      have h1 := congrArg List.length hs
      have h2 := skipBlank_length (dropNul c.input)
      obtain ⟨_, s', rfl, h4⟩ := scanOperator_special (scanToken_special h)
      have := scanMySQLSpecificComment_length h4
      simp at h1
      omega

theorem scan_left {st st' : Scanner} {t : Token} (h : scan st = .ok (t, st')) (ht : t.type ≠ .eof) :
    st'.left < st.left := by
  induction hn : st.size using Nat.strongRecOn generalizing st with
  | ind n ih =>
  subst hn
  cases hi : st.inner with
  | cons c cs =>
    cases hs : scanCursor st.mode false false c with
    | panic => rw [scan_inner_panic hi hs] at h; cases h
    | special sql c' =>
      have hl := scanCursor_special_length hs
      have hl2 := scanCursor_special_left hs
      have hd := dropNul_length c'.input
      rw [scan_inner_special hi hs] at h
      have hlt : Scanner.size { st with inner := newCursor sql :: c' :: cs } < st.size := by
        simp [Scanner.size, hi, newCursor]; omega
      refine Nat.lt_trans (ih _ hlt h rfl) ?_
      simp [Scanner.left, hi, newCursor, dropNul]; unfold dropNul at hd hl2; omega
    | token t' c' =>
      rw [scan_inner_token hi hs] at h
      split at h
      · have hlt : Scanner.size { st with inner := cs } < st.size := by simp [Scanner.size, hi]
        refine Nat.lt_trans (ih _ hlt h rfl) ?_
        simp [Scanner.left, hi]
      · next hne =>
        cases h
        have := scanCursor_left hs hne
        have hd := dropNul_length c'.input
        simp [Scanner.left, hi]; omega
  | nil =>
    cases hs : scanCursor st.mode st.multi st.forceEOF st.base with
    | panic => rw [scan_base_panic hi hs] at h; cases h
    | special sql c' =>
      have hl := scanCursor_special_length hs
      have hl2 := scanCursor_special_left hs
      have hd := dropNul_length c'.input
      rw [scan_base_special hi hs] at h
      have hlt : Scanner.size { st with inner := [newCursor sql], base := c' } < st.size := by
        simp [Scanner.size, hi, newCursor]; omega
      refine Nat.lt_trans (ih _ hlt h rfl) ?_
      simp [Scanner.left, hi, newCursor, dropNul]; unfold dropNul at hd hl2; omega
    | token t' c' =>
      rw [scan_base_token hi hs] at h
      cases h
      have := scanCursor_left hs ht
      have hd := dropNul_length c'.input
      simp [Scanner.left, hi]; omega

theorem calls_left {st st' : Scanner} {ts : List Token} (h : Calls st ts st') (ht : ∀ t ∈ ts, t.type ≠ .eof) :
    ts.length + st'.left ≤ st.left := by
  induction h with
  | nil => simp
  | cons hs _ ih =>
    have h1 := scan_left hs (ht _ (by simp))
    have h2 := ih fun t hm => ht t (by simp [hm])
    simp only [List.length_cons]
    omega

theorem newScanner_left (mode : Mode) (sql : Str) : (newScanner mode sql).left = sql.length := by
  simp [Scanner.left, newScanner, newCursor, dropNul]

/-- The result of `scanAll` is what successive calls of `Scan` return. -/
theorem scanAll_calls {st : Scanner} {ts : List Token} (h : scanAll st = .ok ts) :
    ∃ st' t st'', Calls st ts st' ∧ (∀ t ∈ ts, t.type ≠ .eof) ∧ scan st' = .ok (t, st'') ∧ t.type = .eof := by
  induction hn : st.size using Nat.strongRecOn generalizing st ts with
  | ind n ih =>
  subst hn
  cases hs : scan st with
  | error e => rw [scanAll_error hs] at h; cases h
  | ok p =>
    obtain ⟨t, st'⟩ := p
    by_cases ht : t.type = .eof
    · rw [scanAll_eof hs ht] at h
      cases h
      exact ⟨st, t, st', .nil _, by simp, hs, ht⟩
    · rw [scanAll_cons hs ht] at h
      cases ha : scanAll st' with
      | error e => rw [ha] at h; cases h
      | ok us =>
        rw [ha] at h
        cases h
        obtain ⟨st1, t1, st2, hc, he, h1, h2⟩ := ih _ (scan_progress hs ht) ha rfl
        exact ⟨st1, t1, st2, .cons hs hc, by simpa using ⟨ht, he⟩, h1, h2⟩

/-! ### No crash -/

/-- No part of the text is an empty MySQL-specific comment. -/
def NoEmptySpecial (s : Str) : Prop := ∀ u, u <:+: s → ¬ EmptySpecialComment u

theorem NoEmptySpecial.infix {s s' : Str} (h : NoEmptySpecial s) (hi : s' <:+: s) : NoEmptySpecial s' :=
  fun u hu => h u (hu.trans hi)

theorem NoEmptySpecial.nul {s : Str} (h : NoEmptySpecial s) : NoEmptySpecial ('\x00' :: s) := by
  intro u hu he
  obtain ⟨d, rfl, _, _⟩ := id he
  rcases List.infix_cons_iff.mp hu with hp | hp
  · obtain ⟨r, hr⟩ := hp
    simp [lit] at hr
  · exact h _ hp he

theorem dropNul_suffix (s : Str) : dropNul s <:+ s := by
  unfold dropNul
  split
  · exact List.suffix_rfl
  · split
    · exact List.suffix_cons _ _
    · exact List.suffix_rfl

theorem skipBlank_suffix (s : Str) : skipBlank s <:+ s := List.dropWhile_suffix _

theorem commentLoop_eq {s body rest : Str} (h : commentLoop s = some (body, rest)) : s = body ++ lit "*/" ++ rest := by
  induction s generalizing body rest with
  | nil => simp [commentLoop] at h
  | cons c s ih =>
    unfold commentLoop at h
    split at h
    · next hc =>
      split at h
      · cases h; simp [lit, hc]
      · simp only [Option.map_eq_some_iff, Prod.mk.injEq] at h
        obtain ⟨⟨b, r⟩, hr, rfl, rfl⟩ := h
        simp [ih hr]
    · simp only [Option.map_eq_some_iff, Prod.mk.injEq] at h
      obtain ⟨⟨b, r⟩, hr, rfl, rfl⟩ := h
      simp [ih hr]

theorem versionEnd_none {n : Nat} {s : Str} : versionEnd n s = none ↔ s.length ≤ n ∧ ∀ c ∈ s, isUnicodeDigit c = true := by
  induction s generalizing n with
  | nil => cases n <;> simp [versionEnd]
  | cons c s ih =>
    cases n with
    | zero => simp [versionEnd]
    | succ n =>
      unfold versionEnd
      split
      · next hc => simp [ih, hc]
      · next hc => simp [hc]

theorem trimSpace_infix (s : Str) : trimSpace s <:+: s := by
  unfold trimSpace trimRight trimLeft
  have h1 : (s.dropWhile isSpace) <:+ s := List.dropWhile_suffix _
  have h2 : ((s.dropWhile isSpace).reverse.dropWhile isSpace).reverse <+: s.dropWhile isSpace := by
    have := List.dropWhile_suffix isSpace (l := (s.dropWhile isSpace).reverse)
    simpa using List.reverse_prefix.mpr this
  exact h2.isInfix.trans h1.isInfix

theorem scanSpecial_ok {n : Nat} {s : Str} (h : NoEmptySpecial (lit "/*!" ++ s)) :
    scanMySQLSpecificComment n s ≠ .panic ∧
    ∀ sql c, scanMySQLSpecificComment n s = .special sql c → NoEmptySpecial sql ∧ c.input <:+ s := by
  unfold scanMySQLSpecificComment
  split
  · simp
  · next body rest hl =>
    have hs := commentLoop_eq hl
    unfold extractMysqlComment
    split
    · next he =>
      split at he
      · next hv =>
        exfalso
        obtain ⟨h1, h2⟩ := versionEnd_none.mp hv
        refine h (lit "/*!" ++ body ++ lit "*/") ⟨[], rest, by simp [hs]⟩ ⟨body, rfl, h1, h2⟩
      · cases he
    · next sql he =>
      split at he
      · cases he
      · next i _ =>
        cases he
        refine ⟨by simp, ?_⟩
        intro sql c hc
        obtain ⟨rfl, rfl⟩ := Step.special.inj hc
        refine ⟨h.infix (s' := trimSpace (body.drop i)) ?_, ⟨body ++ lit "*/", by simp [hs]⟩⟩
        refine (trimSpace_infix _).trans ((List.drop_suffix i body).isInfix.trans ?_)
        exact ⟨lit "/*!", lit "*/" ++ rest, by simp [hs]⟩

theorem scanToken_panic {mode : Mode} {multi : Bool} {n : Nat} {ch : Char} {s : Str}
    (h : scanToken mode multi n ch s = .panic) :
    ch = '/' ∧ ∃ s', s = '*' :: '!' :: s' ∧ scanMySQLSpecificComment n s' = .panic := by
  unfold scanToken at h
  split at h
  · cases h
  split at h
  · cases h
  split at h
  · cases h
  split at h
  · cases h
  unfold scanOperator at h
  split at h
  · next hc =>
    refine ⟨hc, ?_⟩
    unfold scanSlash at h
    split at h
    · cases h
    · next s' => exact ⟨s', rfl, h⟩
    · cases h
    · cases h
  · split at h <;> cases h

theorem numberExit_suffix (t : TokenType) (buf s : Str) : (numberExit t buf s).2 = s := by
  unfold numberExit
  split
  · split <;> rfl
  · rfl

theorem takeSign_suffix (s : Str) : (takeSign s).2 <:+ s := by
  unfold takeSign
  split
  · split
    · exact List.suffix_cons _ _
    · exact List.suffix_rfl
  · exact List.suffix_rfl

theorem numberExponent_suffix (t : TokenType) (buf s : Str) : (numberExponent t buf s).2 <:+ s := by
  unfold numberExponent
  split
  · split
    · next c r _ =>
      simp only [numberExit_suffix, scanMantissa]
      exact (List.dropWhile_suffix _).trans ((takeSign_suffix r).trans (List.suffix_cons _ _))
    · rw [numberExit_suffix]; exact List.suffix_rfl
  · rw [numberExit_suffix]; exact List.suffix_rfl

theorem numberInteger_suffix (buf s : Str) : (numberInteger buf s).2 <:+ s := by
  unfold numberInteger
  simp only [scanMantissa]
  have hd := List.dropWhile_suffix (fun c => decide (digitVal c < 10)) (l := s)
  split
  · next r hr =>
    rw [hr] at hd
    exact (numberExponent_suffix _ _ _).trans ((List.dropWhile_suffix _).trans ((List.suffix_cons _ _).trans hd))
  · exact (numberExponent_suffix _ _ _).trans hd

theorem scanNumber_suffix (s : Str) : (scanNumber s).2 <:+ s := by
  unfold scanNumber
  split
  · simp only [numberExit_suffix, scanMantissa]
    exact (List.dropWhile_suffix _).trans ((List.suffix_cons _ _).trans (List.suffix_cons _ _))
  · simp only [numberExit_suffix, scanMantissa]
    exact (List.dropWhile_suffix _).trans ((List.suffix_cons _ _).trans (List.suffix_cons _ _))
  · exact (numberInteger_suffix _ _).trans (List.suffix_cons _ _)
  · exact numberInteger_suffix _ _

theorem literalIdentifierLoop_suffix (sep : Char) (b : Bool) (s buf rest : Str)
    (h : literalIdentifierLoop sep b s = (buf, some rest)) : rest <:+ s := by
  induction s generalizing b buf with
  | nil => cases b <;> simp [literalIdentifierLoop] at h; simp [← h.2]
  | cons c s ih =>
    cases b with
    | true =>
      unfold literalIdentifierLoop at h
      split at h
      · obtain ⟨_, h⟩ := Prod.mk.inj h
        simp at h
        rw [h]
        exact List.suffix_rfl
      · obtain ⟨_, h2⟩ := Prod.mk.inj h
        exact (ih false (literalIdentifierLoop sep false s).1 (by rw [← h2])).trans (List.suffix_cons _ _)
    | false =>
      unfold literalIdentifierLoop at h
      split at h
      · exact (ih true _ h).trans (List.suffix_cons _ _)
      · obtain ⟨_, h2⟩ := Prod.mk.inj h
        exact (ih false (literalIdentifierLoop sep false s).1 (by rw [← h2])).trans (List.suffix_cons _ _)

theorem scanLiteralIdentifier_suffix (sep : Char) (s : Str) : (scanLiteralIdentifier sep s).2 <:+ s := by
  unfold scanLiteralIdentifier
  split
  · exact List.nil_suffix
  · next h =>
    split <;> exact literalIdentifierLoop_suffix _ _ _ _ _ h

theorem scanStringLoop_suffix (delim : Char) (n : Nat) (s buf : Str) (hn : s.length ≤ n) :
    (scanStringLoop delim buf s).2 <:+ s ∧ ∀ c, (scanStringLoop.step delim c buf s).2 <:+ s := by
  induction n generalizing s buf with
  | zero =>
    have : s = [] := by simpa using hn
    subst this
    refine ⟨by simp [scanStringLoop_nil], fun c => ?_⟩
    unfold scanStringLoop.step
    split <;> simp
  | succ n ih =>
    have hstep : ∀ (s buf : Str), s.length ≤ n + 1 → ∀ c, (scanStringLoop.step delim c buf s).2 <:+ s := by
      intro s buf hs c
      unfold scanStringLoop.step
      split
      · split
        · simp
        · next e s =>
          exact (ih s _ (by simpa using hs)).1.trans (List.suffix_cons _ _)
      · split
        · simp
        · next d s =>
          split
          · exact List.suffix_rfl
          · exact (ih s _ (by simpa using hs)).1.trans (List.suffix_cons _ _)
    refine ⟨?_, hstep s buf hn⟩
    cases s with
    | nil => simp [scanStringLoop_nil]
    | cons c s =>
      by_cases hc : c = delim ∨ c = '\\'
      · rw [scanStringLoop_special _ _ hc]
        exact (hstep s buf (by simp at hn; omega) c).trans (List.suffix_cons _ _)
      · rw [scanStringLoop_plain _ _ (fun h => hc (.inl h)) (fun h => hc (.inr h))]
        exact (ih s _ (by simpa using hn)).1.trans (List.suffix_cons _ _)

theorem scanCommentType1_suffix (pre s : Str) : (scanCommentType1 pre s).2 <:+ s := by
  unfold scanCommentType1
  have hd := List.dropWhile_suffix (fun c => decide (c ≠ '\n')) (l := s)
  split
  · exact List.nil_suffix
  · next c rest h =>
    rw [h] at hd
    exact (List.suffix_cons _ _).trans hd

theorem scanCommentType2_suffix (s : Str) : (scanCommentType2 s).2 <:+ s := by
  unfold scanCommentType2
  split
  · exact List.nil_suffix
  · next body rest h => exact ⟨body ++ lit "*/", (commentLoop_eq h).symm⟩

theorem ite_suffix {p : Prop} [Decidable p] {a b : Token × Str} {s : Str} (h1 : p → a.2 <:+ s) (h2 : ¬ p → b.2 <:+ s) :
    (if p then a else b).2 <:+ s := by
  split
  · next h => exact h1 h
  · next h => exact h2 h

theorem scanHex_suffix (s : Str) : (scanHex s).2 <:+ s := by
  unfold scanHex
  simp only [scanMantissa]
  have hd := List.dropWhile_suffix (fun c => decide (digitVal c < 16)) (l := s)
  split
  · next r hr =>
    rw [hr] at hd
    exact ite_suffix (fun _ => (List.suffix_cons _ _).trans hd) fun _ => (List.suffix_cons _ _).trans hd
  · exact hd

theorem scanBitLiteral_suffix (s : Str) : (scanBitLiteral s).2 <:+ s := by
  unfold scanBitLiteral
  simp only [scanMantissa]
  have hd := List.dropWhile_suffix (fun c => decide (digitVal c < 2)) (l := s)
  split
  · next r hr =>
    rw [hr] at hd
    exact (List.suffix_cons _ _).trans hd
  · exact hd

theorem scanIdentifier_suffix (c : Char) (b : Bool) (s : Str) : (scanIdentifier c b s).2 <:+ s := by
  unfold scanIdentifier
  dsimp only
  split
  · exact List.dropWhile_suffix _
  · split <;> exact List.dropWhile_suffix _

theorem scanWord_suffix (ch : Char) (s : Str) : (scanWord ch s).2 <:+ s := by
  unfold scanWord
  split
  · split
    · exact (scanHex_suffix _).trans (List.suffix_cons _ _)
    split
    · exact (scanBitLiteral_suffix _).trans (List.suffix_cons _ _)
    · exact scanIdentifier_suffix _ _ _
  · exact scanIdentifier_suffix _ _ _

theorem scanBindName_suffix (t : TokenType) (buf s : Str) : (scanBindName t buf s).2 <:+ s := by
  unfold scanBindName
  split
  · exact List.nil_suffix
  · split
    · exact List.suffix_rfl
    · exact List.dropWhile_suffix _

theorem scanBindVar_suffix (mode : Mode) (s : Str) : (scanBindVar mode s).2 <:+ s := by
  unfold scanBindVar
  split
  · split
    · exact List.suffix_cons _ _
    · exact (scanBindName_suffix _ _ _).trans (List.suffix_cons _ _)
  · exact scanBindName_suffix _ _ _

theorem scanTwo_suffix (a b : Char) (code s : Str) : (scanTwo a b code s).2 <:+ s := by
  unfold scanTwo
  split
  · split
    · exact List.suffix_cons _ _
    · exact List.suffix_rfl
  · exact List.suffix_rfl

theorem scanDot_suffix (s : Str) : (scanDot s).2 <:+ s := by
  unfold scanDot
  split
  · split
    · unfold scanFraction
      simp only [scanMantissa]
      exact (numberExponent_suffix _ _ _).trans (List.dropWhile_suffix _)
    · exact List.suffix_rfl
  · exact List.suffix_rfl

theorem scanMinus_suffix (s : Str) : (scanMinus s).2 <:+ s := by
  unfold scanMinus
  split
  · exact (scanCommentType1_suffix _ _).trans (List.suffix_cons _ _)
  · exact (List.suffix_cons _ _).trans (List.suffix_cons _ _)
  · exact List.suffix_cons _ _
  · split
    · exact scanNumber_suffix _
    · exact List.suffix_rfl
  · exact List.suffix_rfl

theorem scanLess_suffix (s : Str) : (scanLess s).2 <:+ s := by
  unfold scanLess
  split
  · exact List.suffix_cons _ _
  · exact List.suffix_cons _ _
  · exact (List.suffix_cons _ _).trans (List.suffix_cons _ _)
  · exact List.suffix_cons _ _
  · exact List.suffix_rfl

theorem scanGreater_suffix (s : Str) : (scanGreater s).2 <:+ s := by
  unfold scanGreater
  split
  · exact List.suffix_cons _ _
  · exact List.suffix_cons _ _
  · exact List.suffix_rfl

theorem scanSymbol_suffix (mode : Mode) (ch : Char) (s : Str) : (scanSymbol mode ch s).2 <:+ s := by
  unfold scanSymbol
  refine ite_suffix (fun _ => ite_suffix (fun _ => scanLiteralIdentifier_suffix _ _) fun _ => List.suffix_rfl) fun _ => ?_
  refine ite_suffix (fun _ => scanTwo_suffix _ _ _ _) fun _ => ?_
  refine ite_suffix (fun _ => scanTwo_suffix _ _ _ _) fun _ => ?_
  refine ite_suffix (fun _ => scanDot_suffix _) fun _ => ?_
  refine ite_suffix (fun _ => scanCommentType1_suffix _ _) fun _ => ?_
  refine ite_suffix (fun _ => scanMinus_suffix _) fun _ => ?_
  refine ite_suffix (fun _ => scanLess_suffix _) fun _ => ?_
  refine ite_suffix (fun _ => scanGreater_suffix _) fun _ => ?_
  refine ite_suffix (fun _ => scanTwo_suffix _ _ _ _) fun _ => ?_
  refine ite_suffix (fun _ => (scanStringLoop_suffix _ _ _ _ Nat.le.refl).1) fun _ => ?_
  refine ite_suffix (fun _ => ite_suffix (fun _ => scanLiteralIdentifier_suffix _ _)
    fun _ => (scanStringLoop_suffix _ _ _ _ Nat.le.refl).1) fun _ => ?_
  refine ite_suffix (fun _ => scanLiteralIdentifier_suffix _ _) fun _ => List.suffix_rfl

theorem scanToken_suffix {mode : Mode} {multi : Bool} {n : Nat} {ch : Char} {s : Str} {t : Token} {c : Cursor}
    (h : scanToken mode multi n ch s = .token t c) : c.input <:+ ch :: s := by
  unfold scanToken at h
  split at h
  · obtain ⟨_, rfl⟩ := Step.token.inj h
    exact (scanWord_suffix _ _).trans (List.suffix_cons _ _)
  split at h
  · obtain ⟨_, rfl⟩ := Step.token.inj h
    exact scanNumber_suffix _
  split at h
  · obtain ⟨_, rfl⟩ := Step.token.inj h
    exact (scanBindVar_suffix _ _).trans (List.suffix_cons _ _)
  split at h
  · obtain ⟨_, rfl⟩ := Step.token.inj h
    exact List.suffix_rfl
  unfold scanOperator at h
  split at h
  · unfold scanSlash at h
    split at h
    · obtain ⟨_, rfl⟩ := Step.token.inj h
      exact (scanCommentType1_suffix _ _).trans ((List.suffix_cons _ _).trans (List.suffix_cons _ _))
    · next s' =>
      unfold scanMySQLSpecificComment at h
      split at h
      · obtain ⟨_, rfl⟩ := Step.token.inj h
        exact List.nil_suffix
      · split at h <;> cases h
    · obtain ⟨_, rfl⟩ := Step.token.inj h
      exact (scanCommentType2_suffix _).trans ((List.suffix_cons _ _).trans (List.suffix_cons _ _))
    · obtain ⟨_, rfl⟩ := Step.token.inj h
      exact List.suffix_cons _ _
  split at h
  · obtain ⟨_, rfl⟩ := Step.token.inj h
    exact List.suffix_cons _ _
  · obtain ⟨_, rfl⟩ := Step.token.inj h
    exact (scanSymbol_suffix _ _ _).trans (List.suffix_cons _ _)

theorem scanCursor_ok {mode : Mode} {multi forceEOF : Bool} {c : Cursor} (h : NoEmptySpecial c.input) :
    scanCursor mode multi forceEOF c ≠ .panic ∧
    (∀ sql c', scanCursor mode multi forceEOF c = .special sql c' → NoEmptySpecial sql ∧ NoEmptySpecial c'.input) ∧
    (∀ t c', scanCursor mode multi forceEOF c = .token t c' → NoEmptySpecial c'.input) := by
  unfold scanCursor
  split
  · refine ⟨by simp, by simp, ?_⟩
    intro t c' hc
    obtain ⟨_, rfl⟩ := Step.token.inj hc
    exact h.infix ((List.dropWhile_suffix _).trans (dropNul_suffix _)).isInfix
  · split
    · refine ⟨by simp, by simp, ?_⟩
      intro t c' hc
      obtain ⟨_, rfl⟩ := Step.token.inj hc
      exact h.infix (List.nil_infix)
    · next ch s hs =>
      have hi : NoEmptySpecial (ch :: s) :=
        h.infix (hs ▸ ((skipBlank_suffix _).trans (dropNul_suffix _)).isInfix)
      refine ⟨?_, ?_, ?_⟩
      · intro hp
        obtain ⟨rfl, s', rfl, hp⟩ := scanToken_panic hp
        exact (scanSpecial_ok (n := c.posVar) (s := s') hi).1 hp
      · intro sql c' hp
        obtain ⟨rfl, s', rfl, hp⟩ := scanOperator_special (scanToken_special hp)
        obtain ⟨h1, h2⟩ := (scanSpecial_ok (n := c.posVar) (s := s') hi).2 _ _ hp
        exact ⟨h1, hi.infix (h2.trans ⟨['/', '*', '!'], rfl⟩).isInfix⟩
      · intro t c' hp
        exact hi.infix (scanToken_suffix hp).isInfix

/-- No empty MySQL-specific comment is to come. -/
def Scanner.Safe (st : Scanner) : Prop := (∀ c ∈ st.inner, NoEmptySpecial c.input) ∧ NoEmptySpecial st.base.input

theorem scan_ok {st : Scanner} (h : st.Safe) : ∃ t st', scan st = .ok (t, st') ∧ st'.Safe := by
  induction hn : st.size using Nat.strongRecOn generalizing st with
  | ind n ih =>
  subst hn
  cases hi : st.inner with
  | cons c cs =>
    have hc : NoEmptySpecial c.input := h.1 c (by simp [hi])
    have hcs : ∀ c ∈ cs, NoEmptySpecial c.input := fun c hm => h.1 c (by simp [hi, hm])
    obtain ⟨k1, k2, k3⟩ := scanCursor_ok (mode := st.mode) (multi := false) (forceEOF := false) hc
    cases hs : scanCursor st.mode false false c with
    | panic => exact absurd hs k1
    | special sql c' =>
      have hl := scanCursor_special_length hs
      rw [scan_inner_special hi hs]
      refine ih (Scanner.size { st with inner := newCursor sql :: c' :: cs })
        (by simp [Scanner.size, hi, newCursor]; omega) ?_ rfl
      refine ⟨?_, h.2⟩
      intro d hd
      simp only [List.mem_cons] at hd
      rcases hd with rfl | rfl | hd
      · exact (k2 _ _ hs).1.nul
      · exact (k2 _ _ hs).2
      · exact hcs d hd
    | token t c' =>
      rw [scan_inner_token hi hs]
      split
      · exact ih (Scanner.size { st with inner := cs }) (by simp [Scanner.size, hi]) ⟨hcs, h.2⟩ rfl
      · refine ⟨t, _, rfl, ?_, h.2⟩
        intro d hd
        simp only [List.mem_cons] at hd
        rcases hd with rfl | hd
        · exact k3 _ _ hs
        · exact hcs d hd
  | nil =>
    obtain ⟨k1, k2, k3⟩ := scanCursor_ok (mode := st.mode) (multi := st.multi) (forceEOF := st.forceEOF) h.2
    cases hs : scanCursor st.mode st.multi st.forceEOF st.base with
    | panic => exact absurd hs k1
    | special sql c' =>
      have hl := scanCursor_special_length hs
      rw [scan_base_special hi hs]
      refine ih (Scanner.size { st with inner := [newCursor sql], base := c' })
        (by simp [Scanner.size, hi, newCursor]; omega) ?_ rfl
      refine ⟨?_, (k2 _ _ hs).2⟩
      intro d hd
      simp only [List.mem_singleton] at hd
      subst hd
      exact (k2 _ _ hs).1.nul
    | token t c' =>
      rw [scan_base_token hi hs]
      exact ⟨t, _, rfl, by simp [hi], k3 _ _ hs⟩

theorem scanAll_ok {st : Scanner} (h : st.Safe) : ∃ ts, scanAll st = .ok ts := by
  induction hn : st.size using Nat.strongRecOn generalizing st with
  | ind n ih =>
  subst hn
  obtain ⟨t, st', hs, hsafe⟩ := scan_ok h
  by_cases ht : t.type = .eof
  · exact ⟨_, scanAll_eof hs ht⟩
  · obtain ⟨ts, hts⟩ := ih _ (scan_progress hs ht) hsafe rfl
    exact ⟨t :: ts, by rw [scanAll_cons hs ht, hts]; rfl⟩

theorem scan_error {st : Scanner} {e : Err} (h : scan st = .error e) : e = .panic := by
  induction hn : st.size using Nat.strongRecOn generalizing st with
  | ind n ih =>
  subst hn
  cases hi : st.inner with
  | cons c cs =>
    cases hs : scanCursor st.mode false false c with
    | panic => rw [scan_inner_panic hi hs] at h; cases h; rfl
    | special sql c' =>
      have hl := scanCursor_special_length hs
      rw [scan_inner_special hi hs] at h
      exact ih _ (by simp [Scanner.size, hi, newCursor]; omega) h rfl
    | token t' c' =>
      rw [scan_inner_token hi hs] at h
      split at h
      · exact ih _ (by simp [Scanner.size, hi]) h rfl
      · cases h
  | nil =>
    cases hs : scanCursor st.mode st.multi st.forceEOF st.base with
    | panic => rw [scan_base_panic hi hs] at h; cases h; rfl
    | special sql c' =>
      have hl := scanCursor_special_length hs
      rw [scan_base_special hi hs] at h
      exact ih _ (by simp [Scanner.size, hi, newCursor]; omega) h rfl
    | token t' c' => rw [scan_base_token hi hs] at h; cases h

theorem newScanner_safe (mode : Mode) {sql : Str} (h : NoEmptySpecial sql) : (newScanner mode sql).Safe :=
  ⟨by simp [newScanner], h.nul⟩

/-! ### Single tokens -/

/-- A text that starts with a character that is neither blank nor NUL. -/
theorem scan_start {mode : Mode} {ch : Char} {s : Str} (h0 : ch ≠ '\x00') (hb : isBlank ch = false) (n : Nat) :
    scanCursor mode false false ⟨ch :: s, n⟩ = scanToken mode false n ch s := by
  apply scanCursor_cons
  simp [dropNul, h0, skipBlank, hb]

theorem reads_start {mode : Mode} {ch : Char} {s rest : Str} {t : Token} (h0 : ch ≠ '\x00') (hb : isBlank ch = false)
    (h : ∀ n, scanToken mode false n ch s = .token t ⟨rest, n⟩) : Reads mode (ch :: s) t rest := by
  intro n
  rw [scan_base_token (c' := ⟨rest, n⟩) rfl (by rw [scan_start h0 hb]; exact h n)]

theorem reads_unique {mode : Mode} {text rest rest' : Str} {t t' : Token} (h : Reads mode text t rest)
    (h' : Reads mode text t' rest') : t = t' ∧ rest = rest' := by
  have := (h 0).symm.trans (h' 0)
  simp at this
  exact this

/-- A character handled by `scanSymbol`. -/
theorem scanToken_symbol {mode : Mode} {n : Nat} {ch : Char} {s : Str} (h1 : isLetter ch = false)
    (h2 : isDigit ch = false) (h3 : ch ≠ ':') (h4 : ch ≠ '/') (h5 : ch ≠ '?') :
    scanToken mode false n ch s = .token (scanSymbol mode ch s).1 ⟨(scanSymbol mode ch s).2, n⟩ := by
  unfold scanToken scanOperator
  simp [h1, h2, h3, h4, h5]

theorem reads_dot {mode : Mode} {c : Char} {s : Str} (h : isDigit c = false) :
    Reads mode ('.' :: c :: s) ⟨.char '.', []⟩ (c :: s) := by
  refine reads_start (by decide) (by decide) fun n => ?_
  rw [scanToken_symbol (by decide) (by decide) (by decide) (by decide) (by decide)]
  have : scanSymbol mode '.' (c :: s) = (⟨.char '.', []⟩, c :: s) := by
    unfold scanSymbol
    rw [if_neg (by decide), if_neg (by decide), if_neg (by decide), if_pos rfl]
    simp [scanDot, h]
  rw [this]

end Sqldef
