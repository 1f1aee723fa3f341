import Verif.Proofs.ScannerLocal
/-!
The tokens of a text are the tokens of its parts, if it is cut at a separator.
-/
namespace Sqldef

/-! The end-of-text token is returned at the end of the text only. -/

theorem numberExit_type (t : TokenType) (ht : t ≠ .eof) (buf s : Str) : (numberExit t buf s).1.type ≠ .eof := by
  unfold numberExit
  split
  · split <;> simp [ht]
  · exact ht

theorem numberExponent_type (t : TokenType) (ht : t ≠ .eof) (buf s : Str) :
    (numberExponent t buf s).1.type ≠ .eof := by
  unfold numberExponent
  split
  · split
    · exact numberExit_type _ (by decide) _ _
    · exact numberExit_type _ ht _ _
  · exact numberExit_type _ ht _ _

theorem numberInteger_type (buf s : Str) : (numberInteger buf s).1.type ≠ .eof := by
  unfold numberInteger
  split
  split
  · exact numberExponent_type _ (by decide) _ _
  · exact numberExponent_type _ (by decide) _ _

theorem scanNumber_type (s : Str) : (scanNumber s).1.type ≠ .eof := by
  unfold scanNumber
  split
  · exact numberExit_type _ (by decide) _ _
  · exact numberExit_type _ (by decide) _ _
  · exact numberInteger_type _ _
  · exact numberInteger_type _ _

theorem scanIdentifier_type (c : Char) (v : Bool) (s : Str) : (scanIdentifier c v s).1.type ≠ .eof := by
  unfold scanIdentifier
  dsimp only
  split
  · simp
  · split <;> simp

theorem scanWord_type (c : Char) (s : Str) : (scanWord c s).1.type ≠ .eof := by
  unfold scanWord
  split
  · split
    · unfold scanHex; split; split
      · split <;> simp
      · simp
    · split
      · unfold scanBitLiteral; split; split <;> simp
      · exact scanIdentifier_type _ _ _
  · exact scanIdentifier_type _ _ _

theorem scanBindName_type (t : TokenType) (ht : t ≠ .eof) (buf s : Str) : (scanBindName t buf s).1.type ≠ .eof := by
  unfold scanBindName
  split
  · simp
  · split
    · simp
    · exact ht

theorem scanBindVar_type (mode : Mode) (s : Str) : (scanBindVar mode s).1.type ≠ .eof := by
  unfold scanBindVar
  split
  · split
    · simp
    · exact scanBindName_type _ (by decide) _ _
  · exact scanBindName_type _ (by decide) _ _

theorem scanLiteralIdentifier_type (sep : Char) (s : Str) : (scanLiteralIdentifier sep s).1.type ≠ .eof := by
  unfold scanLiteralIdentifier
  split
  · simp
  · split <;> simp

theorem scanStringLoop_type (delim : Char) (n : Nat) (s buf : Str) (hn : s.length ≤ n) :
    (scanStringLoop delim buf s).1.type ≠ .eof ∧ ∀ c, (scanStringLoop.step delim c buf s).1.type ≠ .eof := by
  induction n generalizing s buf with
  | zero =>
    have : s = [] := by simpa using hn
    subst this
    refine ⟨by simp [scanStringLoop_nil], fun c => ?_⟩
    unfold scanStringLoop.step
    split <;> simp
  | succ n ih =>
    have hstep : ∀ (s buf : Str), s.length ≤ n + 1 → ∀ c, (scanStringLoop.step delim c buf s).1.type ≠ .eof := by
      intro s buf hs c
      unfold scanStringLoop.step
      split
      · split
        · simp
        · next e s => exact (ih s _ (by simpa using hs)).1
      · split
        · simp
        · next d s =>
          split
          · simp
          · exact (ih s _ (by simpa using hs)).1
    refine ⟨?_, hstep s buf hn⟩
    cases s with
    | nil => simp [scanStringLoop_nil]
    | cons c s =>
      by_cases hc : c = delim ∨ c = '\\'
      · rw [scanStringLoop_special _ _ hc]
        exact hstep s buf (by simp at hn; omega) c
      · simp only [not_or] at hc
        rw [scanStringLoop_plain _ _ hc.1 hc.2]
        exact (ih s _ (by simpa using hn)).1

theorem scanString_type (delim : Char) (s : Str) : (scanString delim s).1.type ≠ .eof :=
  (scanStringLoop_type delim s.length s [] (Nat.le_refl _)).1

theorem scanCommentType1_type (pre s : Str) : (scanCommentType1 pre s).1.type ≠ .eof := by
  unfold scanCommentType1
  dsimp only
  split <;> simp

theorem scanCommentType2_type (s : Str) : (scanCommentType2 s).1.type ≠ .eof := by
  unfold scanCommentType2
  split <;> simp

theorem scanTwo_type (a b : Char) (code s : Str) : (scanTwo a b code s).1.type ≠ .eof := by
  unfold scanTwo
  split
  · split <;> simp
  · simp

theorem scanDot_type (s : Str) : (scanDot s).1.type ≠ .eof := by
  unfold scanDot
  split
  · split
    · exact numberExponent_type _ (by decide) _ _
    · simp
  · simp

theorem scanMinus_type (s : Str) : (scanMinus s).1.type ≠ .eof := by
  unfold scanMinus
  split
  · exact scanCommentType1_type _ _
  · simp
  · simp
  · split
    · exact scanNumber_type _
    · simp
  · simp

private theorem ite_type {p : Prop} [Decidable p] {a b : Token × Str} (ha : a.1.type ≠ .eof) (hb : b.1.type ≠ .eof) :
    (if p then a else b).1.type ≠ .eof := by
  split
  · exact ha
  · exact hb

theorem scanSymbol_type (mode : Mode) (c : Char) (s : Str) : (scanSymbol mode c s).1.type ≠ .eof := by
  unfold scanSymbol
  exact ite_type (ite_type (scanLiteralIdentifier_type _ _) (by simp)) <|
    ite_type (scanTwo_type _ _ _ _) <| ite_type (scanTwo_type _ _ _ _) <|
    ite_type (scanDot_type _) <| ite_type (scanCommentType1_type _ _) <|
    ite_type (scanMinus_type _) <| ite_type (by unfold scanLess; split <;> simp) <|
    ite_type (by unfold scanGreater; split <;> simp) <|
    ite_type (scanTwo_type _ _ _ _) <| ite_type (scanString_type _ _) <|
    ite_type (ite_type (scanLiteralIdentifier_type _ _) (scanString_type _ _)) <|
    ite_type (scanLiteralIdentifier_type _ _) (by simp)

theorem scanToken_type {mode : Mode} {n : Nat} {ch : Char} {s : Str} {t : Token} {c : Cursor}
    (h : scanToken mode false n ch s = .token t c) : t.type ≠ .eof := by
  unfold scanToken at h
  split at h
  · obtain ⟨rfl, _⟩ := Step.token.inj h; exact scanWord_type _ _
  split at h
  · obtain ⟨rfl, _⟩ := Step.token.inj h; exact scanNumber_type _
  split at h
  · obtain ⟨rfl, _⟩ := Step.token.inj h; exact scanBindVar_type _ _
  simp only [Bool.false_eq_true, and_false, if_false] at h
  unfold scanOperator at h
  split at h
  · unfold scanSlash at h
    split at h
    · obtain ⟨rfl, _⟩ := Step.token.inj h; exact scanCommentType1_type _ _
    · unfold scanMySQLSpecificComment at h
      split at h
      · obtain ⟨rfl, _⟩ := Step.token.inj h; simp
      · split at h <;> cases h
    · obtain ⟨rfl, _⟩ := Step.token.inj h; exact scanCommentType2_type _
    · obtain ⟨rfl, _⟩ := Step.token.inj h; simp
  split at h
  · obtain ⟨rfl, _⟩ := Step.token.inj h; simp
  · obtain ⟨rfl, _⟩ := Step.token.inj h; exact scanSymbol_type _ _ _

/-- The end of the text is reported exactly if only blanks are left. -/
theorem scanCursor_eof {mode : Mode} {c c' : Cursor} {t : Token} (h : scanCursor mode false false c = .token t c') :
    t.type = .eof ↔ skipBlank (dropNul c.input) = [] := by
  cases hs : skipBlank (dropNul c.input) with
  | nil => rw [scanCursor_blank hs] at h; cases h; simp
  | cons ch s =>
    rw [scanCursor_cons hs] at h
    have := scanToken_type h
    simp [this]

/-! ### Several tokens -/

/-- The same tokenizer with a longer text. -/
def Scanner.append (st : Scanner) (w : Str) : Scanner :=
  { st with base := ⟨st.base.input ++ w, st.base.posVar⟩ }

/-- One call of `Scan` on a text that goes on after a separator. -/
theorem scan_append {st st' : Scanner} {t : Token} {b : Char} {w : Str} (hb : isSep b = true)
    (hm : st.multi = false) (hf : st.forceEOF = false) (h : scan st = .ok (t, st')) (hc : complete t) :
    (t.type ≠ .eof → scan (st.append (b :: w)) = .ok (t, st'.append (b :: w))) ∧
    (t.type = .eof → scan (st.append (b :: w)) =
      scan { st with inner := [], base := ⟨b :: w, st'.base.posVar⟩ }) := by
  induction hn : st.size using Nat.strongRecOn generalizing st with
  | ind n ih =>
  subst hn
  cases hi : st.inner with
  | cons c cs =>
    have hi' : (st.append (b :: w)).inner = c :: cs := hi
    cases hs : scanCursor st.mode false false c with
    | panic => rw [scan_inner_panic hi hs] at h; cases h
    | special sql c' =>
      have hl := scanCursor_special_length hs
      rw [scan_inner_special hi hs] at h
      have hlt : Scanner.size { st with inner := newCursor sql :: c' :: cs } < st.size := by
        simp [Scanner.size, hi, newCursor]; omega
      rw [scan_inner_special (st := st.append (b :: w)) hi' hs]
      exact ih _ hlt (st := { st with inner := newCursor sql :: c' :: cs }) hm hf h rfl
    | token t' c' =>
      rw [scan_inner_token hi hs] at h
      rw [scan_inner_token (st := st.append (b :: w)) hi' hs]
      split at h
      · next he =>
        have hlt : Scanner.size { st with inner := cs } < st.size := by simp [Scanner.size, hi]
        rw [if_pos he]
        exact ih _ hlt (st := { st with inner := cs }) hm hf h rfl
      · next hne =>
        cases h
        rw [if_neg hne]
        exact ⟨fun _ => rfl, fun he => absurd he hne⟩
  | nil =>
    have hi' : (st.append (b :: w)).inner = [] := hi
    cases hs : scanCursor st.mode st.multi st.forceEOF st.base with
    | panic => rw [scan_base_panic hi hs] at h; cases h
    | special sql c' =>
      have hl := scanCursor_special_length hs
      rw [scan_base_special hi hs] at h
      have hlt : Scanner.size { st with inner := [newCursor sql], base := c' } < st.size := by
        simp [Scanner.size, hi, newCursor]; omega
      have hs0 := hs
      rw [hm, hf] at hs
      have hne : skipBlank (dropNul st.base.input) ≠ [] := by
        intro he
        rw [scanCursor_blank he] at hs
        cases hs
      have := scanCursor_local (w := w) hb st.mode st.base.input st.base.posVar hne (by rw [hs]; trivial)
      rw [show (⟨st.base.input, st.base.posVar⟩ : Cursor) = st.base from rfl, hs] at this
      rw [scan_base_special (st := st.append (b :: w)) hi' (by
        show scanCursor st.mode st.multi st.forceEOF _ = _
        rw [hm, hf]; exact this)]
      exact ih _ hlt (st := { st with inner := [newCursor sql], base := c' }) hm hf h rfl
    | token t' c' =>
      rw [scan_base_token hi hs] at h
      cases h
      rw [hm, hf] at hs
      by_cases he : t.type = .eof
      · refine ⟨fun hne => absurd he hne, fun _ => ?_⟩
        have hbl := (scanCursor_eof hs).1 he
        rw [scanCursor_blank hbl] at hs
        cases hs
        have hcong : scanCursor st.mode false false ⟨st.base.input ++ b :: w, st.base.posVar⟩ =
            scanCursor st.mode false false ⟨b :: w, st.base.posVar⟩ := by
          apply scanCursor_congr _ rfl
          have hbn := isSep_ne hb (d := '\x00') (by decide)
          rw [dropNul_append_sep hbn, skipBlank_append, hbl]
          simp [dropNul, hbn]
        have e1 : (st.append (b :: w)).inner = [] := hi
        have e2 : ({ st with inner := [], base := ⟨b :: w, st.base.posVar⟩ } : Scanner).inner = [] := rfl
        have hc1 : scanCursor (st.append (b :: w)).mode (st.append (b :: w)).multi (st.append (b :: w)).forceEOF
            (st.append (b :: w)).base = scanCursor st.mode st.multi st.forceEOF ⟨b :: w, st.base.posVar⟩ := by
          show scanCursor st.mode st.multi st.forceEOF _ = _
          rw [hm, hf]
          exact hcong
        cases hx : scanCursor st.mode st.multi st.forceEOF ⟨b :: w, st.base.posVar⟩ with
        | panic => rw [scan_base_panic e1 (hc1.trans hx), scan_base_panic e2 hx]
        | special sql c' =>
          rw [scan_base_special e1 (hc1.trans hx), scan_base_special e2 hx]; rfl
        | token t c' =>
          rw [scan_base_token e1 (hc1.trans hx), scan_base_token e2 hx]
          simp [Scanner.append, hi]
      · refine ⟨fun _ => ?_, fun h => absurd h he⟩
        have hne : skipBlank (dropNul st.base.input) ≠ [] := fun hbl => he ((scanCursor_eof hs).2 hbl)
        have := scanCursor_local (w := w) hb st.mode st.base.input st.base.posVar hne
          (by rw [show (⟨st.base.input, st.base.posVar⟩ : Cursor) = st.base from rfl, hs]; exact hc)
        rw [show (⟨st.base.input, st.base.posVar⟩ : Cursor) = st.base from rfl, hs] at this
        rw [scan_base_token (st := st.append (b :: w)) hi' (by
          show scanCursor st.mode st.multi st.forceEOF _ = _
          rw [hm, hf]; exact this)]
        rfl

theorem scan_flags {st st' : Scanner} {t : Token} (h : scan st = .ok (t, st')) :
    st'.multi = st.multi ∧ st'.forceEOF = st.forceEOF ∧ st'.mode = st.mode := by
  induction hn : st.size using Nat.strongRecOn generalizing st with
  | ind n ih =>
  subst hn
  cases hi : st.inner with
  | cons c cs =>
    cases hs : scanCursor st.mode false false c with
    | panic => rw [scan_inner_panic hi hs] at h; cases h
    | special sql c' =>
      have hl := scanCursor_special_length hs
      rw [scan_inner_special hi hs] at h
      have hlt : Scanner.size { st with inner := newCursor sql :: c' :: cs } < st.size := by
        simp [Scanner.size, hi, newCursor]; omega
      exact ih _ hlt (st := { st with inner := newCursor sql :: c' :: cs }) h rfl
    | token t' c' =>
      rw [scan_inner_token hi hs] at h
      split at h
      · have hlt : Scanner.size { st with inner := cs } < st.size := by simp [Scanner.size, hi]
        exact ih _ hlt (st := { st with inner := cs }) h rfl
      · cases h; exact ⟨rfl, rfl, rfl⟩
  | nil =>
    cases hs : scanCursor st.mode st.multi st.forceEOF st.base with
    | panic => rw [scan_base_panic hi hs] at h; cases h
    | special sql c' =>
      have hl := scanCursor_special_length hs
      rw [scan_base_special hi hs] at h
      have hlt : Scanner.size { st with inner := [newCursor sql], base := c' } < st.size := by
        simp [Scanner.size, hi, newCursor]; omega
      exact ih _ hlt (st := { st with inner := [newCursor sql], base := c' }) h rfl
    | token t' c' => rw [scan_base_token hi hs] at h; cases h; exact ⟨rfl, rfl, rfl⟩

theorem scanAll_error {st : Scanner} {e : Err} (h : scan st = .error e) : scanAll st = .error e := by
  rw [scanAll]
  split
  · next h' => rw [h] at h'; cases h'; rfl
  · next h' => rw [h] at h'; cases h'

theorem scanAll_eof {st st' : Scanner} {t : Token} (h : scan st = .ok (t, st')) (ht : t.type = .eof) :
    scanAll st = .ok [] := by
  rw [scanAll]
  split
  · next h' => rw [h] at h'; cases h'
  · next h' => rw [h] at h'; cases h'; rw [dif_pos ht]

theorem scanAll_cons {st st' : Scanner} {t : Token} (h : scan st = .ok (t, st')) (ht : t.type ≠ .eof) :
    scanAll st = (scanAll st').map (t :: ·) := by
  rw [scanAll]
  split
  · next h' => rw [h] at h'; cases h'
  · next h' => rw [h] at h'; cases h'; rw [dif_neg ht]

/-- **The tokens of a text cut at a separator.** If the text up to the cut consists of complete tokens, the
tokens of the whole are these followed by those of the rest. `n` is the number of `?` seen before the cut. -/
theorem scanAll_append (st : Scanner) (hm : st.multi = false) (hf : st.forceEOF = false) (ts : List Token)
    (h : scanAll st = .ok ts) (hc : ∀ t ∈ ts, complete t) :
    ∃ n, ∀ (b : Char) (w : Str), isSep b = true →
      scanAll (st.append (b :: w)) =
        (scanAll { st with inner := [], base := ⟨b :: w, n⟩ }).map (ts ++ ·) := by
  induction hn : st.size using Nat.strongRecOn generalizing st ts with
  | ind n ih =>
  subst hn
  cases hs : scan st with
  | error e => rw [scanAll_error hs] at h; cases h
  | ok p =>
    obtain ⟨t, st'⟩ := p
    by_cases ht : t.type = .eof
    · rw [scanAll_eof hs ht] at h
      cases h
      refine ⟨st'.base.posVar, fun b w hb => ?_⟩
      have ha := (scan_append (w := w) hb hm hf hs ⟨by simp [ht], by rintro ⟨h, _⟩; rw [ht] at h; cases h⟩).2 ht
      cases hx : scan { st with inner := [], base := ⟨b :: w, st'.base.posVar⟩ } with
      | error e => rw [scanAll_error hx, scanAll_error (ha.trans hx)]; rfl
      | ok p =>
        obtain ⟨t2, st2⟩ := p
        by_cases ht2 : t2.type = .eof
        · rw [scanAll_eof hx ht2, scanAll_eof (ha.trans hx) ht2]; rfl
        · rw [scanAll_cons hx ht2, scanAll_cons (ha.trans hx) ht2]
          cases scanAll st2 <;> rfl
    · rw [scanAll_cons hs ht] at h
      cases hr : scanAll st' with
      | error e => rw [hr] at h; cases h
      | ok ts' =>
        rw [hr] at h
        cases h
        obtain ⟨f1, f2, f3⟩ := scan_flags hs
        obtain ⟨n, hn⟩ := ih st'.size (scan_progress hs ht) st' (f1.trans hm) (f2.trans hf) ts' hr
          (fun t ht => hc t (by simp [ht])) rfl
        refine ⟨n, fun b w hb => ?_⟩
        have ha := (scan_append (w := w) hb hm hf hs (hc t (by simp))).1 ht
        rw [scanAll_cons ha ht, hn b w hb]
        have e : ({ st' with inner := [], base := ⟨b :: w, n⟩ } : Scanner) =
            { st with inner := [], base := ⟨b :: w, n⟩ } := by
          cases st; cases st'; simp_all
        rw [e]
        cases scanAll { st with inner := [], base := ⟨b :: w, n⟩ } <;> rfl

end Sqldef
