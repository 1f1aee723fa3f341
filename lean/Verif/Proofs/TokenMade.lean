import Verif.Proofs.WholeClasses
import Verif.Proofs.ScannerReads

/-! Which tokens the scanner makes. -/
namespace Sqldef.Sql

/-- The characters that are tokens. -/
def madeChars : List Char := singleChars ++ ['&', '|', '.', '-', '<', '>', '!', '/']

/-- The operators that have names. -/
def madeCodes : List Str :=
  [lit "AND", lit "OR", lit "NE", lit "SHIFT_LEFT", lit "NULL_SAFE_EQUAL", lit "LE", lit "GE", lit "SHIFT_RIGHT",
   lit "JSON_UNQUOTE_EXTRACT_OP", lit "JSON_EXTRACT_OP", lit "TYPECAST"]

/-- A token as the scanner makes it: an integer has digits, a keyword has its text. -/
def Made (t : Token) : Prop :=
  match t.type with
  | .integral => Digits t.val
  | .char c => c ∈ madeChars
  | .code n => (n ∈ keywordWords.map (·.2) ∧ t.val ≠ []) ∨ n ∈ madeCodes
  | _ => True

theorem made_ite {p : Prop} [Decidable p] {a b : Token × Str} (h1 : p → Made a.1) (h2 : ¬ p → Made b.1) :
    Made (if p then a else b).1 := by
  split
  · next h => exact h1 h
  · next h => exact h2 h

/-- A number as the scanner makes it. -/
def Number (t : Token) : Prop :=
  (t.type = .integral ∧ ∃ c r, c ≠ '-' ∧ t.val = c :: r) ∨ t.type = .float ∨ t.type = .hexNum ∨ t.type = .lexError

theorem Number.made {t : Token} (h : Number t) : Made t := by
  obtain ⟨ty, v⟩ := t
  rcases h with ⟨h, c, r, hc, hv⟩ | h | h | h
  · cases h; exact ⟨c, r, hc, .inl hv⟩
  all_goals cases h; trivial

theorem Number.minus {t : Token} (h : Number t) : Made ⟨t.type, '-' :: t.val⟩ := by
  obtain ⟨ty, v⟩ := t
  rcases h with ⟨h, c, r, hc, hv⟩ | h | h | h
  · cases h; exact ⟨c, r, hc, .inr (by rw [show v = c :: r from hv])⟩
  all_goals cases h; trivial

theorem number_float (v : Str) : Number ⟨.float, v⟩ := .inr (.inl rfl)
theorem number_hex (v : Str) : Number ⟨.hexNum, v⟩ := .inr (.inr (.inl rfl))

theorem numberExit_number {ty : TokenType} {buf : Str} (s : Str) (h : Number ⟨ty, buf⟩) :
    Number (numberExit ty buf s).1 := by
  unfold numberExit
  split
  · split
    · exact .inr (.inr (.inr rfl))
    · exact h
  · exact h

theorem numberExponent_number {ty : TokenType} {buf : Str} (s : Str) (h : Number ⟨ty, buf⟩) :
    Number (numberExponent ty buf s).1 := by
  unfold numberExponent
  split
  · split
    · exact numberExit_number _ (number_float _)
    · exact numberExit_number _ h
  · exact numberExit_number _ h

theorem numberInteger_number {buf s : Str}
    (h : ∃ c r, c ≠ '-' ∧ buf ++ (s.takeWhile fun c => digitVal c < 10) = c :: r) :
    Number (numberInteger buf s).1 := by
  unfold numberInteger
  simp only [scanMantissa]
  split
  · exact numberExponent_number _ (number_float _)
  · exact numberExponent_number _ (.inl ⟨rfl, h⟩)

theorem digit_facts {c : Char} (h : isDigit c = true) : c ≠ '-' ∧ digitVal c < 10 := by
  simp only [isDigit, Bool.and_eq_true, decide_eq_true_eq] at h
  constructor
  · rintro rfl; exact absurd h (by decide)
  · unfold digitVal
    rw [if_pos h]
    have h1 : '0'.toNat ≤ c.toNat := h.1
    have h2 : c.toNat ≤ '9'.toNat := h.2
    have e0 : '0'.toNat = 48 := rfl
    have e9 : '9'.toNat = 57 := rfl
    omega

/-- A number starts with a digit. -/
theorem scanNumber_number {c : Char} {s : Str} (h : isDigit c = true) : Number (scanNumber (c :: s)).1 := by
  unfold scanNumber
  split
  · exact numberExit_number _ (number_hex _)
  · exact numberExit_number _ (number_hex _)
  · exact numberInteger_number ⟨'0', _, by decide, rfl⟩
  · obtain ⟨h1, h2⟩ := digit_facts h
    refine numberInteger_number ⟨c, s.takeWhile fun c => digitVal c < 10, h1, ?_⟩
    rw [List.takeWhile_cons_of_pos (by simpa using h2)]
    rfl

theorem made_string {delim : Char} : ∀ (n : Nat) (buf s : Str), s.length ≤ n →
    Made (scanStringLoop delim buf s).1 ∧ ∀ c, Made (scanStringLoop.step delim c buf s).1 := by
  intro n
  induction n with
  | zero =>
    intro buf s hn
    have : s = [] := List.length_eq_zero_iff.mp (by omega)
    subst this
    refine ⟨by unfold scanStringLoop; trivial, fun c => ?_⟩
    unfold scanStringLoop.step
    exact made_ite (fun _ => trivial) (fun _ => trivial)
  | succ n ih =>
    intro buf s hn
    have hstep : ∀ c buf, Made (scanStringLoop.step delim c buf s).1 := by
      intro c buf
      unfold scanStringLoop.step
      refine made_ite (fun _ => ?_) (fun _ => ?_)
      · split
        · trivial
        · exact (ih _ _ (by simp at hn; omega)).1
      · split
        · trivial
        · exact made_ite (fun _ => trivial) (fun _ => (ih _ _ (by simp at hn; omega)).1)
    refine ⟨?_, fun c => hstep c buf⟩
    unfold scanStringLoop
    split
    · trivial
    · next c s =>
      refine made_ite (fun _ => ?_) (fun _ => ?_)
      · split
        · trivial
        · next c' s' h =>
          refine (ih _ _ ?_).2 c'
          have h1 := congrArg List.length h
          have h2 := (List.dropWhile_sublist (fun c => !(decide (c = delim) || decide (c = '\\'))) (l := s)).length_le
          simp only [List.length_cons] at h1 hn
          omega
      · exact (ih _ _ (by simp at hn; omega)).2 c

theorem made_literal (sep : Char) (s : Str) : Made (scanLiteralIdentifier sep s).1 := by
  unfold scanLiteralIdentifier
  split
  · trivial
  · exact made_ite (fun _ => trivial) (fun _ => trivial)

theorem made_comment1 (pre s : Str) : Made (scanCommentType1 pre s).1 := by
  unfold scanCommentType1
  simp only []
  split <;> trivial

theorem made_comment2 (s : Str) : Made (scanCommentType2 s).1 := by
  unfold scanCommentType2
  split <;> trivial

theorem made_hex (s : Str) : Made (scanHex s).1 := by
  unfold scanHex
  simp only []
  split
  · exact made_ite (fun _ => trivial) (fun _ => trivial)
  · trivial

theorem made_bit (s : Str) : Made (scanBitLiteral s).1 := by
  unfold scanBitLiteral
  simp only []
  split <;> trivial

theorem made_identifier (c : Char) (b : Bool) (s : Str) : Made (scanIdentifier c b s).1 := by
  unfold scanIdentifier
  simp only []
  split
  · next code h =>
    refine Or.inl ⟨?_, ?_⟩
    · rw [keywordTree_eq] at h
      rw [Option.map_eq_some_iff] at h
      obtain ⟨p, h1, h2⟩ := h
      exact List.mem_map.mpr ⟨p, List.mem_of_find?_eq_some h1, h2⟩
    · simp [toLower]
  · exact made_ite (fun _ => trivial) (fun _ => trivial)

theorem made_word (c : Char) (s : Str) : Made (scanWord c s).1 := by
  unfold scanWord
  split
  · exact made_ite (fun _ => made_hex _) fun _ => made_ite (fun _ => made_bit _) fun _ => made_identifier _ _ _
  · exact made_identifier _ _ _

theorem made_bindName {ty : TokenType} (h : ty = .listArg ∨ ty = .valueArg) (buf s : Str) :
    Made (scanBindName ty buf s).1 := by
  unfold scanBindName
  split
  · trivial
  · refine made_ite (fun _ => trivial) (fun _ => ?_)
    rcases h with rfl | rfl <;> trivial

theorem made_bindVar (mode : Mode) (s : Str) : Made (scanBindVar mode s).1 := by
  unfold scanBindVar
  split
  · exact made_ite (fun _ => .inr (by decide)) (fun _ => made_bindName (.inl rfl) _ _)
  · exact made_bindName (.inr rfl) _ _

theorem made_two {a b : Char} {code : Str} (ha : a ∈ madeChars) (hc : code ∈ madeCodes) (s : Str) :
    Made (scanTwo a b code s).1 := by
  unfold scanTwo
  split
  · exact made_ite (fun _ => .inr hc) (fun _ => ha)
  · exact ha

theorem made_dot (s : Str) : Made (scanDot s).1 := by
  unfold scanDot
  split
  · refine made_ite (fun _ => (numberExponent_number _ (number_float _)).made) (fun _ => ?_)
    show '.' ∈ madeChars
    decide
  · show '.' ∈ madeChars
    decide

theorem made_minus (s : Str) : Made (scanMinus s).1 := by
  have hm : '-' ∈ madeChars := by decide
  unfold scanMinus
  split
  · exact made_comment1 _ _
  · exact .inr (by decide)
  · exact .inr (by decide)
  · exact made_ite (fun h => (scanNumber_number h).minus) (fun _ => hm)
  · exact hm

theorem made_less (s : Str) : Made (scanLess s).1 := by
  have hm : '<' ∈ madeChars := by decide
  unfold scanLess
  split
  · exact .inr (by decide)
  · exact .inr (by decide)
  · exact .inr (by decide)
  · exact .inr (by decide)
  · exact hm

theorem made_greater (s : Str) : Made (scanGreater s).1 := by
  have hm : '>' ∈ madeChars := by decide
  unfold scanGreater
  split
  · exact .inr (by decide)
  · exact .inr (by decide)
  · exact hm

theorem made_symbol (mode : Mode) (ch : Char) (s : Str) : Made (scanSymbol mode ch s).1 := by
  unfold scanSymbol
  refine made_ite (fun h => made_ite (fun _ => made_literal _ _) fun _ => ?_) fun _ => ?_
  · show ch ∈ madeChars
    exact List.mem_append_left _ h
  refine made_ite (fun _ => made_two (by decide) (by decide) _) fun _ => ?_
  refine made_ite (fun _ => made_two (by decide) (by decide) _) fun _ => ?_
  refine made_ite (fun _ => made_dot _) fun _ => ?_
  refine made_ite (fun _ => made_comment1 _ _) fun _ => ?_
  refine made_ite (fun _ => made_minus _) fun _ => ?_
  refine made_ite (fun _ => made_less _) fun _ => ?_
  refine made_ite (fun _ => made_greater _) fun _ => ?_
  refine made_ite (fun _ => made_two (by decide) (by decide) _) fun _ => ?_
  refine made_ite (fun _ => (made_string _ _ _ Nat.le.refl).1) fun _ => ?_
  refine made_ite (fun _ => made_ite (fun _ => made_literal _ _) fun _ => (made_string _ _ _ Nat.le.refl).1) fun _ => ?_
  exact made_ite (fun _ => made_literal _ _) fun _ => trivial

theorem made_token {mode : Mode} {multi : Bool} {n : Nat} {ch : Char} {s : Str} {t : Token} {c : Cursor}
    (h : scanToken mode multi n ch s = .token t c) : Made t := by
  unfold scanToken at h
  split at h
  · obtain ⟨rfl, _⟩ := Step.token.inj h
    exact made_word _ _
  split at h
  · next hd =>
    obtain ⟨rfl, _⟩ := Step.token.inj h
    exact (scanNumber_number hd).made
  split at h
  · obtain ⟨rfl, _⟩ := Step.token.inj h
    exact made_bindVar _ _
  split at h
  · obtain ⟨rfl, _⟩ := Step.token.inj h
    trivial
  unfold scanOperator at h
  split at h
  · unfold scanSlash at h
    split at h
    · obtain ⟨rfl, _⟩ := Step.token.inj h
      exact made_comment1 _ _
    · next s' =>
      unfold scanMySQLSpecificComment at h
      split at h
      · obtain ⟨rfl, _⟩ := Step.token.inj h
        trivial
      · split at h <;> cases h
    · obtain ⟨rfl, _⟩ := Step.token.inj h
      exact made_comment2 _
    · obtain ⟨rfl, _⟩ := Step.token.inj h
      show '/' ∈ madeChars
      decide
  split at h
  · obtain ⟨rfl, _⟩ := Step.token.inj h
    trivial
  · obtain ⟨rfl, _⟩ := Step.token.inj h
    exact made_symbol _ _ _

theorem made_cursor {mode : Mode} {multi forceEOF : Bool} {c c' : Cursor} {t : Token}
    (h : scanCursor mode multi forceEOF c = .token t c') : Made t := by
  unfold scanCursor at h
  split at h
  · obtain ⟨rfl, _⟩ := Step.token.inj h
    trivial
  split at h
  · obtain ⟨rfl, _⟩ := Step.token.inj h
    trivial
  · exact made_token h

/-- Every token of the scanner is made so. -/
theorem scan_made {st st' : Scanner} {t : Token} (h : scan st = .ok (t, st')) : Made t := by
  induction hn : st.size using Nat.strongRecOn generalizing st with
  | ind n ih =>
  subst hn
  cases hi : st.inner with
  | cons c cs =>
    cases hs : scanCursor st.mode false false c with
    | panic => rw [scan_inner_panic hi hs] at h; cases h
    | special sql c' =>
      have hl := scanCursor_special_length hs
      rw [scan_inner_special hi hs] at h
      refine ih _ ?_ h rfl
      simp [Scanner.size, hi, newCursor]
      omega
    | token t' c' =>
      rw [scan_inner_token hi hs] at h
      split at h
      · refine ih _ ?_ h rfl
        simp [Scanner.size, hi]
      · cases h
        exact made_cursor hs
  | nil =>
    cases hs : scanCursor st.mode st.multi st.forceEOF st.base with
    | panic => rw [scan_base_panic hi hs] at h; cases h
    | special sql c' =>
      have hl := scanCursor_special_length hs
      rw [scan_base_special hi hs] at h
      refine ih _ ?_ h rfl
      simp [Scanner.size, hi, newCursor]
      omega
    | token t' c' =>
      rw [scan_base_token hi hs] at h
      cases h
      exact made_cursor hs

end Sqldef.Sql
