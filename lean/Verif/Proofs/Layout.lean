import Verif.Spec.Layout
import Verif.Proofs.StatementText

/-! Texts that are ways to write tokens are read as these tokens. -/
namespace Sqldef
open Spec

theorem digitVal_other {c : Char} (h : isDigit c = false) : ¬ digitVal c < 10 := by
  unfold isDigit at h
  unfold digitVal
  rw [if_neg (by simpa using h)]
  repeat' split
  all_goals omega

theorem mantissa_ends {s rest : Str} (hs : ∀ c ∈ s, isDigit c = true) (hr : ∀ c, rest.head? = some c → isDigit c = false) :
    scanMantissa 10 (s ++ rest) = (s, rest) := by
  unfold scanMantissa
  have := takeWhile_word (p := fun c => decide (digitVal c < 10)) (s := s) (rest := rest)
    (fun d hd => by simpa using digit_digitVal (hs d hd))
    (fun c hc => by simpa using digitVal_other (hr c hc))
  rw [this.1, this.2]

theorem exponent_ends {rest : Str} (hr : EndsNumber rest) (t : TokenType) (buf : Str) :
    numberExponent t buf rest = (⟨t, buf⟩, rest) := by
  cases rest with
  | nil => rfl
  | cons c r =>
    have h := hr c rfl
    have he : (decide (c = 'e') || decide (c = 'E')) = false := by
      have : c ≠ 'e' ∧ c ≠ 'E' := by
        constructor <;> (rintro rfl; revert h; decide)
      simp [this]
    unfold numberExponent
    simp only [he, Bool.false_eq_true, if_false]
    unfold numberExit
    simp [h.1]

theorem scanNumber_int {s r : Str} (hn : s ≠ []) (hs : ∀ c ∈ s, isDigit c = true)
    (hx : ∀ c, r.head? = some c → c ≠ 'x' ∧ c ≠ 'X') :
    ∃ buf s', buf ++ s' = s ∧ (∀ c ∈ s', isDigit c = true) ∧ scanNumber (s ++ r) = numberInteger buf (s' ++ r) := by
  cases s with
  | nil => exact absurd rfl hn
  | cons d s =>
    have hs' : ∀ c ∈ s, isDigit c = true := fun c hc => hs c (by simp [hc])
    have hx' : ∀ c, (s ++ r).head? = some c → c ≠ 'x' ∧ c ≠ 'X' := by
      intro c hc
      cases s with
      | nil => exact hx c hc
      | cons e s =>
        simp only [List.cons_append, List.head?_cons, Option.some.injEq] at hc
        subst hc
        have := hs' e (by simp)
        constructor <;> (rintro rfl; revert this; decide)
    unfold scanNumber
    split
    · next h =>
      obtain ⟨rfl, h'⟩ := List.cons.inj h
      exact absurd rfl (hx' 'x' (by change (s.append r).head? = _; rw [h']; rfl)).1
    · next h =>
      obtain ⟨rfl, h'⟩ := List.cons.inj h
      exact absurd rfl (hx' 'X' (by change (s.append r).head? = _; rw [h']; rfl)).2
    · next h =>
      obtain ⟨rfl, h'⟩ := List.cons.inj h
      exact ⟨['0'], s, rfl, hs', by rw [← h']; rfl⟩
    · exact ⟨[], d :: s, rfl, hs, rfl⟩

theorem scanNumber_ends {s rest : Str} (hn : s ≠ []) (hs : ∀ c ∈ s, isDigit c = true) (hr : EndsNumber rest) :
    scanNumber (s ++ rest) = (⟨.integral, s⟩, rest) := by
  obtain ⟨buf, s', rfl, hs', e⟩ := scanNumber_int (r := rest) hn hs (by
    intro c hc
    have := hr c hc
    constructor <;> (rintro rfl; revert this; decide))
  rw [e]
  unfold numberInteger
  rw [mantissa_ends hs' fun c hc => (hr c hc).2.1]
  simp only
  split
  · exact absurd rfl (hr '.' rfl).2.2
  · exact exponent_ends hr _ _

theorem scanNumber_fraction {s f rest : Str} (hn : s ≠ []) (hs : ∀ c ∈ s, isDigit c = true) (hf : ∀ c ∈ f, isDigit c = true)
    (hr : EndsNumber rest) : scanNumber (s ++ '.' :: (f ++ rest)) = (⟨.float, s ++ '.' :: f⟩, rest) := by
  obtain ⟨buf, s', rfl, hs', e⟩ := scanNumber_int (r := '.' :: (f ++ rest)) hn hs (by
    intro c hc
    simp only [List.head?_cons, Option.some.injEq] at hc
    subst hc
    decide)
  rw [e]
  unfold numberInteger
  rw [mantissa_ends hs' (by intro c hc; simp only [List.head?_cons, Option.some.injEq] at hc; subst hc; decide)]
  simp only
  rw [mantissa_ends hf fun c hc => (hr c hc).2.1, exponent_ends hr]
  simp

/-- A character that is read with those after it. -/
theorem reads_symbol {mode : Mode} {ch : Char} {s rest : Str} {t : Token} (hc : ch ∈ ['<', '>', '!', '&', '|', '-'])
    (h : scanSymbol mode ch s = (t, rest)) : Reads mode (ch :: s) t rest := by
  have : ∀ ch ∈ ['<', '>', '!', '&', '|', '-'], ch ≠ '\x00' ∧ isBlank ch = false ∧ isLetter ch = false ∧ isDigit ch = false ∧
    ch ≠ ':' ∧ ch ≠ '/' ∧ ch ≠ '?' := by decide
  obtain ⟨h1, h2, h3, h4, h5, h6, h7⟩ := this ch hc
  refine reads_start h1 h2 fun n => ?_
  rw [scanToken_symbol h3 h4 h5 h6 h7, h]

theorem two_alone {a b : Char} {code rest : Str} (h : rest.head? ≠ some b) : scanTwo a b code rest = (⟨.char a, []⟩, rest) := by
  cases rest with
  | nil => rfl
  | cons c r =>
    have h : c ≠ b := by simpa using h
    simp [scanTwo, h]

theorem less_alone {rest : Str} (h : rest.head? ≠ some '<' ∧ rest.head? ≠ some '=' ∧ rest.head? ≠ some '>') :
    scanLess rest = (⟨.char '<', []⟩, rest) := by
  unfold scanLess
  split
  · exact absurd rfl h.2.2
  · exact absurd rfl h.1
  · exact absurd rfl h.2.1
  · exact absurd rfl h.2.1
  · rfl

theorem less_equal {rest : Str} (h : rest.head? ≠ some '>') : scanLess ('=' :: rest) = (⟨.code (lit "LE"), []⟩, rest) := by
  cases rest with
  | nil => rfl
  | cons c r =>
    have : c ≠ '>' := by simpa using h
    unfold scanLess
    split
    · next h => exact absurd (List.cons.inj h).1 (by decide)
    · next h => exact absurd (List.cons.inj h).1 (by decide)
    · next h => exact absurd (List.cons.inj (List.cons.inj h).2).1 this
    · next h => rw [(List.cons.inj h).2]
    · next h => exact absurd rfl (h _)

theorem greater_alone {rest : Str} (h : rest.head? ≠ some '=' ∧ rest.head? ≠ some '>') :
    scanGreater rest = (⟨.char '>', []⟩, rest) := by
  unfold scanGreater
  split
  · exact absurd rfl h.1
  · exact absurd rfl h.2
  · rfl

theorem minus_alone {rest : Str} (h : rest.head? ≠ some '-' ∧ rest.head? ≠ some '>') (hd : ∀ c, rest.head? = some c → isDigit c = false) :
    scanMinus rest = (⟨.char '-', []⟩, rest) := by
  unfold scanMinus
  split
  · exact absurd rfl h.1
  · exact absurd rfl h.2
  · exact absurd rfl h.2
  · rw [if_neg (by simpa using hd _ rfl)]
  · rfl

theorem slash_alone {n : Nat} {rest : Str} (h : rest.head? ≠ some '/' ∧ rest.head? ≠ some '*') :
    scanSlash n rest = .token ⟨.char '/', []⟩ ⟨rest, n⟩ := by
  unfold scanSlash
  split
  · exact absurd rfl h.1
  · exact absurd rfl h.2
  · exact absurd rfl h.2
  · rfl

theorem digit_listed {c : Char} (h : isDigit c = true) : c ∈ ['0', '1', '2', '3', '4', '5', '6', '7', '8', '9'] := by
  unfold isDigit at h
  simp only [Bool.and_eq_true, decide_eq_true_eq] at h
  have h1 : '0'.toNat ≤ c.toNat := h.1
  have h2 : c.toNat ≤ '9'.toNat := h.2
  have e0 : '0'.toNat = 48 := rfl
  have e9 : '9'.toNat = 57 := rfl
  have key : ∀ n : Fin 10, Char.ofNat (48 + n.val) ∈ ['0', '1', '2', '3', '4', '5', '6', '7', '8', '9'] := by decide
  have e : c = Char.ofNat (48 + (c.toNat - 48)) := by
    rw [show 48 + (c.toNat - 48) = c.toNat by omega, Char.ofNat_toNat]
  rw [e]
  exact key ⟨c.toNat - 48, by omega⟩

theorem scan_operator {mode : Mode} {a : String} {t : Token} {cs : List Char} {rest : Str} (h : (a, t, cs) ∈ operators)
    (hr : ∀ c ∈ cs, rest.head? ≠ some c) : Reads mode (lit a ++ rest) t rest := by
  simp only [operators, List.mem_cons, List.not_mem_nil, or_false, Prod.mk.injEq] at h
  rcases h with ⟨rfl, rfl, rfl⟩ | ⟨rfl, rfl, rfl⟩ | ⟨rfl, rfl, rfl⟩ | ⟨rfl, rfl, rfl⟩ | ⟨rfl, rfl, rfl⟩ | ⟨rfl, rfl, rfl⟩ |
    ⟨rfl, rfl, rfl⟩ | ⟨rfl, rfl, rfl⟩ | ⟨rfl, rfl, rfl⟩ | ⟨rfl, rfl, rfl⟩ | ⟨rfl, rfl, rfl⟩ | ⟨rfl, rfl, rfl⟩ | ⟨rfl, rfl, rfl⟩ |
    ⟨rfl, rfl, rfl⟩
  · exact reads_symbol (ch := '<') (by decide) (less_alone ⟨hr _ (by simp), hr _ (by simp), hr _ (by simp)⟩)
  · exact reads_symbol (ch := '<') (by decide) (less_equal (hr _ (by simp)))
  · exact reads_symbol (ch := '<') (by decide) rfl
  · exact reads_symbol (ch := '<') (by decide) rfl
  · exact reads_symbol (ch := '!') (by decide) rfl
  · exact reads_symbol (ch := '<') (by decide) rfl
  · exact reads_symbol (ch := '>') (by decide) (greater_alone ⟨hr _ (by simp), hr _ (by simp)⟩)
  · exact reads_symbol (ch := '>') (by decide) rfl
  · exact reads_symbol (ch := '>') (by decide) rfl
  · exact reads_symbol (ch := '&') (by decide) (two_alone (hr _ (by simp)))
  · exact reads_symbol (ch := '|') (by decide) (two_alone (hr _ (by simp)))
  · exact reads_symbol (ch := '!') (by decide) (two_alone (hr _ (by simp)))
  · exact reads_start (ch := '/') (by decide) (by decide) fun n => slash_alone ⟨hr _ (by simp), hr _ (by simp)⟩
  · refine reads_symbol (ch := '-') (by decide) (minus_alone ⟨hr _ (by simp), hr _ (by simp)⟩ ?_)
    intro c hc
    cases hd : isDigit c with
    | false => rfl
    | true => exact absurd hc (hr c (List.mem_cons_of_mem _ (List.mem_cons_of_mem _ (digit_listed hd))))

theorem spells_reads {mode : Mode} {t : Token} {a rest : Str} (h : Spells mode t a rest) :
    Reads mode (a ++ rest) t rest ∧ (a ++ rest).head? ≠ some '\x00' ∧ t.type ≠ .eof ∧ t.type ≠ .comment := by
  cases h with
  | keyword hw hk hr =>
    have := reads_word mode hw hr
    rw [hk] at this
    obtain ⟨⟨c, s, rfl, hc, hs⟩, ha⟩ := hw
    refine ⟨this, ?_, by simp, by simp⟩
    simp only [List.cons_append, List.head?_cons, ne_eq, Option.some.injEq]
    exact (letter_facts hc).1
  | bare hw hk hd hr =>
    have := reads_word mode hw hr
    rw [hk] at this
    dsimp only at this
    rw [if_neg hd] at this
    obtain ⟨⟨c, s, rfl, hc, hs⟩, ha⟩ := hw
    refine ⟨this, ?_, by simp, by simp⟩
    simp only [List.cons_append, List.head?_cons, ne_eq, Option.some.injEq]
    exact (letter_facts hc).1
  | @quoted o c n _ ho hn hr =>
    have := reads_name ho hn hr
    refine ⟨by simpa using this, ?_, by simp, by simp⟩
    simp only [List.cons_append, List.head?_cons, ne_eq, Option.some.injEq]
    cases mode <;> simp [nameQuotes] at ho <;> rcases ho with ⟨rfl, _⟩ | ⟨rfl, _⟩ | ⟨rfl, _⟩ <;> decide
  | @string q src v _ hq hb hr =>
    have := reads_string hq hb hr
    refine ⟨by simpa using this, ?_, by simp, by simp⟩
    simp only [List.cons_append, List.head?_cons, ne_eq, Option.some.injEq]
    cases mode <;> simp [stringQuotes] at hq <;> rcases hq with rfl | rfl <;> decide
  | digits hn hs hr =>
    cases a with
    | nil => exact absurd rfl hn
    | cons c s =>
      have hc := hs c (by simp)
      have hf := digit_facts hc
      refine ⟨?_, by simp; exact hf.2.1, by simp, by simp⟩
      refine reads_start hf.2.1 hf.2.2.1 fun n => ?_
      unfold scanToken
      rw [if_neg (by simp [hf.1]), if_pos hc]
      change Step.token (scanNumber ((c :: s) ++ rest)).1 ⟨(scanNumber ((c :: s) ++ rest)).2, n⟩ = _
      rw [scanNumber_ends hn hs hr]
  | @negative s _ hn hs hr =>
    refine ⟨?_, by simp, by simp, by simp⟩
    refine reads_start (by decide) (by decide) fun n => ?_
    change scanToken mode false n '-' (s ++ rest) = _
    rw [scanToken_symbol (by decide) (by decide) (by decide) (by decide) (by decide)]
    have e : scanSymbol mode '-' (s ++ rest) = (⟨.integral, '-' :: s⟩, rest) := by
      have e1 : scanSymbol mode '-' (s ++ rest) = scanMinus (s ++ rest) := by simp [scanSymbol, singleChars]
      rw [e1]
      cases s with
      | nil => exact absurd rfl hn
      | cons c s =>
        have hc := hs c (by simp)
        have h1 : c ≠ '-' := by rintro rfl; revert hc; decide
        have h2 : c ≠ '>' := by rintro rfl; revert hc; decide
        unfold scanMinus
        split
        · next h => exact absurd (List.cons.inj h).1 h1
        · next h => exact absurd (List.cons.inj h).1 h2
        · next h => exact absurd (List.cons.inj h).1 h2
        · next h =>
          obtain ⟨rfl, rfl⟩ := List.cons.inj h
          rw [if_pos hc]
          change ((⟨(scanNumber ((_ :: s) ++ rest)).1.type, '-' :: (scanNumber ((_ :: s) ++ rest)).1.val⟩ : Token),
            (scanNumber ((_ :: s) ++ rest)).2) = _
          rw [scanNumber_ends hn hs hr]
        · next h => cases h
    rw [e]
  | @fraction s f _ hn hs hf hr =>
    cases s with
    | nil => exact absurd rfl hn
    | cons c s =>
      have hc := hs c (by simp)
      have hg := digit_facts hc
      refine ⟨?_, by simp; exact hg.2.1, by simp, by simp⟩
      have e : (c :: s ++ '.' :: f) ++ rest = c :: (s ++ '.' :: (f ++ rest)) := by simp
      rw [e]
      refine reads_start hg.2.1 hg.2.2.1 fun n => ?_
      unfold scanToken
      rw [if_neg (by simp [hg.1]), if_pos hc]
      change Step.token (scanNumber ((c :: s) ++ '.' :: (f ++ rest))).1 ⟨(scanNumber ((c :: s) ++ '.' :: (f ++ rest))).2, n⟩ = _
      rw [scanNumber_fraction hn hs hf hr]
  | @bits p b _ hp hb =>
    have e : (p :: '\'' :: b ++ ['\'']) ++ rest = p :: '\'' :: (b ++ '\'' :: rest) := by simp
    have hm : scanMantissa 2 (b ++ '\'' :: rest) = (b, '\'' :: rest) := by
      unfold scanMantissa
      have := takeWhile_word (p := fun c => decide (digitVal c < 2)) (s := b) (rest := '\'' :: rest)
        (fun d hd => by
          have := hb d hd
          simp only [List.mem_cons, List.not_mem_nil, or_false] at this
          rcases this with rfl | rfl <;> decide)
        (fun c hc => by simp only [List.head?_cons, Option.some.injEq] at hc; subst hc; decide)
      rw [this.1, this.2]
    rw [e]
    simp only [List.mem_cons, List.not_mem_nil, or_false] at hp
    rcases hp with rfl | rfl
    all_goals
      refine ⟨reads_start (by decide) (by decide) fun n => ?_, by simp, by simp, by simp⟩
      unfold scanToken
      rw [if_pos (by decide)]
      simp [scanWord, scanBitLiteral, hm]
  | @mark c _ hc =>
    have hs : scanSymbol mode c rest = (⟨.char c, []⟩, rest) := by
      unfold scanSymbol
      rw [if_pos (by revert hc; simp [singleChars]; rintro (h|h|h|h|h|h|h|h|h|h) <;> simp [h]),
        if_neg (by revert hc; simp; rintro (h|h|h|h|h|h|h|h|h|h) <;> simp [h])]
    have hne : isLetter c = false ∧ isDigit c = false ∧ c ≠ ':' ∧ c ≠ '/' ∧ c ≠ '?' ∧ c ≠ '\x00' ∧ isBlank c = false := by
      simp only [List.mem_cons, List.not_mem_nil, or_false] at hc
      rcases hc with rfl|rfl|rfl|rfl|rfl|rfl|rfl|rfl|rfl|rfl <;> decide
    refine ⟨?_, by simp; exact hne.2.2.2.2.2.1, by simp, by simp⟩
    refine reads_start hne.2.2.2.2.2.1 hne.2.2.2.2.2.2 fun n => ?_
    change scanToken mode false n c rest = _
    rw [scanToken_symbol hne.1 hne.2.1 hne.2.2.1 hne.2.2.2.1 hne.2.2.2.2.1, hs]
  | dot hc => exact ⟨reads_dot hc, by simp, by simp, by simp⟩
  | @bracket c _ hm hc =>
    simp only [List.mem_cons, List.not_mem_nil, or_false] at hc
    rcases hc with rfl | rfl
    · refine ⟨reads_start (by decide) (by decide) fun n => ?_, by simp, by simp, by simp⟩
      change scanToken mode false n '[' rest = _
      rw [scanToken_symbol (by decide) (by decide) (by decide) (by decide) (by decide)]
      simp [scanSymbol, singleChars, hm]
    · refine ⟨reads_start (by decide) (by decide) fun n => ?_, by simp, by simp, by simp⟩
      change scanToken mode false n ']' rest = _
      rw [scanToken_symbol (by decide) (by decide) (by decide) (by decide) (by decide)]
      simp [scanSymbol, singleChars]

  | @operator a t cs _ ho hr =>
    refine ⟨scan_operator ho hr, ?_, ?_⟩
    · simp only [operators, List.mem_cons, List.not_mem_nil, or_false, Prod.mk.injEq] at ho
      rcases ho with ⟨rfl, _⟩ | ⟨rfl, _⟩ | ⟨rfl, _⟩ | ⟨rfl, _⟩ | ⟨rfl, _⟩ | ⟨rfl, _⟩ | ⟨rfl, _⟩ | ⟨rfl, _⟩ | ⟨rfl, _⟩ | ⟨rfl, _⟩ |
        ⟨rfl, _⟩ | ⟨rfl, _⟩ | ⟨rfl, _⟩ | ⟨rfl, _⟩ <;> simp [lit]
    · have : ∀ p ∈ operators, p.2.1.type ≠ .eof ∧ p.2.1.type ≠ .comment := by decide
      exact this _ ho
  | cast hm =>
    refine ⟨reads_start (by decide) (by decide) fun n => ?_, by simp [lit], by simp, by simp⟩
    change scanToken mode false n ':' (':' :: rest) = _
    subst hm
    rfl

theorem blank_of {w : Str} (h : ∀ c ∈ w, c = ' ' ∨ c = '\n' ∨ c = '\r' ∨ c = '\t') : ∀ c ∈ w, isBlank c = true := by
  intro c hc
  rcases h c hc with rfl | rfl | rfl | rfl <;> decide

theorem blank_head {w : Str} (h : ∀ c ∈ w, isBlank c = true) : w.head? ≠ some '\x00' := by
  cases w with
  | nil => simp
  | cons c w =>
    have := h c (by simp)
    simp only [List.head?_cons, ne_eq, Option.some.injEq]
    rintro rfl
    revert this
    decide

theorem layout_head {mode : Mode} {text : Str} {ts : List Token} (h : Layout mode text ts) : text.head? ≠ some '\x00' := by
  cases h with
  | nil hw => exact blank_head (blank_of hw)
  | cons hw hs _ =>
    rw [List.append_assoc]
    exact head_append (blank_head (blank_of hw)) (spells_reads hs).2.1

theorem layout_says {mode : Mode} {text : Str} {ts : List Token} (h : Layout mode text ts) :
    ∃ w : Str, (∀ c ∈ w, isBlank c = true) ∧ ReadsAll mode text ts w ∧ ∀ t ∈ ts, t.type ≠ .eof ∧ t.type ≠ .comment := by
  induction h with
  | nil hw => exact ⟨_, blank_of hw, .nil _, by simp⟩
  | @cons w a rest t ts hw hs _ ih =>
    obtain ⟨v, hv, hr, hn⟩ := ih
    obtain ⟨h1, h2, h3⟩ := spells_reads hs
    refine ⟨v, hv, ?_, ?_⟩
    · rw [List.append_assoc]
      exact .cons (reads_blank (blank_of hw) h2 h1) hr
    · intro t' ht'
      rcases List.mem_cons.mp ht' with rfl | ht'
      · exact h3
      · exact hn t' ht'

theorem scanAll_blank {mode : Mode} {w : Str} (hw : ∀ c ∈ w, isBlank c = true) :
    scanAll { mode := mode, base := ⟨w, 0⟩ } = .ok [] := by
  have e := scanAll_congr (st := { mode := mode, base := ⟨[], 0⟩ }) (s := w) (s' := []) (n := 0) rfl (by
    have : dropNul w = w := by
      cases w with
      | nil => rfl
      | cons c w =>
        have := hw c (by simp)
        have hc : c ≠ '\x00' := by rintro rfl; revert this; decide
        simp [dropNul, hc]
    rw [this]
    have := skipBlank_blank (z := []) hw
    rw [List.append_nil] at this
    exact this)
  rw [e]
  exact scanAll_nil mode 0

/-- The text is read as the tokens. -/
theorem tokenize_layout {mode : Mode} {text : Str} {ts : List Token} (h : Layout mode text ts) : tokenize mode text = .ok ts := by
  obtain ⟨w, hw, hr, hn⟩ := layout_says h
  unfold tokenize
  rw [scanAll_new mode (layout_head h), scanAll_readsAll hr fun t ht => (hn t ht).1, scanAll_blank hw]
  simp only [Except.map, List.append_nil]
  congr 1
  rw [List.filter_eq_self]
  intro t ht
  simpa using (hn t ht).2

end Sqldef
