import Verif.Spec.StatementText
import Verif.Proofs.ScannerQuotes
import Verif.Proofs.StrLemmas
/-
Texts are read piece by piece: lemmas for putting `ReadsAs` together.
-/
namespace Sqldef
open Spec

/-- What follows is no NUL. -/
def anyText (rest : Str) : Prop := rest.head? ≠ some '\x00'

/-- Read whatever follows after a delimiter. -/
abbrev Says (mode : Mode) : Str → List Token → Prop := ReadsAs (Delimits mode) mode
/-- Read whatever follows. -/
abbrev Leads (mode : Mode) : Str → List Token → Prop := ReadsAs anyText mode

theorem readsAll_append {mode : Mode} {a b c : Str} {ts us : List Token} (h : ReadsAll mode a ts b)
    (h2 : ReadsAll mode b us c) : ReadsAll mode a (ts ++ us) c := by
  induction h with
  | nil => exact h2
  | cons hr _ ih => exact .cons hr (ih h2)

theorem reads_blank {mode : Mode} {w text rest : Str} {t : Token} (hw : ∀ c ∈ w, isBlank c = true)
    (h0 : text.head? ≠ some '\x00') (h : Reads mode text t rest) : Reads mode (w ++ text) t rest := by
  intro n
  rw [← h n]
  refine scan_congr (st := { mode := mode, base := ⟨[], 0⟩ }) rfl ?_
  have hd : ∀ s : Str, s.head? ≠ some '\x00' → dropNul s = s := by
    intro s hs
    cases s with
    | nil => rfl
    | cons c s => simp only [List.head?_cons, ne_eq, Option.some.injEq] at hs; simp [dropNul, hs]
  rw [hd _ h0, hd, skipBlank_blank hw]
  cases w with
  | nil => exact h0
  | cons c w =>
    have := hw c (by simp)
    simp only [List.cons_append, List.head?_cons, ne_eq, Option.some.injEq]
    rintro rfl
    revert this; decide

theorem readsAll_blank {mode : Mode} {w text rest : Str} {ts : List Token} (hw : ∀ c ∈ w, isBlank c = true)
    (h0 : text.head? ≠ some '\x00') (h : ReadsAll mode text ts rest) :
    ∃ w', (∀ c ∈ w', isBlank c = true) ∧ ReadsAll mode (w ++ text) ts (w' ++ rest) := by
  cases h with
  | nil => exact ⟨w, hw, .nil _⟩
  | cons hr hrs => exact ⟨[], by simp, .cons (reads_blank hw h0 hr) hrs⟩

theorem head_append {a b : Str} {c : Char} (ha : a.head? ≠ some c) (hb : b.head? ≠ some c) : (a ++ b).head? ≠ some c := by
  cases a with
  | nil => exact hb
  | cons d a => exact ha

theorem delimits_head {mode : Mode} {rest : Str} (h : Delimits mode rest) : rest.head? ≠ some '\x00' := by
  intro hc
  have := h _ hc
  revert this; simp

theorem readsAs_nil {ok : Str → Prop} {mode : Mode} : ReadsAs ok mode [] [] :=
  ⟨by simp, by simp, fun rest _ => ⟨[], by simp, .nil _⟩⟩

/-- The general composition: what follows the first text must be acceptable to it. -/
theorem readsAs_append {ok ok' : Str → Prop} {mode : Mode} {a b : Str} {ts us : List Token}
    (ha : ReadsAs ok mode a ts) (hb : ReadsAs ok' mode b us) (h0 : ∀ rest, ok' rest → rest.head? ≠ some '\x00')
    (hok : ∀ rest, ok' rest → ok (b ++ rest)) : ReadsAs ok' mode (a ++ b) (ts ++ us) := by
  refine ⟨head_append ha.head hb.head, ?_, fun rest hr => ?_⟩
  · intro t ht
    rcases List.mem_append.mp ht with h | h
    · exact ha.noEnd t h
    · exact hb.noEnd t h
  · obtain ⟨w, hw, h1⟩ := ha.reads (b ++ rest) (hok rest hr)
    obtain ⟨w', hw', h2⟩ := hb.reads rest hr
    obtain ⟨w'', hw'', h3⟩ := readsAll_blank hw (head_append hb.head (h0 rest hr)) h2
    refine ⟨w'' ++ w', ?_, ?_⟩
    · intro c hc
      rcases List.mem_append.mp hc with h | h
      · exact hw'' c h
      · exact hw' c h
    · rw [List.append_assoc, List.append_assoc]
      exact readsAll_append h1 h3

theorem leads_append {mode : Mode} {a b : Str} {ts us : List Token} (ha : Leads mode a ts) (hb : Leads mode b us) :
    Leads mode (a ++ b) (ts ++ us) :=
  readsAs_append ha hb (fun _ h => h) fun _ h => head_append hb.head h

theorem leads_says {mode : Mode} {a b : Str} {ts us : List Token} (ha : Leads mode a ts) (hb : Says mode b us) :
    Says mode (a ++ b) (ts ++ us) :=
  readsAs_append ha hb (fun _ h => delimits_head h) fun _ h => head_append hb.head (delimits_head h)

theorem leads_weaken {mode : Mode} {a : Str} {ts : List Token} (h : Leads mode a ts) : Says mode a ts :=
  ⟨h.head, h.noEnd, fun rest hr => h.reads rest (delimits_head hr)⟩

/-- A text that starts with a delimiter may follow any text. -/
def Delimited (mode : Mode) (b : Str) : Prop := b ≠ [] ∧ Delimits mode b

theorem delimits_append {mode : Mode} {b rest : Str} (h : Delimited mode b) : Delimits mode (b ++ rest) := by
  cases b with
  | nil => exact absurd rfl h.1
  | cons c b => exact h.2

theorem says_append {mode : Mode} {a b : Str} {ts us : List Token} (ha : Says mode a ts) (hd : Delimited mode b)
    (hb : Says mode b us) : Says mode (a ++ b) (ts ++ us) :=
  readsAs_append ha hb (fun _ h => delimits_head h) fun _ _ => delimits_append hd

theorem says_leads {mode : Mode} {a b : Str} {ts us : List Token} (ha : Says mode a ts) (hd : Delimited mode b)
    (hb : Leads mode b us) : Leads mode (a ++ b) (ts ++ us) :=
  readsAs_append ha hb (fun _ h => h) fun _ _ => delimits_append hd

theorem delimited_space (mode : Mode) (s : Str) : Delimited mode (' ' :: s) :=
  ⟨by simp, by intro c hc; simp at hc; subst hc; simp⟩

theorem delimited_open (mode : Mode) (s : Str) : Delimited mode ('(' :: s) :=
  ⟨by simp, by intro c hc; simp at hc; subst hc; simp⟩

theorem delimited_close (mode : Mode) (s : Str) : Delimited mode (')' :: s) :=
  ⟨by simp, by intro c hc; simp at hc; subst hc; simp⟩

theorem delimited_comma (mode : Mode) (s : Str) : Delimited mode (',' :: s) :=
  ⟨by simp, by intro c hc; simp at hc; subst hc; simp⟩

theorem delimited_bracket {mode : Mode} (hm : mode ≠ .mssql) (s : Str) : Delimited mode ('[' :: s) :=
  ⟨by simp, by intro c hc; simp at hc; subst hc; simp [hm]⟩

theorem leads_space (mode : Mode) : Leads mode [' '] [] :=
  ⟨by simp, by simp, fun rest _ => ⟨[' '], by simp [isBlank], .nil _⟩⟩

theorem leads_of_reads {mode : Mode} {a : Str} {t : Token} (h0 : a.head? ≠ some '\x00') (ht : t.type ≠ .eof)
    (h : ∀ rest, Reads mode (a ++ rest) t rest) : Leads mode a [t] :=
  ⟨h0, by simpa using ht, fun rest _ => ⟨[], by simp, .cons (h rest) (.nil _)⟩⟩

theorem says_of_reads {mode : Mode} {a : Str} {t : Token} (h0 : a.head? ≠ some '\x00') (ht : t.type ≠ .eof)
    (h : ∀ rest, Delimits mode rest → Reads mode (a ++ rest) t rest) : Says mode a [t] :=
  ⟨h0, by simpa using ht, fun rest hr => ⟨[], by simp, .cons (h rest hr) (.nil _)⟩⟩

/-- The punctuation marks that are tokens by themselves. -/
theorem leads_sym (mode : Mode) {c : Char} (hc : c ∈ ['(', ')', ',', '=', ';']) : Leads mode [c] [sym c] := by
  have hs : ∀ rest, scanSymbol mode c rest = (⟨.char c, []⟩, rest) := by
    intro rest
    unfold scanSymbol
    rw [if_pos (by revert hc; simp [singleChars]; rintro (h|h|h|h|h) <;> simp [h]),
      if_neg (by revert hc; simp; rintro (h|h|h|h|h) <;> simp [h])]
  have hne : isLetter c = false ∧ isDigit c = false ∧ c ≠ ':' ∧ c ≠ '/' ∧ c ≠ '?' ∧ c ≠ '\x00' ∧ isBlank c = false := by
    simp only [List.mem_cons, List.not_mem_nil, or_false] at hc
    rcases hc with rfl|rfl|rfl|rfl|rfl <;> decide
  refine leads_of_reads (by simp; exact hne.2.2.2.2.2.1) (by simp [sym]) fun rest => ?_
  refine reads_start hne.2.2.2.2.2.1 hne.2.2.2.2.2.2 fun n => ?_
  change scanToken mode false n c rest = _
  rw [scanToken_symbol hne.1 hne.2.1 hne.2.2.1 hne.2.2.2.1 hne.2.2.2.2.1, hs]
  rfl

theorem leads_brackets {mode : Mode} (hm : mode ≠ .mssql) : Leads mode (lit "[]") [sym '[', sym ']'] := by
  have h1 : Leads mode ['['] [sym '['] := by
    refine leads_of_reads (by simp) (by simp [sym]) fun rest => ?_
    refine reads_start (by decide) (by decide) fun n => ?_
    rw [scanToken_symbol (by decide) (by decide) (by decide) (by decide) (by decide)]
    simp [scanSymbol, singleChars, hm, sym]
  have h2 : Leads mode [']'] [sym ']'] := by
    refine leads_of_reads (by simp) (by simp [sym]) fun rest => ?_
    refine reads_start (by decide) (by decide) fun n => ?_
    rw [scanToken_symbol (by decide) (by decide) (by decide) (by decide) (by decide)]
    simp [scanSymbol, singleChars, sym]
  exact leads_append h1 h2

theorem delimits_endsWord {mode : Mode} {rest : Str} (h : Delimits mode rest) : EndsWord rest := by
  intro c hc
  rcases h c hc with h | ⟨rfl, _⟩
  · simp only [List.mem_cons, List.not_mem_nil, or_false] at h
    rcases h with rfl|rfl|rfl|rfl|rfl|rfl|rfl|rfl <;> decide
  · decide

/-- A word of SQL that can be checked by computation. -/
def plainWord (w : Str) : Bool :=
  (match w with
    | [] => false
    | c :: s => isLetter c && decide (c ≠ '@') && s.all fun d => isLetter d || isDigit d) &&
  decide (toLower w ≠ lit "dual")

theorem says_kw (mode : Mode) (w : String) (h : plainWord (lit w) = true) : Says mode (lit w) [kw w] := by
  unfold plainWord at h
  rw [Bool.and_eq_true] at h
  obtain ⟨h1, h2⟩ := h
  split at h1
  · exact absurd h1 (by simp)
  · next c s hw =>
    simp only [Bool.and_eq_true, decide_eq_true_eq, List.all_eq_true, Bool.or_eq_true] at h1 h2
    obtain ⟨⟨hc, hat⟩, hs⟩ := h1
    have hword : IsWord (lit w) := by
      refine ⟨⟨c, s, hw, hc, hs⟩, ?_⟩
      rw [hw]
      rintro ⟨t, ht⟩
      simp [lit] at ht
      exact hat ht.1.symm
    refine says_of_reads ?_ ?_ fun rest hr => ?_
    · rw [hw]
      simp only [List.head?_cons, ne_eq, Option.some.injEq]
      exact (letter_facts hc).1
    · unfold kw; split <;> simp
    · have := reads_word mode hword (delimits_endsWord hr)
      rw [if_neg h2] at this
      exact this

/-- Words with a space after each of them. -/
def spelled : List String → Str
  | [] => []
  | w :: ws => lit w ++ ' ' :: spelled ws

theorem leads_kws (mode : Mode) {ws : List String} (h : ∀ w ∈ ws, plainWord (lit w) = true) :
    Leads mode (spelled ws) (kws ws) := by
  induction ws with
  | nil => exact readsAs_nil
  | cons w ws ih =>
    have h1 := says_kw mode w (h w (by simp))
    have h2 := ih fun x hx => h x (by simp [hx])
    exact says_leads h1 (delimited_space mode _) (leads_append (leads_space mode) h2)

theorem closing_not_delim {mode : Mode} {rest : Str} (h : Delimits mode rest) : rest.head? ≠ some (closingQuote mode) := by
  intro hc
  rcases h _ hc with h | ⟨h, _⟩
  · revert h; cases mode <;> decide
  · revert h; cases mode <;> decide

theorem escapeSQLName_eq (mode : Mode) (n : Str) : ∃ o, (o, closingQuote mode) ∈ nameQuotes mode ∧
    escapeSQLName mode n = o :: n ++ [closingQuote mode] := by
  cases mode
  · exact ⟨'`', by decide, by simp [escapeSQLName, closingQuote, lit]⟩
  · exact ⟨'"', by decide, by simp [escapeSQLName, closingQuote, lit]⟩
  · exact ⟨'`', by decide, by simp [escapeSQLName, closingQuote, lit]⟩
  · exact ⟨'[', by decide, by simp [escapeSQLName, closingQuote, lit]⟩

theorem reads_escaped {mode : Mode} {n rest : Str} (h : CleanName mode n) (hr : rest.head? ≠ some (closingQuote mode)) :
    Reads mode (escapeSQLName mode n ++ rest) ⟨.id, n⟩ rest := by
  obtain ⟨o, ho, he⟩ := escapeSQLName_eq mode n
  have := reads_name ho h.1 hr
  rw [doubled_of_not_mem h.2] at this
  rw [he]
  simpa using this

theorem escapeSQLName_head (mode : Mode) (n : Str) : (escapeSQLName mode n).head? ≠ some '\x00' := by
  cases mode <;> simp [escapeSQLName, lit]

theorem says_name {mode : Mode} {n : Str} (h : CleanName mode n) : Says mode (escapeSQLName mode n) [named n] :=
  says_of_reads (escapeSQLName_head mode n) (by simp [named]) fun _ hr => reads_escaped h (closing_not_delim hr)

theorem says_table {mode : Mode} {t : Str} (h : CleanTable mode t) :
    Says mode (escapeTableName mode t) (tableTokens mode t) := by
  have key : (mode = .postgres ∨ mode = .mssql) → Says mode (escapeTableName mode t) (tableTokens mode t) := by
    intro hm
    have he : escapeTableName mode t =
        escapeSQLName mode (schemaAndTable mode t).1 ++ '.' :: escapeSQLName mode (schemaAndTable mode t).2 := by
      rcases hm with rfl | rfl
      · simp only [escapeTableName, schemaAndTable]
        split <;> simp_all [lit]
      · simp only [escapeTableName, schemaAndTable]
        split <;> simp_all [lit]
    simp only [CleanTable, hm, if_true] at h
    simp only [tableTokens, hm, if_true]
    rw [he]
    refine ⟨head_append (escapeSQLName_head _ _) (by simp), by simp [named, sym], fun rest hr => ⟨[], by simp, ?_⟩⟩
    have h1 : ∀ s, Reads mode ('.' :: (escapeSQLName mode s ++ rest)) (sym '.') (escapeSQLName mode s ++ rest) := by
      intro s
      rcases hm with rfl | rfl
      · exact reads_dot (by decide)
      · exact reads_dot (by decide)
    rw [List.append_assoc]
    refine .cons (reads_escaped h.1 ?_) (.cons (h1 _) (.cons (reads_escaped h.2 (closing_not_delim hr)) (.nil _)))
    rcases hm with rfl | rfl <;> simp [closingQuote]
  by_cases hm : mode = .postgres ∨ mode = .mssql
  · exact key hm
  · simp only [CleanTable, hm, if_false] at h
    simp only [tableTokens, hm, if_false]
    have : escapeTableName mode t = escapeSQLName mode t := by
      cases mode <;> simp_all [escapeTableName]
    rw [this]
    exact says_name h

/-! ### Numbers and strings -/

theorem toDigits_digits (n : Nat) : Nat.toDigits 10 n ≠ [] ∧ ∀ c ∈ Nat.toDigits 10 n, isDigit c = true := by
  constructor
  · exact Nat.toDigits_ne_nil
  · intro c hc
    have := Nat.isDigit_of_mem_toDigits (b := 10) (by decide) (by decide) hc
    simpa [isDigit, Char.isDigit, Char.le_def, UInt32.le_iff_toNat_le] using this

theorem delimits_number {mode : Mode} {rest : Str} (h : Delimits mode rest) (c : Char) (hc : rest.head? = some c) :
    isDigit c = false ∧ digitVal c = 16 ∧ isLetter c = false ∧ c ≠ '.' ∧ c ≠ 'e' ∧ c ≠ 'E' ∧ c ≠ 'x' ∧ c ≠ 'X' ∧
      c ≠ '\'' := by
  rcases h c hc with h | ⟨rfl, _⟩
  · simp only [List.mem_cons, List.not_mem_nil, or_false] at h
    rcases h with rfl|rfl|rfl|rfl|rfl|rfl|rfl|rfl <;> decide
  · decide

theorem digit_digitVal {c : Char} (h : isDigit c = true) : digitVal c < 10 := by
  unfold isDigit at h
  simp only [Bool.and_eq_true, decide_eq_true_eq] at h
  unfold digitVal
  rw [if_pos h]
  have h1 : c.toNat ≤ '9'.toNat := h.2
  have h2 : '9'.toNat = 57 := rfl
  have h3 : '0'.toNat = 48 := rfl
  omega

theorem scanMantissa_digits {mode : Mode} {s rest : Str} (hs : ∀ c ∈ s, isDigit c = true) (hr : Delimits mode rest) :
    scanMantissa 10 (s ++ rest) = (s, rest) := by
  unfold scanMantissa
  have := takeWhile_word (p := fun c => decide (digitVal c < 10)) (s := s) (rest := rest)
    (fun d hd => by simpa using digit_digitVal (hs d hd))
    (fun c hc => by simp [(delimits_number hr c hc).2.1])
  rw [this.1, this.2]

theorem numberExit_delim {mode : Mode} {rest : Str} (hr : Delimits mode rest) (t : TokenType) (buf : Str) :
    numberExit t buf rest = (⟨t, buf⟩, rest) := by
  unfold numberExit
  cases rest with
  | nil => rfl
  | cons c r => simp [(delimits_number hr c rfl).2.2.1]

theorem numberExponent_delim {mode : Mode} {rest : Str} (hr : Delimits mode rest) (t : TokenType) (buf : Str) :
    numberExponent t buf rest = (⟨t, buf⟩, rest) := by
  unfold numberExponent
  cases rest with
  | nil => rfl
  | cons c r =>
    have := delimits_number hr c rfl
    simp only [this, decide_false, Bool.or_self, Bool.false_eq_true, if_false, numberExit_delim hr]

theorem numberInteger_delim {mode : Mode} {s rest : Str} (hs : ∀ c ∈ s, isDigit c = true) (hr : Delimits mode rest)
    (buf : Str) : numberInteger buf (s ++ rest) = (⟨.integral, buf ++ s⟩, rest) := by
  unfold numberInteger
  rw [scanMantissa_digits hs hr]
  simp only
  split
  · next r => exact absurd rfl (delimits_number hr '.' rfl).2.2.2.1
  · exact numberExponent_delim hr _ _

theorem scanNumber_delim {mode : Mode} {s rest : Str} (hs : ∀ c ∈ s, isDigit c = true) (hr : Delimits mode rest) :
    scanNumber (s ++ rest) = (⟨.integral, s⟩, rest) := by
  have hx : ∀ c, (s ++ rest).head? = some c → c ≠ 'x' ∧ c ≠ 'X' := by
    intro c hc
    cases s with
    | nil =>
      have := delimits_number hr c hc
      exact ⟨this.2.2.2.2.2.2.1, this.2.2.2.2.2.2.2.1⟩
    | cons d s =>
      simp only [List.cons_append, List.head?_cons, Option.some.injEq] at hc
      subst hc
      have := hs d (by simp)
      constructor <;> (rintro rfl; revert this; decide)
  cases s with
  | nil =>
    unfold scanNumber
    split
    · next h => exact absurd (delimits_number hr '0' (by rw [List.nil_append] at h; rw [h]; rfl)).1 (by decide)
    · next h => exact absurd (delimits_number hr '0' (by rw [List.nil_append] at h; rw [h]; rfl)).1 (by decide)
    · next h => exact absurd (delimits_number hr '0' (by rw [List.nil_append] at h; rw [h]; rfl)).1 (by decide)
    · exact numberInteger_delim hs hr []
  | cons d s =>
    have hs' : ∀ c ∈ s, isDigit c = true := fun c hc => hs c (by simp [hc])
    have hx' : ∀ c, (s ++ rest).head? = some c → c ≠ 'x' ∧ c ≠ 'X' := by
      intro c hc
      cases s with
      | nil =>
        have := delimits_number hr c hc
        exact ⟨this.2.2.2.2.2.2.1, this.2.2.2.2.2.2.2.1⟩
      | cons e s =>
        simp only [List.cons_append, List.head?_cons, Option.some.injEq] at hc
        subst hc
        have := hs' e (by simp)
        constructor <;> (rintro rfl; revert this; decide)
    unfold scanNumber
    split
    · next h =>
      obtain ⟨rfl, h'⟩ := List.cons.inj h
      exact absurd rfl (hx' 'x' (by change (s.append rest).head? = _; rw [h']; rfl)).1
    · next h =>
      obtain ⟨rfl, h'⟩ := List.cons.inj h
      exact absurd rfl (hx' 'X' (by change (s.append rest).head? = _; rw [h']; rfl)).2
    · next r h1 h2 h =>
      obtain ⟨rfl, h'⟩ := List.cons.inj h
      rw [← h']
      exact numberInteger_delim hs' hr ['0']
    · exact numberInteger_delim hs hr []

theorem digit_facts {c : Char} (h : isDigit c = true) :
    isLetter c = false ∧ c ≠ '\x00' ∧ isBlank c = false ∧ c ≠ '-' ∧ c ≠ '>' := by
  have h' : 48 ≤ c.toNat ∧ c.toNat ≤ 57 := by
    unfold isDigit at h
    simp only [Bool.and_eq_true, decide_eq_true_eq] at h
    exact ⟨h.1, h.2⟩
  have hne : ∀ d : Char, d.toNat < 48 ∨ 57 < d.toNat → c ≠ d := by rintro d hd rfl; omega
  refine ⟨?_, hne _ (by decide), ?_, hne _ (by decide), hne _ (by decide)⟩
  · unfold isLetter
    have h1 : decide ('a' ≤ c) = false := decide_eq_false fun (hh : 97 ≤ c.toNat) => by omega
    have h2 : decide ('A' ≤ c) = false := decide_eq_false fun (hh : 65 ≤ c.toNat) => by omega
    simp [h1, h2, hne '_' (by decide), hne '@' (by decide)]
  · simp [isBlank, hne ' ' (by decide), hne '\n' (by decide), hne '\r' (by decide), hne '\t' (by decide)]

theorem says_digits {mode : Mode} {s : Str} (hn : s ≠ []) (hs : ∀ c ∈ s, isDigit c = true) :
    Says mode s [⟨.integral, s⟩] := by
  cases s with
  | nil => exact absurd rfl hn
  | cons c s =>
    have hc := hs c (by simp)
    have hf := digit_facts hc
    refine says_of_reads (by simp; exact hf.2.1) (by simp) fun rest hr => ?_
    refine reads_start hf.2.1 hf.2.2.1 fun n => ?_
    unfold scanToken
    rw [if_neg (by simp [hf.1]), if_pos hc]
    change Step.token (scanNumber ((c :: s) ++ rest)).1 ⟨(scanNumber ((c :: s) ++ rest)).2, n⟩ = _
    rw [scanNumber_delim hs hr]

theorem says_negative {mode : Mode} {s : Str} (hn : s ≠ []) (hs : ∀ c ∈ s, isDigit c = true) :
    Says mode ('-' :: s) [⟨.integral, '-' :: s⟩] := by
  cases s with
  | nil => exact absurd rfl hn
  | cons c s =>
    have hc := hs c (by simp)
    have hf := digit_facts hc
    refine says_of_reads (by simp) (by simp) fun rest hr => ?_
    refine reads_start (by decide) (by decide) fun n => ?_
    rw [scanToken_symbol (by decide) (by decide) (by decide) (by decide) (by decide)]
    have : scanSymbol mode '-' ((c :: s) ++ rest) = (⟨.integral, '-' :: c :: s⟩, rest) := by
      unfold scanSymbol
      rw [if_neg (by decide), if_neg (by decide), if_neg (by decide), if_neg (by decide), if_neg (by decide), if_pos rfl]
      unfold scanMinus
      split
      · next h => exact absurd (List.cons.inj h).1 hf.2.2.2.1
      · next h => exact absurd (List.cons.inj h).1 hf.2.2.2.2
      · next h => exact absurd (List.cons.inj h).1 hf.2.2.2.2
      · next c' s' h1 h2 h3 h =>
        obtain ⟨rfl, h'⟩ := List.cons.inj h
        rw [if_pos hc, ← h']
        change ((⟨(scanNumber ((c :: s) ++ rest)).1.type, '-' :: (scanNumber ((c :: s) ++ rest)).1.val⟩ : Token),
          (scanNumber ((c :: s) ++ rest)).2) = _
        rw [scanNumber_delim hs hr]
      · next h => exact absurd h (by simp)
    change Step.token (scanSymbol mode '-' ((c :: s) ++ rest)).1 ⟨(scanSymbol mode '-' ((c :: s) ++ rest)).2, n⟩ = _
    rw [this]

theorem says_int (mode : Mode) (n : Int) : Says mode (showInt n) [numeral n] := by
  unfold numeral
  cases n with
  | ofNat n => exact says_digits (toDigits_digits n).1 (toDigits_digits n).2
  | negSucc n => exact says_negative (toDigits_digits (n + 1)).1 (toDigits_digits (n + 1)).2

theorem says_quoted (mode : Mode) {v : Str} (h : ∀ c ∈ v, c ≠ '\'' ∧ c ≠ '\\') :
    Says mode ('\'' :: v ++ ['\'']) [⟨.string, v⟩] := by
  have hq : '\'' ∈ stringQuotes mode := by cases mode <;> simp [stringQuotes]
  refine says_of_reads (by simp) (by simp) fun rest hr => ?_
  have := reads_string hq (stringBody_self.mpr h) (rest := rest) (by
    intro hc
    exact (delimits_number hr _ hc).2.2.2.2.2.2.2.2 rfl)
  simpa using this

theorem leads_bit (mode : Mode) (b : Bool) : Leads mode (if b then lit "b'1'" else lit "b'0'")
    [⟨.bitLiteral, if b then lit "1" else lit "0"⟩] := by
  refine leads_of_reads (by cases b <;> simp [lit]) (by simp) fun rest => ?_
  cases b
  · exact reads_start (by decide) (by decide) fun n => rfl
  · exact reads_start (by decide) (by decide) fun n => rfl

end Sqldef
