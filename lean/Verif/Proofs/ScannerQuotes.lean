import Verif.Proofs.ScannerReads
import Verif.Model.Format
/-
Quoted names, strings, words and white space: lemmas for `Verif.Props.Scanner`.
-/
namespace Sqldef
open Spec

/-! ### Quoted names -/

theorem literalIdentifierLoop_doubled {q : Char} (name rest : Str) (hr : rest.head? ≠ some q) :
    literalIdentifierLoop q false (doubled q name ++ q :: rest) = (name, some rest) := by
  induction name with
  | nil =>
    simp only [doubled, List.flatMap_nil, List.nil_append, literalIdentifierLoop, if_true]
    cases rest with
    | nil => rfl
    | cons c s =>
      have : c ≠ q := by simpa using hr
      simp [literalIdentifierLoop, this]
  | cons c name ih =>
    unfold doubled at ih ⊢
    rw [List.flatMap_cons]
    by_cases hc : c = q
    · subst hc
      simp [literalIdentifierLoop, ih]
    · simp [literalIdentifierLoop, ih, hc]

theorem literalIdentifierLoop_only {q : Char} {b : Bool} {s buf rest : Str}
    (h : literalIdentifierLoop q b s = (buf, some rest)) :
    rest.head? ≠ some q ∧ (if b then q :: s else s) = doubled q buf ++ q :: rest := by
  induction s generalizing b buf with
  | nil =>
    cases b
    · simp [literalIdentifierLoop] at h
    · simp [literalIdentifierLoop] at h
      obtain ⟨rfl, rfl⟩ := h
      simp [doubled]
  | cons c s ih =>
    cases b with
    | true =>
      unfold literalIdentifierLoop at h
      split at h
      · next hc =>
        obtain ⟨rfl, h⟩ := Prod.mk.inj h
        simp at h
        subst h
        simp [doubled, hc]
      · next hc =>
        have hc : c = q := by simpa using hc
        obtain ⟨h1, h2⟩ := Prod.mk.inj h
        obtain ⟨h3, h4⟩ := ih (b := false) (buf := (literalIdentifierLoop q false s).1) (by rw [← h2])
        refine ⟨h3, ?_⟩
        subst h1 hc
        simp only [Bool.false_eq_true, if_false] at h4
        simp [doubled] at h4 ⊢
        exact h4
    | false =>
      unfold literalIdentifierLoop at h
      split at h
      · next hc =>
        subst hc
        simpa using ih h
      · next hc =>
        obtain ⟨h1, h2⟩ := Prod.mk.inj h
        obtain ⟨h3, h4⟩ := ih (b := false) (buf := (literalIdentifierLoop q false s).1) (by rw [← h2])
        refine ⟨h3, ?_⟩
        subst h1
        simp only [Bool.false_eq_true, if_false] at h4
        simp [doubled, hc] at h4 ⊢
        exact h4

theorem scanLiteralIdentifier_doubled {q : Char} (name rest : Str) (hr : rest.head? ≠ some q) (hn : name ≠ []) :
    scanLiteralIdentifier q (doubled q name ++ q :: rest) = (⟨.id, name⟩, rest) := by
  unfold scanLiteralIdentifier
  rw [literalIdentifierLoop_doubled _ _ hr]
  simp [hn]

theorem scanLiteralIdentifier_only {q : Char} {s name rest : Str}
    (h : scanLiteralIdentifier q s = (⟨.id, name⟩, rest)) :
    name ≠ [] ∧ rest.head? ≠ some q ∧ s = doubled q name ++ q :: rest := by
  unfold scanLiteralIdentifier at h
  split at h
  · simp at h
  · next buf r hl =>
    split at h
    · simp at h
    · next hb =>
      simp at h
      obtain ⟨rfl, rfl⟩ := h
      have := literalIdentifierLoop_only hl
      simp only [Bool.false_eq_true, if_false] at this
      exact ⟨by simpa using hb, this⟩

theorem nameQuotes_open {mode : Mode} {o c : Char} (h : (o, c) ∈ nameQuotes mode) (s : Str) (n : Nat) :
    scanToken mode false n o s = .token (scanLiteralIdentifier c s).1 ⟨(scanLiteralIdentifier c s).2, n⟩ ∧
    o ≠ '\x00' ∧ isBlank o = false := by
  cases mode <;> simp [nameQuotes] at h
  · obtain ⟨rfl, rfl⟩ := h
    exact ⟨scanToken_symbol (by decide) (by decide) (by decide) (by decide) (by decide), by decide, by decide⟩
  · obtain ⟨rfl, rfl⟩ := h
    exact ⟨scanToken_symbol (by decide) (by decide) (by decide) (by decide) (by decide), by decide, by decide⟩
  · rcases h with ⟨rfl, rfl⟩ | ⟨rfl, rfl⟩ <;>
    exact ⟨scanToken_symbol (by decide) (by decide) (by decide) (by decide) (by decide), by decide, by decide⟩
  · rcases h with ⟨rfl, rfl⟩ | ⟨rfl, rfl⟩ | ⟨rfl, rfl⟩ <;>
    exact ⟨scanToken_symbol (by decide) (by decide) (by decide) (by decide) (by decide), by decide, by decide⟩

theorem reads_name {mode : Mode} {o c : Char} (h : (o, c) ∈ nameQuotes mode) {name rest : Str} (hn : name ≠ [])
    (hr : rest.head? ≠ some c) : Reads mode (o :: doubled c name ++ c :: rest) ⟨.id, name⟩ rest := by
  refine reads_start (nameQuotes_open h [] 0).2.1 (nameQuotes_open h [] 0).2.2 fun n => ?_
  change scanToken mode false n o (doubled c name ++ c :: rest) = _
  rw [(nameQuotes_open h _ n).1, scanLiteralIdentifier_doubled name rest hr hn]

theorem reads_inv {mode : Mode} {ch : Char} {s rest : Str} {t t' : Token} {r : Str} (h0 : ch ≠ '\x00')
    (hb : isBlank ch = false) (hr : Reads mode (ch :: s) t rest)
    (h : ∀ n, scanToken mode false n ch s = .token t' ⟨r, n⟩) : t' = t ∧ r = rest :=
  reads_unique (reads_start h0 hb h) hr

theorem reads_name_only {mode : Mode} {o c : Char} (h : (o, c) ∈ nameQuotes mode) {text name rest : Str}
    (hr : Reads mode (o :: text) ⟨.id, name⟩ rest) :
    name ≠ [] ∧ rest.head? ≠ some c ∧ text = doubled c name ++ c :: rest := by
  have := reads_inv (nameQuotes_open h [] 0).2.1 (nameQuotes_open h [] 0).2.2 hr fun n => (nameQuotes_open h text n).1
  exact scanLiteralIdentifier_only (q := c) (Prod.ext this.1 this.2)

theorem doubled_of_not_mem {q : Char} {name : Str} (h : q ∉ name) : doubled q name = name := by
  unfold doubled
  induction name with
  | nil => rfl
  | cons c name ih =>
    simp only [List.mem_cons, not_or] at h
    rw [List.flatMap_cons, ih h.2, if_neg (Ne.symm h.1)]
    rfl

/-! ### Strings -/

theorem sqlDecode_eq (c : Char) : sqlDecode c = unescape c := by
  unfold unescape
  by_cases h0 : c = '0'
  · subst h0; decide
  by_cases h1 : c = 'b'
  · subst h1; decide
  by_cases h2 : c = 'n'
  · subst h2; decide
  by_cases h3 : c = 'r'
  · subst h3; decide
  by_cases h4 : c = 't'
  · subst h4; decide
  by_cases h5 : c = 'Z'
  · subst h5; decide
  by_cases h6 : c = '\''
  · subst h6; decide
  by_cases h7 : c = '"'
  · subst h7; decide
  by_cases h8 : c = '\\'
  · subst h8; decide
  simp only [h0, h1, h2, h3, h4, h5, if_false]
  unfold sqlDecode encodeRef
  simp only [List.find?_cons, Ne.symm h0, Ne.symm h1, Ne.symm h2, Ne.symm h3, Ne.symm h4, Ne.symm h5, Ne.symm h6,
    Ne.symm h7, Ne.symm h8, decide_false, List.find?_nil, Option.map_none, Option.getD_none]

theorem scanStringLoop_body {q : Char} (hq : q ≠ '\\') {src v : Str} (h : StringBody q src v) (buf rest : Str)
    (hr : rest.head? ≠ some q) : scanStringLoop q buf (src ++ q :: rest) = (⟨.string, buf ++ v⟩, rest) := by
  induction h generalizing buf with
  | nil => simpa using scanStringLoop_end buf rest hq hr
  | plain h1 h2 _ ih =>
    rw [List.cons_append, scanStringLoop_plain _ _ h1 h2, ih]
    simp
  | doubled _ ih =>
    rw [List.cons_append, List.cons_append, scanStringLoop_double _ _ hq, ih]
    simp
  | escape _ ih =>
    rw [List.cons_append, List.cons_append, scanStringLoop_escape, ih, sqlDecode_eq]
    simp

theorem scanStringLoop_only {q : Char} (hq : q ≠ '\\') (n : Nat) {s buf v rest : Str} (hn : s.length ≤ n)
    (h : scanStringLoop q buf s = (⟨.string, v⟩, rest)) :
    ∃ src w, s = src ++ q :: rest ∧ StringBody q src w ∧ v = buf ++ w ∧ rest.head? ≠ some q := by
  induction n generalizing s buf with
  | zero =>
    have : s = [] := by simpa using hn
    subst this
    rw [scanStringLoop_nil] at h
    simp at h
  | succ n ih =>
    match s, hn, h with
    | [], _, h =>
      rw [scanStringLoop_nil] at h
      simp at h
    | c :: s, hn, h =>
      by_cases h1 : c = q
      · subst h1
        match s, hn, h with
        | [], _, h =>
          rw [scanStringLoop_end _ _ hq (by simp)] at h
          simp at h
          obtain ⟨rfl, rfl⟩ := h
          exact ⟨[], [], by simp, .nil, by simp, by simp⟩
        | d :: s, hn, h =>
          by_cases hd : d = c
          · subst hd
            rw [scanStringLoop_double _ _ hq] at h
            obtain ⟨src, w, rfl, hb, rfl, hr⟩ := ih (by simp at hn; omega) h
            exact ⟨d :: d :: src, d :: w, by simp, .doubled hb, by simp, hr⟩
          · rw [scanStringLoop_end _ _ hq (by simpa using hd)] at h
            simp at h
            obtain ⟨rfl, rfl⟩ := h
            exact ⟨[], [], by simp, .nil, by simp, by simpa using hd⟩
      · by_cases h2 : c = '\\'
        · subst h2
          match s, hn, h with
          | [], _, h =>
            rw [scanStringLoop_special _ _ (.inr rfl)] at h
            unfold scanStringLoop.step at h
            simp at h
          | e :: s, hn, h =>
            rw [scanStringLoop_escape, sqlDecode_eq] at h
            obtain ⟨src, w, rfl, hb, rfl, hr⟩ := ih (by simp at hn; omega) h
            exact ⟨'\\' :: e :: src, unescape e :: w, by simp, .escape hb, by simp, hr⟩
        · rw [scanStringLoop_plain _ _ h1 h2] at h
          obtain ⟨src, w, rfl, hb, rfl, hr⟩ := ih (by simp at hn; omega) h
          exact ⟨c :: src, c :: w, by simp, .plain h1 h2 hb, by simp, hr⟩

theorem stringQuotes_open {mode : Mode} {q : Char} (h : q ∈ stringQuotes mode) (s : Str) (n : Nat) :
    scanToken mode false n q s = .token (scanString q s).1 ⟨(scanString q s).2, n⟩ ∧
    q ≠ '\x00' ∧ isBlank q = false ∧ q ≠ '\\' := by
  cases mode <;> simp [stringQuotes] at h
  · rcases h with rfl | rfl <;>
    exact ⟨scanToken_symbol (by decide) (by decide) (by decide) (by decide) (by decide), by decide, by decide, by decide⟩
  all_goals
    subst h
    exact ⟨scanToken_symbol (by decide) (by decide) (by decide) (by decide) (by decide), by decide, by decide, by decide⟩

theorem reads_string {mode : Mode} {q : Char} (h : q ∈ stringQuotes mode) {src v rest : Str} (hb : StringBody q src v)
    (hr : rest.head? ≠ some q) : Reads mode (q :: src ++ q :: rest) ⟨.string, v⟩ rest := by
  have hq := (stringQuotes_open h [] 0).2
  refine reads_start hq.1 hq.2.1 fun n => ?_
  change scanToken mode false n q (src ++ q :: rest) = _
  rw [(stringQuotes_open h _ n).1]
  unfold scanString
  rw [scanStringLoop_body hq.2.2 hb _ _ hr]
  rfl

theorem reads_string_only {mode : Mode} {q : Char} (h : q ∈ stringQuotes mode) {text v rest : Str}
    (hr : Reads mode (q :: text) ⟨.string, v⟩ rest) :
    ∃ src, text = src ++ q :: rest ∧ StringBody q src v ∧ rest.head? ≠ some q := by
  have hq := (stringQuotes_open h [] 0).2
  have := reads_inv hq.1 hq.2.1 hr fun n => (stringQuotes_open h text n).1
  obtain ⟨src, w, h1, h2, h3, h4⟩ := scanStringLoop_only (q := q) (buf := []) hq.2.2 text.length Nat.le.refl
    (Prod.ext this.1 this.2)
  simp at h3
  subst h3
  exact ⟨src, h1, h2, h4⟩

theorem stringBody_length {q : Char} {src v : Str} (h : StringBody q src v) :
    v.length ≤ src.length ∧ (v.length = src.length → v = src ∧ ∀ c ∈ v, c ≠ q ∧ c ≠ '\\') := by
  induction h with
  | nil => simp
  | plain h1 h2 _ ih =>
    refine ⟨by simp; exact ih.1, fun hl => ?_⟩
    obtain ⟨rfl, h3⟩ := ih.2 (by simpa using hl)
    refine ⟨rfl, ?_⟩
    intro c hc
    rcases List.mem_cons.mp hc with rfl | hc
    · exact ⟨h1, h2⟩
    · exact h3 c hc
  | doubled _ ih =>
    refine ⟨by simp; omega, fun hl => ?_⟩
    simp at hl
    omega
  | escape _ ih =>
    refine ⟨by simp; omega, fun hl => ?_⟩
    simp at hl
    omega

theorem stringBody_self {q : Char} {v : Str} : StringBody q v v ↔ ∀ c ∈ v, c ≠ q ∧ c ≠ '\\' := by
  refine ⟨fun h => ((stringBody_length h).2 rfl).2, fun h => ?_⟩
  induction v with
  | nil => exact .nil
  | cons c v ih =>
    have hc := h c (by simp)
    exact .plain hc.1 hc.2 (ih fun d hd => h d (by simp [hd]))

/-- Any string can be written: quotes are doubled, backslashes are escaped. -/
theorem stringBody_exists (q : Char) (hq : q ≠ '\\') (v : Str) :
    StringBody q (v.flatMap fun c => if c = q then [q, q] else if c = '\\' then ['\\', '\\'] else [c]) v := by
  induction v with
  | nil => exact .nil
  | cons c v ih =>
    rw [List.flatMap_cons]
    by_cases h1 : c = q
    · subst h1
      simpa using StringBody.doubled ih
    · by_cases h2 : c = '\\'
      · subst h2
        have := StringBody.escape (q := q) (e := '\\') ih
        rw [show unescape '\\' = '\\' by decide] at this
        simpa [h1] using this
      · simpa [h1, h2] using StringBody.plain h1 h2 ih

theorem sqlEncode_spec (c : Char) :
    (∀ e, sqlEncode c = some e → unescape e = c) ∧ (sqlEncode c = none → c ≠ '\'' ∧ c ≠ '\\') := by
  unfold sqlEncode
  constructor
  · intro e he
    simp only [Option.map_eq_some_iff] at he
    obtain ⟨⟨a, b⟩, hf, rfl⟩ := he
    have h1 := List.mem_of_find?_eq_some hf
    have h2 := List.find?_some hf
    simp at h2
    subst h2
    revert h1
    simp only [encodeRef, List.mem_cons, List.not_mem_nil, or_false, Prod.mk.injEq]
    rintro (⟨rfl, rfl⟩|⟨rfl, rfl⟩|⟨rfl, rfl⟩|⟨rfl, rfl⟩|⟨rfl, rfl⟩|⟨rfl, rfl⟩|⟨rfl, rfl⟩|⟨rfl, rfl⟩|⟨rfl, rfl⟩) <;> decide
  · intro hn
    constructor
    · rintro rfl; revert hn; decide
    · rintro rfl; revert hn; decide

theorem encode_body (v : Str) :
    StringBody '\'' (v.flatMap encodeChar) v := by
  induction v with
  | nil => exact .nil
  | cons c v ih =>
    rw [List.flatMap_cons]
    unfold encodeChar at ih ⊢
    cases hc : sqlEncode c with
    | none =>
      obtain ⟨h1, h2⟩ := (sqlEncode_spec c).2 hc
      simpa using StringBody.plain h1 h2 ih
    | some e =>
      have := StringBody.escape (e := e) ih
      rw [(sqlEncode_spec c).1 e hc] at this
      simpa using this

/-! ### Words -/

theorem letter_facts {c : Char} (h : isLetter c = true) : c ≠ '\x00' ∧ isBlank c = false ∧ c ≠ '\'' := by
  refine ⟨?_, ?_, ?_⟩
  · rintro rfl; revert h; decide
  · rw [← Bool.not_eq_true]
    intro hb
    simp [isBlank] at hb
    rcases hb with ((rfl | rfl) | rfl) | rfl <;> (revert h; decide)
  · rintro rfl; revert h; decide

theorem digit_ne_quote {c : Char} (h : isDigit c = true) : c ≠ '\'' := by rintro rfl; revert h; decide

theorem takeWhile_word {p : Char → Bool} {s rest : Str} (h : ∀ d ∈ s, p d = true)
    (hr : ∀ c, rest.head? = some c → p c = false) :
    (s ++ rest).takeWhile p = s ∧ (s ++ rest).dropWhile p = rest := by
  induction s with
  | nil =>
    cases rest with
    | nil => simp
    | cons c r => simp [hr c rfl]
  | cons c s ih =>
    have h1 := h c (by simp)
    have := ih fun d hd => h d (by simp [hd])
    simp [h1, this]

theorem scanWord_eq {c : Char} {s rest : Str} (hs : ∀ d ∈ s, isLetter d = true ∨ isDigit d = true)
    (ha : ¬ lit "@@" <+: c :: s) (hr : EndsWord rest) :
    scanWord c (s ++ rest) =
      (match keywordCode (toLower (c :: s)) with
       | some code => ⟨.code code, toLower (c :: s)⟩
       | none => if toLower (c :: s) = lit "dual" then ⟨.id, toLower (c :: s)⟩ else ⟨.id, c :: s⟩, rest) := by
  have hid : scanIdentifier c false (s ++ rest) =
      (match keywordCode (toLower (c :: s)) with
       | some code => ⟨.code code, toLower (c :: s)⟩
       | none => if toLower (c :: s) = lit "dual" then ⟨.id, toLower (c :: s)⟩ else ⟨.id, c :: s⟩, rest) := by
    unfold scanIdentifier
    obtain ⟨h1, h2⟩ := takeWhile_word (p := fun c => isLetter c || isDigit c || (false && isCarat c)) (s := s)
      (rest := rest) (fun d hd => by simpa using hs d hd)
      (fun d hd => by simp [(hr d hd).1, (hr d hd).2.1])
    simp only [h1, h2]
    cases keywordCode (toLower (c :: s)) with
    | some code => rfl
    | none => dsimp only; split <;> rfl
  have hq : ∀ d r, s ++ rest = d :: r → d ≠ '\'' ∧ ¬ (c = '@' ∧ d = '@') := by
    intro d r hd
    cases s with
    | nil =>
      have := hr d (by simp only [List.nil_append] at hd; rw [hd]; rfl)
      refine ⟨this.2.2, ?_⟩
      rintro ⟨_, rfl⟩
      have := this.1
      revert this; decide
    | cons e s =>
      simp only [List.cons_append] at hd
      obtain ⟨rfl, _⟩ := List.cons.inj hd
      refine ⟨?_, ?_⟩
      · rcases hs e (by simp) with h | h
        · exact (letter_facts h).2.2
        · exact digit_ne_quote h
      · rintro ⟨rfl, rfl⟩
        exact ha ⟨s, rfl⟩
  unfold scanWord
  cases hsr : s ++ rest with
  | nil => rw [hsr] at hid; exact hid
  | cons d r =>
    obtain ⟨h1, h2⟩ := hq d r hsr
    rw [hsr] at hid
    have h3 : (decide (c = '@') && decide (d = '@')) = false := by simpa using h2
    simp only [h1, and_false, if_false, h3]
    exact hid

theorem reads_word (mode : Mode) {w rest : Str} (hw : IsWord w) (hr : EndsWord rest) :
    Reads mode (w ++ rest)
      (match keywordCode (toLower w) with
       | some code => ⟨.code code, toLower w⟩
       | none => if toLower w = lit "dual" then ⟨.id, toLower w⟩ else ⟨.id, w⟩) rest := by
  obtain ⟨⟨c, s, rfl, hc, hs⟩, ha⟩ := hw
  obtain ⟨h0, hb, _⟩ := letter_facts hc
  refine reads_start h0 hb fun n => ?_
  unfold scanToken
  rw [if_pos hc]
  have := scanWord_eq hs ha hr
  change Step.token (scanWord c (s ++ rest)).1 ⟨(scanWord c (s ++ rest)).2, n⟩ = _
  rw [this]

/-! ### White space -/

theorem blank_isBlank {w : Str} (h : BlankRun w) : ∀ c ∈ w, isBlank c = true := by
  intro c hc
  rcases h.2 c hc with rfl | rfl | rfl | rfl <;> rfl

theorem skipBlank_blank {w z : Str} (h : ∀ c ∈ w, isBlank c = true) : skipBlank (w ++ z) = skipBlank z := by
  induction w with
  | nil => rfl
  | cons c w ih =>
    have hc := h c (by simp)
    have hrec := ih fun d hd => h d (by simp [hd])
    unfold skipBlank at hrec ⊢
    simp [hc, hrec]

theorem scan_congr {st : Scanner} {s s' : Str} {n : Nat} (hf : st.forceEOF = false)
    (h : skipBlank (dropNul s) = skipBlank (dropNul s')) :
    scan { st with inner := [], base := ⟨s, n⟩ } = scan { st with inner := [], base := ⟨s', n⟩ } := by
  have hc := scanCursor_congr (mode := st.mode) (multi := st.multi) (forceEOF := st.forceEOF) (n := n) h hf
  cases hs : scanCursor st.mode st.multi st.forceEOF ⟨s', n⟩ with
  | panic =>
    rw [scan_base_panic (st := { st with inner := [], base := ⟨s, n⟩ }) rfl (hc.trans hs),
      scan_base_panic (st := { st with inner := [], base := ⟨s', n⟩ }) rfl hs]
  | special sql c' =>
    rw [scan_base_special (st := { st with inner := [], base := ⟨s, n⟩ }) rfl (hc.trans hs),
      scan_base_special (st := { st with inner := [], base := ⟨s', n⟩ }) rfl hs]
  | token t c' =>
    rw [scan_base_token (st := { st with inner := [], base := ⟨s, n⟩ }) rfl (hc.trans hs),
      scan_base_token (st := { st with inner := [], base := ⟨s', n⟩ }) rfl hs]

theorem scanAll_of_scan {st st' : Scanner} (h : scan st = scan st') : scanAll st = scanAll st' := by
  cases hs : scan st' with
  | error e => rw [scanAll_error (h.trans hs), scanAll_error hs]
  | ok p =>
    obtain ⟨t, st1⟩ := p
    by_cases ht : t.type = .eof
    · rw [scanAll_eof (h.trans hs) ht, scanAll_eof hs ht]
    · rw [scanAll_cons (h.trans hs) ht, scanAll_cons hs ht]

theorem scanAll_congr {st : Scanner} {s s' : Str} {n : Nat} (hf : st.forceEOF = false)
    (h : skipBlank (dropNul s) = skipBlank (dropNul s')) :
    scanAll { st with inner := [], base := ⟨s, n⟩ } = scanAll { st with inner := [], base := ⟨s', n⟩ } :=
  scanAll_of_scan (scan_congr hf h)

theorem scanAll_readsAll {mode : Mode} {text rest : Str} {ts : List Token} (h : ReadsAll mode text ts rest)
    (ht : ∀ t ∈ ts, t.type ≠ .eof) (n : Nat) :
    scanAll { mode := mode, base := ⟨text, n⟩ } = (scanAll { mode := mode, base := ⟨rest, n⟩ }).map (ts ++ ·) := by
  induction h with
  | nil text => cases scanAll { mode := mode, base := ⟨text, n⟩ } <;> rfl
  | cons hr _ ih =>
    rw [scanAll_cons (hr n) (ht _ (by simp)), ih fun t hm => ht t (by simp [hm])]
    cases scanAll { mode := mode, base := ⟨_, n⟩ } <;> rfl

theorem scanAll_nil (mode : Mode) (n : Nat) : scanAll { mode := mode, base := ⟨[], n⟩ } = .ok [] :=
  scanAll_eof (scan_base_token (st := { mode := mode, base := ⟨[], n⟩ }) rfl (scanCursor_blank (by rfl))) rfl

theorem scanAll_new (mode : Mode) {text : Str} (h : text.head? ≠ some '\x00') :
    scanAll (newScanner mode text) = scanAll { mode := mode, base := ⟨text, 0⟩ } := by
  refine scanAll_congr (st := { mode := mode, base := ⟨[], 0⟩ }) rfl ?_
  cases text with
  | nil => rfl
  | cons c s =>
    have : c ≠ '\x00' := by simpa using h
    simp [dropNul, this]

theorem tokenize_readsAll {mode : Mode} {text : Str} {ts : List Token} (h : ReadsAll mode text ts [])
    (h0 : text.head? ≠ some '\x00') (ht : ∀ t ∈ ts, t.type ≠ .eof) : scanAll (newScanner mode text) = .ok ts := by
  rw [scanAll_new mode h0, scanAll_readsAll h ht, scanAll_nil]
  simp [Except.map]

theorem newScanner_append (mode : Mode) (a w : Str) : newScanner mode (a ++ w) = (newScanner mode a).append w := rfl

/-- The first text is read whole; what follows is then read on its own. -/
theorem scanAll_cut {mode : Mode} {a : Str} {ts : List Token} (h : scanAll (newScanner mode a) = .ok ts)
    (hw : Whole ts) : ∃ n, ∀ (b : Char) (w : Str), isSep b = true →
      scanAll (newScanner mode (a ++ b :: w)) = (scanAll { mode := mode, base := ⟨b :: w, n⟩ }).map (ts ++ ·) := by
  obtain ⟨n, hn⟩ := scanAll_append (newScanner mode a) rfl rfl ts h fun t ht => hw t ht
  refine ⟨n, fun b w hb => ?_⟩
  rw [newScanner_append, hn b w hb]
  rfl

end Sqldef
