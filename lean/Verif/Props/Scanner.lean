import Verif.Proofs.FormatNames
import Verif.Proofs.StrLemmas
/-
Theorems about the tokenizer (C42-C46, C49) and about the texts of names and strings in printed SQL (C36, C37, C50).
-/
namespace Sqldef
open Spec

/-! ### C42: the scanner terminates on every input -/

/-- However often `Scan` is called on a text, it returns at most as many tokens as the text has characters before it
reports the end. -/
theorem C42_calls_are_bounded {mode : Mode} {sql : Str} {ts : List Token} {st : Scanner}
    (h : Calls (newScanner mode sql) ts st) (ht : ∀ t ∈ ts, t.type ≠ .eof) : ts.length ≤ sql.length := by
  have := calls_left h ht
  rw [newScanner_left] at this
  omega

/-- Every text is read to its end, unless the program crashes on the way. -/
theorem C42_scanning_ends (mode : Mode) (sql : Str) :
    ∃ ts st, Calls (newScanner mode sql) ts st ∧ ts.length ≤ sql.length ∧ (∀ t ∈ ts, t.type ≠ .eof) ∧
      ((∃ t st', scan st = .ok (t, st') ∧ t.type = .eof) ∨ scan st = .error .panic) := by
  have key : ∀ n (st : Scanner), st.size = n → ∃ ts st', Calls st ts st' ∧ (∀ t ∈ ts, t.type ≠ .eof) ∧
      ((∃ t st'', scan st' = .ok (t, st'') ∧ t.type = .eof) ∨ scan st' = .error .panic) := by
    intro n
    induction n using Nat.strongRecOn with
    | ind n ih =>
    intro st hn
    cases hs : scan st with
    | error e => exact ⟨[], st, .nil _, by simp, .inr (by rw [hs, scan_error hs])⟩
    | ok p =>
      obtain ⟨t, st'⟩ := p
      by_cases ht : t.type = .eof
      · exact ⟨[], st, .nil _, by simp, .inl ⟨t, st', hs, ht⟩⟩
      · obtain ⟨ts, st1, h1, h2, h3⟩ := ih _ (hn ▸ scan_progress hs ht) st' rfl
        exact ⟨t :: ts, st1, .cons hs h1, by simpa using ⟨ht, h2⟩, h3⟩
  obtain ⟨ts, st, h1, h2, h3⟩ := key _ (newScanner mode sql) rfl
  exact ⟨ts, st, h1, C42_calls_are_bounded h1 h2, h2, h3⟩

/-- Every call of `Scan` that returns a token other than the end leaves fewer characters to be read (over the
text and the MySQL-specific comments that are open), whatever the state. -/
theorem C42_every_call_consumes {st st' : Scanner} {t : Token} (h : scan st = .ok (t, st')) (ht : t.type ≠ .eof) :
    st'.left < st.left := scan_left h ht

/-- Once the end is reported it is reported again. -/
theorem C42_end_is_final {st st' : Scanner} {t : Token} (hm : st.multi = false) (hf : st.forceEOF = false)
    (h : scan st = .ok (t, st')) (ht : t.type = .eof) : scan st' = .ok (t, st') := by
  induction hn : st.size using Nat.strongRecOn generalizing st with
  | ind n ih =>
  subst hn
  cases hi : st.inner with
  | cons c cs =>
    cases hs : scanCursor st.mode false false c with
    | panic => rw [scan_inner_panic hi hs] at h; cases h
    | special sql c' =>
      have hl := scanCursor_special_length hs
      rw [scan_inner_special hi hs] at h
      exact ih _ (by simp [Scanner.size, hi, newCursor]; omega) (by exact hm) (by exact hf) h rfl
    | token t' c' =>
      rw [scan_inner_token hi hs] at h
      split at h
      · exact ih _ (by simp [Scanner.size, hi]) (by exact hm) (by exact hf) h rfl
      · next hne => cases h; exact absurd ht hne
  | nil =>
    cases hs : scanCursor st.mode st.multi st.forceEOF st.base with
    | panic => rw [scan_base_panic hi hs] at h; cases h
    | special sql c' =>
      have hl := scanCursor_special_length hs
      rw [scan_base_special hi hs] at h
      exact ih _ (by simp [Scanner.size, hi, newCursor]; omega) (by exact hm) (by exact hf) h rfl
    | token t' c' =>
      rw [scan_base_token hi hs] at h
      cases h
      rw [hm, hf] at hs
      have hb := (scanCursor_eof hs).mp ht
      rw [scanCursor_blank hb] at hs
      cases hs
      refine scan_base_token (st := { st with base := ⟨[], st.base.posVar⟩ }) hi ?_
      rw [hm, hf]
      exact scanCursor_blank (by rfl)

/-! ### C49: scanning does not crash -/

/-- A text without an empty MySQL-specific comment (`/*!*/`, or with at most five digits and nothing else in it) is
read to its end without a crash. Partial: such a comment makes the program crash, see `C49_empty_special_comment`. -/
theorem C49_no_crash_partial (mode : Mode) (sql : Str) (h : ∀ u, u <:+: sql → ¬ EmptySpecialComment u) :
    ∃ ts, scanAll (newScanner mode sql) = .ok ts := scanAll_ok (newScanner_safe mode h)

/-- The crash: the index of the end of the version number is -1. -/
theorem C49_empty_special_comment (mode : Mode) (d : Str) (hl : d.length ≤ 5) (hd : ∀ c ∈ d, isUnicodeDigit c = true)
    (rest : Str) : scan (newScanner mode (lit "/*!" ++ d ++ lit "*/" ++ rest)) = .error .panic := by
  have hstar : ∀ c ∈ d, c ≠ '*' := by
    intro c hc he
    subst he
    have := hd _ hc
    revert this; decide
  have hloop : commentLoop (d ++ lit "*/" ++ rest) = some (d, rest) := by
    clear hl hd
    induction d with
    | nil => rfl
    | cons c d ih =>
      have h1 : c ≠ '*' := hstar c (by simp)
      have h2 := ih fun e he => hstar e (by simp [he])
      simp only [List.cons_append]
      unfold commentLoop
      rw [if_neg h1, h2]
      rfl
  have hv : versionEnd 5 d = none := versionEnd_none.mpr ⟨hl, hd⟩
  refine scan_base_panic rfl ?_
  have h1 : skipBlank (dropNul (newScanner mode (lit "/*!" ++ d ++ lit "*/" ++ rest)).base.input) =
      '/' :: '*' :: '!' :: (d ++ lit "*/" ++ rest) := by
    simp [newScanner, newCursor, dropNul, skipBlank, lit, isBlank]
  change scanCursor mode false false _ = _
  rw [scanCursor_cons h1]
  unfold scanToken
  simp only [show isLetter '/' = false by decide, show isDigit '/' = false by decide, Bool.false_eq_true, if_false,
    show ¬ ('/' = ':') by decide, show ¬ ('/' = ';' ∧ False) by simp]
  unfold scanOperator scanSlash scanMySQLSpecificComment extractMysqlComment
  simp only [if_true, hloop, hv]

example : ∃ ts, scanAll (newScanner .mysql (lit "CREATE TABLE t (a int /* key */);")) = .ok ts := by
  refine C49_no_crash_partial _ _ fun u hu he => ?_
  obtain ⟨d, rfl, _⟩ := he
  have h : lit "/*!" <:+: lit "CREATE TABLE t (a int /* key */);" := List.IsInfix.trans ⟨[], d ++ lit "*/", by simp⟩ hu
  rw [← contains_iff] at h
  revert h
  decide +kernel

/-! ### C43: quoted names and strings are scanned as written -/

/-- A name between the quotes of the dialect, with the closing quote doubled inside, is one identifier token whose
value is the name, whatever follows (as long as it is not another closing quote). -/
theorem C43_quoted_name {mode : Mode} {o c : Char} (h : (o, c) ∈ nameQuotes mode) {name rest : Str} (hn : name ≠ [])
    (hr : rest.head? ≠ some c) : Reads mode (o :: doubled c name ++ c :: rest) ⟨.id, name⟩ rest :=
  reads_name h hn hr

/-- Nothing else behind an opening quote is read as an identifier. -/
theorem C43_quoted_name_only {mode : Mode} {o c : Char} (h : (o, c) ∈ nameQuotes mode) {text name rest : Str}
    (hr : Reads mode (o :: text) ⟨.id, name⟩ rest) :
    name ≠ [] ∧ rest.head? ≠ some c ∧ text = doubled c name ++ c :: rest := reads_name_only h hr

/-- A string literal is one string token whose value is the string that the literal denotes. -/
theorem C43_string {mode : Mode} {q : Char} (h : q ∈ stringQuotes mode) {src v rest : Str} (hb : StringBody q src v)
    (hr : rest.head? ≠ some q) : Reads mode (q :: src ++ q :: rest) ⟨.string, v⟩ rest := reads_string h hb hr

/-- Nothing else behind a quote is read as a string. -/
theorem C43_string_only {mode : Mode} {q : Char} (h : q ∈ stringQuotes mode) {text v rest : Str}
    (hr : Reads mode (q :: text) ⟨.string, v⟩ rest) :
    ∃ src, text = src ++ q :: rest ∧ StringBody q src v ∧ rest.head? ≠ some q := reads_string_only h hr

/-- Every string can be written as a literal: by doubling the quotes and the backslashes. -/
theorem C43_every_string_can_be_written {mode : Mode} {q : Char} (h : q ∈ stringQuotes mode) (v rest : Str)
    (hr : rest.head? ≠ some q) :
    Reads mode
      (q :: (v.flatMap fun c => if c = q then [q, q] else if c = '\\' then ['\\', '\\'] else [c]) ++ q :: rest)
      ⟨.string, v⟩ rest :=
  reads_string h (stringBody_exists q (stringQuotes_open h [] 0).2.2.2 v) hr

example : Reads .mysql (lit "`a``b` int") ⟨.id, lit "a`b"⟩ (lit " int") :=
  C43_quoted_name (o := '`') (c := '`') (by decide) (name := lit "a`b") (rest := lit " int") (by decide) (by decide)

example : Reads .mssql (lit "[a]]b], c") ⟨.id, lit "a]b"⟩ (lit ", c") :=
  C43_quoted_name (o := '[') (c := ']') (by decide) (name := lit "a]b") (rest := lit ", c") (by decide) (by decide)

example : Reads .postgres (lit "'it''s \\n', 1") ⟨.string, lit "it's \n"⟩ (lit ", 1") :=
  C43_string (q := '\'') (src := lit "it''s \\n") (rest := lit ", 1") (by decide)
    (.plain (by decide) (by decide) <| .plain (by decide) (by decide) <| .doubled <|
      .plain (by decide) (by decide) <| .plain (by decide) (by decide) <| .escape .nil) (by decide)

/-! ### C44: keywords and identifiers -/

/-- A word that is a keyword in lower case is that keyword, however it is written. -/
theorem C44_keyword (mode : Mode) {w rest code : Str} (hw : IsWord w) (hr : EndsWord rest)
    (hk : keywordCode (toLower w) = some code) : Reads mode (w ++ rest) ⟨.code code, toLower w⟩ rest := by
  have := reads_word mode hw hr
  rwa [hk] at this

/-- The case of the letters of a keyword does not matter. -/
theorem C44_keyword_case (mode : Mode) {w w' rest : Str} (hw : IsWord w) (hw' : IsWord w') (hr : EndsWord rest)
    (hl : toLower w = toLower w') (hk : keywordCode (toLower w) ≠ none) :
    ∃ t, Reads mode (w ++ rest) t rest ∧ Reads mode (w' ++ rest) t rest := by
  cases h : keywordCode (toLower w) with
  | none => exact absurd h hk
  | some code => exact ⟨_, C44_keyword mode hw hr h, by rw [hl]; exact C44_keyword mode hw' hr (hl ▸ h)⟩

/-- Any other word is an identifier whose value is the word as written. Partial: the word `dual` is changed to lower
case, see `C44_dual`. -/
theorem C44_identifier_partial (mode : Mode) {w rest : Str} (hw : IsWord w) (hr : EndsWord rest)
    (hk : keywordCode (toLower w) = none) (hd : toLower w ≠ lit "dual") : Reads mode (w ++ rest) ⟨.id, w⟩ rest := by
  have := reads_word mode hw hr
  rw [hk] at this
  dsimp only at this
  rwa [if_neg hd] at this

/-- The identifier `DUAL` does not keep its case. -/
theorem C44_dual (mode : Mode) : Reads mode (lit "DUAL") ⟨.id, lit "dual"⟩ [] := by
  have hw : IsWord (lit "DUAL") := ⟨⟨'D', lit "UAL", by decide, by decide, by decide⟩, by decide⟩
  have := reads_word mode hw (rest := []) (by simp [EndsWord])
  rw [show keywordCode (toLower (lit "DUAL")) = none by decide +kernel] at this
  exact this

example : Reads .mysql (lit "VarChar(10)") ⟨.code (lit "VARCHAR"), lit "varchar"⟩ (lit "(10)") :=
  C44_keyword .mysql (w := lit "VarChar") (rest := lit "(10)")
    ⟨⟨'V', lit "arChar", by decide, by decide, by decide⟩, by decide⟩
    (by intro c hc; simp [lit] at hc; subst hc; decide) (by decide +kernel)

example : Reads .mysql (lit "UserName ") ⟨.id, lit "UserName"⟩ (lit " ") :=
  C44_identifier_partial .mysql (w := lit "UserName") (rest := lit " ")
    ⟨⟨'U', lit "serName", by decide, by decide, by decide⟩, by decide⟩
    (by intro c hc; simp [lit] at hc; subst hc; decide) (by decide +kernel) (by decide)

/-! ### C45: white space between tokens is irrelevant -/

/-- If the first part of a text is read whole, the run of white space behind it can be replaced by any other. -/
theorem C45_white_space {mode : Mode} {a : Str} {ts : List Token} (h : scanAll (newScanner mode a) = .ok ts)
    (hw : Whole ts) {w w' : Str} (hb : BlankRun w) (hb' : BlankRun w') (z : Str) :
    tokenize mode (a ++ w ++ z) = tokenize mode (a ++ w' ++ z) := by
  obtain ⟨n, hn⟩ := scanAll_cut h hw
  have key : ∀ v : Str, BlankRun v → scanAll (newScanner mode (a ++ v ++ z)) =
      (scanAll { mode := mode, base := ⟨' ' :: z, n⟩ }).map (ts ++ ·) := by
    intro v hv
    have hall := blank_isBlank hv
    obtain ⟨b, v, rfl⟩ := List.exists_cons_of_ne_nil hv.1
    rw [List.append_assoc, List.cons_append, hn b (v ++ z) (by simp [isSep, hall b (by simp)])]
    congr 1
    refine scanAll_congr (st := { mode := mode, base := ⟨[], 0⟩ }) rfl ?_
    have h0 : ∀ c : Char, isBlank c = true → c ≠ '\x00' := by rintro c hc rfl; revert hc; decide
    rw [show dropNul (b :: (v ++ z)) = (b :: v) ++ z by simp [dropNul, h0 b (hall b (by simp))],
      show dropNul (' ' :: z) = [' '] ++ z by simp [dropNul], skipBlank_blank hall, skipBlank_blank (by simp [isBlank])]
  unfold tokenize
  rw [key w hb, key w' hb']

example (z : Str) : tokenize .mysql (lit "UserName" ++ lit " " ++ z) = tokenize .mysql (lit "UserName" ++ lit "\n\t " ++ z) := by
  have h := C44_identifier_partial .mysql (w := lit "UserName") (rest := [])
    ⟨⟨'U', lit "serName", by decide, by decide, by decide⟩, by decide⟩ (by simp [EndsWord]) (by decide +kernel) (by decide)
  rw [List.append_nil] at h
  exact C45_white_space (tokenize_readsAll (.cons h (.nil _)) (by decide) (by simp)) (by simp [Whole])
    ⟨by decide, by decide⟩ ⟨by decide, by decide⟩ z

/-- White space before a parenthesis, a comma or a semicolon is irrelevant. -/
theorem C45_white_space_before_punctuation {mode : Mode} {a : Str} {ts : List Token}
    (h : scanAll (newScanner mode a) = .ok ts) (hw : Whole ts) {w : Str} (hb : BlankRun w) {p : Char}
    (hp : p ∈ ['(', ')', ',', ';']) (z : Str) : tokenize mode (a ++ w ++ p :: z) = tokenize mode (a ++ p :: z) := by
  rw [C45_white_space h hw hb (w' := [' ']) ⟨by simp, by simp⟩]
  obtain ⟨n, hn⟩ := scanAll_cut h hw
  have hs : isSep p = true := by
    simp at hp
    rcases hp with rfl | rfl | rfl | rfl <;> rfl
  have h0 : p ≠ '\x00' := by rintro rfl; revert hp; decide
  unfold tokenize
  rw [List.append_assoc, List.singleton_append, hn ' ' _ (by rfl), hn p z hs]
  congr 2
  refine scanAll_congr (st := { mode := mode, base := ⟨[], 0⟩ }) rfl ?_
  rw [show dropNul (' ' :: p :: z) = [' '] ++ (p :: z) by simp [dropNul], skipBlank_blank (by simp [isBlank])]
  simp [dropNul, h0]

/-- The same between any two calls of `Scan`, also inside a MySQL-specific comment: the white space in front of the
text that is still to be read does not matter. -/
theorem C45_between_calls {st : Scanner} {w w' z : Str} {n : Nat} {cs : List Cursor} (hb : BlankRun w) (hb' : BlankRun w') :
    scanAll { st with inner := ⟨w ++ z, n⟩ :: cs } = scanAll { st with inner := ⟨w' ++ z, n⟩ :: cs } ∧
    (st.forceEOF = false →
      scanAll { st with inner := [], base := ⟨w ++ z, n⟩ } = scanAll { st with inner := [], base := ⟨w' ++ z, n⟩ }) := by
  have hd : ∀ v : Str, BlankRun v → skipBlank (dropNul (v ++ z)) = skipBlank z := by
    intro v hv
    have hall := blank_isBlank hv
    obtain ⟨b, v, rfl⟩ := List.exists_cons_of_ne_nil hv.1
    have h0 : b ≠ '\x00' := by
      rintro rfl
      have := hall '\x00' (by simp)
      revert this; decide
    rw [show dropNul ((b :: v) ++ z) = (b :: v) ++ z by simp [dropNul, h0], skipBlank_blank hall]
  have he : skipBlank (dropNul (w ++ z)) = skipBlank (dropNul (w' ++ z)) := by rw [hd w hb, hd w' hb']
  refine ⟨scanAll_of_scan ?_, fun hf => scanAll_congr hf he⟩
  have hc := scanCursor_congr (mode := st.mode) (multi := false) (forceEOF := false) (n := n) he rfl
  cases hs : scanCursor st.mode false false ⟨w' ++ z, n⟩ with
  | panic =>
    rw [scan_inner_panic (st := { st with inner := ⟨w ++ z, n⟩ :: cs }) rfl (hc.trans hs),
      scan_inner_panic (st := { st with inner := ⟨w' ++ z, n⟩ :: cs }) rfl hs]
  | special sql c' =>
    rw [scan_inner_special (st := { st with inner := ⟨w ++ z, n⟩ :: cs }) rfl (hc.trans hs),
      scan_inner_special (st := { st with inner := ⟨w' ++ z, n⟩ :: cs }) rfl hs]
  | token t c' =>
    rw [scan_inner_token (st := { st with inner := ⟨w ++ z, n⟩ :: cs }) rfl (hc.trans hs),
      scan_inner_token (st := { st with inner := ⟨w' ++ z, n⟩ :: cs }) rfl hs]

/-! ### C46: encoded strings decode to the original -/

/-- The text that `EncodeSQL` prints for a string is read back as that string. -/
theorem C46_encoded_string_is_read_back (mode : Mode) (v rest : Str) (hr : rest.head? ≠ some '\'') :
    Reads mode (encodeBytesSQL v ++ rest) ⟨.string, v⟩ rest := by
  have hq : '\'' ∈ stringQuotes mode := by cases mode <;> simp [stringQuotes]
  have := reads_string hq (encode_body v) hr
  unfold encodeBytesSQL
  simpa using this

/-! ### C36: names in generated statements -/

/-- A quoted name of a generated statement is read back as that name exactly if it is not empty and does not contain
the closing quote, whatever follows. -/
theorem C36_quoted_name_iff (mode : Mode) (name rest : Str) (hr : rest.head? ≠ some (closingQuote mode)) :
    Reads mode (escapeSQLName mode name ++ rest) ⟨.id, name⟩ rest ↔ name ≠ [] ∧ closingQuote mode ∉ name := by
  have hself : ∀ q : Char, name ++ q :: rest = doubled q name ++ q :: rest → q ∉ name := by
    intro q h
    have h2 : doubled q name = name := (List.append_cancel_right h).symm
    have h3 : ∀ l : Str, (doubled q l).length = l.length + l.count q := by
      intro l
      induction l with
      | nil => rfl
      | cons c l ih =>
        unfold doubled at ih ⊢
        rw [List.flatMap_cons, List.length_append, ih, List.count_cons]
        by_cases hc : c = q
        · simp [hc]; omega
        · simp [hc]; omega
    have h4 := h3 name
    rw [h2] at h4
    exact List.count_eq_zero.mp (by omega)
  have key : ∀ o, (o, closingQuote mode) ∈ nameQuotes mode → escapeSQLName mode name = o :: name ++ [closingQuote mode] →
      (Reads mode (escapeSQLName mode name ++ rest) ⟨.id, name⟩ rest ↔ name ≠ [] ∧ closingQuote mode ∉ name) := by
    intro o ho he
    have ht : escapeSQLName mode name ++ rest = o :: (name ++ closingQuote mode :: rest) := by simp [he]
    rw [ht]
    constructor
    · intro h
      obtain ⟨h1, _, h3⟩ := reads_name_only ho h
      exact ⟨h1, hself _ h3⟩
    · rintro ⟨h1, h2⟩
      have := reads_name ho h1 hr
      rw [doubled_of_not_mem h2] at this
      simpa using this
  cases mode
  · exact key '`' (by decide) (by simp [escapeSQLName, closingQuote, lit])
  · exact key '"' (by decide) (by simp [escapeSQLName, closingQuote, lit])
  · exact key '`' (by decide) (by simp [escapeSQLName, closingQuote, lit])
  · exact key '[' (by decide) (by simp [escapeSQLName, closingQuote, lit])

/-- Different names are printed differently. -/
theorem C36_different_names_differ (mode : Mode) {a b : Str} (h : escapeSQLName mode a = escapeSQLName mode b) : a = b := by
  cases mode <;> (simp [escapeSQLName, lit] at h; exact h)

/-- A table name of Postgres and SQL Server is read back as the schema and the table: the parts before and after the
first dot, and the default schema if there is no dot. -/
theorem C36_table_name (mode : Mode) (hm : mode = .postgres ∨ mode = .mssql) {name schema table : Str} (rest : Str)
    (hname : name = schema ++ '.' :: table ∧ '.' ∉ schema ∨
      '.' ∉ name ∧ table = name ∧ schema = (if mode = .postgres then lit "public" else lit "dbo"))
    (hs : schema ≠ [] ∧ closingQuote mode ∉ schema) (ht : table ≠ [] ∧ closingQuote mode ∉ table)
    (hr : rest.head? ≠ some (closingQuote mode)) :
    ReadsAll mode (escapeTableName mode name ++ rest) [⟨.id, schema⟩, ⟨.char '.', []⟩, ⟨.id, table⟩] rest := by
  have hsplit : splitDot name = if '.' ∈ name then some (schema, table) else none := by
    rcases hname with ⟨rfl, h⟩ | ⟨h, _, _⟩
    · rw [if_pos (by simp)]
      exact (splitDot_eq_some _ _ _).mpr ⟨rfl, h⟩
    · rw [if_neg h]
      exact (splitDot_eq_none _).mpr h
  have heq : escapeTableName mode name = escapeSQLName mode schema ++ lit "." ++ escapeSQLName mode table := by
    rcases hm with rfl | rfl
    · unfold escapeTableName
      rw [hsplit]
      rcases hname with ⟨rfl, h⟩ | ⟨h, rfl, rfl⟩
      · rw [if_pos (by simp)]
      · rw [if_neg h]; simp
    · unfold escapeTableName
      rw [hsplit]
      rcases hname with ⟨rfl, h⟩ | ⟨h, rfl, rfl⟩
      · rw [if_pos (by simp)]
      · rw [if_neg h]; simp
  have h1 := (C36_quoted_name_iff mode schema ('.' :: (escapeSQLName mode table ++ rest))
    (by rcases hm with rfl | rfl <;> simp [closingQuote])).mpr hs
  have h3 := (C36_quoted_name_iff mode table rest hr).mpr ht
  have h2 : Reads mode ('.' :: (escapeSQLName mode table ++ rest)) ⟨.char '.', []⟩ (escapeSQLName mode table ++ rest) := by
    rcases hm with rfl | rfl
    · exact reads_dot (by decide)
    · exact reads_dot (by decide)
  rw [heq]
  have : escapeSQLName mode schema ++ lit "." ++ escapeSQLName mode table ++ rest =
    escapeSQLName mode schema ++ '.' :: (escapeSQLName mode table ++ rest) := by simp [lit]
  rw [this]
  exact .cons h1 (.cons h2 (.cons h3 (.nil _)))

example : ReadsAll .postgres (lit "\"public\".\"users\" ADD") [⟨.id, lit "public"⟩, ⟨.char '.', []⟩, ⟨.id, lit "users"⟩]
    (lit " ADD") :=
  C36_table_name .postgres (.inl rfl) (name := lit "users") (lit " ADD") (.inr ⟨by decide, rfl, rfl⟩) (by decide)
    (by decide) (by decide)

/-! ### C37: string defaults in generated statements -/

/-- A string default is printed so that it is read back as the same string exactly if it contains neither a quote nor
a backslash. -/
theorem C37_string_default_iff (mode : Mode) (v : Value) (hv : v.valueType = .str) (rest : Str)
    (hr : rest.head? ≠ some '\'') :
    (∃ text, generateDefaultDefinition v = .ok text ∧
      ReadsAll mode (text ++ rest) [⟨.code (lit "DEFAULT"), lit "default"⟩, ⟨.string, v.strVal⟩] rest) ↔
    ∀ c ∈ v.strVal, c ≠ '\'' ∧ c ≠ '\\' := by
  have hq : '\'' ∈ stringQuotes mode := by cases mode <;> simp [stringQuotes]
  have hk : Reads mode (lit "DEFAULT" ++ ' ' :: '\'' :: (v.strVal ++ '\'' :: rest))
      ⟨.code (lit "DEFAULT"), lit "default"⟩ (' ' :: '\'' :: (v.strVal ++ '\'' :: rest)) :=
    C44_keyword mode (w := lit "DEFAULT") ⟨⟨'D', lit "EFAULT", by decide, by decide, by decide⟩, by decide⟩
      (by intro c hc; simp at hc; subst hc; decide) (by decide +kernel)
  have hsp : ∀ t r, Reads mode (' ' :: '\'' :: (v.strVal ++ '\'' :: rest)) t r ↔
      Reads mode ('\'' :: (v.strVal ++ '\'' :: rest)) t r := by
    intro t r
    unfold Reads
    refine forall_congr' fun n => ?_
    rw [scan_congr (st := { mode := mode, base := ⟨[], 0⟩ }) (s := ' ' :: '\'' :: (v.strVal ++ '\'' :: rest))
      (s' := '\'' :: (v.strVal ++ '\'' :: rest)) rfl (by simp [dropNul, skipBlank, isBlank])]
  have htext : generateDefaultDefinition v = .ok (lit "DEFAULT '" ++ v.strVal ++ lit "'") := by
    unfold generateDefaultDefinition
    rw [hv]
  have heq : lit "DEFAULT '" ++ v.strVal ++ lit "'" ++ rest = lit "DEFAULT" ++ ' ' :: '\'' :: (v.strVal ++ '\'' :: rest) := by
    simp [lit]
  rw [← stringBody_self]
  constructor
  · rintro ⟨text, h1, h2⟩
    rw [htext] at h1
    cases h1
    rw [heq] at h2
    cases h2 with
    | cons ha hb =>
      obtain ⟨_, rfl⟩ := reads_unique ha hk
      cases hb with
      | cons hc hd =>
        cases hd
        obtain ⟨src, h4, h5, _⟩ := reads_string_only hq ((hsp _ _).mp hc)
        have : src = v.strVal := (List.append_cancel_right h4).symm
        rwa [this] at h5
  · intro hb
    refine ⟨_, htext, ?_⟩
    rw [heq]
    exact .cons hk (.cons ((hsp _ _).mpr (reads_string hq hb hr)) (.nil _))

/-- A default with a quote in it is not read back. -/
theorem C37_quote_in_default : ¬ ∃ text, generateDefaultDefinition { valueType := .str, raw := [], strVal := lit "it's" } =
    .ok text ∧ ReadsAll .mysql text [⟨.code (lit "DEFAULT"), lit "default"⟩, ⟨.string, lit "it's"⟩] [] := by
  rintro ⟨text, h1, h2⟩
  have := (C37_string_default_iff .mysql { valueType := .str, raw := [], strVal := lit "it's" } rfl [] (by simp)).mp
    ⟨text, h1, by simpa using h2⟩
  exact (this '\'' (by decide)).1 rfl

/-! ### C50: names in printed expressions -/

/-- A name printed by `String` (in the condition of a CHECK, an index or a policy and in the definition of a view) is
read back as the same name. Partial: not for Postgres, where the quotes are not those of the dialect, not for
characters beyond U+FFFF, and not for the name `dual` in capital letters; see the three theorems below. -/
theorem C50_printed_name_partial {mode : Mode} (hm : mode ≠ .postgres) {name rest : Str} (hn : name ≠ [])
    (hb : ∀ c ∈ name, c.toNat < 65536) (hd : toLower name = lit "dual" → name = lit "dual")
    (hr : ∀ c, rest.head? = some c →
      isLetter c = false ∧ isDigit c = false ∧ c ≠ '\'' ∧ c ≠ '`' ∧ (lit "@@" <+: name → isCarat c = false)) :
    Reads mode (formatID name ++ rest) ⟨.id, name⟩ rest := reads_formatID hm hn hb hd hr

/-- In Postgres a printed name that needs quotes is a lexical error. -/
theorem C50_postgres_quotes {name rest : Str} (hq : formatID name = backtick name) :
    ∃ r, Reads .postgres (formatID name ++ rest) ⟨.lexError, lit "`"⟩ r := by
  rw [hq, backtick_eq]
  refine ⟨doubled '`' name ++ '`' :: rest, ?_⟩
  have h : ('`' :: doubled '`' name ++ ['`']) ++ rest = '`' :: (doubled '`' name ++ '`' :: rest) := by simp
  rw [h]
  refine reads_start (by decide) (by decide) fun n => ?_
  rw [scanToken_symbol (by decide) (by decide) (by decide) (by decide) (by decide)]
  rfl

example : formatID (lit "order") = backtick (lit "order") := by decide +kernel

/-- A character beyond U+FFFF can be taken for a letter: the name is printed without quotes and not read back. -/
theorem C50_beyond_bmp : formatID [Char.ofNat 0x10061] = [Char.ofNat 0x10061] ∧
    Reads .mysql (formatID [Char.ofNat 0x10061]) ⟨.lexError, [Char.ofNat 0x10061]⟩ [] := by
  have h : formatID [Char.ofNat 0x10061] = [Char.ofNat 0x10061] := by decide +kernel
  refine ⟨h, ?_⟩
  rw [h]
  refine reads_start (by decide) (by decide) fun n => ?_
  rw [scanToken_symbol (by decide) (by decide) (by decide) (by decide) (by decide)]
  rfl

/-- The name `DUAL` is printed without quotes and read back in lower case. -/
theorem C50_dual : Reads .mysql (formatID (lit "DUAL")) ⟨.id, lit "dual"⟩ [] := by
  rw [show formatID (lit "DUAL") = lit "DUAL" by decide +kernel]
  exact C44_dual .mysql

example : Reads .mysql (formatID (lit "select") ++ lit " = 1") ⟨.id, lit "select"⟩ (lit " = 1") :=
  C50_printed_name_partial (by decide) (by decide) (by decide) (by decide)
    (by intro c hc; simp [lit] at hc; subst hc; decide)

end Sqldef
