import Verif.Proofs.LayoutText
import Verif.Spec.Adapter
/-
The text of the dump of a Postgres table, statement by statement.
-/
namespace Sqldef
open Spec Written Dumped

/-! ### Parts that follow others -/

/-- The text can follow any part, stands for the tokens, and can be followed after a delimiter. -/
def Follow (mode : Mode) (a : Str) (ts : List Token) : Prop :=
  ∀ rest us, Delimits mode rest → Layout mode rest us → Delimits mode (a ++ rest) ∧ Layout mode (a ++ rest) (ts ++ us)

theorem follow_nil (mode : Mode) : Follow mode [] [] := fun _ _ hr h => ⟨hr, h⟩

theorem follow_append {mode : Mode} {a b : Str} {ts us : List Token} (ha : Follow mode a ts) (hb : Follow mode b us) :
    Follow mode (a ++ b) (ts ++ us) := by
  intro rest vs hr h
  obtain ⟨h1, h2⟩ := hb rest vs hr h
  obtain ⟨h3, h4⟩ := ha _ _ h1 h2
  rw [List.append_assoc, List.append_assoc]
  exact ⟨h3, h4⟩

theorem follow_part {mode : Mode} {a : Str} {ts : List Token} (h : Layout mode a ts) : Follow mode (' ' :: a) ts :=
  fun _ _ hr h' => ⟨delimits_char (by simp) _, lay_space (lay_part h hr h')⟩

/-- A text that begins with a delimiter. -/
theorem follow_layout {mode : Mode} {c : Char} {a : Str} {ts : List Token} (hc : c ∈ [' ', '\n', '\r', '\t', '(', ')', ',', ';'])
    (h : Layout mode (c :: a) ts) : Follow mode (c :: a) ts :=
  fun _ _ hr h' => ⟨delimits_char hc _, lay_part h hr h'⟩

theorem layout_of_follow {mode : Mode} {a : Str} {ts : List Token} (h : Follow mode a ts) : Layout mode a ts := by
  have := (h [] [] (delimits_nil mode) lay_end).2
  simpa using this

/-- Words with a space before each of them. -/
def spaced : List String → Str
  | [] => []
  | w :: ws => ' ' :: (lit w ++ spaced ws)

theorem lay_word {mode : Mode} {w : String} (h : plainWord (lit w) = true) : Layout mode (lit w) [kw w] := by
  have := lay_kw (mode := mode) w h endsWord_nil lay_end
  simpa using this

theorem follow_spaced {mode : Mode} {ws : List String} (hw : ∀ w ∈ ws, plainWord (lit w) = true) :
    Follow mode (spaced ws) (kws ws) := by
  induction ws with
  | nil => exact follow_nil mode
  | cons w ws ih =>
    have h1 := follow_part (lay_word (mode := mode) (hw w (by simp)))
    have := follow_append h1 (ih fun x hx => hw x (by simp [hx]))
    simpa [spaced, kws] using this

theorem lay_bare {mode : Mode} {n : Str} (h : BareName n) : Layout mode n [named n] := by
  have := lay_spells (mode := mode) (a := n) (rest := []) (.bare h.1 h.2.1 h.2.2 endsWord_nil) lay_end
  rw [List.append_nil] at this
  exact this

/-- A schema and a table with a dot between them. -/
theorem lay_dotted {mode : Mode} {s n : Str} (hs : BareName s) (hn : BareName n) :
    Layout mode (s ++ '.' :: n) [named s, sym '.', named n] := by
  obtain ⟨c, w, e, hc, hw⟩ := hn.1.1
  have h1 : Layout mode ('.' :: n) [sym '.', named n] := by
    have := lay_spells (mode := mode) (a := ['.']) (rest := n) (t := sym '.') (by
      rw [e]
      refine .dot ?_
      cases h : isDigit c with
      | false => rfl
      | true =>
        have := (digit_facts h).1
        simp [hc] at this) (lay_bare hn)
    exact this
  exact lay_spells (.bare hs.1 hs.2.1 hs.2.2 (endsWord_char (by simp) _)) h1

theorem tableRef_tokens (s n : Str) : TableRef.tokens { schema := some s, name := n } = [named s, sym '.', named n] := rfl

/-! ### Trimming -/

theorem trimSet_id {cs : List Char} {s : Str} (h1 : ∀ c, s.head? = some c → c ∉ cs) (h2 : ∀ c, s.getLast? = some c → c ∉ cs) :
    trimSet cs s = s := by
  have key : ∀ t : Str, (∀ c, t.head? = some c → c ∉ cs) → t.dropWhile (· ∈ cs) = t := by
    intro t ht
    cases t with
    | nil => rfl
    | cons c t =>
      have := ht c rfl
      simp [List.dropWhile, this]
  unfold trimSet
  rw [key s h1, key s.reverse (fun c hc => h2 c (by simpa using hc)), List.reverse_reverse]

theorem trimSuffix_append (suffix s : Str) : trimSuffix suffix (s ++ suffix) = s := by
  unfold trimSuffix
  rw [if_pos (by simp [List.isSuffixOf_iff_suffix])]
  simp

theorem flatMap_join (sep t : Str) (ts : List Str) : (t :: ts).flatMap (· ++ sep) = join sep (t :: ts) ++ sep := by
  induction ts generalizing t with
  | nil => simp [join]
  | cons u ts ih =>
    rw [join_cons _ _ _ (by simp), List.flatMap_cons, ih u]
    simp

theorem trimSpace_id {s : Str} (hh : ∀ c, s.head? = some c → isSpace c = false) (ht : ∀ c, s.getLast? = some c → isSpace c = false) :
    trimSpace s = s := by
  have := trimSpace_core [] s [] (by intro c hc; simp at hc) (by intro c hc; simp at hc)
    (fun c r h => hh c (by rw [h]; rfl)) (fun r c h => ht c (by rw [h]; simp))
  simpa using this

theorem trimSpace_last {s : Str} (h : trimSpace s = s) (c : Char) (hc : s.getLast? = some c) : isSpace c = false := by
  cases hs : isSpace c with
  | false => rfl
  | true =>
    exfalso
    obtain ⟨r, rfl⟩ : ∃ r, s = r ++ [c] := by
      rcases List.eq_nil_or_concat s with rfl | ⟨r, d, rfl⟩
      · simp at hc
      · simp at hc
        exact ⟨r, by simp [hc]⟩
    have h2 : trimSpace (r ++ [c]) = trimSpace r := trimSpace_blank_right r [c] (by intro d hd; simp at hd; rw [hd]; exact hs)
    rw [h2] at h
    have : (trimSpace r).length ≤ r.length := by
      unfold trimSpace trimRight trimLeft
      rw [List.length_reverse]
      refine Nat.le_trans (List.dropWhile_sublist _).length_le ?_
      rw [List.length_reverse]
      exact (List.dropWhile_sublist _).length_le
    rw [h, List.length_append] at this
    simp only [List.length_cons, List.length_nil] at this
    omega

/-! ### No semicolons and no comments -/

/-- The text adds no comment line to what is before it. -/
def Lined (s : Str) : Prop := ∀ a, NoComment a → NoComment (a ++ s)

theorem lined_append {a b : Str} (ha : Lined a) (hb : Lined b) : Lined (a ++ b) := by
  intro c hc
  rw [← List.append_assoc]
  exact hb _ (ha c hc)

theorem lined_nil : Lined [] := fun a h => by simpa using h

theorem lined_quiet {s : Str} (h : '\n' ∉ s) (hd : s.head? ≠ some '-') : Lined s := by
  intro a ha
  refine noComment_append_sep a s ha ?_ ?_
  · intro l hl
    rw [lines, splitOn_no_sep '\n' s h] at hl
    simp at hl
  · rintro c r rfl
    simpa using hd

theorem lined_break {s : Str} (h : '\n' ∉ s) (hd : s.head? ≠ some '-') : Lined ('\n' :: s) := by
  intro a ha
  refine noComment_next ha (noComment_line h ?_)
  rintro r rfl
  simp at hd

theorem noComment_nil : NoComment [] := by
  refine noComment_line (by simp) (by simp)

theorem word_letters {n : Str} (h : IsWord n) : ∀ c ∈ n, isLetter c = true ∨ isDigit c = true := by
  obtain ⟨⟨c, s, rfl, hc, hs⟩, -⟩ := h
  intro d hd
  rcases List.mem_cons.mp hd with rfl | hd
  · exact .inl hc
  · exact hs d hd

theorem word_facts {c : Char} (h : isLetter c = true ∨ isDigit c = true) : c ≠ ';' ∧ c ≠ '\n' ∧ c ≠ '.' ∧ c ≠ '-' ∧ isSpace c = false := by
  have hn : 48 ≤ c.toNat ∧ c.toNat ≤ 122 := by
    rcases h with h | h
    · simp only [isLetter, Bool.or_eq_true, Bool.and_eq_true, decide_eq_true_eq] at h
      rcases h with ((⟨h1, h2⟩ | ⟨h1, h2⟩) | h) | h
      · exact ⟨Nat.le_trans (by decide) h1, Nat.le_trans h2 (by decide)⟩
      · exact ⟨Nat.le_trans (by decide) h1, Nat.le_trans h2 (by decide)⟩
      · subst h; decide
      · subst h; decide
    · simp only [isDigit, Bool.and_eq_true, decide_eq_true_eq] at h
      exact ⟨Nat.le_trans (by decide) h.1, Nat.le_trans h.2 (by decide)⟩
  refine ⟨?_, ?_, ?_, ?_, ?_⟩
  · rintro rfl
    revert h
    decide
  · rintro rfl
    revert h
    decide
  · rintro rfl
    revert h
    decide
  · rintro rfl
    revert h
    decide
  · unfold isSpace
    simp only [List.mem_cons, List.not_mem_nil, or_false, decide_eq_false_iff_not]
    omega

theorem bare_quiet {n : Str} (h : BareName n) : Quiet n := by
  constructor
  · intro hm
    exact (word_facts (word_letters h.1 _ hm)).1 rfl
  · intro hm
    exact (word_facts (word_letters h.1 _ hm)).2.1 rfl

theorem bare_nodot {n : Str} (h : BareName n) : '.' ∉ n := fun hm => (word_facts (word_letters h.1 _ hm)).2.2.1 rfl

theorem bare_last {n : Str} (h : BareName n) (c : Char) (hc : n.getLast? = some c) : isSpace c = false :=
  (word_facts (word_letters h.1 c (List.mem_of_getLast? hc))).2.2.2.2

theorem bare_ne {n : Str} (h : BareName n) : n ≠ [] := by
  obtain ⟨⟨c, s, rfl, -⟩, -⟩ := h.1
  simp

/-! ### Columns -/

/-- The type that is shown for a type of the catalog. -/
def shownType (dataType : Str) (serial : Bool) : Str :=
  Pg.Column.getDataType { name := [], dataType := dataType, length := 0, nullable := true, default := [], isAutoIncrement := serial,
                          isUnique := false, check := [], identityGeneration := [] }

theorem getDataType_eq (k : Pg.Column) : k.getDataType = shownType k.dataType k.isAutoIncrement := rfl

/-- The words of a type stand for its tokens. -/
def wordsStand (text : Str) (ts : List Token) : Bool :=
  let ws := (splitOn ' ' text).map String.ofList
  ws.all (fun w => plainWord (lit w)) && decide (spaced ws = ' ' :: text) && decide (kws ws = ts) && decide (';' ∉ text) &&
    decide ('\n' ∉ text)

theorem follow_words {text : Str} {ts : List Token} (h : wordsStand text ts = true) :
    Follow .postgres (' ' :: text) ts ∧ Quiet text := by
  simp only [wordsStand, Bool.and_eq_true, decide_eq_true_eq, List.all_eq_true] at h
  obtain ⟨⟨⟨⟨h1, h2⟩, h3⟩, h4⟩, h5⟩ := h
  refine ⟨?_, h4, h5⟩
  rw [← h2, ← h3]
  exact follow_spaced h1

theorem simple_words : ∀ p ∈ simpleTypes, wordsStand (shownType (lit p.1) false) p.2.tokens = true := by decide +kernel

theorem serial_words : ∀ p ∈ serialTypes, wordsStand (shownType (lit p.1) true) p.2.tokens = true := by decide +kernel

theorem element_words : ∀ p ∈ elementTypes, wordsStand (lit p.1) p.2.tokens = true ∧
    shownType (lit p.1 ++ lit "[]") false = lit p.1 ++ lit "[]" := by decide +kernel

theorem sized_words {name : String} {ty : Str → Ty} (h : (name, ty) ∈ Dumped.sizedTypes) (n : Str) :
    ∃ ts, wordsStand (shownType (lit name) false) ts = true ∧ (ty n).tokens = ts ++ parens [int n] := by
  simp only [Dumped.sizedTypes, List.mem_cons, List.not_mem_nil, or_false, Prod.mk.injEq] at h
  rcases h with ⟨rfl, rfl⟩ | ⟨rfl, rfl⟩ | ⟨rfl, rfl⟩
  · exact ⟨[kw "character", kw "varying"], by decide +kernel, by simp [Ty.tokens, lengthTokens, optionally, Charset.tokens, Collation.tokens]⟩
  · exact ⟨[kw "character"], by decide +kernel, by simp [Ty.tokens, lengthTokens, optionally, Charset.tokens, Collation.tokens]⟩
  · exact ⟨[kw "bit"], by decide +kernel, by simp [Ty.tokens, lengthTokens, optionally, signTokens, given]⟩

theorem atoi_showInt {n : Int} (h0 : 0 < n) (h : n < 2 ^ 63) : atoi (showInt n) = (n, none) := by
  cases n with
  | negSucc n => omega
  | ofNat n =>
    obtain ⟨hd, hv⟩ := toDigits_spec n
    simp only [showInt]
    rw [atoi_digits _ hd, hv, if_pos (by simp only [Int.ofNat_eq_natCast] at h; omega)]
    rfl

theorem lay_int {mode : Mode} {n : Int} (h0 : 0 < n) {rest : Str} {ts : List Token} (hr : EndsNumber rest) (h : Layout mode rest ts) :
    Layout mode (showInt n ++ rest) (Written.int (showInt n) :: ts) := by
  cases n with
  | negSucc n => omega
  | ofNat n =>
    obtain ⟨h1, h2⟩ := toDigits_digits n
    exact lay_spells (.digits h1 h2 hr) h

theorem showInt_quiet {n : Int} (h0 : 0 < n) : Quiet (showInt n) := by
  cases n with
  | negSucc n => omega
  | ofNat n =>
    obtain ⟨h1, h2⟩ := toDigits_digits n
    constructor
    · intro hm
      exact (word_facts (.inr (h2 _ hm))).1 rfl
    · intro hm
      exact (word_facts (.inr (h2 _ hm))).2.1 rfl

/-- `(n)` -/
theorem follow_length {mode : Mode} {n : Int} (h0 : 0 < n) :
    Follow mode (lit "(" ++ showInt n ++ lit ")") (parens [Written.int (showInt n)]) := by
  have e : lit "(" ++ showInt n ++ lit ")" = '(' :: (showInt n ++ [')']) := by simp [lit]
  rw [e]
  refine follow_layout (by simp) (lay_mark (by simp) (lay_int h0 ?_ (lay_mark (by simp) lay_end)))
  intro c hc
  simp only [List.head?_cons, Option.some.injEq] at hc
  subst hc
  decide

theorem nextvalDefault_iff {d : Option Str} : Pg.nextvalDefault d = true ↔ IsSerial d := by
  cases d with
  | none => simp [IsSerial, Pg.nextvalDefault]
  | some d =>
    simp only [Pg.nextvalDefault, hasPrefix, IsSerial, Option.some.injEq, List.isPrefixOf_iff_prefix]
    exact ⟨fun ⟨r, h⟩ => ⟨r, h.symm⟩, fun ⟨r, h⟩ => ⟨r, h.symm⟩⟩

/-- The text of the type of a column with its length. -/
theorem type_text {r : Pg.Row} {ty : Ty} {a : ArrayMark} (h : TypeSays r ty a) : ∃ k, Pg.columnOf r = .ok k ∧
    Follow .postgres (' ' :: (k.getDataType ++ (if k.length > 0 then lit "(" ++ showInt k.length ++ lit ")" else [])))
      (ty.tokens ++ a.tokens) ∧
    Quiet (k.getDataType ++ (if k.length > 0 then lit "(" ++ showInt k.length ++ lit ")" else [])) := by
  have auto : ∀ b : Bool, (IsSerial r.default ↔ b = true) →
      Pg.nextvalDefault r.default = b := by
    intro b hb
    rw [Bool.eq_iff_iff, nextvalDefault_iff, hb]
  cases h with
  | @simple name _ hm hd hs hl =>
    obtain ⟨h1, h2⟩ := follow_words (simple_words _ hm)
    refine ⟨_, by simp only [Pg.columnOf, hl]; rfl, ?_⟩
    simp only [getDataType_eq, hd, auto false (by simp [hs])]
    simp only [ArrayMark.tokens, List.append_nil, gt_iff_lt, Int.lt_irrefl, if_false]
    exact ⟨h1, h2⟩
  | @serial name _ hm hd hs hl =>
    obtain ⟨h1, h2⟩ := follow_words (serial_words _ hm)
    refine ⟨_, by simp only [Pg.columnOf, hl]; rfl, ?_⟩
    simp only [getDataType_eq, hd, auto true (by simp [hs])]
    simp only [ArrayMark.tokens, List.append_nil, gt_iff_lt, Int.lt_irrefl, if_false]
    exact ⟨h1, h2⟩
  | @sized name ty n hm hd hs hl h0 hn =>
    obtain ⟨ts, hw, ht⟩ := sized_words hm (showInt n)
    obtain ⟨h1, h2⟩ := follow_words hw
    refine ⟨_, by simp only [Pg.columnOf, hl, atoi_showInt h0 hn]; rfl, ?_⟩
    simp only [getDataType_eq, hd, auto false (by simp [hs])]
    simp only [gt_iff_lt, if_pos h0, ArrayMark.tokens, List.append_nil, ht]
    refine ⟨follow_append h1 (follow_length h0), quiet_append h2 (quiet_append (quiet_append ?_ (showInt_quiet h0)) ?_)⟩
    · constructor <;> decide
    · constructor <;> decide
  | @array name _ hm hd hs hl =>
    obtain ⟨hw, he⟩ := element_words _ hm
    obtain ⟨h1, h2⟩ := follow_words hw
    refine ⟨_, by simp only [Pg.columnOf, hl]; rfl, ?_⟩
    simp only [getDataType_eq, hd, auto false (by simp [hs]), he]
    simp only [gt_iff_lt, Int.lt_irrefl, if_false, List.append_nil, ArrayMark.tokens]
    refine ⟨follow_append h1 ?_, quiet_append h2 (b := lit "[]") (by constructor <;> decide)⟩
    intro rest us hr h
    have hm' : Mode.postgres ≠ .mssql := by decide
    refine ⟨fun c hc => ?_, ?_⟩
    · change some '[' = some c at hc
      exact .inr ⟨(Option.some.inj hc).symm, hm'⟩
    · exact lay_spells (a := ['[']) (.bracket hm' (by simp)) (lay_spells (a := [']']) (.bracket hm' (by simp)) h)

end Sqldef
