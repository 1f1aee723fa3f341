import Verif.Proofs.ParserLemmas
/-!
Properties C11-C17: reading a schema text (`/repo/schema/parser.go`). All theorems hold for every
behaviour of the SQL grammar.
-/
namespace Sqldef
open Spec

/-! ### C12 -/

/-- **C12.** Reading a text succeeds exactly if every statement of it (the non-blank pieces between
semicolons, comments removed) is accepted, and then gives one definition per statement, in order. -/
theorem C12_one_definition_per_statement (env : Env) (mode : Mode) (text : Str) (ddls : List DDL) :
    parseDDLs env mode text = .ok ddls ↔
      List.Forall₂ (fun t d => parseDDL env mode t = .ok d) (statementTexts text) ddls := by
  rw [parseDDLs_eq, mapM_ok_iff]

/-- **C12.** The definitions carry the texts of the statements: none is lost, none is invented, and the
order is kept. -/
theorem C12_texts_are_kept (env : Env) (mode : Mode) (text : Str) (ddls : List DDL)
    (h : parseDDLs env mode text = .ok ddls) : ddls.map DDL.statement = statementTexts text := by
  rw [C12_one_definition_per_statement] at h
  generalize statementTexts text = texts at h
  induction h with
  | nil => rfl
  | cons h _ ih =>
    simp only [List.map_cons, ih, List.cons.injEq, and_true]
    unfold parseDDL at h
    split at h
    · cases h
    · exact convertStatement_statement env mode _ _ _ h

/-- **C12.** If one statement is not accepted, the whole text is rejected, with the error of the first such
statement. -/
theorem C12_bad_statement_rejects_all (env : Env) (mode : Mode) (text : Str) (pre post : List Str) (t : Str) (e : Err)
    (hs : statementTexts text = pre ++ t :: post)
    (hpre : ∀ x ∈ pre, ∃ d, parseDDL env mode x = .ok d) (ht : parseDDL env mode t = .error e) :
    parseDDLs env mode text = .error e := by
  rw [parseDDLs_eq, mapM_error_iff]
  exact ⟨pre, t, post, hs, hpre, ht⟩

/-! ### C11 -/

theorem lines_append (a b : Str) :
    ∃ init last first rest, lines a = init ++ [last] ∧ lines b = first :: rest ∧
      lines (a ++ b) = init ++ (last ++ first) :: rest := splitOn_append '\n' a b

theorem noComment_head {a : Str} {l : Str} {ls : List Str} (h : NoComment a) (hl : lines a = l :: ls) :
    ¬ CommentLine l := h l (by simp [hl])

/-- A text without comment lines, followed by something that starts with neither a dash nor a line break
and has no comment line apart from its first line, has no comment line. -/
theorem noComment_append_sep (a b : Str) (ha : NoComment a)
    (hb : ∀ l ∈ (lines b).tail, ¬ CommentLine l) (hd : ∀ c r, b = c :: r → c ≠ '-') : NoComment (a ++ b) := by
  obtain ⟨init, last, first, rest, h1, h2, h3⟩ := lines_append a b
  intro l hl
  rw [h3] at hl
  rcases List.mem_append.1 hl with hl | hl
  · exact ha l (by simp [h1, hl])
  · rcases List.mem_cons.1 hl with rfl | hl
    · have hlast := ha last (by simp [h1])
      rintro ⟨r, e⟩
      cases last with
      | nil =>
        simp at e
        have : ∃ r', b = '-' :: r' := by
          have := join_splitOn '\n' b
          rw [show splitOn '\n' b = first :: rest from h2, e] at this
          cases rest with
          | nil => exact ⟨_, this.symm⟩
          | cons x xs => simp [join] at this; exact ⟨_, this.symm⟩
        obtain ⟨r', hr'⟩ := this
        exact hd _ _ hr' rfl
      | cons x last =>
        cases last with
        | nil =>
          simp at e
          obtain ⟨_, e⟩ := e
          have : ∃ r', b = '-' :: r' := by
            have := join_splitOn '\n' b
            rw [show splitOn '\n' b = first :: rest from h2, e] at this
            cases rest with
            | nil => exact ⟨_, this.symm⟩
            | cons x xs => simp [join] at this; exact ⟨_, this.symm⟩
          obtain ⟨r', hr'⟩ := this
          exact hd _ _ hr' rfl
        | cons y last =>
          simp at e
          exact hlast ⟨last, by simp [e.1, e.2.1]⟩
    · exact hb l (by simp [h2, hl])

theorem lines_tail_sep (w t : Str) (hw : Blank w) (ht : NoComment t) :
    ∀ l ∈ (lines (';' :: w ++ t)).tail, ¬ CommentLine l := by
  have key : ∀ w : Str, Blank w → ∀ l ∈ lines (w ++ t), ¬ CommentLine l := by
    intro w hw
    induction w with
    | nil => exact ht
    | cons c w ih =>
      have hw' : Blank w := fun d hd => hw d (by simp [hd])
      have hc : isSpace c = true := hw c (by simp)
      by_cases hn : c = '\n'
      · subst hn
        intro l hl
        simp only [lines, List.cons_append, splitOn, if_true, List.mem_cons] at hl
        rcases hl with rfl | hl
        · rintro ⟨r, h⟩; cases h
        · exact ih hw' l hl
      · obtain ⟨p, ps, h1, h2⟩ := splitOn_cons_ne '\n' c (w ++ t) hn
        intro l hl
        simp only [lines, List.cons_append] at hl
        rw [h2] at hl
        rcases List.mem_cons.1 hl with rfl | hl
        · rintro ⟨r, h⟩
          simp at h
          rw [h.1] at hc
          exact absurd hc (by decide)
        · exact ih hw' l (by rw [lines, h1]; simp [hl])
  intro l hl
  obtain ⟨p, ps, h1, h2⟩ := splitOn_cons_ne '\n' ';' (w ++ t) (by decide)
  rw [lines, show (';' :: w ++ t) = ';' :: (w ++ t) from rfl, h2] at hl
  exact key w hw l (by rw [lines, h1]; simp at hl; simp [hl])

theorem noComment_join (w : Str) (hw : Blank w) (ps : List Str) (h : ∀ p ∈ ps, NoComment p) :
    NoComment (join (';' :: w) ps) := by
  induction ps with
  | nil =>
    intro l hl
    simp [join, lines, splitOn] at hl
    subst hl
    rintro ⟨r, h⟩; cases h
  | cons p ps ih =>
    cases ps with
    | nil => simpa [join] using h p (by simp)
    | cons q qs =>
      rw [join_cons _ _ _ (by simp), List.append_assoc]
      apply noComment_append_sep
      · exact h p (by simp)
      · exact lines_tail_sep w _ hw (ih fun x hx => h x (by simp [hx]))
      · intro c r hcr; simp at hcr; rw [← hcr.1]; decide

theorem splitOn_join (w : Str) (hw : ';' ∉ w) (p : Str) (ps : List Str) (h : ∀ q ∈ p :: ps, ';' ∉ q) :
    splitOn ';' (join (';' :: w) (p :: ps)) = p :: ps.map (w ++ ·) := by
  induction ps generalizing p with
  | nil => simpa [join] using splitOn_no_sep ';' p (h p (by simp))
  | cons q qs ih =>
    rw [join_cons _ _ _ (by simp)]
    have := splitOn_append_sep ';' p (w ++ join (';' :: w) (q :: qs)) (h p (by simp))
    simp only [List.append_assoc, List.cons_append] at this ⊢
    rw [this]
    have hq := ih q fun x hx => h x (by simp at hx ⊢; simp [hx])
    have key : ∀ w : Str, ';' ∉ w → ∀ s : Str, ∀ x xs, splitOn ';' s = x :: xs → splitOn ';' (w ++ s) = (w ++ x) :: xs := by
      intro w hw s x xs hs
      induction w with
      | nil => simpa using hs
      | cons c w ih =>
        simp at hw
        have := ih hw.2
        have hc : c ≠ ';' := fun e => hw.1 e.symm
        simp [splitOn, this, hc]
    rw [key w hw _ _ _ hq]
    simp

/-- **C11.** A text formed by joining statements with a semicolon and white space (as a dump is, with a
blank line, see C10) is read as these statements, trimmed, in order, without blank ones, provided no
statement contains a semicolon or a comment line. -/
theorem C11_joined_statements_are_split (env : Env) (mode : Mode) (w : Str) (hw : Blank w) (texts : List Str)
    (hsemi : ∀ t ∈ texts, ';' ∉ t) (hcom : ∀ t ∈ texts, NoComment t) :
    statementTexts (join (';' :: w) texts) = (texts.map trimSpace).filter (· ≠ []) ∧
    parseDDLs env mode (join (';' :: w) texts) =
      ((texts.map trimSpace).filter (· ≠ [])).mapM (parseDDL env mode) := by
  have key : statementTexts (join (';' :: w) texts) = (texts.map trimSpace).filter (· ≠ []) := by
    unfold statementTexts
    rw [withoutComments_id _ (noComment_join w hw texts hcom)]
    cases texts with
    | nil => simp [join, splitOn, trimSpace, trimLeft, trimRight]
    | cons p ps =>
      have hws : ';' ∉ w := fun hm => absurd (hw ';' hm) (by decide)
      rw [splitOn_join w hws p ps hsemi]
      simp only [List.map_cons, List.map_map]
      congr 2
      apply List.map_congr_left
      intro x _
      exact trimSpace_blank_left w x hw
  exact ⟨key, by rw [parseDDLs_eq, key]⟩

/-- **C11.** What trimming does: white space before and after a text is removed, nothing else. -/
theorem C11_trim (w1 s w2 : Str) (h1 : Blank w1) (h2 : Blank w2)
    (hh : ∀ c r, s = c :: r → isSpace c = false) (ht : ∀ r c, s = r ++ [c] → isSpace c = false) :
    trimSpace (w1 ++ s ++ w2) = s := trimSpace_core w1 s w2 h1 h2 hh ht

/-! ### C13 -/

/-- Two lines that differ at most in the text of a comment, an empty line counting as a comment. -/
def Spec.SameLine (a b : Str) : Prop := a = b ∨ ((CommentLine a ∨ a = []) ∧ (CommentLine b ∨ b = []))

theorem splitOn_join_lines (ls : List Str) (hne : ls ≠ []) (h : ∀ l ∈ ls, '\n' ∉ l) : lines (ofLines ls) = ls := by
  induction ls with
  | nil => exact absurd rfl hne
  | cons l ls ih =>
    cases ls with
    | nil => simpa [ofLines, join, lines] using splitOn_no_sep '\n' l (h l (by simp))
    | cons m ms =>
      have := ih (by simp) fun x hx => h x (by simp [hx])
      unfold ofLines lines at this ⊢
      rw [join_cons _ _ _ (by simp)]
      have h2 := splitOn_append_sep '\n' l (join (lit "\n") (m :: ms)) (h l (by simp))
      simp only [show lit "\n" = ['\n'] from rfl, List.append_assoc, List.cons_append, List.nil_append] at h2 this ⊢
      rw [h2, this]

/-- **C13.** Changing the text of comment lines, emptying them, or commenting empty lines, anywhere in the
text, does not change what is read. -/
theorem C13_comment_text_irrelevant (env : Env) (mode : Mode) (ls ls' : List Str)
    (h : List.Forall₂ SameLine ls ls') (hn : ∀ l ∈ ls, '\n' ∉ l) (hn' : ∀ l ∈ ls', '\n' ∉ l) :
    parseDDLs env mode (ofLines ls) = parseDDLs env mode (ofLines ls') := by
  cases h with
  | nil => rfl
  | cons h1 h2 =>
    have key : ∀ l l' : List Str, List.Forall₂ SameLine l l' →
        l.map (fun l => if CommentLine l then [] else l) = l'.map (fun l => if CommentLine l then [] else l) := by
      intro l l' h
      induction h with
      | nil => rfl
      | cons h _ ih =>
        simp only [List.map_cons, ih, List.cons.injEq, and_true]
        rcases h with rfl | ⟨h1, h2⟩
        · rfl
        · rcases h1 with h1 | h1 <;> rcases h2 with h2 | h2 <;> simp [h1, h2]
    have := key _ _ (.cons h1 h2)
    rw [parseDDLs_eq, parseDDLs_eq]
    unfold statementTexts withoutComments
    rw [splitOn_join_lines _ (by simp) hn, splitOn_join_lines _ (by simp) hn', this]

private theorem withoutComments_comment (a b c : Str) (hc : CommentLine c) (hcn : '\n' ∉ c) :
    withoutComments (a ++ '\n' :: c ++ '\n' :: b) = withoutComments a ++ '\n' :: '\n' :: withoutComments b ∧
    withoutComments (a ++ '\n' :: b) = withoutComments a ++ '\n' :: withoutComments b := by
  have mid : ∀ a b : Str, lines (a ++ '\n' :: b) = lines a ++ lines b := by
    intro a b
    obtain ⟨init, last, first, rest, h1, h2, h3⟩ := lines_append a ('\n' :: b)
    simp [lines, splitOn] at h2
    obtain ⟨rfl, h2⟩ := h2
    rw [h3, h1, ← h2]
    simp [lines]
  have joinapp : ∀ x y : List Str, x ≠ [] → y ≠ [] → ofLines (x ++ y) = ofLines x ++ '\n' :: ofLines y := by
    intro x y hx hy
    induction x with
    | nil => exact absurd rfl hx
    | cons l ls ih =>
      cases ls with
      | nil => simp [ofLines, join_cons _ l y hy, join, lit]
      | cons m ms =>
        have := ih (by simp)
        unfold ofLines at this ⊢
        rw [List.cons_append, join_cons _ l (m :: ms ++ y) (by simp), this, join_cons _ l (m :: ms) (by simp)]
        simp
  have hne : ∀ s : Str, (lines s).map (fun l => if CommentLine l then [] else l) ≠ [] := by
    intro s; simp [lines, splitOn_ne_nil]
  have two : ∀ a b : Str, withoutComments (a ++ '\n' :: b) = withoutComments a ++ '\n' :: withoutComments b := by
    intro a b
    unfold withoutComments
    rw [mid, List.map_append, joinapp _ _ (hne a) (hne b)]
  have hcc : withoutComments c = [] := by
    unfold withoutComments lines
    rw [splitOn_no_sep _ _ hcn]
    simp [hc, ofLines, join]
  refine ⟨?_, two a b⟩
  rw [List.append_assoc, List.cons_append, two, two, hcc]
  simp

/-- **C13.** A comment line can be inserted wherever no statement is unfinished: if everything after the
last semicolon of `before` (comments removed) is blank, inserting a comment line between `before` and
`after` does not change what is read. -/
theorem C13_comment_can_be_inserted (env : Env) (mode : Mode) (before c after : Str)
    (hc : CommentLine c) (hcn : '\n' ∉ c)
    (hb : ∀ last, (splitOn ';' (withoutComments before)).getLast? = some last → Blank last) :
    parseDDLs env mode (before ++ '\n' :: c ++ '\n' :: after) = parseDDLs env mode (before ++ '\n' :: after) := by
  obtain ⟨h1, h2⟩ := withoutComments_comment before after c hc hcn
  rw [parseDDLs_eq, parseDDLs_eq]
  unfold statementTexts
  rw [h1, h2]
  obtain ⟨init, last, first, rest, e1, e2, e3⟩ := splitOn_append ';' (withoutComments before) ('\n' :: '\n' :: withoutComments after)
  obtain ⟨init', last', first', rest', e1', e2', e3'⟩ := splitOn_append ';' (withoutComments before) ('\n' :: withoutComments after)
  rw [e3, e3']
  have : init = init' ∧ last = last' := by
    rw [e1] at e1'
    have := List.append_inj' e1' rfl
    exact ⟨this.1, by simpa using this.2⟩
  obtain ⟨rfl, rfl⟩ := this
  cases ha : splitOn ';' (withoutComments after) with
  | nil => exact absurd ha (splitOn_ne_nil _ _)
  | cons f r =>
    simp [splitOn, ha] at e2 e2'
    obtain ⟨rfl, rfl⟩ := e2
    obtain ⟨rfl, rfl⟩ := e2'
    have hl : Blank last := hb last (by simp [e1])
    have hnl : Blank ['\n'] := by intro c hc; simp at hc; subst hc; decide
    have t1 : trimSpace (last ++ '\n' :: '\n' :: f) = trimSpace f := by
      rw [trimSpace_blank_left _ _ hl, show '\n' :: '\n' :: f = ['\n'] ++ (['\n'] ++ f) from rfl,
        trimSpace_blank_left _ _ hnl, trimSpace_blank_left _ _ hnl]
    have t2 : trimSpace (last ++ '\n' :: f) = trimSpace f := by
      rw [trimSpace_blank_left _ _ hl, show '\n' :: f = ['\n'] ++ f from rfl, trimSpace_blank_left _ _ hnl]
    simp [t1, t2]

/-- **C13.** A comment line before everything. -/
theorem C13_leading_comment (env : Env) (mode : Mode) (c after : Str) (hc : CommentLine c) (hcn : '\n' ∉ c) :
    parseDDLs env mode (c ++ '\n' :: after) = parseDDLs env mode after := by
  have h := (withoutComments_comment c after c hc hcn).2
  have hcc : withoutComments c = [] := by
    unfold withoutComments lines
    rw [splitOn_no_sep _ _ hcn]
    simp [hc, ofLines, join]
  rw [parseDDLs_eq, parseDDLs_eq]
  unfold statementTexts
  rw [h, hcc]
  cases ha : splitOn ';' (withoutComments after) with
  | nil => exact absurd ha (splitOn_ne_nil _ _)
  | cons f r =>
    have hnl : Blank ['\n'] := by intro c hc; simp at hc; subst hc; decide
    have t2 : trimSpace ('\n' :: f) = trimSpace f := by
      rw [show '\n' :: f = ['\n'] ++ f from rfl, trimSpace_blank_left _ _ hnl]
    simp [splitOn, ha, t2]

/-! ### C14 -/

/-- The text of a statement with a semicolon in a string literal. -/
def Spec.semicolonStatement : Str := lit "CREATE TABLE t (a varchar(10) DEFAULT 'x;y')"

/-- A grammar that accepts this statement and nothing else. -/
def Spec.semicolonEnv : Env where
  parse _ s := if s = semicolonStatement then
      .ok (.ddl { action := lit "create", tableSpec := some { columns := [] } })
    else .error (.parse (lit "syntax error"))
  fmtFloat s := s

/-- **C14 is violated**: a statement that the grammar accepts is rejected because of a semicolon in a string
literal (`/repo/schema/parser.go:428`: the text is split at every semicolon before parsing). -/
theorem C14_semicolon_in_literal_splits :
    (∃ d, parseDDL Spec.semicolonEnv .mysql Spec.semicolonStatement = .ok d) ∧
    ∃ e, parseDDLs Spec.semicolonEnv .mysql Spec.semicolonStatement = .error e :=
  ⟨⟨_, rfl⟩, ⟨.parse (lit "syntax error"), by rfl⟩⟩

/-- **C14, exactly.** A text is given to the grammar whole if and only if it has no semicolon: no statement
that reaches the grammar contains one, whatever the text. -/
theorem C14_no_statement_has_semicolon (text t : Str) (h : t ∈ statementTexts text) : ';' ∉ t := by
  unfold statementTexts at h
  simp only [List.mem_filter, List.mem_map] at h
  obtain ⟨⟨p, hp, rfl⟩, _⟩ := h
  intro hm
  have h1 : ';' ∈ p := by
    unfold trimSpace trimRight trimLeft at hm
    simp only [List.mem_reverse] at hm
    have := (List.dropWhile_sublist isSpace).subset hm
    simp only [List.mem_reverse] at this
    exact (List.dropWhile_sublist isSpace).subset this
  exact not_mem_splitOn ';' _ p hp h1

/-- **C14, partial.** A statement without semicolon and comment line is passed to the grammar unchanged
(apart from surrounding white space). Missing: statements with a semicolon in a literal or in a trigger
body, where the property is false. -/
theorem C14_statement_passed_whole_partial (env : Env) (mode : Mode) (text : Str)
    (hs : ';' ∉ text) (hc : NoComment text) (hb : ¬ Blank text) :
    parseDDLs env mode text = (parseDDL env mode (trimSpace text)).map fun d => [d] := by
  have := (C11_joined_statements_are_split env mode [] (by intro c hc; simp at hc) [text] (by simpa using hs) (by simpa using hc)).2
  rw [show join [';'] [text] = text from rfl] at this
  rw [this]
  have hne : trimSpace text ≠ [] := fun h => hb ((trimSpace_eq_nil text).1 h)
  simp only [List.map_cons, List.map_nil, List.filter_cons, hne, ne_eq, not_false_eq_true, decide_true,
    if_true, List.filter_nil, List.mapM_cons, List.mapM_nil]
  cases parseDDL env mode (trimSpace text) <;> rfl

/-! ### C15 -/

/-- **C15.** For Postgres an unqualified name means the table in schema `public`. -/
theorem C15_unqualified_is_public (name : Str) :
    normalizedTableName .postgres { name := name } =
      normalizedTableName .postgres { name := name, qualifier := lit "public" } := by
  simp [normalizedTableName, lit]

/-- **C15.** Different (schema, table) pairs get different names, if schema names contain no dot. -/
theorem C15_qualified_injective_partial (a b : SqlTableName)
    (ha : '.' ∉ a.qualifier) (hb : '.' ∉ b.qualifier) (hae : a.qualifier ≠ []) (hbe : b.qualifier ≠ [])
    (h : normalizedTableName .postgres a = normalizedTableName .postgres b) : a = b := by
  have key : splitDot (normalizedTableName .postgres a) = some (a.qualifier, a.name) :=
    (splitDot_eq_some _ _ _).2 ⟨by simp [normalizedTableName, hae, lit], ha⟩
  have key' : splitDot (normalizedTableName .postgres b) = some (b.qualifier, b.name) :=
    (splitDot_eq_some _ _ _).2 ⟨by simp [normalizedTableName, hbe, lit], hb⟩
  rw [h, key'] at key
  cases a; cases b; simp at key; simp [key]

/-- **C15 is violated for schema names with a dot**: the table `c` of schema `"a.b"` and the table `"b.c"`
of schema `a` get the same name. -/
theorem C15_dotted_names_collide :
    ∃ a b : SqlTableName, a ≠ b ∧ normalizedTableName .postgres a = normalizedTableName .postgres b :=
  ⟨{ qualifier := lit "a.b", name := lit "c" }, { qualifier := lit "a", name := lit "b.c" }, by decide, by decide⟩

/-- **C15.** In the other dialects the qualifier is ignored: tables of the same name in different schemas are
the same table for the tool. -/
theorem C15_other_dialects_drop_schema (mode : Mode) (h : mode ≠ .postgres) (a : SqlTableName) :
    normalizedTableName mode a = a.name := by
  simp [normalizedTableName, h]

/-! ### C16 -/

private theorem digitsVal_eq (acc : Nat) (s : Str) (h : ∀ c ∈ s, '0' ≤ c ∧ c ≤ '9') :
    digitsVal acc s = some (acc * 10 ^ s.length + decimal s) := by
  induction s generalizing acc with
  | nil => simp [digitsVal, decimal]
  | cons c s ih =>
    have hc := h c (by simp)
    simp only [digitsVal, hc, and_self, if_true, decimal]
    rw [ih _ fun d hd => h d (by simp [hd])]
    simp only [List.length_cons, Nat.pow_succ, digit, Option.some.injEq]
    rw [Nat.add_mul, Nat.add_assoc, Nat.mul_comm (10 ^ s.length) 10, Nat.mul_assoc]

private theorem digits_not_sign (s : Str) (h : ∀ c ∈ s, '0' ≤ c ∧ c ≤ '9') :
    (∀ r, s ≠ '-' :: r) ∧ ∀ r, s ≠ '+' :: r := by
  constructor <;> intro r e <;> subst e
  · have := h '-' (by simp); exact absurd this (by decide)
  · have := h '+' (by simp); exact absurd this (by decide)

theorem atoi_digits (s : Str) (h : Digits s) :
    atoi s = if decimal s ≤ 9223372036854775807 then ((decimal s : Int), none)
      else (9223372036854775807, some .range) := by
  have hv := digitsVal_eq 0 s h.2
  simp only [Nat.zero_mul, Nat.zero_add] at hv
  obtain ⟨h1, h2⟩ := digits_not_sign s h.2
  unfold atoi
  split
  · next t => exact absurd rfl (h1 t)
  · next t => exact absurd rfl (h2 t)
  · cases s with
    | nil => exact absurd rfl h.1
    | cons c s => simp only [hv, Bool.false_eq_true, if_false]

private theorem atoi_neg_digits (s : Str) (h : Digits s) :
    atoi ('-' :: s) = if decimal s ≤ 9223372036854775808 then (-(decimal s : Int), none)
      else (-9223372036854775808, some .range) := by
  have hv := digitsVal_eq 0 s h.2
  simp only [Nat.zero_mul, Nat.zero_add] at hv
  cases s with
  | nil => exact absurd rfl h.1
  | cons c s => simp only [atoi, hv, if_true]

/-- **C16.** A decimal literal in the 64-bit range is read as the number that it writes. -/
theorem C16_integer_read (env : Env) (s : Str) (h : Digits s) :
    (decimal s < 2 ^ 63 → (parseValue env ⟨.intVal, s⟩).intVal = decimal s) ∧
    (decimal s ≤ 2 ^ 63 → (parseValue env ⟨.intVal, '-' :: s⟩).intVal = -(decimal s : Int)) := by
  constructor
  · intro hr
    simp only [parseValue, atoi_digits s h]
    rw [if_pos (by omega)]
  · intro hr
    simp only [parseValue, atoi_neg_digits s h]
    rw [if_pos (by omega)]

/-- **C16.** The length of an index column is accepted and read as the number written, if it is in range;
anything that is not an integer literal is rejected. -/
theorem C16_length_read (s : Str) (h : Digits s) (hr : decimal s < 2 ^ 63) :
    parseLength (some ⟨.intVal, s⟩) = .ok (some (decimal s)) := by
  simp only [parseLength, atoi_digits s h]
  rw [if_pos (show decimal s ≤ 9223372036854775807 by omega)]
  simp

/-- **C16.** A length out of range is an error. -/
theorem C16_length_out_of_range (s : Str) (h : Digits s) (hr : 2 ^ 63 ≤ decimal s) :
    parseLength (some ⟨.intVal, s⟩) = .error .badLength := by
  simp only [parseLength, atoi_digits s h]
  rw [if_neg (show ¬ decimal s ≤ 9223372036854775807 by omega)]
  simp

private theorem decimal_append (a b : Str) : decimal (a ++ b) = decimal a * 10 ^ b.length + decimal b := by
  induction a with
  | nil => simp [decimal]
  | cons c a ih =>
    simp only [List.cons_append, decimal, ih, List.length_append, Nat.pow_add, Nat.add_mul, Nat.mul_assoc, Nat.add_assoc]

private theorem digitChar_spec (n : Nat) (h : n < 10) :
    '0' ≤ Nat.digitChar n ∧ Nat.digitChar n ≤ '9' ∧ digit (Nat.digitChar n) = n := by
  match n, h with
  | 0, _ => decide
  | 1, _ => decide
  | 2, _ => decide
  | 3, _ => decide
  | 4, _ => decide
  | 5, _ => decide
  | 6, _ => decide
  | 7, _ => decide
  | 8, _ => decide
  | 9, _ => decide

theorem toDigits_spec (n : Nat) : Digits (Nat.toDigits 10 n) ∧ decimal (Nat.toDigits 10 n) = n := by
  induction n using Nat.strongRecOn with
  | ind n ih =>
    by_cases hn : n < 10
    · rw [Nat.toDigits_of_lt_base hn]
      have := digitChar_spec n hn
      refine ⟨⟨by simp, by simpa using ⟨this.1, this.2.1⟩⟩, by simp [decimal, this.2.2]⟩
    · have hlt : n / 10 < n := Nat.div_lt_self (by omega) (by omega)
      have hmod : n % 10 < 10 := Nat.mod_lt _ (by omega)
      have hd := digitChar_spec (n % 10) hmod
      rw [Nat.toDigits_of_base_le (by omega) (by omega)]
      obtain ⟨⟨h1, h2⟩, h3⟩ := ih (n / 10) hlt
      refine ⟨⟨by simp, ?_⟩, ?_⟩
      · intro c hc
        rcases List.mem_append.1 hc with hc | hc
        · exact h2 c hc
        · simp at hc; subst hc; exact ⟨hd.1, hd.2.1⟩
      · rw [decimal_append, h3]
        simp only [decimal, hd.2.2, List.length_cons, List.length_nil]
        omega

/-- **C16.** Printing a number of the 64-bit range and reading it back gives the same number. -/
theorem C16_print_read (env : Env) (n : Int) (h1 : -2 ^ 63 ≤ n) (h2 : n < 2 ^ 63) :
    (parseValue env ⟨.intVal, showInt n⟩).intVal = n := by
  cases n with
  | ofNat n =>
    obtain ⟨hd, hv⟩ := toDigits_spec n
    have := (C16_integer_read env _ hd).1 (by rw [hv]; simp at h2; omega)
    simp only [showInt, this, hv]; rfl
  | negSucc n =>
    obtain ⟨hd, hv⟩ := toDigits_spec (n + 1)
    have := (C16_integer_read env _ hd).2 (by rw [hv]; omega)
    simp only [showInt, this, hv]; omega

/-- **C16.** An integer default is printed as the number that was read. -/
theorem C16_default_printed (env : Env) (s : Str) (h : Digits s) (hr : decimal s < 2 ^ 63) :
    ∃ text, generateDefaultDefinition (parseValue env ⟨.intVal, s⟩) = .ok (lit "DEFAULT " ++ text) ∧
      Digits text ∧ decimal text = decimal s := by
  have := (C16_integer_read env s h).1 hr
  obtain ⟨hd, hv⟩ := toDigits_spec (decimal s)
  refine ⟨Nat.toDigits 10 (decimal s), ?_, hd, hv⟩
  have hi : (parseValue env ⟨.intVal, s⟩).intVal = Int.ofNat (decimal s) := this
  simp only [generateDefaultDefinition, hi]
  rfl

/-- **C16.** Outside the 64-bit range an integer default is silently changed to the largest representable
number: `/repo/schema/parser.go:41` ignores the error of the conversion. -/
theorem C16_overflow_is_clamped (env : Env) (s : Str) (h : Digits s) (hr : 2 ^ 63 ≤ decimal s) :
    (parseValue env ⟨.intVal, s⟩).intVal = 2 ^ 63 - 1 := by
  simp only [parseValue, atoi_digits s h]
  rw [if_neg (by omega)]
  rfl

/-! ### C17 -/

/-- **C17, exactly.** If the first option starting with `charset=` is `charset=X`, the charset detected is
`X` without its leading characters among `c`, `h`, `a`, `r`, `s`, `e`, `t`, `=`. -/
theorem C17_detected_charset (opts : List Str) (pre post : List Str) (x : Str)
    (ho : opts = pre ++ (lit "charset=" ++ x) :: post)
    (hpre : ∀ o ∈ pre, ¬ lit "charset=" <+: o) (hsp : ∀ o ∈ opts, ' ' ∉ o) :
    detectCharset (join [' '] opts) = x.dropWhile fun c => "charset=".toList.contains c := by
  have hs : splitOn ' ' (join [' '] opts) = opts := by
    have hne : opts ≠ [] := by simp [ho]
    clear ho hpre
    induction opts with
    | nil => exact absurd rfl hne
    | cons o os ih =>
      cases os with
      | nil => simpa [join] using splitOn_no_sep ' ' o (hsp o (by simp))
      | cons p ps =>
        rw [join_cons _ _ _ (by simp)]
        have := splitOn_append_sep ' ' o (join [' '] (p :: ps)) (hsp o (by simp))
        simp only [List.append_assoc, List.cons_append, List.nil_append] at this ⊢
        rw [this, ih (fun q hq => hsp q (by simp [hq])) (by simp)]
  unfold detectCharset
  rw [hs, ho]
  have hf : (pre ++ (lit "charset=" ++ x) :: post).find? (hasPrefix (lit "charset=") ·) = some (lit "charset=" ++ x) := by
    rw [List.find?_append]
    have : pre.find? (hasPrefix (lit "charset=") ·) = none := by
      rw [List.find?_eq_none]
      intro o ho hp
      exact hpre o ho (by simpa [hasPrefix, List.isPrefixOf_iff_prefix] using hp)
    rw [this]
    simp [hasPrefix, List.isPrefixOf_iff_prefix]
  rw [hf]
  simp only [trimLeftCharset]
  rw [dropWhile_append_of_all]
  · rfl
  · decide

/-- **C17, partial.** The charset is detected correctly if it does not start with one of the letters of
`charset=`. Missing: charsets such as `ascii`, `cp932`, `hebrew`, `swe7`, `tis620`. -/
theorem C17_binary_collation_partial (opts pre post : List Str) (x : Str) (spec : SqlTableSpec)
    (hspec : spec.options = join [' '] opts)
    (ho : opts = pre ++ (lit "charset=" ++ x) :: post)
    (hpre : ∀ o ∈ pre, ¬ lit "charset=" <+: o) (hsp : ∀ o ∈ opts, ' ' ∉ o)
    (hx : ∀ c r, x = c :: r → c ∉ "charset=".toList) :
    normalizeCollate (lit "binary") spec = x ++ lit "_bin" := by
  simp only [normalizeCollate, if_true, hspec]
  rw [C17_detected_charset opts pre post x ho hpre hsp]
  cases x with
  | nil => rfl
  | cons c r =>
    have : "charset=".toList.contains c = false := by
      have := hx c r rfl
      simpa [List.contains_iff_mem] using this
    rw [List.dropWhile_cons, this]
    simp

/-- **C17 is violated**: with `charset=ascii` a column with the binary collation gets collation `ii_bin`
(`strings.TrimLeft` removes a set of characters, not a prefix: `/repo/schema/parser.go:473`). -/
theorem C17_charset_mangled :
    normalizeCollate (lit "binary") { columns := [], options := lit "engine=InnoDB charset=ascii" } = lit "ii_bin" := by
  decide +kernel

/-- **C17.** Any other collation is left alone. -/
theorem C17_other_collation (collate : Str) (spec : SqlTableSpec) (h : collate ≠ lit "binary") :
    normalizeCollate collate spec = collate := by
  simp [normalizeCollate, h]

/-! ### Non-vacuity -/

example : statementTexts (lit "-- first\nCREATE TABLE a (x int);\n\n  CREATE TABLE b (\n-- the key\n  y int\n) ;\n") =
    [lit "CREATE TABLE a (x int)", lit "CREATE TABLE b (\n\n  y int\n)"] := by decide +kernel
example : NoComment (lit "CREATE TABLE a (\n x int -- note\n)") := by
  intro l hl; revert l; decide +kernel
example : ∀ last, (splitOn ';' (withoutComments (lit "CREATE TABLE a (x int);\n"))).getLast? = some last → Blank last := by
  intro last h
  have : last = lit "\n" := by
    have h' : (splitOn ';' (withoutComments (lit "CREATE TABLE a (x int);\n"))).getLast? = some (lit "\n") := by decide +kernel
    rw [h'] at h; cases h; rfl
  subst this; intro c hc; revert c; decide
example : Digits (lit "1200") ∧ decimal (lit "1200") = 1200 := by
  refine ⟨⟨by decide, by decide⟩, by decide⟩
example : detectCharset (lit "engine=InnoDB charset=utf8mb4") = lit "utf8mb4" := by decide +kernel
example : ∃ (a b : SqlTableName), normalizedTableName .postgres a = lit "app.users" ∧ normalizedTableName .postgres b = lit "public.users" :=
  ⟨{ qualifier := lit "app", name := lit "users" }, { name := lit "users" }, by decide, by decide⟩

end Sqldef
