import Verif.Proofs.PgDump
/-
The CREATE TABLE of the dump of a Postgres table.
-/
namespace Sqldef
open Spec Written Dumped

/-! ### Options of a column -/

theorem layout_text_ne {mode : Mode} {text : Str} {ts : List Token} (h : Layout mode text ts) (hts : ts ≠ []) : text ≠ [] := by
  rintro rfl
  have h1 := tokenize_layout h
  have h2 := tokenize_layout (lay_end (mode := mode))
  rw [h1] at h2
  exact hts (by simpa using h2)

theorem value_tokens_ne (v : Written.Value) : v.tokens ≠ [] := by
  cases v with
  | now n => cases n <;> simp [Value.tokens, Now.tokens]
  | _ => simp [Value.tokens]

theorem around_ne {w : Wrap} {ts : List Token} (h : ts ≠ []) : w.around ts ≠ [] := by
  cases w <;> simp [Wrap.around, parens, h]

/-- A keyword in front of a part. -/
theorem follow_kw {mode : Mode} (w : String) (hw : plainWord (lit w) = true) {a : Str} {ts : List Token} (h : Follow mode a ts) :
    Follow mode (' ' :: (lit w ++ a)) (kw w :: ts) :=
  follow_append (follow_part (lay_word hw)) h

theorem quiet_lit (s : String) (h : decide (';' ∉ lit s ∧ '\n' ∉ lit s) = true) : Quiet (lit s) := by
  simpa [Quiet] using h

/-- The text for the default of a column. -/
theorem rowDefault_text {d : Option Str} {os : List ColOption} (h : DefaultSays d os) :
    Follow .postgres (if d.getD [] ≠ [] ∧ Pg.nextvalDefault d = false then lit " DEFAULT " ++ d.getD [] else [])
      (os.flatMap ColOption.tokens) ∧
    Quiet (if d.getD [] ≠ [] ∧ Pg.nextvalDefault d = false then lit " DEFAULT " ++ d.getD [] else []) := by
  cases h with
  | none => exact ⟨follow_nil _, by constructor <;> simp⟩
  | serial d =>
    have : Pg.nextvalDefault (some (lit "nextval(" ++ d)) = true := nextvalDefault_iff.2 ⟨d, rfl⟩
    simp only [this, Bool.true_eq_false, and_false, if_false]
    exact ⟨follow_nil _, by constructor <;> simp⟩
  | @value d w v hs hn =>
    have hf : Pg.nextvalDefault (some d) = false := by
      cases hb : Pg.nextvalDefault (some d) with
      | false => rfl
      | true => exact absurd (nextvalDefault_iff.1 hb) hn
    have hne : d ≠ [] := layout_text_ne hs.1 (around_ne (value_tokens_ne v))
    simp only [Option.getD_some, hf, hne, ne_eq, not_false_eq_true, and_self, if_true, List.flatMap_cons, List.flatMap_nil,
      List.append_nil, ColOption.tokens, optionally, List.nil_append]
    exact ⟨follow_kw "DEFAULT" (by decide +kernel) (follow_part hs.1), quiet_append (quiet_lit " DEFAULT " (by decide)) hs.2⟩

/-- The text for the identity of a column. -/
theorem rowIdentity_text {d : Option Str} {os : List ColOption} (h : IdentitySays d os) :
    Follow .postgres (if d.getD [] ≠ [] then lit " GENERATED " ++ d.getD [] ++ lit " AS IDENTITY" else []) (os.flatMap ColOption.tokens) ∧
    Quiet (if d.getD [] ≠ [] then lit " GENERATED " ++ d.getD [] ++ lit " AS IDENTITY" else []) := by
  cases h with
  | none => exact ⟨follow_nil _, by constructor <;> simp⟩
  | always =>
    refine ⟨?_, by constructor <;> decide⟩
    have := follow_spaced (mode := .postgres) (ws := ["GENERATED", "ALWAYS", "AS", "IDENTITY"]) (by decide +kernel)
    exact this
  | byDefault =>
    refine ⟨?_, by constructor <;> decide⟩
    have := follow_spaced (mode := .postgres) (ws := ["GENERATED", "BY", "DEFAULT", "AS", "IDENTITY"]) (by decide +kernel)
    exact this

/-- The text for the check of a column. -/
theorem rowCheck_text {d : Option Str} {os : List ColOption} (h : CheckSays d os) :
    Follow .postgres (if d.getD [] ≠ [] then lit " " ++ d.getD [] else []) (os.flatMap ColOption.tokens) ∧
    Quiet (if d.getD [] ≠ [] then lit " " ++ d.getD [] else []) := by
  cases h with
  | none => exact ⟨follow_nil _, by constructor <;> simp⟩
  | @check c e i hs _ _ =>
    have hne : c ≠ [] := layout_text_ne hs.1 (by simp [ColOption.tokens])
    simp only [Option.getD_some, hne, ne_eq, not_false_eq_true, if_true, List.flatMap_cons, List.flatMap_nil, List.append_nil]
    exact ⟨follow_part hs.1, quiet_append (quiet_lit " " (by decide)) hs.2⟩

/-! ### Names between quotes -/

theorem doubled_id {q : Char} {n : Str} (h : q ∉ n) : doubled q n = n := by
  induction n with
  | nil => rfl
  | cons c n ih =>
    simp only [List.mem_cons, not_or] at h
    have hc : c ≠ q := fun e => h.1 e.symm
    have := ih h.2
    simp only [doubled, List.flatMap_cons, if_neg hc] at this ⊢
    rw [this]
    rfl

/-- A name between double quotes. -/
theorem lay_quoted {n rest : Str} {ts : List Token} (h : CleanColumn n) (hr : rest.head? ≠ some '"') (hl : Layout .postgres rest ts) :
    Layout .postgres ('"' :: (n ++ '"' :: rest)) (nm n :: ts) := by
  have := lay_spells (mode := .postgres) (t := nm n) (a := '"' :: doubled '"' n ++ ['"']) (.quoted (by decide) h.nonempty hr) hl
  rw [doubled_id h.noQuote] at this
  simpa using this

theorem delimits_quote {mode : Mode} {rest : Str} (h : Delimits mode rest) : rest.head? ≠ some '"' := by
  intro hc
  have := delimits_cases h hc
  simp at this

theorem clean_trim {n : Str} (h : CleanColumn n) : trimSet ['"', ' '] n = n := by
  refine trimSet_id ?_ ?_
  · intro c hc hm
    simp only [List.mem_cons, List.not_mem_nil, or_false] at hm
    rcases hm with rfl | rfl
    · exact h.noQuote (List.mem_of_mem_head? hc)
    · exact h.first hc
  · intro c hc hm
    simp only [List.mem_cons, List.not_mem_nil, or_false] at hm
    rcases hm with rfl | rfl
    · exact h.noQuote (List.mem_of_mem_getLast? hc)
    · exact h.last hc

/-! ### Columns -/

theorem columnOf_fields {r : Pg.Row} {k : Pg.Column} (h : Pg.columnOf r = .ok k) :
    k.name = trimSet ['"', ' '] r.name ∧ k.nullable = decide (r.isNullable = lit "YES") ∧ k.default = r.default.getD [] ∧
    k.isAutoIncrement = Pg.nextvalDefault r.default ∧ k.isUnique = r.isUnique ∧ k.check = r.check.getD [] ∧
    k.identityGeneration = r.identity.getD [] := by
  unfold Pg.columnOf at h
  cases hm : r.maxLength with
  | none =>
    rw [hm] at h
    cases h
    exact ⟨rfl, rfl, rfl, rfl, rfl, rfl, rfl⟩
  | some s =>
    rw [hm] at h
    rcases ha : atoi s with ⟨n, _ | e⟩
    · simp only [ha] at h
      cases h
      exact ⟨rfl, rfl, rfl, rfl, rfl, rfl, rfl⟩
    · simp only [ha] at h
      cases h

/-- The text of a column stands for the column. -/
theorem row_text {r : Pg.Row} {c : Col} (h : RowSays r c) : ∃ k, Pg.columnOf r = .ok k ∧
    (∀ rest us, Delimits .postgres rest → Layout .postgres rest us → Layout .postgres (k.text ++ rest) (c.tokens ++ us)) ∧
    Quiet k.text ∧ k.text.head? = some '"' := by
  obtain ⟨k, hk, ht, hq⟩ := type_text h.type
  refine ⟨k, hk, ?_⟩
  obtain ⟨h1, h2, h3, h4, h5, h6, h7⟩ := columnOf_fields hk
  rw [clean_trim h.clean] at h1
  obtain ⟨d, g, e, hd, hg, he, ho⟩ := h.options
  obtain ⟨fd, qd⟩ := rowDefault_text hd
  obtain ⟨fg, qg⟩ := rowIdentity_text hg
  obtain ⟨fe, qe⟩ := rowCheck_text he
  have fu : Follow .postgres (if r.isUnique then lit " UNIQUE" else []) ((if r.isUnique then [ColOption.unique] else []).flatMap ColOption.tokens) ∧
      Quiet (if r.isUnique then lit " UNIQUE" else []) := by
    cases r.isUnique with
    | false => exact ⟨follow_nil _, by constructor <;> simp⟩
    | true => exact ⟨follow_spaced (ws := ["UNIQUE"]) (by decide +kernel), by constructor <;> decide⟩
  have fn : Follow .postgres (if r.isNullable = lit "YES" then [] else lit " NOT NULL")
      ((if r.isNullable = lit "YES" then [] else [ColOption.notNull]).flatMap ColOption.tokens) ∧
      Quiet (if r.isNullable = lit "YES" then [] else lit " NOT NULL") := by
    by_cases hn : r.isNullable = lit "YES"
    · simp only [hn, if_true]
      exact ⟨follow_nil _, by constructor <;> simp⟩
    · simp only [hn, if_false]
      exact ⟨follow_spaced (ws := ["NOT", "NULL"]) (by decide +kernel), by constructor <;> decide⟩
  have et : k.text = '"' :: (r.name ++ '"' :: ((' ' :: (k.getDataType ++ (if k.length > 0 then lit "(" ++ showInt k.length ++ lit ")" else []))) ++
      (if r.isUnique then lit " UNIQUE" else []) ++ (if r.isNullable = lit "YES" then [] else lit " NOT NULL") ++
      (if r.default.getD [] ≠ [] ∧ Pg.nextvalDefault r.default = false then lit " DEFAULT " ++ r.default.getD [] else []) ++
      (if r.identity.getD [] ≠ [] then lit " GENERATED " ++ r.identity.getD [] ++ lit " AS IDENTITY" else []) ++
      (if r.check.getD [] ≠ [] then lit " " ++ r.check.getD [] else []))) := by
    unfold Pg.Column.text
    simp only [h1, h2, h3, h4, h5, h6, h7, decide_eq_true_eq, List.append_assoc, List.cons_append]
    rfl
  have ec : c.tokens = nm r.name :: (c.type.tokens ++ c.array.tokens ++ (if r.isUnique then [ColOption.unique] else []).flatMap ColOption.tokens ++
      (if r.isNullable = lit "YES" then [] else [ColOption.notNull]).flatMap ColOption.tokens ++ d.flatMap ColOption.tokens ++
      g.flatMap ColOption.tokens ++ e.flatMap ColOption.tokens) := by
    unfold Col.tokens
    rw [h.name, ho]
    simp only [List.flatMap_append, List.append_assoc]
  have all := follow_append (follow_append (follow_append (follow_append (follow_append ht fu.1) fn.1) fd) fg) fe
  have qall := quiet_append (quiet_append (quiet_append (quiet_append (quiet_append hq fu.2) fn.2) qd) qg) qe
  refine ⟨?_, ?_, by rw [et]; rfl⟩
  · intro rest us hr hl
    obtain ⟨a1, a2⟩ := all rest us hr hl
    rw [et, ec]
    have := lay_quoted h.clean (delimits_quote a1) a2
    simpa only [List.append_assoc, List.cons_append] using this
  · rw [et]
    have q1 : Quiet r.name := h.clean.quiet
    have := quiet_append (quiet_append (quiet_lit "\"" (by decide)) q1) (quiet_append (quiet_lit "\" " (by decide)) qall)
    simpa only [show lit "\"" = ['"'] from rfl, show lit "\" " = ['"', ' '] from rfl, List.append_assoc, List.cons_append,
      List.nil_append] using this

theorem rows_text {rs : List Pg.Row} {cs : List Col} (h : List.Forall₂ RowSays rs cs) : ∃ ks, Pg.getColumns rs = .ok ks ∧
    List.Forall₂ (fun k c => (∀ rest us, Delimits .postgres rest → Layout .postgres rest us →
      Layout .postgres (Pg.Column.text k ++ rest) (Col.tokens c ++ us)) ∧ Quiet k.text ∧ k.text.head? = some '"') ks cs := by
  induction h with
  | nil => exact ⟨[], rfl, .nil⟩
  | cons hr _ ih =>
    obtain ⟨k, hk, h1⟩ := row_text hr
    obtain ⟨ks, hks, h2⟩ := ih
    refine ⟨k :: ks, ?_, .cons h1 h2⟩
    simp only [Pg.getColumns, hk, hks]
    rfl

/-! ### CREATE TABLE -/

/-- What is known about the text of a column. -/
def ColumnStands (k : Pg.Column) (c : Col) : Prop :=
  (∀ rest us, Delimits .postgres rest → Layout .postgres rest us → Layout .postgres (k.text ++ rest) (c.tokens ++ us)) ∧
    Quiet k.text ∧ k.text.head? = some '"'

theorem indent_blank : ∀ c ∈ lit "\n" ++ dumpIndent, c = ' ' ∨ c = '\n' ∨ c = '\r' ∨ c = '\t' := by decide

theorem columns_layout {k : Pg.Column} {ks : List Pg.Column} {c : Col} {cs : List Col} (h : ColumnStands k c)
    (hs : List.Forall₂ ColumnStands ks cs) : ∀ rest us, Delimits .postgres rest → Layout .postgres rest us →
    Layout .postgres (join (lit ",") ((k :: ks).map fun c => lit "\n" ++ dumpIndent ++ c.text) ++ rest)
      (c.tokens ++ (cs.map Item.column).flatMap (fun i => sym ',' :: i.tokens) ++ us) := by
  induction hs generalizing k c with
  | nil =>
    intro rest us hr hl
    have := lay_blank indent_blank (h.1 rest us hr hl)
    simpa [join] using this
  | @cons k' c' ks cs h' _ ih =>
    intro rest us hr hl
    have h1 := ih h' rest us hr hl
    have h2 := h.1 (',' :: _) _ (delimits_char (by simp) _) (lay_mark (c := ',') (by simp) h1)
    have h3 := lay_blank indent_blank h2
    have e : join (lit ",") ((k :: k' :: ks).map fun c => lit "\n" ++ dumpIndent ++ c.text) ++ rest =
        (lit "\n" ++ dumpIndent) ++ (k.text ++ ',' :: (join (lit ",") ((k' :: ks).map fun c => lit "\n" ++ dumpIndent ++ c.text) ++ rest)) := by
      rw [List.map_cons, join_cons _ _ _ (by simp)]
      simp [lit]
    rw [e]
    simpa [Item.tokens] using h3

theorem columns_lined {ks : List Pg.Column} (h : ∀ k ∈ ks, Quiet k.text) :
    Lined (join (lit ",") (ks.map fun c => lit "\n" ++ dumpIndent ++ c.text)) ∧
    ';' ∉ join (lit ",") (ks.map fun c => lit "\n" ++ dumpIndent ++ c.text) := by
  have one : ∀ k : Pg.Column, Quiet k.text → Lined (lit "\n" ++ dumpIndent ++ k.text) ∧ ';' ∉ lit "\n" ++ dumpIndent ++ k.text := by
    intro k hk
    have q : Quiet (dumpIndent ++ k.text) := quiet_append (by constructor <;> decide) hk
    constructor
    · have e : lit "\n" ++ dumpIndent ++ k.text = '\n' :: (dumpIndent ++ k.text) := rfl
      rw [e]
      exact lined_break q.2 (by simp [dumpIndent, lit])
    · rw [List.append_assoc, List.mem_append, not_or]
      exact ⟨by decide, q.1⟩
  induction ks with
  | nil => exact ⟨lined_nil, by simp [join]⟩
  | cons k ks ih =>
    have h1 := one k (h k (by simp))
    have h2 := ih fun x hx => h x (by simp [hx])
    cases ks with
    | nil => simpa [join] using h1
    | cons k' ks =>
      rw [List.map_cons, join_cons _ _ _ (by simp)]
      refine ⟨lined_append (lined_append h1.1 (lined_quiet (by decide) (by decide))) h2.1, ?_⟩
      rw [List.mem_append, List.mem_append, not_or, not_or]
      exact ⟨⟨h1.2, by decide⟩, h2.2⟩

theorem key_layout {n : Str} {ns : List Str} (h : ∀ x ∈ n :: ns, CleanColumn x) {rest : Str} {us : List Token}
    (hr : rest.head? ≠ some '"') (hl : Layout .postgres rest us) :
    Layout .postgres ('"' :: (join (lit "\", \"") (n :: ns) ++ '"' :: rest))
      (indexColTokens { name := n } (ns.map fun n => { name := n }) ++ us) := by
  induction ns generalizing n with
  | nil => exact lay_quoted (h n (by simp)) hr hl
  | cons m ns ih =>
    have h1 := ih (n := m) fun x hx => h x (by simp [List.mem_cons.mp hx])
    have h2 := lay_quoted (h n (by simp)) (by simp) (lay_mark (c := ',') (by simp) (lay_space h1))
    rw [join_cons _ _ _ (by simp)]
    have e : ∀ x, '"' :: ((n ++ lit "\", \"" ++ x) ++ '"' :: rest) = '"' :: (n ++ '"' :: ',' :: ' ' :: '"' :: (x ++ '"' :: rest)) := by
      intro x
      simp [lit]
    rw [e]
    simpa [indexColTokens, IndexCol.tokens, lengthTokens, directionTokens, optionally] using h2

theorem key_quiet {ns : List Str} (h : ∀ x ∈ ns, CleanColumn x) : Quiet (join (lit "\", \"") ns) := by
  induction ns with
  | nil => constructor <;> simp [join]
  | cons n ns ih =>
    cases ns with
    | nil => exact (h n (by simp)).quiet
    | cons m ns =>
      rw [join_cons _ _ _ (by simp)]
      exact quiet_append (quiet_append (h n (by simp)).quiet (by constructor <;> decide)) (ih fun x hx => h x (by simp [hx]))

/-- The text for the primary key. -/
def keyText (key : List Str) : Str :=
  if key = [] then [] else lit ",\n" ++ dumpIndent ++ lit "PRIMARY KEY (\"" ++ join (lit "\", \"") key ++ lit "\")"

theorem keyText_layout {key : List Str} (h : ∀ x ∈ key, CleanColumn x) {rest : Str} {us : List Token} (hr : Delimits .postgres rest)
    (hl : Layout .postgres rest us) :
    Delimits .postgres (keyText key ++ rest) ∧
    Layout .postgres (keyText key ++ rest) ((keyItems key).flatMap (fun i => sym ',' :: i.tokens) ++ us) := by
  cases key with
  | nil => exact ⟨hr, hl⟩
  | cons n ns =>
    have e : keyText (n :: ns) ++ rest = ',' :: ((lit "\n" ++ dumpIndent) ++ (lit "PRIMARY" ++ ' ' :: (lit "KEY" ++ ' ' :: '(' ::
        ('"' :: (join (lit "\", \"") (n :: ns) ++ '"' :: ')' :: rest))))) := by
      unfold keyText
      rw [if_neg (by simp)]
      simp [lit]
    rw [e]
    refine ⟨delimits_char (by simp) _, ?_⟩
    have h1 := key_layout h (rest := ')' :: rest) (by simp) (lay_mark (c := ')') (by simp) hl)
    have h2 := lay_mark (c := ',') (by simp) (lay_blank indent_blank (lay_kw "PRIMARY" (by decide +kernel) (endsWord_space _)
      (lay_space (lay_kw "KEY" (by decide +kernel) (endsWord_space _) (lay_space (lay_mark (c := '(') (by simp) h1))))))
    simpa [keyItems, Item.tokens, Ix.tokens, IndexHead.tokens, IndexOpts.tokens, Partition.tokens, parens] using h2

theorem keyText_lined {key : List Str} (h : ∀ x ∈ key, CleanColumn x) : Lined (keyText key) ∧ ';' ∉ keyText key := by
  unfold keyText
  split
  · exact ⟨lined_nil, by simp⟩
  · have q : Quiet (dumpIndent ++ lit "PRIMARY KEY (\"" ++ join (lit "\", \"") key ++ lit "\")") :=
      quiet_append (quiet_append (by constructor <;> decide) (key_quiet h)) (by constructor <;> decide)
    have e : lit ",\n" ++ dumpIndent ++ lit "PRIMARY KEY (\"" ++ join (lit "\", \"") key ++ lit "\")" =
        lit "," ++ '\n' :: (dumpIndent ++ lit "PRIMARY KEY (\"" ++ join (lit "\", \"") key ++ lit "\")") := by simp [lit]
    rw [e]
    refine ⟨lined_append (lined_quiet (by decide) (by decide)) (lined_break q.2 (by simp [dumpIndent, lit])), ?_⟩
    simp only [List.mem_append, List.mem_cons, not_or]
    have := q.1
    simp only [List.mem_append, not_or] at this
    exact ⟨by decide, by decide, this⟩

/-- What is known about the text of a statement. -/
structure StatementStands (text : Str) (ts : List Token) : Prop where
  layout : Layout .postgres text ts
  semicolon : ';' ∉ text
  comment : NoComment text
  trimmed : trimSpace text = text
  nonempty : text ≠ []

theorem createText_eq (table : Str) (ks : List Pg.Column) (key : List Str) : Pg.createText table ks key =
    lit "CREATE" ++ ' ' :: (lit "TABLE" ++ ' ' :: (table ++ ' ' :: '(' :: (join (lit ",") (ks.map fun c => lit "\n" ++ dumpIndent ++ c.text) ++
      (keyText key ++ '\n' :: [')'])))) := by
  unfold Pg.createText keyText
  simp [lit]

/-- The CREATE TABLE stands for the table. -/
theorem create_stands {schema name : Str} {rows : List Pg.Row} {key : List Str} {t : Written.Table}
    (h : TableSays schema name rows key t) : ∃ ks, Pg.getColumns rows = .ok ks ∧
    StatementStands (Pg.createText (schema ++ '.' :: name) ks key) t.tokens := by
  obtain ⟨cs, hc, hrest⟩ := h.columns
  obtain ⟨ks, hks, hall⟩ := rows_text hc
  refine ⟨ks, hks, ?_⟩
  cases hall with
  | @cons k _ ks _ h1 hs =>
  have hq : ∀ x ∈ k :: ks, Quiet x.text := by
    have key : ∀ {xs : List Pg.Column} {ys : List Col}, List.Forall₂ ColumnStands xs ys → ∀ x ∈ xs, Quiet x.text := by
      intro xs ys hxy
      induction hxy with
      | nil => simp
      | cons hx _ ih =>
        intro x hm
        rcases List.mem_cons.mp hm with rfl | hm
        · exact hx.2.1
        · exact ih x hm
    exact key (.cons h1 hs)
  obtain ⟨l1, s1⟩ := columns_lined hq
  obtain ⟨l2, s2⟩ := keyText_lined h.key
  have q0 : Quiet (schema ++ '.' :: name) := quiet_append (bare_quiet h.bare.1)
    (quiet_append (a := lit ".") (by constructor <;> decide) (bare_quiet h.bare.2))
  constructor
  · rw [createText_eq]
    have k1 := keyText_layout h.key (rest := '\n' :: [')']) (us := [sym ')']) (delimits_char (by simp) _)
      (lay_blank (w := ['\n']) (by simp) (lay_mark (c := ')') (by simp) lay_end))
    have k2 := columns_layout h1 hs _ _ k1.1 k1.2
    have k3 := lay_part (lay_dotted (mode := .postgres) h.bare.1 h.bare.2) (delimits_char (c := ' ') (by simp) _)
      (lay_space (lay_mark (c := '(') (by simp) k2))
    have k4 := lay_kw "CREATE" (by decide +kernel) (endsWord_space _) (lay_space (lay_kw "TABLE" (by decide +kernel) (endsWord_space _)
      (lay_space k3)))
    unfold Written.Table.tokens
    rw [h.fresh, h.options, h.ref, hrest, tableRef_tokens]
    simpa [given, parens, tableOptionTokens] using k4
  · rw [createText_eq]
    simp only [List.mem_append, List.mem_cons, not_or]
    have := q0.1
    simp only [List.mem_append, List.mem_cons, not_or] at this
    exact ⟨by decide, by decide, by decide, by decide, this, by decide, by decide, s1, s2, by decide, by decide, by simp⟩
  · have e : Pg.createText (schema ++ '.' :: name) (k :: ks) key = (lit "CREATE TABLE " ++ (schema ++ '.' :: name) ++ lit " (") ++
        (join (lit ",") ((k :: ks).map fun c => lit "\n" ++ dumpIndent ++ c.text) ++ (keyText key ++ '\n' :: [')'])) := by
      rw [createText_eq]
      simp [lit]
    rw [e]
    refine lined_append l1 (lined_append l2 (lined_break (by simp) (by simp))) _ (noComment_line ?_ ?_)
    · exact (quiet_append (quiet_append (quiet_lit "CREATE TABLE " (by decide)) q0) (quiet_lit " (" (by decide))).2
    · intro r hr
      have := congrArg List.head? hr
      simp [lit] at this
  · refine trimSpace_id ?_ ?_
    · intro c hc
      rw [createText_eq] at hc
      have : some 'C' = some c := hc
      cases this
      decide
    · intro c hc
      have e : Pg.createText (schema ++ '.' :: name) (k :: ks) key = (lit "CREATE TABLE " ++ (schema ++ '.' :: name) ++ lit " (" ++
        join (lit ",") ((k :: ks).map fun c => lit "\n" ++ dumpIndent ++ c.text) ++ keyText key ++ ['\n']) ++ [')'] := by
        rw [createText_eq]
        simp [lit]
      rw [e, List.getLast?_concat] at hc
      cases hc
      decide
  · rw [createText_eq]
    simp [lit]

end Sqldef
