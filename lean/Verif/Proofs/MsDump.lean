import Verif.Proofs.StoredText
import Verif.Spec.MsAdapter
/-
The text of the dump of a SQL Server table.
-/
namespace Sqldef
open Spec Written Dumped

/-! ### Composing texts -/

theorem lay_then {mode : Mode} {a b : Str} {ts us : List Token} (ha : Layout mode a ts) (hb : Follow mode b us) :
    Layout mode (a ++ b) (ts ++ us) := by
  obtain ⟨h1, h2⟩ := hb [] [] (delimits_nil mode) lay_end
  rw [List.append_nil] at h1 h2
  rw [List.append_nil] at h2
  exact lay_part ha h1 h2

/-- Texts with commas between them. -/
theorem lay_join {mode : Mode} {w : Str} (hw : ∀ c ∈ w, c = ' ' ∨ c = '\n' ∨ c = '\r' ∨ c = '\t') {a : Str} {t : List Token}
    {as : List Str} {ts : List (List Token)} (h : Layout mode a t) (hs : List.Forall₂ (Layout mode) as ts) :
    Layout mode (join (',' :: w) (a :: as)) (t ++ ts.flatMap (fun x => sym ',' :: x)) := by
  induction hs generalizing a t with
  | nil => simpa [join] using h
  | @cons b u as ts hb _ ih =>
    rw [join_cons _ _ _ (by simp)]
    have h1 := lay_mark (c := ',') (by simp) (lay_blank hw (ih hb))
    have h2 := lay_part h (delimits_char (c := ',') (by simp) _) h1
    simpa using h2

/-- A text between parentheses. -/
theorem follow_wrapped {mode : Mode} {a : Str} {ts : List Token} (h : Layout mode a ts) : Follow mode (' ' :: '(' :: (a ++ [')'])) (parens ts) := by
  refine follow_part ?_
  have h1 := lay_mark (c := '(') (by simp) (lay_part h (delimits_char (c := ')') (by simp) []) (lay_mark (c := ')') (by simp) lay_end))
  simpa [parens] using h1

/-- A name between brackets. -/
def bracketed (n : Str) : Str := '[' :: (n ++ [']'])

theorem lay_bracket {n : Str} (h : BracketName n) : Layout .mssql (bracketed n) [nm n] := by
  have := lay_spells (mode := .mssql) (t := nm n) (a := '[' :: doubled ']' n ++ [']']) (rest := [])
    (.quoted (by decide) h.nonempty (by simp)) lay_end
  rw [doubled_id h.noBracket] at this
  simpa [bracketed] using this

theorem quiet_bracket {n : Str} (h : BracketName n) : Quiet (bracketed n) := by
  have := quiet_append (quiet_append (quiet_lit "[" (by decide)) h.quiet) (quiet_lit "]" (by decide))
  simpa [bracketed, lit] using this

theorem goodInt_facts {n : Str} (h : GoodInt n) : (∀ c, n.head? = some c → c = '-' ∨ isDigit c = true) ∧ Quiet n := by
  obtain ⟨d, hd, hall, rfl | rfl⟩ := h
  · refine ⟨fun c hc => .inr (hall c (List.mem_of_mem_head? hc)), ?_, ?_⟩
    · exact fun hm => (word_facts (.inr (hall _ hm))).1 rfl
    · exact fun hm => (word_facts (.inr (hall _ hm))).2.1 rfl
  · refine ⟨fun c hc => .inl (by simpa using hc.symm), ?_, ?_⟩
    · intro hm
      rcases List.mem_cons.mp hm with e | hm
      · simp at e
      · exact (word_facts (.inr (hall _ hm))).1 rfl
    · intro hm
      rcases List.mem_cons.mp hm with e | hm
      · simp at e
      · exact (word_facts (.inr (hall _ hm))).2.1 rfl

theorem lay_goodInt {mode : Mode} {n : Str} (h : GoodInt n) : Layout mode n [Written.int n] := by
  have hr : EndsNumber [] := by intro c hc; simp at hc
  obtain ⟨d, hd, hall, rfl | rfl⟩ := h
  · have := lay_spells (mode := mode) (t := Written.int n) (rest := []) (.digits hd hall hr) lay_end
    simpa using this
  · have := lay_spells (mode := mode) (t := Written.int ('-' :: d)) (rest := []) (.negative hd hall hr) lay_end
    simpa using this

/-! ### Columns -/

/-- The word of a type stands for its tokens. -/
def msWordStands (w : String) (ts : List Token) : Bool :=
  plainWord (lit w) && decide ([kw w] = ts) && decide (';' ∉ lit w) && decide ('\n' ∉ lit w) 

theorem msWord {w : String} {ts : List Token} (h : msWordStands w ts = true) : Follow .mssql (' ' :: lit w) ts ∧ Quiet (lit w) := by
  simp only [msWordStands, Bool.and_eq_true, decide_eq_true_eq] at h
  obtain ⟨⟨⟨h1, h2⟩, h3⟩, h4⟩ := h
  rw [← h2]
  exact ⟨follow_part (lay_word h1), h3, h4⟩

theorem msPlain_words : ∀ p ∈ msPlainTypes, msWordStands p.1 p.2.tokens = true ∧ lit p.1 ∉ Ms.sizedTypes := by decide +kernel

theorem msSized_words {name : String} {ty : Str → Ty} (h : (name, ty) ∈ msSizedTypes) (n : Str) :
    msWordStands name [kw name] = true ∧ lit name ∈ Ms.sizedTypes ∧ (ty n).tokens = kw name :: parens [Written.int n] := by
  simp only [msSizedTypes, List.mem_cons, List.not_mem_nil, or_false, Prod.mk.injEq] at h
  rcases h with ⟨rfl, rfl⟩ | ⟨rfl, rfl⟩ | ⟨rfl, rfl⟩ | ⟨rfl, rfl⟩ <;>
    exact ⟨by decide +kernel, by decide +kernel, by simp [Ty.tokens, lengthTokens, optionally, Charset.tokens, Collation.tokens]⟩

/-- The text of the type of a column. -/
theorem msType_text {r : Ms.Column} {ty : Ty} (h : MsTypeSays r ty) :
    Follow .mssql (' ' :: (r.dataType ++ (if r.dataType ∈ Ms.sizedTypes then lit "(" ++ r.length ++ lit ")" else []))) ty.tokens ∧
    Quiet (r.dataType ++ (if r.dataType ∈ Ms.sizedTypes then lit "(" ++ r.length ++ lit ")" else [])) := by
  cases h with
  | @plain name _ hm hd =>
    obtain ⟨h1, h2⟩ := msPlain_words _ hm
    obtain ⟨f, q⟩ := msWord h1
    rw [hd, if_neg h2, List.append_nil]
    exact ⟨f, q⟩
  | @sized name ty hm hd hl =>
    obtain ⟨h1, h2, h3⟩ := msSized_words hm r.length
    obtain ⟨f, q⟩ := msWord h1
    rw [hd, if_pos h2, h3]
    constructor
    · have h4 : Follow .mssql ('(' :: (r.length ++ [')'])) (parens [Written.int r.length]) := by
        refine follow_layout (by simp) ?_
        have := lay_mark (c := '(') (by simp) (lay_part (lay_goodInt (mode := .mssql) hl) (delimits_char (c := ')') (by simp) [])
          (lay_mark (c := ')') (by simp) lay_end))
        simpa [parens] using this
      have := follow_append f h4
      simpa [lit] using this
    · exact quiet_append q (quiet_append (quiet_append (quiet_lit "(" (by decide)) (goodInt_facts hl).2) (quiet_lit ")" (by decide)))

theorem follow_replication (b : Bool) : Follow .mssql (if b then lit " NOT FOR REPLICATION" else []) (replicationTokens b) ∧
    Quiet (if b then lit " NOT FOR REPLICATION" else []) := by
  cases b with
  | false => exact ⟨follow_nil _, by constructor <;> simp⟩
  | true =>
    exact ⟨follow_spaced (ws := ["NOT", "FOR", "REPLICATION"]) (by decide +kernel), by constructor <;> decide⟩

theorem msDefault_text {n d : Str} {os : List ColOption} (h : MsDefaultSays n d os) :
    Follow .mssql (if n ≠ [] then lit " CONSTRAINT " ++ n ++ lit " DEFAULT " ++ d else []) (os.flatMap ColOption.tokens) ∧
    Quiet (if n ≠ [] then lit " CONSTRAINT " ++ n ++ lit " DEFAULT " ++ d else []) := by
  cases h with
  | none => exact ⟨follow_nil _, by constructor <;> simp⟩
  | @value n d w v hb hs =>
    rw [if_pos (bare_ne hb)]
    constructor
    · have h1 := follow_append (follow_kw "CONSTRAINT" (by decide +kernel) (follow_part (lay_bare (mode := .mssql) hb)))
        (follow_kw "DEFAULT" (by decide +kernel) (follow_part hs.1))
      simpa [lit, ColOption.tokens, optionally, nm, named] using h1
    · exact quiet_append (quiet_append (quiet_append (quiet_lit " CONSTRAINT " (by decide)) (bare_quiet hb)) (quiet_lit " DEFAULT " (by decide))) hs.2

/-- The text of an identity. -/
def msIdentityText : Option Ms.Identity → Str
  | none => []
  | some i => lit " IDENTITY(" ++ i.seedValue ++ lit "," ++ i.incrementValue ++ lit ")" ++
    (if i.notForReplication then lit " NOT FOR REPLICATION" else [])

/-- The text of a check. -/
def msCheckText : Option Ms.Check → Str
  | none => []
  | some k => lit " CONSTRAINT [" ++ k.name ++ lit "] CHECK" ++ (if k.notForReplication then lit " NOT FOR REPLICATION" else []) ++
    lit " " ++ k.definition

theorem msIdentity_text {g : Option Ms.Identity} {os : List ColOption} (h : MsIdentitySays g os) :
    Follow .mssql (msIdentityText g) (os.flatMap ColOption.tokens) ∧
    Quiet (msIdentityText g) := by
  cases h with
  | none => exact ⟨follow_nil _, by constructor <;> simp [msIdentityText]⟩
  | @identity i h1 h2 =>
    obtain ⟨fr, qr⟩ := follow_replication i.notForReplication
    constructor
    · have k1 : Layout .mssql ('(' :: (i.seedValue ++ ',' :: (i.incrementValue ++ [')'])))
          (parens [Written.int i.seedValue, sym ',', Written.int i.incrementValue]) := by
        have a1 := lay_part (lay_goodInt (mode := .mssql) h2) (delimits_char (c := ')') (by simp) []) (lay_mark (c := ')') (by simp) lay_end)
        have a2 := lay_part (lay_goodInt (mode := .mssql) h1) (delimits_char (c := ',') (by simp) _) (lay_mark (c := ',') (by simp) a1)
        have a3 := lay_mark (c := '(') (by simp) a2
        simpa [parens] using a3
      have k2 := follow_append (follow_kw "IDENTITY" (by decide +kernel) (follow_layout (by simp) k1)) fr
      have e : (ColOption.identity i.seedValue i.incrementValue ::
          if i.notForReplication = true then [ColOption.notForReplication] else []).flatMap ColOption.tokens =
          kw "IDENTITY" :: parens [Written.int i.seedValue, sym ',', Written.int i.incrementValue] ++ replicationTokens i.notForReplication := by
        cases i.notForReplication <;> simp [ColOption.tokens, replicationTokens, given]
      rw [e]
      simpa [lit, msIdentityText] using k2
    · exact quiet_append (quiet_append (quiet_append (quiet_append (quiet_append (quiet_lit " IDENTITY(" (by decide)) (goodInt_facts h1).2)
        (quiet_lit "," (by decide))) (goodInt_facts h2).2) (quiet_lit ")" (by decide))) qr

theorem msCheck_text {k : Option Ms.Check} {os : List ColOption} (h : MsCheckSays k os) :
    Follow .mssql (msCheckText k) (os.flatMap ColOption.tokens) ∧
    Quiet (msCheckText k) := by
  cases h with
  | none => exact ⟨follow_nil _, by constructor <;> simp [msCheckText]⟩
  | @check k e hb _ hs _ _ =>
    obtain ⟨fr, qr⟩ := follow_replication k.notForReplication
    constructor
    · have k1 := follow_append (follow_kw "CONSTRAINT" (by decide +kernel) (follow_part (lay_bracket hb)))
        (follow_kw "CHECK" (by decide +kernel) (follow_append fr (follow_part hs.1)))
      simpa [lit, bracketed, ColOption.tokens, msCheckText] using k1
    · exact quiet_append (quiet_append (quiet_append (quiet_append (quiet_append (quiet_lit " CONSTRAINT [" (by decide)) hb.quiet)
        (quiet_lit "] CHECK" (by decide))) qr) (quiet_lit " " (by decide))) hs.2

/-- What is known about the text of an item. -/
def MsItemStands (text : Str) (ts : List Token) : Prop := Layout .mssql text ts ∧ Quiet text

theorem msColumn_text {r : Ms.Column} {c : Col} (h : MsColumnSays r c) : MsItemStands r.text c.tokens := by
  obtain ⟨d, g, k, hd, hg, hk, ho⟩ := h.options
  obtain ⟨ft, qt⟩ := msType_text h.type
  obtain ⟨fd, qd⟩ := msDefault_text hd
  obtain ⟨fg, qg⟩ := msIdentity_text hg
  obtain ⟨fk, qk⟩ := msCheck_text hk
  have fn : Follow .mssql (if r.nullable then [] else lit " NOT NULL") ((if r.nullable then [] else [ColOption.notNull]).flatMap ColOption.tokens) ∧
      Quiet (if r.nullable then [] else lit " NOT NULL") := by
    cases r.nullable with
    | true => exact ⟨follow_nil _, by constructor <;> simp⟩
    | false => exact ⟨follow_spaced (ws := ["NOT", "NULL"]) (by decide +kernel), by constructor <;> decide⟩
  have all := follow_append (follow_append (follow_append (follow_append ft fn.1) fd) fg) fk
  have qall := quiet_append (quiet_append (quiet_append (quiet_append qt fn.2) qd) qg) qk
  have et : r.text = r.name ++ ((' ' :: (r.dataType ++ (if r.dataType ∈ Ms.sizedTypes then lit "(" ++ r.length ++ lit ")" else []))) ++
      (if r.nullable then [] else lit " NOT NULL") ++ (if r.defaultName ≠ [] then lit " CONSTRAINT " ++ r.defaultName ++ lit " DEFAULT " ++ r.defaultVal else []) ++
      msIdentityText r.identity ++
      msCheckText r.check) := by
    unfold Ms.Column.text msIdentityText msCheckText
    rw [show lit " " = [' '] from rfl]
    cases r.identity <;> cases r.check <;> simp only [List.append_assoc, List.cons_append, List.nil_append]
  have ec : c.tokens = [nm r.name] ++ (c.type.tokens ++ (if r.nullable then [] else [ColOption.notNull]).flatMap ColOption.tokens ++
      d.flatMap ColOption.tokens ++ g.flatMap ColOption.tokens ++ k.flatMap ColOption.tokens) := by
    unfold Col.tokens
    rw [h.name, ho, h.array]
    simp [ArrayMark.tokens]
  constructor
  · rw [et, ec]
    exact lay_then (lay_bare h.bare) all
  · rw [et]
    have := quiet_append (bare_quiet h.bare) (quiet_append (quiet_lit " " (by decide)) qall)
    simpa only [show lit " " = [' '] from rfl, List.append_assoc, List.cons_append, List.nil_append] using this

/-! ### Indexes -/

/-- The text of a column of an index. -/
def msColText (c : Ms.IndexColumnRow) : Str := if c.isDescending then bracketed c.columnName ++ lit " DESC" else bracketed c.columnName

theorem indexDef_eq (cs : List Ms.IndexColumnRow) (d : Ms.IndexDef) : cs.foldl Ms.IndexDef.add d =
    { d with columns := d.columns ++ (cs.filter fun c => !c.isIncluded).map msColText,
             included := d.included ++ (cs.filter fun c => c.isIncluded).map fun c => bracketed c.columnName } := by
  induction cs generalizing d with
  | nil => simp
  | cons c cs ih =>
    rw [List.foldl_cons, ih]
    unfold Ms.IndexDef.add
    cases hi : c.isIncluded <;> cases hd : c.isDescending <;> simp [hi, hd, msColText, bracketed, lit]

theorem msCol_stands {c : Ms.IndexColumnRow} (h : BracketName c.columnName) : MsItemStands (msColText c) (msIndexCol c).tokens := by
  unfold msColText
  cases hd : c.isDescending with
  | false =>
    simp only [Bool.false_eq_true, if_false]
    refine ⟨?_, quiet_bracket h⟩
    simpa [msIndexCol, hd, IndexCol.tokens, lengthTokens, optionally, directionTokens] using lay_bracket h
  | true =>
    simp only [if_true]
    refine ⟨?_, quiet_append (quiet_bracket h) (by constructor <;> decide)⟩
    have := lay_then (lay_bracket h) (follow_spaced (mode := .mssql) (ws := ["DESC"]) (by decide +kernel))
    simpa [msIndexCol, hd, IndexCol.tokens, lengthTokens, optionally, directionTokens, spaced, kws, lit] using this

theorem quiet_join {sep : Str} (hs : Quiet sep) {ts : List Str} (h : ∀ t ∈ ts, Quiet t) : Quiet (join sep ts) := by
  induction ts with
  | nil => constructor <;> simp [join]
  | cons t ts ih =>
    cases ts with
    | nil => simpa [join] using h t (by simp)
    | cons u ts =>
      rw [join_cons _ _ _ (by simp)]
      exact quiet_append (quiet_append (h t (by simp)) hs) (ih fun x hx => h x (by simp [hx]))

/-- The columns of an index. -/
theorem msCols_stand {rs : List Ms.IndexColumnRow} {first : IndexCol} {rest : List IndexCol} (hn : ∀ c ∈ rs, BracketName c.columnName)
    (h : rs.map msIndexCol = first :: rest) : MsItemStands (join (lit ", ") (rs.map msColText)) (indexColTokens first rest) := by
  cases rs with
  | nil => simp at h
  | cons r rs =>
    simp only [List.map_cons, List.cons.injEq] at h
    obtain ⟨rfl, rfl⟩ := h
    constructor
    · have hs : List.Forall₂ (Layout .mssql) (rs.map msColText) (rs.map fun c => (msIndexCol c).tokens) := by
        have hn' : ∀ c ∈ rs, BracketName c.columnName := fun c hc => hn c (by simp [hc])
        clear hn
        induction rs with
        | nil => exact .nil
        | cons x xs ih => exact .cons (msCol_stands (hn' x (by simp))).1 (ih fun c hc => hn' c (by simp [hc]))
      have := lay_join (w := [' ']) (by simp) (msCol_stands (hn r (by simp))).1 hs
      simpa [indexColTokens, List.flatMap_map, lit] using this
    · refine quiet_join (by constructor <;> decide) fun t ht => ?_
      obtain ⟨c, hc, rfl⟩ := List.mem_map.mp ht
      exact (msCol_stands (hn c hc)).2

/-- The columns that are included. -/
theorem msIncluded_stand {rs : List Ms.IndexColumnRow} (hn : ∀ c ∈ rs, BracketName c.columnName) {included : Option (Str × List Str)}
    (h : rs.map (·.columnName) =
      match included with
      | none => []
      | some (n, ns) => n :: ns) :
    Follow .mssql (if rs.map (fun c => bracketed c.columnName) = [] then [] else
      lit " INCLUDE (" ++ join (lit ", ") (rs.map fun c => bracketed c.columnName) ++ lit ")") (includedTokens included) ∧
    Quiet (if rs.map (fun c => bracketed c.columnName) = [] then [] else
      lit " INCLUDE (" ++ join (lit ", ") (rs.map fun c => bracketed c.columnName) ++ lit ")") := by
  cases rs with
  | nil =>
    cases included with
    | none => exact ⟨follow_nil _, by constructor <;> simp⟩
    | some p => simp at h
  | cons r rs =>
    cases included with
    | none => simp at h
    | some p =>
      obtain ⟨n, ns⟩ := p
      simp only [List.map_cons, List.cons.injEq] at h
      obtain ⟨rfl, rfl⟩ := h
      rw [if_neg (by simp)]
      constructor
      · have hs : List.Forall₂ (Layout .mssql) (rs.map fun c => bracketed c.columnName) (rs.map fun c => [nm c.columnName]) := by
          have hn' : ∀ c ∈ rs, BracketName c.columnName := fun c hc => hn c (by simp [hc])
          clear hn
          induction rs with
          | nil => exact .nil
          | cons x xs ih => exact .cons (lay_bracket (hn' x (by simp))) (ih fun c hc => hn' c (by simp [hc]))
        have h1 := lay_join (w := [' ']) (by simp) (lay_bracket (hn r (by simp))) hs
        have h2 := follow_kw "INCLUDE" (by decide +kernel) (follow_wrapped h1)
        simpa [includedTokens, optionally, nameTokens, List.flatMap_map, lit] using h2
      · refine quiet_append (quiet_append (by constructor <;> decide) (quiet_join (by constructor <;> decide) fun t ht => ?_)) (by constructor <;> decide)
        obtain ⟨c, hc, rfl⟩ := List.mem_map.mp ht
        exact quiet_bracket (hn c hc)

/-- A switch of an index. -/
theorem msSwitch_stands {w v : String} {b : Bool} (hw : plainWord (lit w) = true) (hq : decide (';' ∉ lit w ∧ '\n' ∉ lit w) = true)
    (hv : decide (kw w = kw v) = true) : MsItemStands (lit " " ++ lit w ++ lit " = " ++ Ms.boolToOnOff b) (IndexOpt.switch v b).tokens := by
  have ht : (IndexOpt.switch v b).tokens = [kw w, sym '=', if b then kw "ON" else kw "OFF"] := by
    rw [of_decide_eq_true hv]
    rfl
  rw [ht]
  constructor
  · have h1 : ∀ v : String, plainWord (lit v) = true → Layout .mssql (lit " " ++ lit w ++ lit " = " ++ lit v) [kw w, sym '=', kw v] := by
      intro v hv
      have := lay_space (lay_kw (mode := .mssql) w hw (endsWord_space _) (lay_space (lay_mark (c := '=') (by simp) (lay_space (lay_word hv)))))
      simpa [lit] using this
    cases b
    · exact h1 "OFF" (by decide +kernel)
    · exact h1 "ON" (by decide +kernel)
  · refine quiet_append (quiet_append (quiet_append (by constructor <;> decide) (quiet_lit w hq)) (by constructor <;> decide)) ?_
    cases b <;> constructor <;> decide

theorem msFill_stands {n : Str} (hn : n ≠ []) (hd : ∀ c ∈ n, isDigit c = true) :
    MsItemStands (lit " " ++ lit "FILLFACTOR" ++ lit " = " ++ n) [kw "FILLFACTOR", sym '=', Written.int n] := by
  have hg : GoodInt n := ⟨n, hn, hd, .inl rfl⟩
  constructor
  · have := lay_space (lay_kw (mode := .mssql) "FILLFACTOR" (by decide +kernel) (endsWord_space _)
      (lay_space (lay_mark (c := '=') (by simp) (lay_space (lay_goodInt hg)))))
    simpa [lit] using this
  · exact quiet_append (quiet_append (quiet_append (by constructor <;> decide) (by constructor <;> decide)) (by constructor <;> decide)) (goodInt_facts hg).2

/-- The options of an index. -/
theorem msOptions_text {r : Ms.IndexRow} (hf : r.fillfactor ≠ [] ∧ ∀ c ∈ r.fillfactor, isDigit c = true) :
    Follow .mssql (Ms.optionsText r.start.options) (msIndexOptions r).tokens ∧ Quiet (Ms.optionsText r.start.options) := by
  have s1 : MsItemStands (lit " " ++ lit "PAD_INDEX" ++ lit " = " ++ Ms.boolToOnOff r.padIndex) (IndexOpt.switch "pad_index" r.padIndex).tokens :=
    msSwitch_stands (by decide +kernel) (by decide) (by decide +kernel)
  have s2 := msFill_stands hf.1 hf.2
  have s3 : MsItemStands (lit " " ++ lit "IGNORE_DUP_KEY" ++ lit " = " ++ Ms.boolToOnOff r.ignoreDupKey) (IndexOpt.switch "ignore_dup_key" r.ignoreDupKey).tokens :=
    msSwitch_stands (by decide +kernel) (by decide) (by decide +kernel)
  have s4 : MsItemStands (lit " " ++ lit "STATISTICS_NORECOMPUTE" ++ lit " = " ++ Ms.boolToOnOff r.noRecompute)
      (IndexOpt.switch "statistics_norecompute" r.noRecompute).tokens := msSwitch_stands (by decide +kernel) (by decide) (by decide +kernel)
  have s5 : MsItemStands (lit " " ++ lit "STATISTICS_INCREMENTAL" ++ lit " = " ++ Ms.boolToOnOff r.incremental)
      (IndexOpt.switch "statistics_incremental" r.incremental).tokens := msSwitch_stands (by decide +kernel) (by decide) (by decide +kernel)
  have s6 : MsItemStands (lit " " ++ lit "ALLOW_ROW_LOCKS" ++ lit " = " ++ Ms.boolToOnOff r.rowLocks) (IndexOpt.switch "allow_row_locks" r.rowLocks).tokens :=
    msSwitch_stands (by decide +kernel) (by decide) (by decide +kernel)
  have s7 : MsItemStands (lit " " ++ lit "ALLOW_PAGE_LOCKS" ++ lit " = " ++ Ms.boolToOnOff r.pageLocks) (IndexOpt.switch "allow_page_locks" r.pageLocks).tokens :=
    msSwitch_stands (by decide +kernel) (by decide) (by decide +kernel)
  have hj := lay_join (w := []) (by simp) s1.1 (.cons s2.1 (.cons s3.1 (.cons s4.1 (.cons s5.1 (.cons s6.1 (.cons s7.1 .nil))))))
  have et : Ms.optionsText r.start.options = lit " WITH (" ++ join (lit ",")
      [lit " " ++ lit "PAD_INDEX" ++ lit " = " ++ Ms.boolToOnOff r.padIndex, lit " " ++ lit "FILLFACTOR" ++ lit " = " ++ r.fillfactor,
       lit " " ++ lit "IGNORE_DUP_KEY" ++ lit " = " ++ Ms.boolToOnOff r.ignoreDupKey,
       lit " " ++ lit "STATISTICS_NORECOMPUTE" ++ lit " = " ++ Ms.boolToOnOff r.noRecompute,
       lit " " ++ lit "STATISTICS_INCREMENTAL" ++ lit " = " ++ Ms.boolToOnOff r.incremental,
       lit " " ++ lit "ALLOW_ROW_LOCKS" ++ lit " = " ++ Ms.boolToOnOff r.rowLocks,
       lit " " ++ lit "ALLOW_PAGE_LOCKS" ++ lit " = " ++ Ms.boolToOnOff r.pageLocks] ++ lit " )" := rfl
  rw [et]
  have ej : lit "," = ',' :: [] := rfl
  constructor
  · rw [ej]
    generalize join (',' :: []) _ = x at hj
    have h1 : Layout .mssql (x ++ lit " ") _ := lay_then hj (b := [' ']) (us := []) (fun rest us hr h => ⟨delimits_char (by simp) _, lay_space h⟩)
    have h2 := follow_kw "WITH" (by decide +kernel) (follow_wrapped h1)
    have e1 : ' ' :: (lit "WITH" ++ ' ' :: '(' :: (x ++ lit " " ++ [')'])) = lit " WITH (" ++ x ++ lit " )" := by simp [lit]
    rw [e1] at h2
    have e2 : (msIndexOptions r).tokens = kw "WITH" :: parens ((IndexOpt.switch "pad_index" r.padIndex).tokens ++
        [[kw "FILLFACTOR", sym '=', Written.int r.fillfactor], (IndexOpt.switch "ignore_dup_key" r.ignoreDupKey).tokens,
         (IndexOpt.switch "statistics_norecompute" r.noRecompute).tokens, (IndexOpt.switch "statistics_incremental" r.incremental).tokens,
         (IndexOpt.switch "allow_row_locks" r.rowLocks).tokens, (IndexOpt.switch "allow_page_locks" r.pageLocks).tokens].flatMap
          (fun x => sym ',' :: x) ++ []) := by
      rw [List.append_nil]
      rfl
    rw [e2]
    exact h2
  · refine quiet_append (quiet_append (by constructor <;> decide) (quiet_join (by constructor <;> decide) ?_)) (by constructor <;> decide)
    intro t ht
    simp only [List.mem_cons, List.not_mem_nil, or_false] at ht
    rcases ht with rfl | rfl | rfl | rfl | rfl | rfl | rfl
    · exact s1.2
    · exact s2.2
    · exact s3.2
    · exact s4.2
    · exact s5.2
    · exact s6.2
    · exact s7.2

theorem msKind_text {t : Str} {c : Option Bool} (h : (t = lit "CLUSTERED" ∧ c = some true) ∨ (t = lit "NONCLUSTERED" ∧ c = some false)) :
    Follow .mssql (Ms.typeText t) (clusteredTokens c) ∧ Quiet (Ms.typeText t) := by
  rcases h with ⟨rfl, rfl⟩ | ⟨rfl, rfl⟩
  · exact ⟨follow_spaced (ws := ["CLUSTERED"]) (by decide +kernel), by constructor <;> decide⟩
  · exact ⟨follow_spaced (ws := ["NONCLUSTERED"]) (by decide +kernel), by constructor <;> decide⟩

/-- The index of a row. -/
def msDef (cs : List Ms.IndexColumnRow) (r : Ms.IndexRow) : Ms.IndexDef := (msColumnsOf cs r).foldl Ms.IndexDef.add r.start

theorem indexDefMap_eq (rows : List Ms.IndexRow) (cs : List Ms.IndexColumnRow) : Ms.indexDefMap rows cs = rows.map (msDef cs) := rfl

theorem msDef_facts (cs : List Ms.IndexColumnRow) (r : Ms.IndexRow) : (msDef cs r).name = r.name ∧ (msDef cs r).primary = r.isPrimary ∧
    (msDef cs r).unique = r.isUnique ∧ (msDef cs r).indexType = r.typeDesc ∧ (msDef cs r).options = r.start.options ∧
    (msDef cs r).columns = ((msColumnsOf cs r).filter fun c => !c.isIncluded).map msColText ∧
    (msDef cs r).included = ((msColumnsOf cs r).filter fun c => c.isIncluded).map fun c => bracketed c.columnName := by
  unfold msDef
  rw [indexDef_eq]
  exact ⟨rfl, rfl, rfl, rfl, rfl, rfl, rfl⟩

theorem msPrimary_text {cs : List Ms.IndexColumnRow} {r : Ms.IndexRow} {p : Pk} (h : MsPrimarySays cs r p) :
    MsItemStands (msDef cs r).primaryText p.tokens := by
  obtain ⟨c, f, fs, inc, hi, rfl⟩ := h
  obtain ⟨e1, -, -, e4, e5, e6, -⟩ := msDef_facts cs r
  obtain ⟨k1, k2⟩ := msKind_text hi.kind
  obtain ⟨o1, o2⟩ := msOptions_text hi.fillfactor
  obtain ⟨c1, c2⟩ := msCols_stand (rs := (msColumnsOf cs r).filter fun c => !c.isIncluded)
    (fun x hx => hi.names x (List.mem_of_mem_filter hx)) hi.columns
  unfold Ms.IndexDef.primaryText
  rw [e1, e4, e5, e6]
  constructor
  · have h1 := lay_then (lay_word (mode := .mssql) (w := "CONSTRAINT") (by decide +kernel)) (follow_append (follow_part (lay_bracket hi.name))
      (follow_append (follow_spaced (ws := ["PRIMARY", "KEY"]) (by decide +kernel)) (follow_append k1 (follow_append (follow_wrapped c1) o1))))
    have e : lit "CONSTRAINT [" ++ r.name ++ lit "] PRIMARY KEY" ++ Ms.typeText r.typeDesc ++ lit " (" ++
        join (lit ", ") (List.map msColText ((msColumnsOf cs r).filter fun c => !c.isIncluded)) ++ lit ")" ++ Ms.optionsText r.start.options =
        lit "CONSTRAINT" ++ ((' ' :: bracketed r.name) ++ (spaced ["PRIMARY", "KEY"] ++ (Ms.typeText r.typeDesc ++ ((' ' :: '(' ::
        (join (lit ", ") (List.map msColText ((msColumnsOf cs r).filter fun c => !c.isIncluded)) ++ [')'])) ++ Ms.optionsText r.start.options)))) := by
      simp [lit, bracketed, spaced]
    rw [e]
    simpa [Pk.tokens, kws, Partition.tokens] using h1
  · exact quiet_append (quiet_append (quiet_append (quiet_append (quiet_append (quiet_append (quiet_append (quiet_lit "CONSTRAINT [" (by decide)) hi.name.quiet)
      (quiet_lit "] PRIMARY KEY" (by decide))) k2) (quiet_lit " (" (by decide))) c2) (quiet_lit ")" (by decide))) o2

/-- A text without white space around it. -/
theorem trimSpace_ends {a b : Str} (c : Char) (ha : a.head? = some c) (hc : isSpace c = false) (d : Char) (hd : isSpace d = false) :
    trimSpace (a ++ b ++ [d]) = a ++ b ++ [d] := by
  refine trimSpace_id ?_ ?_
  · intro x hx
    have : (a ++ b ++ [d]).head? = some c := by
      cases a with
      | nil => simp at ha
      | cons y a => simpa using ha
    rw [this] at hx
    cases hx
    exact hc
  · intro x hx
    rw [List.getLast?_concat] at hx
    cases hx
    exact hd

/-- The text is one statement, and it is written in one of the ways to write it. -/
structure TextReads (mode : Mode) (text : Str) (s : Sentence) : Prop where
  layout : Layout mode text s.tokens
  semicolon : ';' ∉ text
  comment : NoComment text
  trimmed : trimSpace text = text

theorem TextReads.says {mode : Mode} {text : Str} {s : Sentence} (h : TextReads mode text s) : TextSays mode text s :=
  ⟨tokenize_layout h.layout, h.semicolon, h.comment, h.trimmed⟩

theorem msSecondary_text {schema table : Str} (hs : BareName schema) (ht : BareName table) {cs : List Ms.IndexColumnRow} {r : Ms.IndexRow} {i : NewIndex}
    (h : MsSecondarySays schema table cs r i) : TextReads .mssql ((msDef cs r).createText (schema ++ '.' :: table)) (.index i) := by
  obtain ⟨c, f, fs, inc, hi, rfl⟩ := h
  obtain ⟨e1, -, e3, e4, e5, e6, e7⟩ := msDef_facts cs r
  obtain ⟨k1, k2⟩ := msKind_text hi.kind
  obtain ⟨o1, o2⟩ := msOptions_text hi.fillfactor
  obtain ⟨c1, c2⟩ := msCols_stand (rs := (msColumnsOf cs r).filter fun c => !c.isIncluded)
    (fun x hx => hi.names x (List.mem_of_mem_filter hx)) hi.columns
  obtain ⟨n1, n2⟩ := msIncluded_stand (rs := (msColumnsOf cs r).filter fun c => c.isIncluded)
    (fun x hx => hi.names x (List.mem_of_mem_filter hx)) hi.included
  have u : Follow .mssql (if r.isUnique then lit " UNIQUE" else []) (given (r.isUnique = true) [kw "UNIQUE"]) ∧
      Quiet (if r.isUnique then lit " UNIQUE" else []) := by
    cases r.isUnique with
    | false => exact ⟨follow_nil _, by constructor <;> simp⟩
    | true => exact ⟨follow_spaced (ws := ["UNIQUE"]) (by decide +kernel), by constructor <;> decide⟩
  have q0 : Quiet (schema ++ '.' :: table) := quiet_append (bare_quiet hs)
    (quiet_append (a := lit ".") (by constructor <;> decide) (bare_quiet ht))
  have et : (msDef cs r).createText (schema ++ '.' :: table) = lit "CREATE" ++ (if r.isUnique then lit " UNIQUE" else []) ++ Ms.typeText r.typeDesc ++
      lit " INDEX [" ++ r.name ++ lit "] ON " ++ (schema ++ '.' :: table) ++ lit " (" ++
      join (lit ", ") (List.map msColText ((msColumnsOf cs r).filter fun c => !c.isIncluded)) ++ lit ")" ++
      (if ((msColumnsOf cs r).filter fun c => c.isIncluded).map (fun c => bracketed c.columnName) = [] then [] else
      lit " INCLUDE (" ++ join (lit ", ") (((msColumnsOf cs r).filter fun c => c.isIncluded).map fun c => bracketed c.columnName) ++ lit ")") ++
      Ms.optionsText r.start.options := by
    unfold Ms.IndexDef.createText
    rw [e1, e3, e4, e5, e6, e7]
  have q := quiet_append (quiet_append (quiet_append (quiet_append (quiet_append (quiet_append (quiet_append (quiet_append (quiet_append
    (quiet_append (quiet_append (quiet_lit "CREATE" (by decide)) u.2) k2) (quiet_lit " INDEX [" (by decide))) hi.name.quiet) (quiet_lit "] ON " (by decide))) q0)
    (quiet_lit " (" (by decide))) c2) (quiet_lit ")" (by decide))) n2) o2
  rw [et]
  constructor
  · have h1 := lay_then (lay_word (mode := .mssql) (w := "CREATE") (by decide +kernel)) (follow_append u.1 (follow_append k1
      (follow_append (follow_spaced (ws := ["INDEX"]) (by decide +kernel)) (follow_append (follow_part (lay_bracket hi.name))
      (follow_append (follow_spaced (ws := ["ON"]) (by decide +kernel)) (follow_append (follow_part (lay_dotted hs ht))
      (follow_append (follow_wrapped c1) (follow_append n1 o1))))))))
    generalize join (lit ", ") (List.map msColText ((msColumnsOf cs r).filter fun c => !c.isIncluded)) = x at h1 ⊢
    generalize (if ((msColumnsOf cs r).filter fun c => c.isIncluded).map (fun c => bracketed c.columnName) = [] then [] else
      lit " INCLUDE (" ++ join (lit ", ") (((msColumnsOf cs r).filter fun c => c.isIncluded).map fun c => bracketed c.columnName) ++ lit ")") = y at h1 ⊢
    generalize Ms.optionsText r.start.options = z at h1 ⊢
    generalize Ms.typeText r.typeDesc = v at h1 ⊢
    generalize (if r.isUnique then lit " UNIQUE" else []) = w at h1 ⊢
    have e : lit "CREATE" ++ w ++ v ++ lit " INDEX [" ++ r.name ++ lit "] ON " ++ (schema ++ '.' :: table) ++ lit " (" ++ x ++ lit ")" ++ y ++ z =
        lit "CREATE" ++ (w ++ (v ++ (spaced ["INDEX"] ++ ((' ' :: bracketed r.name) ++ (spaced ["ON"] ++ ((' ' :: (schema ++ '.' :: table)) ++
        ((' ' :: '(' :: (x ++ [')'])) ++ (y ++ z)))))))) := by
      simp [lit, bracketed, spaced]
    rw [e]
    simpa [Sentence.tokens, NewIndex.tokens, kws, tableRef_tokens, whereTokens, optionally, Partition.tokens] using h1
  · exact q.1
  · refine noComment_line q.2 ?_
    intro a ha
    have := congrArg List.head? ha
    simp [lit] at this
  · obtain ⟨z, hz⟩ : ∃ z, Ms.optionsText r.start.options = z ++ [')'] := by
      unfold Ms.optionsText
      rw [if_neg (by simp [Ms.IndexRow.start])]
      exact ⟨lit " WITH (" ++ join (lit ",") (r.start.options.map fun o => lit " " ++ o.1 ++ lit " = " ++ o.2) ++ [' '], by simp [lit]⟩
    rw [hz]
    have e : ∀ a b d g h k l m n o p : Str, a ++ b ++ d ++ g ++ h ++ k ++ l ++ m ++ n ++ o ++ p ++ (z ++ [')']) =
        a ++ (b ++ d ++ g ++ h ++ k ++ l ++ m ++ n ++ o ++ p ++ z) ++ [')'] := by
      intros
      simp
    rw [e]
    exact trimSpace_ends 'C' rfl (by decide) ')' (by decide)

/-! ### Foreign keys -/

theorem msAction_words : ∀ p ∈ msActions, ∃ ws : List String, (∀ w ∈ ws, plainWord (lit w) = true) ∧
    spaced ws = ' ' :: Ms.underscoresToSpaces (lit p.1) ∧ kws ws = p.2.tokens ∧ Quiet (Ms.underscoresToSpaces (lit p.1)) := by
  intro p hp
  simp only [msActions, List.mem_cons, List.not_mem_nil, or_false] at hp
  rcases hp with rfl | rfl | rfl
  · exact ⟨["NO", "ACTION"], by decide +kernel, by decide, rfl, by constructor <;> decide⟩
  · exact ⟨["CASCADE"], by decide +kernel, by decide, rfl, by constructor <;> decide⟩
  · exact ⟨["SET", "NULL"], by decide +kernel, by decide, rfl, by constructor <;> decide⟩

theorem msForeignKey_text {r : Ms.FkRow} {f : Fk} (h : MsForeignKeySays r f) : MsItemStands r.text f.tokens := by
  obtain ⟨h1, h2, h3, h4⟩ := h.names
  obtain ⟨w, u, v, d, hw, hv, eu, ed, rfl⟩ := h.actions
  obtain ⟨us, u1, u2, u3, u4⟩ := msAction_words _ hw
  obtain ⟨ds, d1, d2, d3, d4⟩ := msAction_words _ hv
  obtain ⟨fr, qr⟩ := follow_replication r.notForReplication
  unfold Ms.FkRow.text
  rw [eu, ed]
  constructor
  · have fu := follow_spaced (mode := .mssql) u1
    have fd := follow_spaced (mode := .mssql) d1
    rw [u2, u3] at fu
    rw [d2, d3] at fd
    have k := lay_then (lay_word (mode := .mssql) (w := "CONSTRAINT") (by decide +kernel)) (follow_append (follow_part (lay_bracket h1))
      (follow_append (follow_spaced (ws := ["FOREIGN", "KEY"]) (by decide +kernel)) (follow_append (follow_wrapped (lay_bracket h2))
      (follow_append (follow_spaced (ws := ["REFERENCES"]) (by decide +kernel)) (follow_append (follow_part (lay_bracket h3))
      (follow_append (follow_wrapped (lay_bracket h4)) (follow_append (follow_spaced (ws := ["ON", "UPDATE"]) (by decide +kernel))
      (follow_append fu (follow_append (follow_spaced (ws := ["ON", "DELETE"]) (by decide +kernel)) (follow_append fd fr))))))))))
    generalize Ms.underscoresToSpaces (lit w) = x at k ⊢
    generalize Ms.underscoresToSpaces (lit v) = y at k ⊢
    generalize (if r.notForReplication then lit " NOT FOR REPLICATION" else []) = z at k ⊢
    have e : lit "CONSTRAINT [" ++ r.constraintName ++ lit "] FOREIGN KEY ([" ++ r.columnName ++ lit "]) REFERENCES [" ++ r.foreignTableName ++
        lit "] ([" ++ r.foreignColumnName ++ lit "]) ON UPDATE " ++ x ++ lit " ON DELETE " ++ y ++ z =
        lit "CONSTRAINT" ++ ((' ' :: bracketed r.constraintName) ++ (spaced ["FOREIGN", "KEY"] ++ ((' ' :: '(' :: (bracketed r.columnName ++ [')'])) ++
        (spaced ["REFERENCES"] ++ ((' ' :: bracketed r.foreignTableName) ++ ((' ' :: '(' :: (bracketed r.foreignColumnName ++ [')'])) ++
        (spaced ["ON", "UPDATE"] ++ ((' ' :: x) ++ (spaced ["ON", "DELETE"] ++ ((' ' :: y) ++ z)))))))))) := by
      simp [lit, bracketed, spaced]
    rw [e]
    simpa [Fk.tokens, kws, optionally, nameTokens, TableRef.tokens, RefActions.tokens, replicationTokens] using k
  · exact quiet_append (quiet_append (quiet_append (quiet_append (quiet_append (quiet_append (quiet_append (quiet_append (quiet_append (quiet_append
      (quiet_append (quiet_append (quiet_lit "CONSTRAINT [" (by decide)) h1.quiet) (quiet_lit "] FOREIGN KEY ([" (by decide))) h2.quiet)
      (quiet_lit "]) REFERENCES [" (by decide))) h3.quiet) (quiet_lit "] ([" (by decide))) h4.quiet) (quiet_lit "]) ON UPDATE " (by decide))) u4)
      (quiet_lit " ON DELETE " (by decide))) d4) qr

end Sqldef
