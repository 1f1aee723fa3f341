import Verif.Proofs.WrittenMoreReads
import Verif.Props.CreateTable
import Verif.Props.Parser
import Verif.Props.Normal

/-!
C57: the statements of a schema file are understood as written.  The language of the statements and their meaning are in
Spec/Written.lean and Spec/WrittenMore.lean, the ways to write a sequence of tokens in Spec/Layout.lean, the statements of
a file in Spec/Text.lean.
-/
namespace Sqldef
open Spec Written

/-- **C57.** A text whose tokens are those of a `CREATE TABLE`, a `CREATE INDEX`, an `ALTER TABLE ... ADD` or a
`CREATE POLICY`, with or without a semicolon at the end, is parsed to the syntax tree that the statement means. -/
theorem C57_statement_is_understood (mode : Mode) (text : Str) (s : Sentence) (h : s.Clear) (semicolon : Bool)
    (ht : tokenize mode text = .ok (s.tokens ++ given (semicolon = true) [sym ';'])) :
    Sql.parseStrictDDLWithMode mode text = .ok (.ddl s.meaning) := Sql.parse_sentence h semicolon ht

/-- **C57.** It does not matter how the tokens are laid out. -/
theorem C57_statement_in_any_layout (mode : Mode) (text : Str) (s : Sentence) (h : s.Clear) (semicolon : Bool)
    (hl : Layout mode text (s.tokens ++ given (semicolon = true) [sym ';'])) :
    Sql.parseStrictDDLWithMode mode text = .ok (.ddl s.meaning) :=
  C57_statement_is_understood mode text s h semicolon (tokenize_layout hl)

/-- The columns of the indexes of a statement. -/
def Spec.Written.Sentence.indexColumns : Sentence → List IndexCol
  | .table t => t.rest.flatMap Item.indexColumns
  | .index i => i.first :: i.rest
  | .alter a => match a.added with
    | .index _ _ _ c cs => c :: cs
    | .primaryKey _ c cs => c :: cs
    | .foreignKey _ => []
  | .policy _ => []

/-- The lengths of the columns of the indexes are numbers in range. -/
def Spec.Written.Sentence.InRange (s : Sentence) : Prop :=
  ∀ c ∈ s.indexColumns, ∀ n, c.length = some n → ∃ k, atoi n = (k, none)

theorem indexColumns_convert {cs : List IndexCol} (h : ∀ c ∈ cs, ∀ n, c.length = some n → ∃ k, atoi n = (k, none)) :
    ∃ r, parseIndexColumns (cs.map IndexCol.meaning) = .ok r := by
  refine parseIndexColumns_ok ?_
  intro c hc v hv
  obtain ⟨k, hk, rfl⟩ := List.mem_map.mp hc
  simp only [IndexCol.meaning, Option.map_eq_some_iff] at hv
  obtain ⟨n, hn, rfl⟩ := hv
  obtain ⟨m, hm⟩ := h k hk n hn
  exact ⟨m, rfl, hm⟩

theorem whereMeaning_panics (c : Option Ex) : wherePanics (whereMeaning c) = false := by
  cases c <;> rfl

theorem newIndex_panics (i : NewIndex) : wherePanics i.spec.whereClause = false := by
  unfold NewIndex.spec
  cases i.form <;> first | rfl | exact whereMeaning_panics _

/-- The kind of the definition is the kind of the statement. -/
def Spec.Written.Sentence.Kind (s : Sentence) (d : DDL) : Prop :=
  match s with
  | .table _ => ∃ x t, d = .createTable x t
  | .index _ => ∃ x n i, d = .createIndex x n i
  | .alter a => match a.added with
    | .index .. => ∃ x n i, d = .addIndex x n i
    | .primaryKey .. => ∃ x n i, d = .addPrimaryKey x n i
    | .foreignKey _ => ∃ x n f, d = .addForeignKey x n f
  | .policy _ => ∃ x n p, d = .addPolicy x n p

/-- **C57.** Such a statement is a definition of the schema, of the same kind and with the same content, field by field, if
the lengths of the columns of indexes are numbers in range. -/
theorem C57_statement_is_a_definition (fmtFloat : Str → Str) (mode : Mode) (text : Str) (s : Sentence) (h : s.Clear)
    (semicolon : Bool) (ht : tokenize mode text = .ok (s.tokens ++ given (semicolon = true) [sym ';'])) (hn : s.InRange) :
    ∃ d, parseDDL (Sql.env fmtFloat) mode text = .ok d ∧ SaysTheSame mode text s.meaning d ∧ s.Kind d ∧
      d.statement = text := by
  have hp : (Sql.env fmtFloat).parse mode text = .ok (.ddl s.meaning) := C57_statement_is_understood mode text s h semicolon ht
  suffices hd : ∃ d, parseDDL (Sql.env fmtFloat) mode text = .ok d ∧ s.Kind d ∧ d.statement = text by
    obtain ⟨d, hd, hk, hx⟩ := hd
    obtain ⟨a, ha, hs⟩ := C51_definition_says_what_the_statement_says _ mode text _ hd
    cases hp.symm.trans ha
    exact ⟨d, hd, hs, hk, hx⟩
  have index : ∀ (a : SqlDDL) (sp : SqlIndexSpec) (cs : List IndexCol), a.indexSpec = some sp → wherePanics sp.whereClause = false →
      a.indexCols = cs.map IndexCol.meaning → (∀ c ∈ cs, ∀ n, c.length = some n → ∃ k, atoi n = (k, none)) →
      ∃ i, parseIndex (Sql.env fmtFloat) a = .ok i := by
    intro a sp cs h1 h2 h3 h4
    obtain ⟨r, hr⟩ := indexColumns_convert h4
    exact ⟨_, by simp only [parseIndex, h1, h3, hr, h2]; rfl⟩
  cases s with
  | table t =>
    obtain ⟨d, hd, -⟩ := C56_create_table_is_a_definition fmtFloat mode text t h semicolon ht
      (fun i hi c hc => hn c (List.mem_flatMap.mpr ⟨i, hi, hc⟩))
    exact ⟨_, hd, ⟨_, _, rfl⟩, rfl⟩
  | index i =>
    obtain ⟨x, hx⟩ := index i.meaning _ (i.first :: i.rest) rfl (newIndex_panics i) rfl hn
    refine ⟨.createIndex text (normalizedTableName mode i.table.meaning) x, ?_, ⟨_, _, _, rfl⟩, rfl⟩
    have ha : i.meaning.action = lit "create index" := rfl
    simp only [parseDDL, hp, convertStatement, Sentence.meaning, hx, ha]
    rw [if_neg (by decide), if_pos trivial]
    rfl
  | alter a =>
    cases e : a.added with
    | index u i n c cs =>
      have hm : a.meaning = { action := lit "add index", table := a.table.meaning, newName := a.table.meaning, indexSpec := some { name := n, unique := u }, indexCols := (c :: cs).map IndexCol.meaning } := by
        simp only [Alter.meaning, e]
      obtain ⟨x, hx⟩ := index a.meaning _ (c :: cs) (by rw [hm]) rfl (by rw [hm]) (by
        have := hn
        simp only [Sentence.InRange, Sentence.indexColumns, e] at this
        exact this)
      refine ⟨.addIndex text (normalizedTableName mode a.table.meaning) x, ?_, ?_, rfl⟩
      · have ha : a.meaning.action = lit "add index" := by rw [hm]
        have hb : a.meaning.table = a.table.meaning := by rw [hm]
        simp only [parseDDL, hp, convertStatement, Sentence.meaning, hx, ha, hb]
        rw [if_neg (by decide), if_neg (by decide), if_pos trivial]
        rfl
      · simp only [Sentence.Kind, e]
        exact ⟨_, _, _, rfl⟩
    | primaryKey n c cs =>
      have hm : a.meaning = { action := lit "add primary key", table := a.table.meaning, newName := a.table.meaning, indexSpec := some { name := n }, indexCols := (c :: cs).map IndexCol.meaning } := by
        simp only [Alter.meaning, e]
      obtain ⟨x, hx⟩ := index a.meaning _ (c :: cs) (by rw [hm]) rfl (by rw [hm]) (by
        have := hn
        simp only [Sentence.InRange, Sentence.indexColumns, e] at this
        exact this)
      refine ⟨.addPrimaryKey text (normalizedTableName mode a.table.meaning) x, ?_, ?_, rfl⟩
      · have ha : a.meaning.action = lit "add primary key" := by rw [hm]
        have hb : a.meaning.table = a.table.meaning := by rw [hm]
        simp only [parseDDL, hp, convertStatement, Sentence.meaning, hx, ha, hb]
        rw [if_neg (by decide), if_neg (by decide), if_neg (by decide), if_pos trivial]
        rfl
      · simp only [Sentence.Kind, e]
        exact ⟨_, _, _, rfl⟩
    | foreignKey f =>
      have hm : a.meaning = { action := lit "add foreign key", table := a.table.meaning, newName := a.table.meaning, foreignKey := some f.meaning } := by
        simp only [Alter.meaning, e]
      refine ⟨.addForeignKey text (normalizedTableName mode a.table.meaning) (parseForeignKey f.meaning), ?_, ?_, rfl⟩
      · simp only [parseDDL, hp, convertStatement, Sentence.meaning, hm]
        rw [if_neg (by decide), if_neg (by decide), if_neg (by decide), if_neg (by decide), if_pos trivial]
      · simp only [Sentence.Kind, e]
        exact ⟨_, _, _, rfl⟩
  | policy p =>
    have np : ∀ o : Option Ex, predicatePanics (o.map Ex.meaning) = false := by intro o; cases o <;> rfl
    refine ⟨.addPolicy text (normalizedTableName mode p.table.meaning)
      { name := p.name, permissive := (p.permissive.map fun b => lit (permissiveWord b)).getD [],
        scope := (p.scope.map fun w => lit w).getD [], roles := p.first :: p.rest,
        using_ := ((p.condition.map Ex.meaning).map (·.text)).getD [],
        withCheck := ((p.check.map Ex.meaning).map (·.text)).getD [] }, ?_, ⟨_, _, _, rfl⟩, rfl⟩
    have ha : p.meaning.action = lit "create policy" := rfl
    simp only [parseDDL, hp, convertStatement, Sentence.meaning, ha]
    rw [if_neg (by decide), if_neg (by decide), if_neg (by decide), if_neg (by decide), if_neg (by decide), if_pos trivial]
    simp only [NewPolicy.meaning, np, Bool.or_self]
    rfl

/-! ### Whole files -/

/-- The file consists of these statements: each of the statements in the file has the tokens of one of them, in order. -/
def Spec.Written.Contains (mode : Mode) (file : Str) (ss : List Sentence) : Prop :=
  List.Forall₂ (fun text s => tokenize mode text = .ok s.tokens) (statementTexts file) ss

/-- **C57.** A schema file that consists of such statements is understood: every statement of it is a definition, in the
order of the file, of the same kind and with the same content. -/
theorem C57_file_is_understood (fmtFloat : Str → Str) (mode : Mode) (file : Str) (ss : List Sentence)
    (hf : Contains mode file ss) (h : ∀ s ∈ ss, s.Clear ∧ s.InRange) :
    ∃ ds, parseDDLs (Sql.env fmtFloat) mode file = .ok ds ∧
      List.Forall₂ (fun s d => SaysTheSame mode d.statement s.meaning d ∧ s.Kind d) ss ds ∧
      ds.map DDL.statement = statementTexts file := by
  have key : ∀ (ts : List Str) (ss : List Sentence), List.Forall₂ (fun text s => tokenize mode text = .ok s.tokens) ts ss →
      (∀ s ∈ ss, s.Clear ∧ s.InRange) →
      ∃ ds, List.Forall₂ (fun t d => parseDDL (Sql.env fmtFloat) mode t = .ok d) ts ds ∧
        List.Forall₂ (fun s d => SaysTheSame mode d.statement s.meaning d ∧ s.Kind d) ss ds := by
    intro ts ss hts
    induction hts with
    | nil => exact fun _ => ⟨[], .nil, .nil⟩
    | @cons t s ts ss ht _ ih =>
      intro h
      obtain ⟨ds, h1, h2⟩ := ih fun s hs => h s (List.mem_cons_of_mem _ hs)
      obtain ⟨hc, hr⟩ := h s List.mem_cons_self
      obtain ⟨d, hd, hs, hk, hx⟩ := C57_statement_is_a_definition fmtFloat mode t s hc false (by simpa [given] using ht) hr
      exact ⟨d :: ds, .cons hd h1, .cons ⟨by rw [hx]; exact hs, hk⟩ h2⟩
  obtain ⟨ds, h1, h2⟩ := key _ _ hf h
  have hp := (C12_one_definition_per_statement _ mode file ds).2 h1
  exact ⟨ds, hp, h2, C12_texts_are_kept _ mode file ds hp⟩

/-- The definition with another text as its statement. -/
def DDL.withText (x : Str) : DDL → DDL
  | .createTable _ t => .createTable x t
  | .createIndex _ n i => .createIndex x n i
  | .addIndex _ n i => .addIndex x n i
  | .addPrimaryKey _ n i => .addPrimaryKey x n i
  | .addForeignKey _ n f => .addForeignKey x n f
  | .addPolicy _ n p => .addPolicy x n p
  | .view v => .view { v with statement := x }
  | .trigger t => .trigger { t with statement := x }

theorem convert_withText (env : Env) (mode : Mode) (x y : Str) (s : SqlStatement) (d : DDL)
    (h : convertStatement env mode x s = .ok d) : convertStatement env mode y s = .ok (d.withText y) := by
  cases s with
  | other => cases h
  | ddl a =>
    simp only [convertStatement] at h ⊢
    split at h <;> rename_i h0
    · obtain ⟨t, ht, h⟩ := bind_ok_inv h
      cases h
      rw [if_pos h0, ht]
      rfl
    rw [if_neg h0]
    clear h0
    split at h <;> rename_i h0
    · obtain ⟨t, ht, h⟩ := bind_ok_inv h
      cases h
      rw [if_pos h0, ht]
      rfl
    rw [if_neg h0]
    clear h0
    split at h <;> rename_i h0
    · obtain ⟨t, ht, h⟩ := bind_ok_inv h
      cases h
      rw [if_pos h0, ht]
      rfl
    rw [if_neg h0]
    clear h0
    split at h <;> rename_i h0
    · obtain ⟨t, ht, h⟩ := bind_ok_inv h
      cases h
      rw [if_pos h0, ht]
      rfl
    rw [if_neg h0]
    clear h0
    split at h <;> rename_i h0
    · rw [if_pos h0]
      split at h
      · cases h
      · cases h
        rfl
    rw [if_neg h0]
    clear h0
    split at h <;> rename_i h0
    · rw [if_pos h0]
      split at h
      · cases h
      · split at h <;> rename_i h1
        · cases h
        · cases h
          simp only [h1]
          rfl
    rw [if_neg h0]
    clear h0
    split at h <;> rename_i h0
    · rw [if_pos h0]
      split at h
      · cases h
      · split at h <;> rename_i h1
        · cases h
        · cases h
          simp only [h1]
          rfl
    rw [if_neg h0]
    clear h0
    split at h <;> rename_i h0
    · rw [if_pos h0]
      split at h
      · cases h
      · split at h <;> rename_i h1
        · cases h
        · cases h
          simp only [h1]
          rfl
    · cases h

/-- Definitions that differ in nothing but the text of the statement, and are no views or triggers. -/
def SameTable (a b : DDL) : Prop :=
  a.withText [] = b.withText [] ∧ (∀ v, a ≠ .view v) ∧ (∀ v, a ≠ .trigger v)

theorem convertFrom_same {ds ds' : List DDL} (h : List.Forall₂ SameTable ds ds') (ts : List Table) :
    convertFrom ts ds = convertFrom ts ds' := by
  induction h generalizing ts with
  | nil => rfl
  | @cons a b as bs hab _ ih =>
    obtain ⟨h, hv, ht⟩ := hab
    have e : convertStep ts a = convertStep ts b := by
      cases a <;> cases b <;> first | (cases h; done) | (exact absurd rfl (hv _)) | (exact absurd rfl (ht _)) | skip
      all_goals simp only [DDL.withText, DDL.createTable.injEq, DDL.createIndex.injEq, DDL.addIndex.injEq, DDL.addPrimaryKey.injEq,
        DDL.addForeignKey.injEq, DDL.addPolicy.injEq, true_and] at h
      · subst h; rfl
      all_goals (obtain ⟨rfl, rfl⟩ := h; rfl)
    simp only [convertFrom, e, ih]

theorem views_same {ds ds' : List DDL} (h : List.Forall₂ SameTable ds ds') :
    convertDDLsToViews ds = convertDDLsToViews ds' ∧ convertDDLsToTriggers ds = convertDDLsToTriggers ds' := by
  induction h with
  | nil => exact ⟨rfl, rfl⟩
  | @cons a b as bs hab _ ih =>
    obtain ⟨h, hv, ht⟩ := hab
    obtain ⟨i1, i2⟩ := ih
    unfold convertDDLsToViews at i1 ⊢
    unfold convertDDLsToTriggers at i2 ⊢
    simp only [List.filterMap_cons]
    cases a <;> cases b <;>
      first
      | (cases h; done) | (exact absurd rfl (hv _)) | (exact absurd rfl (ht _))
      | exact ⟨i1, i2⟩

theorem diff_same (mode : Mode) (want : List DDL) {ds ds' : List DDL} (h : List.Forall₂ SameTable ds ds') :
    diff mode want ds = diff mode want ds' := by
  obtain ⟨h1, h2⟩ := views_same h
  unfold diff convertDDLsToTables
  rw [convertFrom_same h, h1, h2]

theorem withText_withText (x y : Str) (d : DDL) : (d.withText x).withText y = d.withText y := by cases d <;> rfl

theorem definitions_same (fmtFloat : Str → Str) (mode : Mode) {file file' : Str} {ss : List Sentence} {ds ds' : List DDL}
    (hf : Contains mode file ss) (hf' : Contains mode file' ss) (h : ∀ s ∈ ss, s.Clear ∧ s.InRange)
    (hd : parseDDLs (Sql.env fmtFloat) mode file = .ok ds) (hd' : parseDDLs (Sql.env fmtFloat) mode file' = .ok ds') :
    List.Forall₂ SameTable ds ds' := by
  rw [C12_one_definition_per_statement] at hd hd'
  unfold Contains at hf hf'
  generalize statementTexts file = ts at *
  generalize statementTexts file' = ts' at *
  clear file file'
  induction ss generalizing ts ts' ds ds' with
  | nil =>
    cases hf
    cases hf'
    cases hd
    cases hd'
    exact .nil
  | cons s ss ih =>
    cases hf with
    | @cons t _ ts _ ht hts =>
    cases hf' with
    | @cons t' _ ts' _ ht' hts' =>
    cases hd with
    | @cons _ d _ ds hd hds =>
    cases hd' with
    | @cons _ d' _ ds' hd' hds' =>
    refine .cons ?_ (ih (fun s hs => h s (List.mem_cons_of_mem _ hs)) _ hts hds _ hts' hds')
    obtain ⟨hc, hr⟩ := h s List.mem_cons_self
    obtain ⟨e, he, -, hk, -⟩ := C57_statement_is_a_definition fmtFloat mode t s hc false (by simpa [given] using ht) hr
    cases hd.symm.trans he
    have hp := C57_statement_is_understood mode t s hc false (by simpa [given] using ht)
    have hp' := C57_statement_is_understood mode t' s hc false (by simpa [given] using ht')
    have h1 : convertStatement (Sql.env fmtFloat) mode t (.ddl s.meaning) = .ok d := by
      rw [← hd, parseDDL, show (Sql.env fmtFloat).parse mode t = _ from hp]
    have h2 : convertStatement (Sql.env fmtFloat) mode t' (.ddl s.meaning) = .ok d' := by
      rw [← hd', parseDDL, show (Sql.env fmtFloat).parse mode t' = _ from hp']
    cases h2.symm.trans (convert_withText _ mode t t' _ d h1)
    refine ⟨(withText_withText _ _ _).symm, ?_, ?_⟩
    all_goals
      intro v hv
      subst hv
      cases s with
      | alter a => cases e : a.added <;> simp [Sentence.Kind, e] at hk
      | _ => simp [Sentence.Kind] at hk

/-- **C57.** How the current schema is written does not matter: two files of the same statements, each in a layout of its
own, lead to the same changes, whatever schema is desired. -/
theorem C57_layout_of_the_current_schema_is_irrelevant (fmtFloat : Str → Str) (mode : Mode) (desired file file' : Str)
    (ss : List Sentence) (hf : Contains mode file ss) (hf' : Contains mode file' ss) (h : ∀ s ∈ ss, s.Clear ∧ s.InRange) :
    generateIdempotentDDLs (Sql.env fmtFloat) mode desired file = generateIdempotentDDLs (Sql.env fmtFloat) mode desired file' := by
  obtain ⟨ds, hd, -⟩ := C57_file_is_understood fmtFloat mode file ss hf h
  obtain ⟨ds', hd', -⟩ := C57_file_is_understood fmtFloat mode file' ss hf' h
  unfold generateIdempotentDDLs
  rw [hd, hd']
  cases parseDDLs (Sql.env fmtFloat) mode desired with
  | error e => rfl
  | ok want =>
    change (diff mode want ds >>= fun l => pure (l.map (Stmt.render mode))) =
      (diff mode want ds' >>= fun l => pure (l.map (Stmt.render mode)))
    rw [diff_same mode want (definitions_same fmtFloat mode hf hf' h hd hd')]

/-- **C57.** Writing the file in another layout changes nothing: if the database reports the statements of the file, in
whatever layout, there is nothing to do (for a schema in dump-normal form, see C18). -/
theorem C57_rewriting_changes_nothing (fmtFloat : Str → Str) (mode : Mode) (file file' : Str) (ss : List Sentence)
    (hf : Contains mode file ss) (hf' : Contains mode file' ss) (h : ∀ s ∈ ss, s.Clear ∧ s.InRange) (ds : List DDL)
    (hd : parseDDLs (Sql.env fmtFloat) mode file = .ok ds) (hn : Normal mode ds) :
    generateIdempotentDDLs (Sql.env fmtFloat) mode file file' = .ok [] := by
  rw [← C57_layout_of_the_current_schema_is_irrelevant fmtFloat mode file file file' ss hf hf' h]
  unfold generateIdempotentDDLs
  rw [hd]
  change (diff mode ds ds >>= fun l => pure (l.map (Stmt.render mode))) = _
  rw [C18_self_diff_is_empty hn]
  rfl

/-! ### What is lost -/

/-- **C57**, what is lost: the method of access of an index, and all the options of an index with a method named after
its table. Two such statements say the same. -/
theorem C57_method_and_options_are_lost (mode : Mode) (i : NewIndex) (m m' : Str) (o o' : IndexOpts) (c : Option Ex)
    (hc : ClearCondition c) (ho : ∀ x ∈ o.all, x.Known) (ho' : ∀ x ∈ o'.all, x.Known) (text text' : Str)
    (ht : tokenize mode text = .ok { i with form := .methodLast m c o }.tokens)
    (ht' : tokenize mode text' = .ok { i with form := .methodLast m' c o' }.tokens) :
    Sql.parseStrictDDLWithMode mode text = Sql.parseStrictDDLWithMode mode text' := by
  rw [C57_statement_is_understood mode text (.index { i with form := .methodLast m c o }) ⟨hc, ho⟩ false
      (by simpa [given, Sentence.tokens] using ht),
    C57_statement_is_understood mode text' (.index { i with form := .methodLast m' c o' }) ⟨hc, ho'⟩ false
      (by simpa [given, Sentence.tokens] using ht')]
  rfl

/-- **C57**, what is lost: `IGNORE` of an `ALTER TABLE`, and whether an index is added as an `INDEX` or a `KEY`. -/
theorem C57_ignore_is_lost (mode : Mode) (t : TableRef) (u i i' : Bool) (n : Str) (c : IndexCol) (cs : List IndexCol)
    (text text' : Str)
    (ht : tokenize mode text = .ok (Alter.tokens { ignore := true, table := t, added := .index u i n c cs }))
    (ht' : tokenize mode text' = .ok (Alter.tokens { ignore := false, table := t, added := .index u i' n c cs })) :
    Sql.parseStrictDDLWithMode mode text = Sql.parseStrictDDLWithMode mode text' := by
  rw [C57_statement_is_understood mode text (.alter _) trivial false (by simpa [given, Sentence.tokens] using ht),
    C57_statement_is_understood mode text' (.alter _) trivial false (by simpa [given, Sentence.tokens] using ht')]
  rfl

/-- **C57**, what is changed: a plain `CREATE INDEX` makes a clustered index, as if `CLUSTERED` were written. -/
theorem C57_plain_index_is_clustered (mode : Mode) (i : NewIndex) (hf : i.form.Clear) (text text' : Str)
    (ht : tokenize mode text = .ok { i with clustered := none }.tokens)
    (ht' : tokenize mode text' = .ok { i with clustered := some true }.tokens) :
    Sql.parseStrictDDLWithMode mode text = Sql.parseStrictDDLWithMode mode text' := by
  rw [C57_statement_is_understood mode text (.index { i with clustered := none }) hf false (by simpa [given, Sentence.tokens] using ht),
    C57_statement_is_understood mode text' (.index { i with clustered := some true }) hf false (by simpa [given, Sentence.tokens] using ht')]
  simp only [Sentence.meaning, NewIndex.meaning, NewIndex.spec]
  cases i.form <;> rfl

/-! ### Examples -/

/-- A schema of PostgreSQL. -/
def exWritten : List Sentence :=
  [.table { name := { name := lit "users" },
            first := { name := lit "id", type := .integer "int" none false false, options := [.notNull] },
            rest := [.column { name := lit "name", type := .text "text" .none .none }] },
   .index { unique := true, name := lit "by_name", table := { schema := some (lit "public"), name := lit "users" },
            first := { name := lit "name" }, rest := [{ name := lit "id" }],
            form := .methodLast (lit "btree") (some (.tuple (.compare .gt (.column (lit "id")) (.integer (lit "0"))) [])) .none },
   .alter { table := { name := lit "users" }, added :=
     .foreignKey { constraint := some (lit "fk"), first := lit "id", table := { name := lit "users" }, refFirst := lit "id" } },
   .policy { name := lit "mine", table := { name := lit "users" }, permissive := some false, scope := some "select",
             first := lit "alice", condition := some (.tuple (.compare .eq (.column (lit "id")) (.integer (lit "7"))) []) }]

def exWrittenFile : Str := txt "CREATE TABLE users (id int NOT NULL, name text);
-- a comment
CREATE UNIQUE INDEX by_name ON public.users USING btree (name, id) WHERE (id > 0);
ALTER TABLE ONLY users ADD CONSTRAINT fk FOREIGN KEY (id) REFERENCES users (id);
CREATE POLICY mine ON users AS RESTRICTIVE FOR SELECT TO alice USING (id = 7);
"

def exWrittenAnew : Str := txt "create table \"users\"(\"id\" INT not null,
  \"name\" TEXT);create unique index by_name on public.users using btree(\"name\",id)
  where(id>0)
 ; ; alter table only users add constraint fk foreign key(id)references users(id);
create policy mine on users as restrictive for select to alice using(id=7)"

theorem exWritten_contains : Contains .postgres exWrittenFile exWritten ∧ Contains .postgres exWrittenAnew exWritten := by
  constructor
  · unfold Contains
    rw [show statementTexts exWrittenFile = [txt "CREATE TABLE users (id int NOT NULL, name text)",
      txt "CREATE UNIQUE INDEX by_name ON public.users USING btree (name, id) WHERE (id > 0)",
      txt "ALTER TABLE ONLY users ADD CONSTRAINT fk FOREIGN KEY (id) REFERENCES users (id)",
      txt "CREATE POLICY mine ON users AS RESTRICTIVE FOR SELECT TO alice USING (id = 7)"] by decide +kernel]
    exact .cons (ok_of_check (by decide +kernel)) (.cons (ok_of_check (by decide +kernel))
      (.cons (ok_of_check (by decide +kernel)) (.cons (ok_of_check (by decide +kernel)) .nil)))
  · unfold Contains
    rw [show statementTexts exWrittenAnew = [txt "create table \"users\"(\"id\" INT not null,
  \"name\" TEXT)", txt "create unique index by_name on public.users using btree(\"name\",id)
  where(id>0)", txt "alter table only users add constraint fk foreign key(id)references users(id)",
      txt "create policy mine on users as restrictive for select to alice using(id=7)"] by decide +kernel]
    exact .cons (ok_of_check (by decide +kernel)) (.cons (ok_of_check (by decide +kernel))
      (.cons (ok_of_check (by decide +kernel)) (.cons (ok_of_check (by decide +kernel)) .nil)))

theorem exWritten_clear : ∀ s ∈ exWritten, s.Clear ∧ s.InRange := by
  have hi : GoodName (lit "id") := by
    refine ⟨by decide, ?_, by decide⟩
    decide
  have h0 : GoodInt (lit "0") := ⟨lit "0", by decide, by decide, .inl rfl⟩
  have h7 : GoodInt (lit "7") := ⟨lit "7", by decide, by decide, .inl rfl⟩
  simp [exWritten, Sentence.Clear, Table.Clear, Col.Clear, Ty.Known, ColOption.Clear, integerWords, textWords, clearOptions, Item.Clear,
    IndexForm.Clear, ClearCondition, IndexOpts.all, NewPolicy.Clear, scopeWords, Ex.Proper, Ex.AllProper, Ex.level, Ex.depth, Ex.depths,
    hi, h0, h7, Sentence.InRange, Sentence.indexColumns, Item.indexColumns]

/-- The definitions of the schema above. -/
def exWrittenDefs : List DDL :=
  [.createTable (txt "CREATE TABLE users (id int NOT NULL, name text)") { name := txt "public.users", columns :=
     [{ name := lit "id", position := 0, typeName := lit "int", notNull := some true },
      { name := lit "name", position := 1, typeName := lit "text" }] },
   .createIndex (txt "CREATE UNIQUE INDEX by_name ON public.users USING btree (name, id) WHERE (id > 0)") (txt "public.users")
     { name := lit "by_name", columns := [{ column := lit "name", direction := lit "asc" }, { column := lit "id", direction := lit "asc" }],
       unique := true, whereExpr := lit "id > 0" },
   .addForeignKey (txt "ALTER TABLE ONLY users ADD CONSTRAINT fk FOREIGN KEY (id) REFERENCES users (id)") (txt "public.users")
     { constraintName := lit "fk", indexColumns := [lit "id"], referenceName := lit "users", referenceColumns := [lit "id"] },
   .addPolicy (txt "CREATE POLICY mine ON users AS RESTRICTIVE FOR SELECT TO alice USING (id = 7)") (txt "public.users")
     { name := lit "mine", permissive := lit "restrictive", scope := lit "select", roles := [lit "alice"],
       using_ := lit "(id = 7)" }]

theorem exWritten_parsed : parseDDLs (Sql.env id) .postgres exWrittenFile = .ok exWrittenDefs :=
  ok_of_check (by decide +kernel)

theorem exWritten_normal : Normal .postgres exWrittenDefs where
  unique := by decide
  wellFormed := by
    have e : exWrittenDefs = [] ++ [exWrittenDefs[0]] ++ [exWrittenDefs[1]] ++ [exWrittenDefs[2]] ++ [exWrittenDefs[3]] := rfl
    rw [e, wellFormed_snoc, wellFormed_snoc, wellFormed_snoc, wellFormed_snoc]
    refine ⟨⟨⟨⟨wellFormed_nil, trivial⟩, ?_⟩, ?_⟩, ?_⟩
    · exact ⟨_, rfl, by decide⟩
    · exact ⟨_, rfl, by decide⟩
    · exact ⟨_, rfl, by decide⟩
  noAddIndex := by intro s n i h; simp [exWrittenDefs] at h
  tables := by
    intro s t h
    simp [exWrittenDefs] at h
    obtain ⟨-, rfl⟩ := h
    exact ⟨by decide, by decide, by decide, by decide, by decide, by decide, by decide, fun h => by cases h⟩
  triggers := by decide

/-- The file is understood. -/
example : ∃ ds, parseDDLs (Sql.env id) .postgres exWrittenFile = .ok ds ∧
    List.Forall₂ (fun s d => SaysTheSame .postgres d.statement s.meaning d ∧ s.Kind d) exWritten ds ∧
    ds.map DDL.statement = statementTexts exWrittenFile :=
  C57_file_is_understood id .postgres exWrittenFile exWritten exWritten_contains.1 exWritten_clear

/-- The file written anew has the same effect, and there is nothing to change from one to the other. -/
example : generateIdempotentDDLs (Sql.env id) .postgres exWrittenFile exWrittenAnew = .ok [] :=
  C57_rewriting_changes_nothing id .postgres exWrittenFile exWrittenAnew exWritten exWritten_contains.1 exWritten_contains.2
    exWritten_clear _ exWritten_parsed exWritten_normal

/-- A CREATE INDEX of SQL Server with everything that can be written. -/
def exCovering : Sentence :=
  .index { unique := true, clustered := some false, name := lit "ix", table := { schema := some (lit "dbo"), name := lit "t" },
           first := { name := lit "a", direction := some false }, rest := [{ name := lit "b", length := some (lit "10") }],
           form := .plain (some (lit "c", [lit "d"])) (some (.compare .gt (.column (lit "a")) (.integer (lit "-1"))))
             (.list (.switch "pad_index" true) [.fillfactor (lit "90")]) (.scheme (lit "ps") (lit "a")) }

def exCoveringText : Str := txt "CREATE UNIQUE NONCLUSTERED INDEX [ix] ON [dbo].[t] ([a] DESC, [b](10)) INCLUDE (c, d)
  WHERE [a] > -1 WITH (PAD_INDEX = ON, FILLFACTOR = 90) ON ps (a);"

example : ∃ d, parseDDL (Sql.env id) .mssql exCoveringText = .ok d ∧ SaysTheSame .mssql exCoveringText exCovering.meaning d ∧
    exCovering.Kind d ∧ d.statement = exCoveringText := by
  refine C57_statement_is_a_definition id .mssql exCoveringText exCovering ?_ true (ok_of_check (by decide +kernel)) ?_
  · have ha : GoodName (lit "a") := ⟨by decide, by decide, by decide⟩
    have h1 : GoodInt (lit "-1") := ⟨lit "1", by decide, by decide, .inr rfl⟩
    simp [exCovering, Sentence.Clear, IndexForm.Clear, ClearCondition, IndexOpts.all, IndexOpt.Known, switchWords, Ex.Proper, Ex.level,
      Ex.depth, ha, h1]
  · simp only [Sentence.InRange, exCovering, Sentence.indexColumns, List.mem_cons, List.not_mem_nil, or_false]
    rintro c (rfl | rfl) n hn
    · cases hn
    · cases hn
      exact ⟨10, by decide +kernel⟩

/-- The hypotheses of what is lost are met. -/
example : tokenize .postgres (txt "create index i on t using btree (a)") =
      .ok (NewIndex.tokens { name := lit "i", table := { name := lit "t" }, first := { name := lit "a" },
                             form := .methodLast (lit "btree") none .none }) ∧
    tokenize .postgres (txt "create index i on t using hash (a) with (fillfactor = 70)") =
      .ok (NewIndex.tokens { name := lit "i", table := { name := lit "t" }, first := { name := lit "a" },
                             form := .methodLast (lit "hash") none (.list (.fillfactor (lit "70")) []) }) ∧
    tokenize .mysql (txt "alter ignore table t add key k (a)") =
      .ok (Alter.tokens { ignore := true, table := { name := lit "t" }, added := .index false false (lit "k") { name := lit "a" } [] }) ∧
    tokenize .mssql (txt "create clustered index i on t (a)") =
      .ok (NewIndex.tokens { clustered := some true, name := lit "i", table := { name := lit "t" }, first := { name := lit "a" } }) :=
  ⟨ok_of_check (by decide +kernel), ok_of_check (by decide +kernel), ok_of_check (by decide +kernel), ok_of_check (by decide +kernel)⟩

end Sqldef
