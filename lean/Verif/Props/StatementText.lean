import Verif.Proofs.StatementText
import Verif.Model.Parser
/-
C52: a generated statement says what it is meant to say.
-/
namespace Sqldef
open Spec

/-- **C52.** The text of a generated statement, read with the tokenizer of the same dialect, is the sequence of
keywords, names, numbers, strings and punctuation that this kind of statement has to consist of: the table, columns,
options and clauses it is about, in the order of the language, and nothing else. This holds for names of any content
that the quotes of the dialect can hold, and for parts kept as text (types, conditions, queries) that are sequences of
whole tokens. -/
theorem C52_statement_says_what_is_meant_partial (mode : Mode) (s : Stmt) (h : CleanStmt mode s) :
    scanAll (newScanner mode (s.render mode)) = .ok (stmtTokens mode s) :=
  scanAll_says (says_stmt h)

/-- **C52.** The same for what the command prints and executes: every text it generates is the text of a statement
that says what is meant, unless it contains a name that cannot be quoted or a text that is not whole. -/
theorem C52_generated_texts_partial (env : Env) (mode : Mode) (desired current : Str) (texts : List Str)
    (h : generateIdempotentDDLs env mode desired current = .ok texts) :
    ∀ x ∈ texts, ∃ s : Stmt, x = s.render mode ∧
      (CleanStmt mode s → scanAll (newScanner mode x) = .ok (stmtTokens mode s)) := by
  have hm : ∃ ss : List Stmt, texts = ss.map (Stmt.render mode) := by
    unfold generateIdempotentDDLs at h
    cases h1 : parseDDLs env mode desired with
    | error e => rw [h1] at h; cases h
    | ok ds =>
      cases h2 : parseDDLs env mode current with
      | error e => rw [h1, h2] at h; cases h
      | ok cs =>
        rw [h1, h2] at h
        cases h3 : diff mode ds cs with
        | error e =>
          simp [h3, bind, Except.bind] at h
        | ok ss =>
          simp [h3, bind, Except.bind, pure, Except.pure] at h
          exact ⟨ss, h.symm⟩
  obtain ⟨ss, rfl⟩ := hm
  intro x hx
  obtain ⟨s, _, rfl⟩ := List.mem_map.mp hx
  exact ⟨s, rfl, C52_statement_says_what_is_meant_partial mode s⟩

/-- **C52.** Statements of different kinds or about different things are read differently: what is read back decides
which statement it was, as far as its tokens tell. -/
theorem C52_same_text_same_meaning_partial (mode : Mode) (s s' : Stmt) (h : CleanStmt mode s) (h' : CleanStmt mode s')
    (he : s.render mode = s'.render mode) : stmtTokens mode s = stmtTokens mode s' := by
  have h1 := C52_statement_says_what_is_meant_partial mode s h
  have h2 := C52_statement_says_what_is_meant_partial mode s' h'
  rw [he, h2] at h1
  exact (Except.ok.inj h1).symm

/-- **C52 fails** for a name with a quote in it: dropping one table becomes two statements. -/
theorem C52_quote_in_name : scanAll (newScanner .mysql ((Stmt.dropTable (lit "a`; DROP TABLE `b")).render .mysql)) =
    .ok [kw "DROP", kw "TABLE", named (lit "a"), sym ';', kw "DROP", kw "TABLE", named (lit "b")] := by
  have h1 : CleanStmt .mysql (.dropTable (lit "a")) := by simp [CleanStmt, CleanTable, CleanName, lit, closingQuote]
  have h2 : CleanStmt .mysql (.dropTable (lit "b")) := by simp [CleanStmt, CleanTable, CleanName, lit, closingQuote]
  have h4 := leads_says (leads_append (leads_sym .mysql (c := ';') (by simp)) (leads_space .mysql)) (says_stmt h2)
  have h5 := says_append (says_stmt h1) (b := lit "; " ++ (Stmt.dropTable (lit "b")).render .mysql)
    ⟨by simp [lit], by intro c hc; simp [lit] at hc; subst hc; simp⟩ h4
  exact scanAll_says h5

/-- **C52 fails** for a string default with a quote in it: what follows the quote is no longer part of the string. -/
theorem C52_quote_in_default :
    scanAll (newScanner .mysql ((Stmt.setDefault (lit "t") (lit "c")
      { valueType := .str, raw := [], strVal := lit "x', y, '" }).render .mysql)) =
    .ok (alterColumnTokens .mysql (lit "t") (lit "c") [kw "SET", kw "DEFAULT", ⟨.string, lit "x"⟩, sym ',',
      kw "y", sym ',', ⟨.string, []⟩]) := by
  have hx : Says .mysql ('\'' :: lit "x" ++ ['\'']) [⟨.string, lit "x"⟩] := says_quoted .mysql (by decide)
  have he : Says .mysql ('\'' :: [] ++ ['\'']) [⟨.string, []⟩] := says_quoted .mysql (by simp)
  have hcomma : Leads .mysql [',', ' '] [sym ','] := leads_append (leads_sym .mysql (by simp)) (leads_space .mysql)
  have hd := says_append hx (delimited_comma _ _) (leads_says hcomma
    (says_append (says_kw .mysql "y" (by decide)) (delimited_comma _ _) (leads_says hcomma he)))
  have := says_alterColumn (mode := .mysql) (t := lit "t") (c := lit "c")
    (by simp [CleanTable, CleanName, lit, closingQuote]) (by simp [CleanName, lit, closingQuote])
    (leads_says (leads_kws .mysql (ws := ["SET", "DEFAULT"]) (by decide)) hd)
  exact scanAll_says this

/-- A column with a type of two numbers, a default, a comment-free check and a key. -/
def exWideColumn : Column :=
  { name := lit "a b`c", position := 1, typeName := lit "decimal", unsigned := true, notNull := some true,
    length := some { valueType := .int, raw := lit "10" }, scale := some { valueType := .int, raw := lit "2" },
    defaultDef := some { value := some { valueType := .int, raw := lit "-5", intVal := -5 } },
    check := some { definition := lit "x > 0" }, keyOption := .unique }

set_option maxRecDepth 4000 in
example : scanAll (newScanner .postgres ((Stmt.addColumn (lit "s.t") exWideColumn .none).render .postgres)) =
    .ok (kws ["ALTER", "TABLE"] ++ [named (lit "s"), sym '.', named (lit "t")] ++ kws ["ADD", "COLUMN"] ++
      [named (lit "a b`c"), kw "decimal", sym '(', numeral 10, sym ',', numeral 2, sym ')', kw "UNSIGNED", kw "NOT",
       kw "NULL", kw "DEFAULT", numeral (-5), kw "CHECK", sym '(', named (lit "x"), sym '>', numeral 0, sym ')',
       kw "UNIQUE"]) := by
  have hty := legible_of_says (says_word (mode := .postgres) "decimal")
  have h10 := legible_of_says (says_int .postgres 10)
  have h2 := legible_of_says (says_int .postgres 2)
  have hchk : Says .postgres (lit "x > 0") [named (lit "x"), sym '>', numeral 0] := by
    have hx : Says .postgres (lit "x") [named (lit "x")] := says_word (mode := .postgres) "x"
    have hg : Leads .postgres (lit "> ") [sym '>'] :=
      ⟨by decide, by simp [sym], fun rest hr => ⟨[' '], by simp [isBlank], .cons (reads_start (by decide) (by decide) fun n => rfl) (.nil _)⟩⟩
    exact says_sp hx (leads_says hg (says_int .postgres 0))
  have hc := legible_of_says hchk
  have e10 : showInt 10 = lit "10" := by decide
  have e2 : showInt 2 = lit "2" := by decide
  rw [e10] at h10
  rw [e2] at h2
  have hclean : CleanStmt .postgres (.addColumn (lit "s.t") exWideColumn .none) := by
    refine ⟨by simp [CleanTable, CleanName, schemaAndTable, splitDot, lit, closingQuote],
      ⟨by simp [CleanName, exWideColumn, closingQuote, lit], ⟨hty.1, ?_, ?_, by simp [exWideColumn], by simp⟩,
      by simp [exWideColumn], by simp [exWideColumn], ?_, by simp [exWideColumn], ?_, by decide, by decide,
      ⟨by simp [exWideColumn], by simp [exWideColumn], by simp⟩⟩, by simp⟩
    · intro l hl; simp [exWideColumn] at hl; subst hl; exact h10.1
    · intro l hl; simp [exWideColumn] at hl; subst hl; exact h2.1
    · intro v hv; simp [exWideColumn] at hv; subst hv; trivial
    · intro k hk; simp [exWideColumn] at hk; subst hk; exact hc.1
  rw [C52_statement_says_what_is_meant_partial .postgres _ hclean]
  have t1 := hty.2
  have t2 := h10.2
  have t3 := h2.2
  have t4 := hc.2
  simp [stmtTokens, alterTokens, tableTokens, schemaAndTable, splitDot, columnTokens, typeTokens, exWideColumn,
    given, optionally, defaultTokens, saysNotNull, identityTokens, parens, placeTokens, t1, t2, t3, t4, kws, lit] at *
  rw [t1]
  rfl

end Sqldef
