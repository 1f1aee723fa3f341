import Verif.Proofs.Conversion
/-
C51: the definition that the schema comparison works on says what the syntax tree of the statement says. The
theorems hold for every behaviour of the SQL grammar.
-/
namespace Sqldef
open Spec

/-- **C51.** Every accepted statement gives a definition with the same content, field by field: the table and its
columns in order, with type, lengths, default, key, collation, identity; indexes with their columns, options and
conditions; foreign keys with their columns, target and actions; policies, views and triggers. -/
theorem C51_definition_says_what_the_statement_says (env : Env) (mode : Mode) (text : Str) (d : DDL)
    (h : parseDDL env mode text = .ok d) :
    ∃ a, env.parse mode text = .ok (.ddl a) ∧ SaysTheSame mode text a d := by
  unfold parseDDL at h
  split at h
  · cases h
  · rename_i s hs
    cases s with
    | other => cases h
    | ddl a => exact ⟨a, hs, saysTheSame_convert env mode text a d h⟩

/-- **C51.** A CREATE TABLE that the grammar accepts is accepted, unless the length of a column of an index is not an
integer in range or a CHECK cannot be written out. -/
theorem C51_create_table_accepted (env : Env) (mode : Mode) (text : Str) (a : SqlDDL) (spec : SqlTableSpec)
    (h : env.parse mode text = .ok (.ddl a)) (ha : a.action = lit "create") (hs : a.tableSpec = some spec)
    (hl : ∀ i ∈ spec.indexes, ∀ c ∈ i.columns, ∀ v, c.length = some v → ∃ n, KeepsLength v n)
    (hc : ∀ c ∈ spec.columns, ∀ k, c.type.check = some k → k.whereExpr.panics = false) :
    ∃ t, parseDDL env mode text = .ok (.createTable text t) := by
  obtain ⟨r, hr⟩ := parseTableIndexes_ok env hl
  have hc : spec.columns.any SqlColumn.checkPanics = false := by
    rw [List.any_eq_false]
    intro c hm
    unfold SqlColumn.checkPanics
    split
    · simp
    · next k hk => simp [hc c hm k hk]
  have ht : ∃ t, parseTable env mode a = .ok t := ⟨_, by simp only [parseTable, hs, hr, hc]; rfl⟩
  obtain ⟨t, ht⟩ := ht
  exact ⟨t, by simp only [parseDDL, h, convertStatement, ha, if_true, ht]; rfl⟩

/-- **C51.** A CREATE INDEX that the grammar accepts is accepted, unless the length of a column is not an integer in
range or the condition cannot be written out. -/
theorem C51_create_index_accepted (env : Env) (mode : Mode) (text : Str) (a : SqlDDL) (s : SqlIndexSpec)
    (h : env.parse mode text = .ok (.ddl a)) (ha : a.action = lit "create index") (hs : a.indexSpec = some s)
    (hl : ∀ c ∈ a.indexCols, ∀ v, c.length = some v → ∃ n, KeepsLength v n)
    (hp : ∀ w, s.whereClause = some w → w.expr.panics = false) :
    ∃ n i, parseDDL env mode text = .ok (.createIndex text n i) := by
  obtain ⟨r, hr⟩ := parseIndexColumns_ok hl
  have h1 : ¬ lit "create index" = lit "create" := by decide
  have hp : wherePanics s.whereClause = false := by
    cases h : s.whereClause with
    | none => rfl
    | some w => simp [wherePanics, hp w h]
  have hi : ∃ i, parseIndex env a = .ok i := ⟨_, by simp only [parseIndex, hs, hr, hp]; rfl⟩
  obtain ⟨i, hi⟩ := hi
  exact ⟨normalizedTableName mode a.table, i, by
    simp only [parseDDL, h, convertStatement, ha, if_true, h1, if_false, hi]; rfl⟩

/-- **C51.** A statement that is not one of the eight kinds is refused, never read as something else. -/
theorem C51_other_statements_are_refused (env : Env) (mode : Mode) (text : Str) (s : SqlStatement)
    (h : env.parse mode text = .ok s)
    (hs : ∀ a, s = .ddl a → a.action ∉ [lit "create", lit "create index", lit "add index", lit "add primary key",
      lit "add foreign key", lit "create policy", lit "create view", lit "create trigger"]) (d : DDL) :
    parseDDL env mode text ≠ .ok d := by
  intro hd
  obtain ⟨a, ha, hsame⟩ := C51_definition_says_what_the_statement_says env mode text d hd
  rw [h] at ha
  cases ha
  have := hs a rfl
  simp only [List.mem_cons, List.not_mem_nil, or_false, not_or] at this
  obtain ⟨h1, h2, h3, h4, h5, h6, h7, h8⟩ := this
  cases hsame with
  | createTable h => exact h1 h
  | createIndex h => exact h2 h
  | addIndex h => exact h3 h
  | addPrimaryKey h => exact h4 h
  | addForeignKey h => exact h5 h
  | addPolicy h => exact h6 h
  | view h => exact h7 h
  | trigger h => exact h8 h

/-- A grammar that reads one CREATE TABLE with an index and a foreign key. -/
def exConversionEnv : Env where
  parse _ _ := .ok (.ddl {
    action := lit "create", newName := { name := lit "posts", qualifier := lit "app" },
    tableSpec := some {
      columns := [{ name := lit "id", type := { type := lit "bigint", notNull := some true, unsigned := true } },
        { name := lit "price", type := { type := lit "decimal", length := some ⟨.intVal, lit "10"⟩,
                                         scale := some ⟨.intVal, lit "2"⟩,
                                         default := some { value := some ⟨.strVal, lit "0"⟩ } } }],
      indexes := [{ name := lit "k", type := lit "key", columns := [{ column := lit "id", length := some ⟨.intVal, lit "7"⟩ }] }],
      foreignKeys := [{ constraintName := lit "f", indexColumns := [lit "id"], referenceName := lit "users",
                        referenceColumns := [lit "uid"], onDelete := lit "CASCADE" }] } })
  fmtFloat s := s

example : parseDDL exConversionEnv .postgres (lit "CREATE TABLE app.posts (...)") =
    .ok (.createTable (lit "CREATE TABLE app.posts (...)") {
      name := lit "app.posts",
      columns := [{ name := lit "id", position := 0, typeName := lit "bigint", notNull := some true, unsigned := true },
        { name := lit "price", position := 1, typeName := lit "decimal",
          length := some { valueType := .int, raw := lit "10", intVal := 10 },
          scale := some { valueType := .int, raw := lit "2", intVal := 2 },
          defaultDef := some { value := some { valueType := .str, raw := lit "0", strVal := lit "0" } } }],
      indexes := [{ name := lit "k", indexType := lit "key", columns := [{ column := lit "id", length := some 7 }] }],
      foreignKeys := [{ constraintName := lit "f", indexColumns := [lit "id"], referenceName := lit "users",
                        referenceColumns := [lit "uid"], onDelete := lit "CASCADE" }] }) := by
  rfl

end Sqldef
