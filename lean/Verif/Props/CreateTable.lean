import Verif.Proofs.Layout
import Verif.Proofs.WrittenTable
import Verif.Props.Conversion

/-!
C56: a `CREATE TABLE` is understood as written.  The language and its meaning are in Spec/Written.lean, the ways to
write a sequence of tokens in Spec/Layout.lean.
-/
namespace Sqldef
open Spec Written

/-- **C56.** A text whose tokens are those of a `CREATE TABLE`, with or without a semicolon at the end, is parsed to the
syntax tree that the statement means: every column with its type and options, every index and every foreign key, in the
order in which they are written, and the options of the table. -/
theorem C56_create_table_is_understood (mode : Mode) (text : Str) (t : Written.Table) (h : t.Clear) (semicolon : Bool)
    (ht : tokenize mode text = .ok (t.tokens ++ given (semicolon = true) [sym ';'])) :
    Sql.parseStrictDDLWithMode mode text = .ok (.ddl t.meaning) := Sql.parse_table h semicolon ht

/-- **C56.** It does not matter how the tokens are laid out: white space, line breaks, capital or small letters in
keywords, quoted or bare names. -/
theorem C56_create_table_in_any_layout (mode : Mode) (text : Str) (t : Written.Table) (h : t.Clear) (semicolon : Bool)
    (hl : Layout mode text (t.tokens ++ given (semicolon = true) [sym ';'])) :
    Sql.parseStrictDDLWithMode mode text = .ok (.ddl t.meaning) :=
  C56_create_table_is_understood mode text t h semicolon (tokenize_layout hl)

theorem ty_check (t : Ty) : t.meaning.check = none := by cases t <;> rfl

theorem col_check (c : Col) : ∀ k, c.meaning.type.check = some k → k.whereExpr.panics = false := by
  have key : ∀ (os : List ColOption) (t : SqlColumnType), (∀ k, t.check = some k → k.whereExpr.panics = false) →
      ∀ k, (os.foldl ColOption.apply t).check = some k → k.whereExpr.panics = false := by
    intro os
    induction os with
    | nil => exact fun t h => h
    | cons o os ih =>
      intro t h
      refine ih _ ?_
      cases o with
      | check r e i => intro k hk; cases hk; rfl
      | namedCheck n r e => intro k hk; cases hk; rfl
      | _ => exact h
  refine key _ _ ?_
  intro k hk
  rw [show ({ c.type.meaning with array := c.array.meaning } : SqlColumnType).check = c.type.meaning.check from rfl, ty_check] at hk
  cases hk

theorem ix_columns (i : Ix) : i.meaning.columns = (i.first :: i.rest).map IndexCol.meaning := by
  unfold Ix.meaning
  cases i.head <;> rfl

/-- The columns of the indexes between the parentheses. -/
def Spec.Written.Item.indexColumns : Item → List IndexCol
  | .index i => i.first :: i.rest
  | .primaryKey p => p.first :: p.rest
  | _ => []

theorem spec_parts (is : List Item) (s : SqlTableSpec) :
    (∀ c ∈ (is.foldl Item.apply s).columns, c ∈ s.columns ∨ ∃ k : Col, c = k.meaning) ∧
    (∀ i ∈ (is.foldl Item.apply s).indexes, i ∈ s.indexes ∨ ∃ j ∈ is, i.columns = j.indexColumns.map IndexCol.meaning) := by
  induction is generalizing s with
  | nil => exact ⟨fun c h => .inl h, fun i h => .inl h⟩
  | cons j is ih =>
    obtain ⟨h1, h2⟩ := ih (j.apply s)
    constructor
    · intro c hc
      rcases h1 c hc with hc | hc
      · cases j with
        | column k =>
          rcases List.mem_append.mp hc with hc | hc
          · exact .inl hc
          · exact .inr ⟨k, List.mem_singleton.mp hc⟩
        | _ => exact .inl hc
      · exact .inr hc
    · intro i hi
      rcases h2 i hi with hi | ⟨k, hk, hi⟩
      · cases j with
        | index k =>
          rcases List.mem_append.mp hi with hi | hi
          · exact .inl hi
          · refine .inr ⟨_, List.mem_cons_self, ?_⟩
            rw [List.mem_singleton.mp hi, ix_columns]
            rfl
        | primaryKey k =>
          rcases List.mem_append.mp hi with hi | hi
          · exact .inl hi
          · refine .inr ⟨_, List.mem_cons_self, ?_⟩
            rw [List.mem_singleton.mp hi]
            rfl
        | _ => exact .inl hi
      · exact .inr ⟨k, List.mem_cons_of_mem _ hk, hi⟩

/-- **C56.** Such a statement is a definition of the schema: the table with these columns, indexes and foreign keys, and
with the text as its statement, if the lengths of the columns of indexes are numbers in range. -/
theorem C56_create_table_is_a_definition (fmtFloat : Str → Str) (mode : Mode) (text : Str) (t : Written.Table) (h : t.Clear)
    (semicolon : Bool) (ht : tokenize mode text = .ok (t.tokens ++ given (semicolon = true) [sym ';']))
    (hn : ∀ i ∈ t.rest, ∀ c ∈ i.indexColumns, ∀ n, c.length = some n → ∃ k, atoi n = (k, none)) :
    ∃ d, parseDDL (Sql.env fmtFloat) mode text = .ok (.createTable text d) ∧
      SaysTheSame mode text t.meaning (.createTable text d) := by
  have hp := C56_create_table_is_understood mode text t h semicolon ht
  obtain ⟨h1, h2⟩ := spec_parts t.rest { columns := [t.first.meaning] }
  obtain ⟨d, hd⟩ := C51_create_table_accepted (Sql.env fmtFloat) mode text t.meaning _ hp rfl rfl
    (by
      intro i hi c hc v hv
      rcases h2 i hi with hi | ⟨j, hj, hi⟩
      · cases hi
      · rw [hi] at hc
        obtain ⟨k, hk, rfl⟩ := List.mem_map.mp hc
        simp only [IndexCol.meaning, Option.map_eq_some_iff] at hv
        obtain ⟨n, hn', rfl⟩ := hv
        obtain ⟨m, hm⟩ := hn j hj k hk n hn'
        exact ⟨m, rfl, hm⟩)
    (by
      intro c hc k hk
      rcases h1 c hc with hc | ⟨j, rfl⟩
      · rw [List.mem_singleton.mp hc] at hk
        exact col_check _ k hk
      · exact col_check _ k hk)
  obtain ⟨a, ha, hs⟩ := C51_definition_says_what_the_statement_says _ mode text _ hd
  cases (show Except.ok (SqlStatement.ddl t.meaning) = Except.ok (SqlStatement.ddl a) from hp.symm.trans ha)
  exact ⟨d, hd, hs⟩

/-! ### Examples -/

/-- A table of MySQL. -/
def exMembers : Written.Table :=
  { ifNotExists := true
    name := { name := lit "users" }
    first := { name := lit "id", type := .integer "bigint" (some (lit "20")) true false,
               options := [.notNull, .autoIncrement true] }
    rest := [.column { name := lit "name", type := .chars "varchar" (some (lit "40")) (.name (lit "utf8mb4")) .none,
                       options := [.default none .none (.string (lit "it's") .none), .comment (lit "who")] },
             .column { name := lit "kind", type := .choice "enum" (lit "a") [lit "b"] .none .none, options := [.null] },
             .column { name := lit "at", type := .zoned "timestamp" none none,
                       options := [.notNull, .default none .none (.now (.timestamp .none))] },
             .index { head := .primary, first := { name := lit "id" } },
             .index { head := .unique (some false) (lit "by_name"),
                      first := { name := lit "name", length := some (lit "10"), direction := some false },
                      rest := [{ name := lit "at" }], options := .plain (.using (lit "BTREE")) [] },
             .foreignKey { constraint := some (lit "fk"), first := lit "kind", table := { name := lit "kinds" },
                           refFirst := lit "k", actions := .updateDelete .cascade .setNull }]
    options := [{ first := .name (lit "ENGINE"), rest := [(true, .name (lit "InnoDB")), (false, .keyword "default"),
                  (false, .keyword "charset"), (true, .name (lit "utf8mb4"))] }] }

def exMembersText : Str := txt "create table IF NOT EXISTS `users` (
  `id` BIGINT(20) unsigned NOT NULL AUTO_INCREMENT,
  name varchar(40) CHARACTER SET utf8mb4 DEFAULT 'it''s' COMMENT 'who',
  kind enum('a', 'b') NULL,
  `at` timestamp NOT NULL DEFAULT current_timestamp,
  PRIMARY KEY (id),
  UNIQUE KEY by_name (name(10) DESC, `at`) USING BTREE,
  CONSTRAINT fk FOREIGN KEY (kind) REFERENCES kinds (k) ON UPDATE CASCADE ON DELETE SET NULL
) ENGINE=InnoDB DEFAULT CHARSET=utf8mb4;"

theorem ok_of_check {α : Type} [DecidableEq α] {e : Except Err α} {a : α}
    (h : (match e with | .ok x => decide (x = a) | .error _ => false) = true) : e = .ok a := by
  cases e with
  | ok x => exact congrArg _ (of_decide_eq_true h)
  | error x => cases h

theorem exMembers_clear : exMembers.Clear := by
  refine ⟨⟨by simp [exMembers, Ty.Known, integerWords], trivial, by simp [exMembers, ColOption.Clear]⟩, ?_, ?_⟩
  · simp [exMembers, Item.Clear, Col.Clear, ColOption.Clear, Ty.Known, clearOptions, IndexOpts.all, IndexOpt.Known, charWords, choiceWords,
      zonedWords]
  · simp [exMembers, TableOption.Known, OptionWord.Known, optionWords]

theorem exMembers_tokens : tokenize .mysql exMembersText = .ok (exMembers.tokens ++ given (true = true) [sym ';']) :=
  ok_of_check (by decide +kernel)

/-- The statement above is understood: here are its columns and its options. -/
example : ∃ a spec, Sql.parseStrictDDLWithMode .mysql exMembersText = .ok (.ddl a) ∧ a.tableSpec = some spec ∧
    spec.columns.map (·.name) = [lit "id", lit "name", lit "kind", lit "at"] ∧
    spec.indexes.map (·.name) = [lit "PRIMARY", lit "by_name"] ∧
    spec.foreignKeys.map (·.onDelete) = [lit "SET NULL"] ∧
    spec.options = txt " ENGINE=InnoDB default charset=utf8mb4" :=
  ⟨_, _, C56_create_table_is_understood .mysql exMembersText exMembers exMembers_clear true exMembers_tokens, rfl,
    by decide, by decide, by decide, by decide⟩

example : ∃ d, parseDDL (Sql.env id) .mysql exMembersText = .ok (.createTable exMembersText d) ∧
    SaysTheSame .mysql exMembersText exMembers.meaning (.createTable exMembersText d) := by
  refine C56_create_table_is_a_definition id .mysql exMembersText exMembers exMembers_clear true exMembers_tokens ?_
  intro i hi c hc n hn
  simp only [exMembers, List.mem_cons, List.not_mem_nil, or_false] at hi
  rcases hi with rfl | rfl | rfl | rfl | rfl | rfl <;>
    simp only [Item.indexColumns, List.mem_cons, List.not_mem_nil, or_false] at hc
  · subst hc
    cases hn
  · rcases hc with rfl | rfl
    · cases hn
      exact ⟨10, by decide +kernel⟩
    · cases hn

/-- A table of SQL Server. -/
def exOrders : Written.Table :=
  { name := { schema := some (lit "dbo"), name := lit "orders" }
    first := { name := lit "id", type := .integer "int" none false false,
               options := [.identity (lit "1") (lit "1"), .notForReplication, .notNull] }
    rest := [.column { name := lit "at", type := .sized "datetime" none,
                       options := [.default (some (lit "d")) .once (.now .getdate)] },
             .primaryKey { name := lit "pk", clustered := some false, first := { name := lit "id" },
                           options := .list (.switch "pad_index" true) [.fillfactor (lit "90")],
                           partition := .scheme (lit "ps") (lit "id") }] }

def exOrdersText : Str := txt "CREATE TABLE [dbo].[orders] (id int IDENTITY(1,1) NOT FOR REPLICATION NOT NULL,
  [at] datetime CONSTRAINT d DEFAULT (getdate()),
  CONSTRAINT pk PRIMARY KEY NONCLUSTERED (id) WITH (PAD_INDEX = ON, FILLFACTOR = 90) ON ps (id))"

example : ∃ a spec, Sql.parseStrictDDLWithMode .mssql exOrdersText = .ok (.ddl a) ∧ a.tableSpec = some spec ∧
    a.newName.qualifier = lit "dbo" ∧ spec.indexes.map (·.options.map (·.name)) = [[lit "pad_index", lit "fillfactor"]] := by
  refine ⟨_, _, C56_create_table_is_understood .mssql exOrdersText exOrders ?_ false
    (ok_of_check (by decide +kernel)), rfl, by decide, by decide⟩
  refine ⟨⟨by simp [exOrders, Ty.Known, integerWords], ?_, by simp [exOrders, ColOption.Clear]⟩, ?_, by simp [exOrders]⟩
  · simp [exOrders, clearOptions, ColOption.isIdentity]
  · simp [exOrders, Item.Clear, Col.Clear, ColOption.Clear, Ty.Known, clearOptions, IndexOpts.all, IndexOpt.Known, switchWords, sizedWords]

/-- A table of PostgreSQL, written in a layout of its own. -/
def exItems : Written.Table :=
  { name := { name := lit "items" }, first := { name := lit "a", type := .integer "int" none false false, array := .brackets } }

example : Layout .postgres (txt "CREATE\n table \"items\"(a INT[]);") (exItems.tokens ++ given (true = true) [sym ';']) := by
  have e : exItems.tokens ++ given (true = true) [sym ';'] =
      [⟨.code (lit "CREATE"), lit "create"⟩, ⟨.code (lit "TABLE"), lit "table"⟩, ⟨.id, lit "items"⟩, ⟨.char '(', []⟩, ⟨.id, lit "a"⟩,
        ⟨.code (lit "INT"), lit "int"⟩, ⟨.char '[', []⟩, ⟨.char ']', []⟩, ⟨.char ')', []⟩, ⟨.char ';', []⟩] := by decide +kernel
  rw [e]
  have ends : ∀ {c : Char} {s : Str}, isLetter c = false ∧ isDigit c = false ∧ c ≠ '\'' → EndsWord (c :: s) := by
    intro c s h d hd
    cases hd
    exact h
  refine .cons (w := []) (a := lit "CREATE") (rest := txt "\n table \"items\"(a INT[]);") (by simp)
    (.keyword ⟨⟨'C', lit "REATE", rfl, by decide, by decide⟩, by decide⟩ (by decide +kernel) (ends (by decide))) ?_
  refine .cons (w := lit "\n ") (a := lit "table") (rest := txt " \"items\"(a INT[]);") (by decide)
    (.keyword ⟨⟨'t', lit "able", rfl, by decide, by decide⟩, by decide⟩ (by decide +kernel) (ends (by decide))) ?_
  refine .cons (w := lit " ") (a := lit "\"items\"") (rest := lit "(a INT[]);") (by decide)
    (.quoted (o := '"') (c := '"') (n := lit "items") (by decide) (by decide) (by decide)) ?_
  refine .cons (w := []) (a := lit "(") (rest := lit "a INT[]);") (by decide) (.mark (by decide)) ?_
  refine .cons (w := []) (a := lit "a") (rest := lit " INT[]);") (by decide)
    (.bare ⟨⟨'a', [], rfl, by decide, by decide⟩, by decide⟩ (by decide +kernel) (by decide) (ends (by decide))) ?_
  refine .cons (w := lit " ") (a := lit "INT") (rest := lit "[]);") (by decide)
    (.keyword ⟨⟨'I', lit "NT", rfl, by decide, by decide⟩, by decide⟩ (by decide +kernel) (ends (by decide))) ?_
  refine .cons (w := []) (a := lit "[") (rest := lit "]);") (by decide) (.bracket (by decide) (by decide)) ?_
  refine .cons (w := []) (a := lit "]") (rest := lit ");") (by decide) (.bracket (by decide) (by decide)) ?_
  refine .cons (w := []) (a := lit ")") (rest := lit ";") (by decide) (.mark (by decide)) ?_
  exact .cons (w := []) (a := lit ";") (rest := []) (by decide) (.mark (by decide)) (.nil (by decide))

/-- A table with conditions: several operators, a cast and a named check. -/
def exPrices : Written.Table :=
  { name := { name := lit "prices" }
    first := { name := lit "p", type := .integer "int" none false false,
               options := [.notNull, .check false (.and (.compare .gt (.column (lit "p")) (.integer (lit "-1")))
                 (.or (.is (.column (lit "q")) true .null) (.not (.compare .le
                   (.arith .add (.column (lit "p")) (.arith .mul (.column (lit "q")) (.integer (lit "2")))) (.integer (lit "9"))))
                  |> fun e => .tuple e [])) true] }
    rest := [.column { name := lit "q", type := .text "text" .none .none,
                       options := [.namedCheck (lit "kind") false (.among false (.cast (.column (lit "q")) (.word "text"))
                         (.string (lit "a")) [.string (lit "b")])] }] }

def exPricesText : Str := txt "CREATE TABLE prices (p int NOT NULL CHECK (p > -1 AND (q IS NOT NULL OR NOT p + q * 2 <= 9)) NO INHERIT,
  q text CONSTRAINT kind CHECK (q::text IN ('a', 'b')))"

theorem exPrices_clear : exPrices.Clear := by
  have g : ∀ n ∈ [lit "p", lit "q", lit "kind"], GoodName n := by
    intro n hn
    refine ⟨?_, ?_, ?_⟩ <;> (revert n; decide)
  have i : ∀ n ∈ [lit "2", lit "9"], GoodInt n := by
    intro n hn
    exact ⟨n, by revert n; decide, by revert n; decide, .inl rfl⟩
  have hp : GoodName (lit "p") := g _ (by simp)
  have hq : GoodName (lit "q") := g _ (by simp)
  have hk : GoodName (lit "kind") := g _ (by simp)
  have h1 : GoodInt (lit "-1") := ⟨lit "1", by decide, by decide, .inr rfl⟩
  have h2 : GoodInt (lit "2") := i _ (by simp)
  have h9 : GoodInt (lit "9") := i _ (by simp)
  refine ⟨⟨by simp [exPrices, Ty.Known, integerWords], trivial, ?_⟩, ?_, by simp [exPrices]⟩
  · simp [exPrices, ColOption.Clear, Ex.Proper, Ex.AllProper, Ex.level, Arith.level, Ex.depth, Ex.depths, hp, hq, h1, h2, h9]
  · simp [exPrices, Item.Clear, Col.Clear, ColOption.Clear, Ty.Known, clearOptions, textWords, Ex.Proper, Ex.AllProper, Ex.level,
      Ex.depth, Ex.depths, hq, hk, castWords]

/-- The conditions are kept: here are their texts. (Of the cast, what is kept is no SQL of PostgreSQL: see C56.) -/
example : ∃ a spec, Sql.parseStrictDDLWithMode .postgres exPricesText = .ok (.ddl a) ∧ a.tableSpec = some spec ∧
    spec.columns.map (fun c => c.type.check.map (·.whereExpr.text)) =
      [some (txt "p > -1 and (q is not null or not p + q * 2 <= 9)"), some (txt "convert(q, text) in ('a', 'b')")] :=
  ⟨_, _, C56_create_table_is_understood .postgres exPricesText exPrices exPrices_clear false (ok_of_check (by decide +kernel)), rfl,
    by decide +kernel⟩

/-! ### What is lost -/

/-- **C56**, what is changed: the cast of a check is kept as a call of `convert`, which PostgreSQL does not have. -/
theorem C56_cast_becomes_convert (mode : Mode) (text : Str) (t : TableRef) (c : Str) (e : Ex) (he : (Ex.cast e (.word "text")).Proper)
    (hd : e.depth < 199)
    (ht : tokenize mode text = .ok (Table.tokens
      { name := t, first := { name := c, type := .text "text" .none .none, options := [.check false (.cast e (.word "text")) false] } })) :
    ∃ a spec, Sql.parseStrictDDLWithMode mode text = .ok (.ddl a) ∧ a.tableSpec = some spec ∧
      spec.columns.map (fun c => c.type.check.map (·.whereExpr.text)) = [some (lit "convert(" ++ e.text ++ lit ", text)")] := by
  refine ⟨_, _, C56_create_table_is_understood mode text _ ?_ false (by simpa [given] using ht), rfl, ?_⟩
  · exact ⟨⟨by simp [Ty.Known, textWords], trivial, by simp [ColOption.Clear, he, Ex.depth, hd]⟩, by simp, by simp⟩
  · simp only [Table.spec, List.foldl_nil, List.map_cons, List.map_nil, Col.meaning, List.foldl_cons, ColOption.apply, Option.map_some,
      Ex.meaning, Ex.text, CastTo.text]
    rw [show lit ", text)" = lit ", " ++ (lit "text" ++ lit ")") by decide]
    simp only [List.append_assoc]

example : (Ex.cast (.column (lit "c")) (.word "text")).Proper ∧ (Ex.column (lit "c")).depth < 199 ∧
    tokenize .postgres (txt "CREATE TABLE t (c text CHECK (c::text))") = .ok (Table.tokens
      { name := { name := lit "t" }
        first := { name := lit "c", type := .text "text" .none .none,
                   options := [.check false (.cast (.column (lit "c")) (.word "text")) false] } }) := by
  refine ⟨?_, by decide, ok_of_check (by decide +kernel)⟩
  simp only [Ex.Proper, Ex.level, GoodName]
  refine ⟨by decide, ?_, by decide⟩
  intro w h
  cases h
  decide

/-- **C56**, what is refused: `a -1` is no difference, because the minus sign becomes part of the number. -/
theorem C56_minus_needs_a_blank :
    (∃ e, Sql.parseStrictDDLWithMode .postgres (txt "CREATE TABLE t (a int CHECK (a -1 > 0))") = .error e) ∧
    ∃ d, Sql.parseStrictDDLWithMode .postgres (txt "CREATE TABLE t (a int CHECK (a - 1 > 0))") = .ok d := by
  have h1 : (Sql.parseStrictDDLWithMode .postgres (txt "CREATE TABLE t (a int CHECK (a -1 > 0))")).toOption.isNone = true := by
    decide +kernel
  have h2 : (Sql.parseStrictDDLWithMode .postgres (txt "CREATE TABLE t (a int CHECK (a - 1 > 0))")).toOption.isSome = true := by
    decide +kernel
  constructor
  · cases h : Sql.parseStrictDDLWithMode .postgres (txt "CREATE TABLE t (a int CHECK (a -1 > 0))") with
    | error e => exact ⟨e, rfl⟩
    | ok d => rw [h] at h1; cases h1
  · cases h : Sql.parseStrictDDLWithMode .postgres (txt "CREATE TABLE t (a int CHECK (a - 1 > 0))") with
    | error e => rw [h] at h2; cases h2
    | ok d => exact ⟨d, rfl⟩


/-- **C56**, what is lost: the schema of the table that a foreign key refers to. -/
theorem C56_schema_of_a_reference_is_lost (mode : Mode) (a b : Str) (t : Written.Table) (f : Fk) (h : t.Clear) (text text' : Str)
    (ht : tokenize mode text =
      .ok { t with rest := t.rest ++ [Item.foreignKey { f with table := { f.table with schema := some a } }] }.tokens)
    (ht' : tokenize mode text' =
      .ok { t with rest := t.rest ++ [Item.foreignKey { f with table := { f.table with schema := some b } }] }.tokens) :
    Sql.parseStrictDDLWithMode mode text = Sql.parseStrictDDLWithMode mode text' := by
  have hc : ∀ g : Fk, Table.Clear { t with rest := t.rest ++ [.foreignKey g] } := by
    intro g
    refine ⟨h.1, ?_, h.2.2⟩
    intro i hi
    rcases List.mem_append.mp hi with hi | hi
    · exact h.2.1 i hi
    · rw [List.mem_singleton.mp hi]
      trivial
  rw [C56_create_table_is_understood mode text _ (hc _) false (by simpa [given] using ht),
    C56_create_table_is_understood mode text' _ (hc _) false (by simpa [given] using ht')]
  congr 2
  simp only [Table.meaning, Table.spec, List.foldl_append, List.foldl_cons, List.foldl_nil, Item.apply, Fk.meaning]

/-- **C56**, what is changed: `DEFAULT NOW()` becomes the bit string `b'now'`. -/
theorem C56_now_becomes_a_bit_string (mode : Mode) (text : Str) (t : TableRef) (c : Str)
    (ht : tokenize mode text = .ok (Table.tokens
      { name := t, first := { name := c, type := .sized "datetime" none, options := [.default none .none .nowCall] } })) :
    ∃ a spec, Sql.parseStrictDDLWithMode mode text = .ok (.ddl a) ∧ a.tableSpec = some spec ∧
      spec.columns.map (fun c => c.type.default.map (·.value)) = [some (some ⟨.bitVal, lit "now"⟩)] := by
  refine ⟨_, _, C56_create_table_is_understood mode text _ ?_ false (by simpa [given] using ht), rfl, rfl⟩
  exact ⟨⟨by simp [Ty.Known, sizedWords], trivial, by simp [ColOption.Clear]⟩, by simp, by simp⟩

example : tokenize .mysql (txt "CREATE TABLE t (c datetime DEFAULT NOW())") = .ok (Table.tokens
    { name := { name := lit "t" },
      first := { name := lit "c", type := .sized "datetime" none, options := [.default none .none .nowCall] } }) :=
  ok_of_check (by decide +kernel)

end Sqldef
