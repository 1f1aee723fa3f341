import Verif.Model.Render
import Verif.Spec.Lexical
/-
What a generated statement has to say, as a sequence of tokens: keywords, names, punctuation, numbers and strings,
for every kind of statement and every dialect. Parts of a schema that the program keeps as text (types, conditions,
the query of a view, ...) count with the tokens of that text.
-/
namespace Sqldef.Spec

/-! ### Tokens -/

/-- A word of SQL. Words that the tokenizer does not know as keywords are names to it. -/
def kw (w : String) : Token :=
  match keywordCode (toLower (lit w)) with
  | some code => ⟨.code code, toLower (lit w)⟩
  | none => ⟨.id, lit w⟩

/-- Several words. -/
def kws (ws : List String) : List Token := ws.map kw

/-- A name. -/
def named (n : Str) : Token := ⟨.id, n⟩

/-- A punctuation mark. -/
def sym (c : Char) : Token := ⟨.char c, []⟩

/-- A whole number. -/
def numeral (n : Int) : Token := ⟨.integral, showInt n⟩

/-- The tokens of a text. -/
def tokensOf (mode : Mode) (text : Str) : List Token :=
  match scanAll (newScanner mode text) with
  | .ok ts => ts
  | .error _ => []

/-- Lists of tokens with commas between them. -/
def commas : List (List Token) → List Token
  | [] => []
  | [ts] => ts
  | ts :: us :: rest => ts ++ sym ',' :: commas (us :: rest)

/-- Tokens between parentheses. -/
def parens (ts : List Token) : List Token := sym '(' :: (ts ++ [sym ')'])

/-- Tokens that are there if a condition holds. -/
def given (p : Prop) [Decidable p] (ts : List Token) : List Token := if p then ts else []

/-- Tokens for an optional part. -/
def optionally {α} (o : Option α) (f : α → List Token) : List Token :=
  match o with
  | none => []
  | some a => f a

/-! ### Texts that stand for themselves -/

/-- What may follow a part of a statement: nothing, white space, a parenthesis, a comma, a semicolon, or the bracket
of an array type. -/
def Delimits (mode : Mode) (rest : Str) : Prop :=
  ∀ c, rest.head? = some c → c ∈ [' ', '\n', '\r', '\t', '(', ')', ',', ';'] ∨ (c = '[' ∧ mode ≠ .mssql)

/-- A text that the tokenizer reads as the given tokens, whatever follows after a delimiter; only white space may be
left over. -/
structure ReadsAs (ok : Str → Prop) (mode : Mode) (text : Str) (ts : List Token) : Prop where
  head : text.head? ≠ some '\x00'
  noEnd : ∀ t ∈ ts, t.type ≠ .eof
  reads : ∀ rest, ok rest → ∃ w : Str, (∀ c ∈ w, isBlank c = true) ∧ ReadsAll mode (text ++ rest) ts (w ++ rest)

/-- The text is a sequence of whole tokens. -/
def Legible (mode : Mode) (text : Str) : Prop := ReadsAs (Delimits mode) mode text (tokensOf mode text)

/-- A name that can be written between the quotes of the dialect. -/
def CleanName (mode : Mode) (n : Str) : Prop := n ≠ [] ∧ closingQuote mode ∉ n

/-- The schema and the table that a table name stands for, in the dialects that have schemas. -/
def schemaAndTable (mode : Mode) (t : Str) : Str × Str :=
  match splitDot t with
  | some p => p
  | none => (if mode = .postgres then lit "public" else lit "dbo", t)

/-- The tokens of a table name. -/
def tableTokens (mode : Mode) (t : Str) : List Token :=
  if mode = .postgres ∨ mode = .mssql then
    [named (schemaAndTable mode t).1, sym '.', named (schemaAndTable mode t).2]
  else [named t]

/-- A table name that can be written between the quotes of the dialect. -/
def CleanTable (mode : Mode) (t : Str) : Prop :=
  if mode = .postgres ∨ mode = .mssql then
    CleanName mode (schemaAndTable mode t).1 ∧ CleanName mode (schemaAndTable mode t).2
  else CleanName mode t

/-! ### Defaults -/

/-- The tokens of a default. -/
def defaultTokens (mode : Mode) (v : Value) : List Token :=
  kw "DEFAULT" ::
  match v.valueType with
  | .str => [⟨.string, v.strVal⟩]
  | .int => [numeral v.intVal]
  | .float => tokensOf mode v.floatVal
  | .bit => [⟨.bitLiteral, if v.bitVal then lit "1" else lit "0"⟩]
  | _ => tokensOf mode v.raw

/-- A default that can be written: a string without quotes and backslashes, a number, a bit or an expression. -/
def CleanDefault (mode : Mode) (v : Value) : Prop :=
  match v.valueType with
  | .str => ∀ c ∈ v.strVal, c ≠ '\'' ∧ c ≠ '\\'
  | .int => True
  | .float => Legible mode v.floatVal
  | .bit => True
  | .valArg => Legible mode v.raw
  | _ => False

/-! ### Columns -/

/-- The tokens of a type. -/
def typeTokens (mode : Mode) (c : Column) : List Token :=
  tokensOf mode c.typeName ++
  (match c.length, c.scale with
    | some l, some s => parens (tokensOf mode l.raw ++ sym ',' :: tokensOf mode s.raw)
    | some l, none => parens (tokensOf mode l.raw)
    | none, _ => given (c.typeName = lit "enum") (parens (commas (c.enumValues.map (tokensOf mode))))) ++
  given (c.array = true) [sym '[', sym ']']

def CleanType (mode : Mode) (c : Column) : Prop :=
  Legible mode c.typeName ∧ (∀ l, c.length = some l → Legible mode l.raw) ∧
  (∀ s, c.scale = some s → Legible mode s.raw) ∧ (∀ v ∈ c.enumValues, Legible mode v) ∧
  (c.array = true → mode ≠ .mssql)

/-- The tokens of the options of a sequence. -/
def sequenceTokens (mode : Mode) (s : Sequence) : List Token :=
  given (s.name ≠ []) (kws ["SEQUENCE", "NAME"] ++ tokensOf mode s.name) ++
  optionally s.startWith (fun n => kws ["START", "WITH"] ++ [numeral n]) ++
  optionally s.incrementBy (fun n => kws ["INCREMENT", "BY"] ++ [numeral n]) ++
  optionally s.minValue (fun n => kws ["MINVALUE"] ++ [numeral n]) ++
  given (s.noMinValue = true) (kws ["NO", "MINVALUE"]) ++
  optionally s.maxValue (fun n => kws ["MAXVALUE"] ++ [numeral n]) ++
  given (s.noMaxValue = true) (kws ["NO", "MAXVALUE"]) ++
  optionally s.cache (fun n => kws ["CACHE"] ++ [numeral n]) ++
  given (s.cycle = true) (kws ["CYCLE"]) ++
  given (s.noCycle = true) (kws ["NO", "CYCLE"])

def CleanSequence (mode : Mode) (s : Sequence) : Prop :=
  s.name ≠ [] → Legible mode s.name ∧ ∀ c, s.name.getLast? = some c → isSpace c = false

/-- Whether a column definition says NOT NULL: if the column is not to be null or belongs to the primary key; an
identity column does not need it. -/
def saysNotNull (c : Column) : Prop := c.identity = none ∧ (c.notNull = some true ∨ c.keyOption = .primary)

instance (c : Column) : Decidable (saysNotNull c) := by unfold saysNotNull; exact inferInstance

/-- The tokens of an identity. -/
def identityTokens (mode : Mode) (c : Column) : List Token :=
  match c.identity, c.sequence with
  | some i, seq =>
    if i.behavior ≠ [] then
      kws ["GENERATED"] ++ tokensOf mode i.behavior ++ kws ["AS", "IDENTITY"] ++
        optionally seq (fun s => parens (sequenceTokens mode s))
    else if mode = .mssql then
      optionally seq (fun s =>
        kw "IDENTITY" :: parens (optionally s.startWith (fun n => [numeral n]) ++ sym ',' ::
          optionally s.incrementBy (fun n => [numeral n])) ++
        given (i.notForReplication = true) (kws ["NOT", "FOR", "REPLICATION"]))
    else []
  | none, _ => []

/-- An identity that can be written: in SQL Server it needs a start and an increment. -/
def CleanIdentity (mode : Mode) (c : Column) : Prop :=
  (∀ i, c.identity = some i → i.behavior ≠ [] → Legible mode i.behavior) ∧
  (∀ s, c.sequence = some s → CleanSequence mode s) ∧
  (mode = .mssql → ∀ s, c.sequence = some s → (∃ i, c.identity = some i ∧ i.behavior ≠ []) ∨
    c.identity.isSome ∧ s.startWith.isSome ∧ s.incrementBy.isSome)

/-- The tokens of a column definition. `withUnique`: whether it may ask for uniqueness (a new column). -/
def columnTokens (mode : Mode) (c : Column) (withUnique : Bool) : List Token :=
  named c.name :: typeTokens mode c ++
  given (c.unsigned = true) (kws ["UNSIGNED"]) ++
  given (c.timezone = true) (kws ["WITH", "TIME", "ZONE"]) ++
  given (c.charset ≠ []) (kws ["CHARACTER", "SET"] ++ tokensOf mode c.charset) ++
  given (c.collate ≠ []) (kws ["COLLATE"] ++ tokensOf mode c.collate) ++
  (if saysNotNull c then kws ["NOT", "NULL"] else given (c.notNull = some false) (kws ["NULL"])) ++
  optionally (c.defaultDef.bind (·.value)) (defaultTokens mode) ++
  given (c.autoIncrement = true) (kws ["AUTO_INCREMENT"]) ++
  optionally c.onUpdate (fun v => kws ["ON", "UPDATE"] ++ tokensOf mode v.raw) ++
  optionally c.check (fun k => kws ["CHECK"] ++
    given (k.notForReplication = true) (kws ["NOT", "FOR", "REPLICATION"]) ++ parens (tokensOf mode k.definition)) ++
  given (c.checkNoInherit = true) (kws ["NO", "INHERIT"]) ++
  given (withUnique = true ∧ c.keyOption = .unique) (kws ["UNIQUE"]) ++
  given (withUnique = true ∧ c.keyOption = .uniqueKey) (kws ["UNIQUE", "KEY"]) ++
  identityTokens mode c

def CleanColumn (mode : Mode) (c : Column) : Prop :=
  CleanName mode c.name ∧ CleanType mode c ∧ (c.charset ≠ [] → Legible mode c.charset) ∧
  (c.collate ≠ [] → Legible mode c.collate) ∧
  (∀ v, c.defaultDef.bind (·.value) = some v → CleanDefault mode v) ∧
  (∀ v, c.onUpdate = some v → Legible mode v.raw) ∧ (∀ k, c.check = some k → Legible mode k.definition) ∧
  c.keyOption ≠ .spatialKey ∧ c.keyOption ≠ .key ∧ CleanIdentity mode c

/-! ### Indexes and foreign keys -/

/-- The tokens of the options of an index: MySQL gets the first one, SQL Server all of them. -/
def indexOptionTokens (mode : Mode) (os : List IndexOption) : List Token :=
  match mode with
  | .mysql =>
    match os with
    | [] => []
    | o :: _ =>
      given (o.optionName = lit "parser") (kws ["WITH"]) ++ tokensOf mode o.optionName ++
        optionally o.value (fun v => tokensOf mode v.raw)
  | .mssql =>
    given (os ≠ []) (kws ["WITH"] ++ parens (commas (os.map fun o =>
      tokensOf mode o.optionName ++ sym '=' :: optionally o.value (fun v =>
        if v.valueType = .bool then (if v.raw = lit "true" then kws ["ON"] else kws ["OFF"])
        else tokensOf mode v.raw))))
  | _ => []

def CleanIndexOptions (mode : Mode) (os : List IndexOption) : Prop :=
  (mode = .mysql ∨ mode = .mssql) →
    ∀ o ∈ os, Legible mode o.optionName ∧ ∃ v, o.value = some v ∧ (v.valueType ≠ .bool ∨ mode = .mysql → Legible mode v.raw)

/-- The tokens of a column of an index. -/
def indexColumnTokens (_mode : Mode) (c : IndexColumn) : List Token :=
  named c.column :: optionally c.length (fun n => parens [numeral n]) ++ given (c.direction = lit "desc") (kws ["desc"])

/-- The tokens of the statement that adds an index. -/
def indexTokens (mode : Mode) (t : Str) (i : Index) : List Token :=
  let clustered := if i.clustered = true then kws ["CLUSTERED"] else kws ["NONCLUSTERED"]
  let columns := parens (commas (i.columns.map (indexColumnTokens mode)))
  let options := indexOptionTokens mode i.options
  if mode = .mssql then
    if i.primary = true then
      kws ["ALTER", "TABLE"] ++ tableTokens mode t ++ kws ["ADD"] ++
      given (i.name ≠ lit "PRIMARY") (kws ["CONSTRAINT"] ++ [named i.name]) ++
      tokensOf mode i.indexType ++ clustered ++ columns ++ options
    else
      kws ["CREATE"] ++ given (i.unique = true) (kws ["UNIQUE"]) ++ clustered ++ kws ["INDEX"] ++ [named i.name] ++
      kws ["ON"] ++ tableTokens mode t ++ columns ++ options ++
      given (i.partition.partitionName ≠ [])
        (kws ["ON"] ++ [named i.partition.partitionName] ++
          given (i.partition.column ≠ []) (parens [named i.partition.column]))
  else
    kws ["ALTER", "TABLE"] ++ tableTokens mode t ++ kws ["ADD"] ++ tokensOf mode i.indexType ++
    given (i.primary = false) [named i.name] ++ columns ++ options

def CleanIndex (mode : Mode) (i : Index) : Prop :=
  CleanName mode i.name ∧ Legible mode i.indexType ∧ (∀ c ∈ i.columns, CleanName mode c.column) ∧
  CleanIndexOptions mode i.options ∧
  (i.partition.partitionName ≠ [] → CleanName mode i.partition.partitionName) ∧
  (i.partition.column ≠ [] → CleanName mode i.partition.column)

/-- The tokens of a foreign key. -/
def foreignKeyTokens (mode : Mode) (fk : ForeignKey) : List Token :=
  kws ["CONSTRAINT"] ++ [named fk.constraintName] ++ kws ["FOREIGN", "KEY"] ++
  given (fk.indexName ≠ []) [named fk.indexName] ++
  parens (commas (fk.indexColumns.map fun c => [named c])) ++ kws ["REFERENCES"] ++ [named fk.referenceName] ++
  parens (commas (fk.referenceColumns.map fun c => [named c])) ++
  given (fk.onDelete ≠ []) (kws ["ON", "DELETE"] ++ tokensOf mode fk.onDelete) ++
  given (fk.onUpdate ≠ []) (kws ["ON", "UPDATE"] ++ tokensOf mode fk.onUpdate) ++
  given (fk.notForReplication = true) (kws ["NOT", "FOR", "REPLICATION"])

def CleanForeignKey (mode : Mode) (fk : ForeignKey) : Prop :=
  CleanName mode fk.constraintName ∧ (fk.indexName ≠ [] → CleanName mode fk.indexName) ∧
  (∀ c ∈ fk.indexColumns, CleanName mode c) ∧ CleanName mode fk.referenceName ∧
  (∀ c ∈ fk.referenceColumns, CleanName mode c) ∧ (fk.onDelete ≠ [] → Legible mode fk.onDelete) ∧
  (fk.onUpdate ≠ [] → Legible mode fk.onUpdate)

/-! ### Statements -/

/-- The tokens of a placement. -/
def placeTokens : Place → List Token
  | .none => []
  | .first => kws ["FIRST"]
  | .after c => kws ["AFTER"] ++ [named c]

/-- `ALTER TABLE t ...` -/
def alterTokens (mode : Mode) (t : Str) (ts : List Token) : List Token :=
  kws ["ALTER", "TABLE"] ++ tableTokens mode t ++ ts

/-- `ALTER TABLE t ALTER COLUMN c ...` -/
def alterColumnTokens (mode : Mode) (t c : Str) (ts : List Token) : List Token :=
  alterTokens mode t (kws ["ALTER", "COLUMN"] ++ named c :: ts)

/-- The tokens of a trigger, after CREATE. -/
def triggerTokens (mode : Mode) (t : Trigger) : List Token :=
  kws ["TRIGGER"] ++ [named t.name] ++
  (if mode = .mssql then
    kws ["ON"] ++ tableTokens mode t.tableName ++ tokensOf mode t.time ++ tokensOf mode t.event ++ kws ["AS"]
  else
    tokensOf mode t.time ++ tokensOf mode t.event ++ kws ["ON"] ++ tableTokens mode t.tableName ++
      kws ["FOR", "EACH", "ROW"]) ++
  t.body.flatMap (tokensOf mode)

/-- What each kind of statement has to say. -/
def stmtTokens (mode : Mode) : Stmt → List Token
  | .user d => tokensOf mode d.statement
  | .dropTable t => kws ["DROP", "TABLE"] ++ tableTokens mode t
  | .dropPolicy t p => kws ["DROP", "POLICY"] ++ named p :: kws ["ON"] ++ tableTokens mode t
  | .dropView v => kws ["DROP", "VIEW"] ++ tableTokens mode v
  | .createView v d => kws ["CREATE", "VIEW"] ++ tableTokens mode v ++ kws ["AS"] ++ tokensOf mode d
  | .replaceView v d => kws ["CREATE", "OR", "REPLACE", "VIEW"] ++ tableTokens mode v ++ kws ["AS"] ++ tokensOf mode d
  | .dropTrigger n => kws ["DROP", "TRIGGER"] ++ [named n]
  | .createTrigger orAlter t =>
    kws ["CREATE"] ++ given (orAlter = true) (kws ["OR", "ALTER"]) ++ triggerTokens mode t
  | .addColumn t c place =>
    alterTokens mode t ((if mode = .mssql then kws ["ADD"] else kws ["ADD", "COLUMN"]) ++ columnTokens mode c true ++
      placeTokens place)
  | .changeColumn t old c place =>
    alterTokens mode t (kws ["CHANGE", "COLUMN"] ++ named old :: columnTokens mode c false ++ placeTokens place)
  | .addUniqueKey t c => alterTokens mode t (kws ["ADD", "UNIQUE", "KEY"] ++ named c :: parens [named c])
  | .dropColumn t c => alterTokens mode t (kws ["DROP", "COLUMN"] ++ [named c])
  | .alterType t c col => alterColumnTokens mode t c (kws ["TYPE"] ++ typeTokens mode col)
  | .dropNotNull t c => alterColumnTokens mode t c (kws ["DROP", "NOT", "NULL"])
  | .setNotNull t c => alterColumnTokens mode t c (kws ["SET", "NOT", "NULL"])
  | .addIdentity t c b seq =>
    alterColumnTokens mode t c (kws ["ADD", "GENERATED"] ++ tokensOf mode b ++ kws ["AS", "IDENTITY"] ++
      optionally seq (fun s => parens (sequenceTokens mode s)))
  | .dropIdentity t c => alterColumnTokens mode t c (kws ["DROP", "IDENTITY", "IF", "EXISTS"])
  | .setGenerated t c b => alterColumnTokens mode t c (kws ["SET", "GENERATED"] ++ tokensOf mode b)
  | .dropDefault t c => alterColumnTokens mode t c (kws ["DROP", "DEFAULT"])
  | .setDefault t c v => alterColumnTokens mode t c (kws ["SET"] ++ defaultTokens mode v)
  | .dropCheck t _ k => alterTokens mode t (kws ["DROP", "CONSTRAINT"] ++ tokensOf mode k)
  | .addCheck t _ k check noInherit =>
    alterTokens mode t (kws ["ADD", "CONSTRAINT"] ++ tokensOf mode k ++ kws ["CHECK"] ++
      given (mode = .mssql ∧ check.notForReplication = true) (kws ["NOT", "FOR", "REPLICATION"]) ++
      parens (tokensOf mode check.definition) ++ given (noInherit = true) (kws ["NO", "INHERIT"]))
  | .dropDefaultConstraint t _ k => alterTokens mode t (kws ["DROP", "CONSTRAINT"] ++ [named k])
  | .addDefaultConstraint t c k v =>
    alterTokens mode t (kws ["ADD"] ++ given (k ≠ []) (kws ["CONSTRAINT"] ++ [named k]) ++ defaultTokens mode v ++
      kws ["FOR"] ++ [named c])
  | .dropPrimaryKey t k =>
    alterTokens mode t (if mode = .mysql then kws ["DROP", "PRIMARY", "KEY"] else kws ["DROP", "CONSTRAINT"] ++ [named k])
  | .addIndex t i => indexTokens mode t i
  | .dropIndex t i =>
    match mode with
    | .mysql => alterTokens mode t (kws ["DROP", "INDEX"] ++ [named i])
    | .postgres => kws ["DROP", "INDEX"] ++ [named i]
    | .mssql => kws ["DROP", "INDEX"] ++ named i :: kws ["ON"] ++ tableTokens mode t
    | .sqlite3 => []
  | .dropForeignKey t k =>
    alterTokens mode t
      ((if mode = .mysql then kws ["DROP", "FOREIGN", "KEY"] else kws ["DROP", "CONSTRAINT"]) ++ [named k])
  | .addForeignKey t fk => alterTokens mode t (kws ["ADD"] ++ foreignKeyTokens mode fk)

/-- The names of the statement can be quoted, and its texts are sequences of whole tokens. -/
def CleanStmt (mode : Mode) : Stmt → Prop
  | .user d => Legible mode d.statement
  | .dropTable t => CleanTable mode t
  | .dropPolicy t p => CleanTable mode t ∧ CleanName mode p
  | .dropView v => CleanTable mode v
  | .createView v d | .replaceView v d => CleanTable mode v ∧ Legible mode d
  | .dropTrigger n => CleanName mode n
  | .createTrigger _ t => CleanName mode t.name ∧ CleanTable mode t.tableName ∧ Legible mode t.time ∧
    Legible mode t.event ∧ ∀ b ∈ t.body, Legible mode b
  | .addColumn t c place =>
    CleanTable mode t ∧ CleanColumn mode c ∧ ∀ a, place = .after a → CleanName mode a
  | .changeColumn t old c place =>
    CleanTable mode t ∧ CleanName mode old ∧ CleanColumn mode c ∧ ∀ a, place = .after a → CleanName mode a
  | .addUniqueKey t c | .dropColumn t c | .dropNotNull t c | .setNotNull t c | .dropIdentity t c
  | .dropDefault t c => CleanTable mode t ∧ CleanName mode c
  | .alterType t c col => CleanTable mode t ∧ CleanName mode c ∧ CleanType mode col
  | .addIdentity t c b seq => CleanTable mode t ∧ CleanName mode c ∧ Legible mode b ∧
    ∀ s, seq = some s → CleanSequence mode s
  | .setGenerated t c b => CleanTable mode t ∧ CleanName mode c ∧ Legible mode b
  | .setDefault t c v => CleanTable mode t ∧ CleanName mode c ∧ CleanDefault mode v
  | .dropCheck t _ k => CleanTable mode t ∧ Legible mode k
  | .addCheck t _ k check _ => CleanTable mode t ∧ Legible mode k ∧ Legible mode check.definition
  | .dropDefaultConstraint t _ k => CleanTable mode t ∧ CleanName mode k
  | .addDefaultConstraint t c k v =>
    CleanTable mode t ∧ CleanName mode c ∧ (k ≠ [] → CleanName mode k) ∧ CleanDefault mode v
  | .dropPrimaryKey t k => CleanTable mode t ∧ (mode ≠ .mysql → CleanName mode k)
  | .addIndex t i => CleanTable mode t ∧ CleanIndex mode i
  | .dropIndex t i => CleanTable mode t ∧ CleanName mode i
  | .dropForeignKey t k => CleanTable mode t ∧ CleanName mode k
  | .addForeignKey t fk => CleanTable mode t ∧ CleanForeignKey mode fk

end Sqldef.Spec
