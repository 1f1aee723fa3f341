import Verif.Model.SqlAst
import Verif.Model.Generator
/-
Model of `/repo/schema/parser.go`.
-/
namespace Sqldef

/-- What the schema parser is given: the SQL grammar (`sqlparser.ParseStrictDDLWithMode`; an error is a message, or a
panic) and the decimal text of a float (`fmt.Sprintf("%f", f)` for the `f` that `strconv.ParseFloat` returns for
the given literal). The theorems about `Env` hold for every choice of these; the grammar of the code is
`parseStrictDDLWithMode`. -/
structure Env where
  parse : Mode → Str → Except Err SqlStatement
  fmtFloat : Str → Str

/-- `parseValue`, /repo/schema/parser.go:28-77. -/
def parseValue (env : Env) (v : SqlVal) : Value :=
  match v.type with
  | .strVal => { valueType := .str, raw := v.val, strVal := v.val }
  | .intVal => { valueType := .int, raw := v.val, intVal := (atoi v.val).1 }
  | .floatVal => { valueType := .float, raw := v.val, floatVal := env.fmtFloat v.val }
  | .hexNum => { valueType := .hexNum, raw := v.val }
  | .hexVal => { valueType := .hex, raw := v.val }
  | .valArg => { valueType := .valArg, raw := v.val }
  | .bitVal => { valueType := .bit, raw := v.val, bitVal := decide (v.val = lit "1") }
  | .valBool => { valueType := .bool, raw := v.val }

/-- `parseLength`, /repo/schema/parser.go:81-93. -/
def parseLength (v : Option SqlVal) : Except Err (Option Int) :=
  match v with
  | none => .ok none
  | some v =>
    if v.type ≠ .intVal then .error .badLength
    else match atoi v.val with
      | (n, none) => .ok (some n)
      | (_, some _) => .error .badLength

/-- `strings.TrimLeft(s, "charset=")`: removes leading characters that belong to the set of the
letters of `charset=`. -/
def trimLeftCharset (s : Str) : Str := s.dropWhile fun c => (lit "charset=").contains c

/-- `detectCharset`, /repo/schema/parser.go:469-477. -/
def detectCharset (options : Str) : Str :=
  match (splitOn ' ' options).find? (hasPrefix (lit "charset=") ·) with
  | some o => trimLeftCharset o
  | none => []

/-- `normalizeCollate`, /repo/schema/parser.go:447-453. -/
def normalizeCollate (collate : Str) (spec : SqlTableSpec) : Str :=
  if collate = lit "binary" then detectCharset spec.options ++ lit "_bin" else collate

/-- `normalizedTableName`, /repo/schema/parser.go:456-466. -/
def normalizedTableName (mode : Mode) (t : SqlTableName) : Str :=
  if mode = .postgres then
    if t.qualifier ≠ [] then t.qualifier ++ lit "." ++ t.name else lit "public." ++ t.name
  else t.name

/-- `parseIdentity`, /repo/schema/parser.go:479-484. -/
def parseIdentity (o : Option SqlIdentity) : Option Identity :=
  o.map fun i => { behavior := toUpper i.behavior, notForReplication := i.notForReplication }

/-- `parseDefaultDefinition`, /repo/schema/parser.go:486-497. -/
def parseDefaultDefinition (env : Env) (o : Option SqlDefault) : Option DefaultDefinition :=
  match o with
  | none => none
  | some d =>
    match d.value with
    | none => none
    | some v => some { value := some (parseValue env v), constraintName := d.constraintName }

/-- `parseIdentitySequence`, /repo/schema/parser.go:499-537. -/
def parseIdentitySequence (env : Env) (o : Option SqlIdentity) : Option Sequence :=
  match o with
  | none => none
  | some i =>
    i.sequence.map fun s =>
      { name := s.name, ifNotExists := s.ifNotExists, type := s.type, ownedBy := s.ownedBy,
        incrementBy := s.incrementBy.map fun v => (parseValue env v).intVal,
        minValue := s.minValue.map fun v => (parseValue env v).intVal,
        maxValue := s.maxValue.map fun v => (parseValue env v).intVal,
        startWith := s.startWith.map fun v => (parseValue env v).intVal,
        cache := s.cache.map fun v => (parseValue env v).intVal,
        noMinValue := s.noMinValue.isSome, noMaxValue := s.noMaxValue.isSome,
        cycle := s.cycle.isSome, noCycle := s.noCycle.isSome }

/-- `ColumnKeyOption(parsedCol.Type.KeyOpt)`, /repo/schema/parser.go:115: conversion by position in the
enumerations /repo/sqlparser/ast.go:1292-1299 and /repo/schema/ast.go:174-181. -/
def convertKeyOpt : SqlKeyOpt → ColumnKeyOption
  | .none => .none
  | .primary => .primary
  | .spatialKey => .spatialKey
  | .unique => .unique
  | .uniqueKey => .uniqueKey
  | .key => .key

/-- A column of `parseTable`, /repo/schema/parser.go:100-132. -/
def parseColumn (env : Env) (spec : SqlTableSpec) (i : Nat) (c : SqlColumn) : Column :=
  { name := c.name, position := i, typeName := c.type.type, unsigned := c.type.unsigned,
    notNull := c.type.notNull, autoIncrement := c.type.autoincrement, array := c.type.array,
    defaultDef := parseDefaultDefinition env c.type.default,
    length := c.type.length.map (parseValue env), scale := c.type.scale.map (parseValue env),
    charset := c.type.charset, collate := normalizeCollate c.type.collate spec,
    timezone := c.type.timezone, keyOption := convertKeyOpt c.type.keyOpt,
    onUpdate := c.type.onUpdate.map (parseValue env), enumValues := c.type.enumValues,
    references := c.type.references, identity := parseIdentity c.type.identity,
    sequence := parseIdentitySequence env c.type.identity,
    check := c.type.check.map fun k =>
      { definition := k.whereExpr.text, constraintName := k.constraintName,
        notForReplication := k.notForReplication },
    checkNoInherit := c.type.checkNoInherit }

/-- The columns of a table, numbered from `i`. -/
def parseColumns (env : Env) (spec : SqlTableSpec) : Nat → List SqlColumn → List Column
  | _, [] => []
  | i, c :: cs => parseColumn env spec i c :: parseColumns env spec (i + 1) cs

/-- The columns of an index, /repo/schema/parser.go:135-149 and 217-231. -/
def parseIndexColumns : List SqlIndexColumn → Except Err (List IndexColumn)
  | [] => .ok []
  | c :: cs => do
    let length ← parseLength c.length
    let rest ← parseIndexColumns cs
    return { column := c.column, length := length, direction := c.direction } :: rest

/-- The options of an index, /repo/schema/parser.go:151-160 and 248-257. -/
def parseIndexOptions (env : Env) (os : List SqlIndexOption) : List IndexOption :=
  os.map fun o => { optionName := o.name, value := o.value.map (parseValue env) }

/-- The partition of an index, /repo/schema/parser.go:162-166 and 259-263. -/
def parseIndexPartition : Option SqlIndexPartition → IndexPartition
  | none => {}
  | some p => { partitionName := p.name, column := p.column }

/-- The indexes of `parseTable`, /repo/schema/parser.go:134-179. -/
def parseTableIndexes (env : Env) : List SqlIndexDef → Except Err (List Index)
  | [] => .ok []
  | d :: ds => do
    let columns ← parseIndexColumns d.columns
    let rest ← parseTableIndexes env ds
    return { name := d.name, indexType := d.type, columns := columns, primary := d.primary,
             unique := d.unique, clustered := d.clustered,
             options := parseIndexOptions env d.options,
             partition := parseIndexPartition d.partition } :: rest

/-- A foreign key, /repo/schema/parser.go:181-202 and 345-368. -/
def parseForeignKey (k : SqlForeignKey) : ForeignKey :=
  { constraintName := k.constraintName, indexName := k.indexName, indexColumns := k.indexColumns,
    referenceName := k.referenceName, referenceColumns := k.referenceColumns,
    onDelete := k.onDelete, onUpdate := k.onUpdate, notForReplication := k.notForReplication }

/-- Rendering the CHECK of the column panics, /repo/schema/parser.go:124. -/
def SqlColumn.checkPanics (c : SqlColumn) : Bool :=
  match c.type.check with
  | none => false
  | some k => k.whereExpr.panics

/-- `parseTable`, /repo/schema/parser.go:95-210. The columns with their CHECKs come before the indexes. -/
def parseTable (env : Env) (mode : Mode) (d : SqlDDL) : Except Err Table :=
  match d.tableSpec with
  | none => .error .panic
  | some spec => if spec.columns.any SqlColumn.checkPanics then .error .panic else do
    let indexes ← parseTableIndexes env spec.indexes
    return { name := normalizedTableName mode d.newName, columns := parseColumns env spec 0 spec.columns,
             indexes := indexes, foreignKeys := spec.foreignKeys.map parseForeignKey }

/-- The WHERE condition of an index without its outer parentheses, /repo/schema/parser.go:233-241. -/
def parseIndexWhere : Option SqlWhere → Str
  | none => []
  | some w => if w.isWhere then w.expr.inner.getD w.expr.text else []

/-- Rendering the WHERE condition of an index panics, /repo/schema/parser.go:233-241. -/
def wherePanics : Option SqlWhere → Bool
  | none => false
  | some w => w.isWhere && w.expr.panics

/-- `parseIndex`, /repo/schema/parser.go:212-277. -/
def parseIndex (env : Env) (d : SqlDDL) : Except Err Index :=
  match d.indexSpec with
  | none => .error .missingIndexSpec
  | some s => do
    let columns ← parseIndexColumns d.indexCols
    if wherePanics s.whereClause then .error .panic else
    return { name := s.name, indexType := [], columns := columns, primary := false, unique := s.unique,
             clustered := s.clustered, whereExpr := parseIndexWhere s.whereClause,
             included := s.included, options := parseIndexOptions env s.options,
             partition := parseIndexPartition s.partition }

/-- Rendering the condition of a policy panics, /repo/schema/parser.go:372-378. -/
def predicatePanics : Option SqlExpr → Bool
  | none => false
  | some e => e.panics

/-- The conversion part of `parseDDL`, /repo/schema/parser.go:302-419. -/
def convertStatement (env : Env) (mode : Mode) (ddl : Str) (s : SqlStatement) : Except Err DDL :=
  match s with
  | .other => .error .notDDL
  | .ddl d =>
    if d.action = lit "create" then do
      let t ← parseTable env mode d
      return .createTable ddl t
    else if d.action = lit "create index" then do
      let i ← parseIndex env d
      return .createIndex ddl (normalizedTableName mode d.table) i
    else if d.action = lit "add index" then do
      let i ← parseIndex env d
      return .addIndex ddl (normalizedTableName mode d.table) i
    else if d.action = lit "add primary key" then do
      let i ← parseIndex env d
      return .addPrimaryKey ddl (normalizedTableName mode d.table) i
    else if d.action = lit "add foreign key" then
      match d.foreignKey with
      | none => .error .panic
      | some k => .ok (.addForeignKey ddl (normalizedTableName mode d.table) (parseForeignKey k))
    else if d.action = lit "create policy" then
      match d.policy with
      | none => .error .panic
      | some p =>
        if predicatePanics p.using_ || predicatePanics p.withCheck then .error .panic else
        .ok (.addPolicy ddl (normalizedTableName mode d.table)
          { name := p.name, permissive := p.permissive, scope := p.scope, roles := p.to,
            using_ := (p.using_.map (·.text)).getD [],
            withCheck := (p.withCheck.map (·.text)).getD [] })
    else if d.action = lit "create view" then
      match d.view with
      | none => .error .panic
      | some v => if v.panics then .error .panic else .ok (.view { statement := ddl, name := v.name, definition := v.definition })
    else if d.action = lit "create trigger" then
      match d.trigger with
      | none => .error .panic
      | some t =>
        if t.panics then .error .panic else
        .ok (.trigger { statement := ddl, name := t.name, tableName := t.tableName.name, time := t.time,
                        event := t.event, body := t.body })
    else .error (.unsupportedAction d.action)

/-- `parseDDL`, /repo/schema/parser.go:281-420. -/
def parseDDL (env : Env) (mode : Mode) (ddl : Str) : Except Err DDL :=
  match env.parse mode ddl with
  | .error e => .error e
  | .ok s => convertStatement env mode ddl s

/-- `regexp.MustCompilePOSIX("^--.*").ReplaceAllString(str, "")`, /repo/schema/parser.go:425-426. A POSIX
regexp of Go is multi-line: `^` matches at the start of every line, and `.` does not match a newline.
The text of every line starting with two dashes is deleted, the newline stays. `bol`: the position is at
the beginning of a line; `skip`: inside a comment. -/
def stripComments : (bol skip : Bool) → Str → Str
  | _, _, [] => []
  | bol, skip, c :: s =>
    if c = '\n' then c :: stripComments true false s
    else if skip then stripComments false true s
    else if bol && hasPrefix (lit "--") (c :: s) then stripComments false true s
    else c :: stripComments false false s

/-- The loop of `parseDDLs`, /repo/schema/parser.go:431-442. -/
def parsePieces (env : Env) (mode : Mode) : List Str → Except Err (List DDL)
  | [] => .ok []
  | p :: ps =>
    let ddl := trimSpace p
    if ddl = [] then parsePieces env mode ps
    else do
      let d ← parseDDL env mode ddl
      let ds ← parsePieces env mode ps
      return d :: ds

/-- `parseDDLs`, /repo/schema/parser.go:424-444. -/
def parseDDLs (env : Env) (mode : Mode) (str : Str) : Except Err (List DDL) :=
  parsePieces env mode (splitOn ';' (stripComments true false str))

/-- `GenerateIdempotentDDLs`, /repo/schema/generator.go:47-77. -/
def generateIdempotentDDLs (env : Env) (mode : Mode) (desiredSQL currentSQL : Str) :
    Except Err (List Str) := do
  let desired ← parseDDLs env mode desiredSQL
  let current ← parseDDLs env mode currentSQL
  let ddls ← diff mode desired current
  return ddls.map (Stmt.render mode)

end Sqldef
