import Verif.Model.Ast
/-
Model of the look-up and comparison functions of `/repo/schema/generator.go`.
-/
namespace Sqldef

/-! ### Look-ups (generator.go:1175-1254, 1487-1554) -/

/-- `findTableByName`, /repo/schema/generator.go:1175-1182. -/
def findTableByName (tables : List Table) (name : Str) : Option Table :=
  tables.find? (·.name = name)

/-- `findColumnByName`, /repo/schema/generator.go:1184-1191. -/
def findColumnByName (columns : List Column) (name : Str) : Option Column :=
  columns.find? (·.name = name)

/-- `findIndexByName`, /repo/schema/generator.go:1193-1200. -/
def findIndexByName (indexes : List Index) (name : Str) : Option Index :=
  indexes.find? (·.name = name)

/-- `findIndexOptionByName`, /repo/schema/generator.go:1202-1209. -/
def findIndexOptionByName (options : List IndexOption) (name : Str) : Option IndexOption :=
  options.find? (·.optionName = name)

/-- `findForeignKeyByName`, /repo/schema/generator.go:1211-1218. -/
def findForeignKeyByName (fks : List ForeignKey) (name : Str) : Option ForeignKey :=
  fks.find? (·.constraintName = name)

/-- `findPolicyByName`, /repo/schema/generator.go:1229-1236. -/
def findPolicyByName (ps : List Policy) (name : Str) : Option Policy :=
  ps.find? (·.name = name)

/-- `findViewByName`, /repo/schema/generator.go:1238-1245. -/
def findViewByName (vs : List View) (name : Str) : Option View :=
  vs.find? (·.name = name)

/-- `findTriggerByName`, /repo/schema/generator.go:1247-1254. -/
def findTriggerByName (ts : List Trigger) (name : Str) : Option Trigger :=
  ts.find? (·.name = name)

/-- `containsString`, /repo/schema/generator.go:1547-1554. -/
def containsString (strs : List Str) (s : Str) : Bool := strs.any (· = s)

/-- `convertColumnsToColumnNames`, /repo/schema/generator.go:1495-1501. -/
def columnNames (cs : List Column) : List Str := cs.map (·.name)

/-- `convertIndexesToIndexNames`, /repo/schema/generator.go:1503-1509. -/
def indexNames (is : List Index) : List Str := is.map (·.name)

/-- `convertForeignKeysToConstraintNames`, /repo/schema/generator.go:1511-1517. -/
def fkConstraintNames (fks : List ForeignKey) : List Str := fks.map (·.constraintName)

/-- `convertForeignKeysToIndexNames`, /repo/schema/generator.go:1519-1529. -/
def fkIndexNames (fks : List ForeignKey) : List Str :=
  fks.filterMap fun fk =>
    if fk.indexName ≠ [] then some fk.indexName
    else if fk.constraintName ≠ [] then some fk.constraintName
    else none

/-- `convertPolicyNames`, /repo/schema/generator.go:1531-1537. -/
def policyNames (ps : List Policy) : List Str := ps.map (·.name)

/-- `convertViewNames`, /repo/schema/generator.go:1539-1545. -/
def viewNames (vs : List View) : List Str := vs.map (·.name)

/-! ### Comparisons (generator.go:1057-1085, 1256-1483) -/

/-- `dataTypeAliases`, /repo/schema/generator.go:22-27. -/
def dataTypeAlias (t : Str) : Option Str :=
  if t = lit "bool" then some (lit "boolean")
  else if t = lit "int" then some (lit "integer")
  else if t = lit "char" then some (lit "character")
  else if t = lit "varchar" then some (lit "character varying")
  else none

/-- `mysqlDataTypeAliases`, /repo/schema/generator.go:28-30. -/
def mysqlDataTypeAlias (t : Str) : Option Str :=
  if t = lit "boolean" then some (lit "tinyint") else none

/-- `normalizeDataType`, /repo/schema/generator.go:1355-1367. -/
def normalizeDataType (mode : Mode) (dataType : Str) : Str :=
  let dataType := (dataTypeAlias dataType).getD dataType
  if mode = .mysql then (mysqlDataTypeAlias dataType).getD dataType else dataType

/-- `haveSameDataType`, /repo/schema/generator.go:1268-1274. The scale is not compared. -/
def haveSameDataType (mode : Mode) (current desired : Column) : Bool :=
  normalizeDataType mode current.typeName = normalizeDataType mode desired.typeName &&
  current.enumValues = desired.enumValues &&
  (match current.length, desired.length with
    | some a, some b => decide (a.intVal = b.intVal)
    | _, _ => true) &&
  current.array = desired.array

/-- `current.check == desired.check` in `haveSameColumnDefinition`, /repo/schema/generator.go:1262.
Both are pointers to structures allocated by different calls of `parseTable`, so they are
equal exactly if both are nil. -/
def checkPtrEq (a b : Option CheckDefinition) : Bool := a.isNone && b.isNone

/-- `haveSameColumnDefinition`, /repo/schema/generator.go:1256-1266. -/
def haveSameColumnDefinition (mode : Mode) (current desired : Column) : Bool :=
  haveSameDataType mode current desired &&
  current.unsigned = desired.unsigned &&
  (decide (current.notNull = some true)) =
    (decide (desired.notNull = some true) || decide (desired.keyOption = .primary)) &&
  current.timezone = desired.timezone &&
  checkPtrEq current.check desired.check &&
  (desired.charset = [] || current.charset = desired.charset) &&
  (desired.collate = [] || current.collate = desired.collate) &&
  current.onUpdate = desired.onUpdate

/-- `areSameCheckDefinition`, /repo/schema/generator.go:1276-1284. -/
def areSameCheckDefinition (a b : Option CheckDefinition) : Bool :=
  match a, b with
  | none, none => true
  | some a, some b => a.definition = b.definition && a.notForReplication = b.notForReplication
  | _, _ => false

/-- `areSameIdentityDefinition`, /repo/schema/generator.go:1286-1294. -/
def areSameIdentityDefinition (a b : Option Identity) : Bool :=
  match a, b with
  | none, none => true
  | some a, some b => a.behavior = b.behavior && a.notForReplication = b.notForReplication
  | _, _ => false

/-- `isNullValue`, /repo/schema/generator.go:1351-1353. -/
def isNullValue : Option Value → Bool
  | none => false
  | some v => v.valueType = .valArg && v.raw = lit "null"

/-- `areSameValue`, /repo/schema/generator.go:1309-1326. -/
def areSameValue (current desired : Option Value) : Bool :=
  match current, desired with
  | none, none => true
  | some c, some d =>
    let currentRaw :=
      if d.valueType = .float && decide (c.raw.length > d.raw.length)
      then c.raw.take d.raw.length else c.raw
    currentRaw = d.raw
  | _, _ => false

/-- The value considered by `areSameDefaultValue` for one side: nil for no default or
`DEFAULT NULL`, /repo/schema/generator.go:1297-1304. -/
def effectiveDefault : Option DefaultDefinition → Option Value
  | none => none
  | some d => if isNullValue d.value then none else d.value

/-- `areSameDefaultValue`, /repo/schema/generator.go:1296-1307. -/
def areSameDefaultValue (current desired : Option DefaultDefinition) : Bool :=
  areSameValue (effectiveDefault current) (effectiveDefault desired)

/-- `areSameTriggerDefinition`, /repo/schema/generator.go:1328-1349. -/
def areSameTriggerDefinition (a b : Trigger) : Bool :=
  a.time = b.time && a.event = b.event && a.tableName = b.tableName &&
  a.body.length = b.body.length &&
  (a.body.zip b.body).all fun (x, y) => toLower (deleteSpaces x) = toLower (deleteSpaces y)

/-- The direction `areSameIndexes` compares: an empty direction counts as ascending,
/repo/schema/generator.go:1388-1393. The Go code writes the default back into the columns of
`indexB`; nothing but this comparison and the `desc` test of `generateAddIndex` reads it
(see `areSameIndexes_normalized` and `generateAddIndex_normalized`). -/
def normDirection (d : Str) : Str := if d = [] then ascScr else d

/-- `areSameIndexes`, /repo/schema/generator.go:1377-1423. -/
def areSameIndexes (a b : Index) : Bool :=
  a.unique = b.unique &&
  a.primary = b.primary &&
  a.columns.length = b.columns.length &&
  ((a.columns.zip b.columns).all fun (x, y) =>
    x.column = y.column && normDirection x.direction = normDirection y.direction) &&
  a.whereExpr = b.whereExpr &&
  a.included = b.included &&
  (b.options.all fun ob =>
    match findIndexOptionByName a.options ob.optionName with
    | some oa => areSameValue oa.value ob.value
    | none => false)

/-- `areSamePrimaryKeys`, /repo/schema/generator.go:1369-1375. -/
def areSamePrimaryKeys (a b : Option Index) : Bool :=
  match a, b with
  | some a, some b => areSameIndexes a b
  | none, none => true
  | _, _ => false

/-- `normalizeOnUpdate` and `normalizeOnDelete`, /repo/schema/generator.go:1469-1483. -/
def normalizeAction (mode : Mode) (action : Str) : Str :=
  if (mode = .postgres || mode = .mssql) && action = [] then lit "NO ACTION" else action

/-- `areSameForeignKeys`, /repo/schema/generator.go:1425-1437. Columns and referenced table are
not compared. -/
def areSameForeignKeys (mode : Mode) (a b : ForeignKey) : Bool :=
  normalizeAction mode a.onUpdate = normalizeAction mode b.onUpdate &&
  normalizeAction mode a.onDelete = normalizeAction mode b.onDelete &&
  a.notForReplication = b.notForReplication

/-- Go's `<=` on strings: lexicographic by code point (on valid UTF-8 the same as by byte). -/
def strLe : Str → Str → Bool
  | [], _ => true
  | _ :: _, [] => false
  | a :: s, b :: t => if a = b then strLe s t else decide (a.toNat < b.toNat)

/-- Insertion into a sorted list. -/
def insertRole (r : Str) : List Str → List Str
  | [] => [r]
  | x :: xs => if strLe r x then r :: x :: xs else x :: insertRole r xs

/-- `sort.Slice(roles, ≤)`, /repo/schema/generator.go:1455-1460. Equal elements are
indistinguishable, so any sorting algorithm gives this list. The Go code sorts in place; roles are
read by nothing but `areSamePolicies`. -/
def sortRoles : List Str → List Str
  | [] => []
  | r :: rs => insertRole r (sortRoles rs)

/-- `fmt.Sprintf("(%s)", s)`. -/
def paren (s : Str) : Str := lit "(" ++ s ++ lit ")"

/-- `areSamePolicies`, /repo/schema/generator.go:1439-1467. -/
def areSamePolicies (a b : Policy) : Bool :=
  if toLower a.scope ≠ toLower b.scope then false
  else if toLower a.permissive ≠ toLower b.permissive then false
  else if toLower a.using_ ≠ toLower b.using_ then paren a.using_ = b.using_
  else if toLower a.withCheck ≠ toLower b.withCheck then paren a.withCheck = b.withCheck
  else if a.roles.length ≠ b.roles.length then false
  else ((sortRoles a.roles).zip (sortRoles b.roles)).all fun (x, y) => toLower x = toLower y

/-- `Generator.notNull`, /repo/schema/generator.go:1057-1068. -/
def notNull (mode : Mode) (c : Column) : Bool :=
  match c.notNull with
  | some b => b
  | none => mode = .postgres && (c.typeName = lit "serial" || c.typeName = lit "bigserial")

/-- `isPrimaryKey`, /repo/schema/generator.go:1070-1085. -/
def isPrimaryKey (c : Column) (t : Table) : Bool :=
  c.keyOption = .primary ||
  t.indexes.any fun i => i.primary && i.columns.any (·.column = c.name)

end Sqldef
