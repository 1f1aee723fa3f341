import Verif.Spec.Types
/-!
Specification vocabulary: when a definition of the current schema and one of the desired schema mean the same,
as the comparisons of the command understand it. (C33 and C34 say where this understanding is too coarse.)
-/
namespace Sqldef.Spec

/-- The same value: the same text, where a float of the current schema may have further characters. -/
def SameValue : Option Value → Option Value → Prop
  | none, none => True
  | some c, some d => c.raw = d.raw ∨ (d.valueType = .float ∧ d.raw <+: c.raw)
  | _, _ => False

/-- The value a DEFAULT gives; `DEFAULT NULL` is the same as no default. -/
def givenDefault : Option DefaultDefinition → Option Value
  | some { value := some v, .. } => if v.valueType = .valArg ∧ v.raw = lit "null" then none else some v
  | _ => none

/-- The same default. -/
def SameDefault (cur des : Option DefaultDefinition) : Prop := SameValue (givenDefault cur) (givenDefault des)

/-- The same data type: names of the same type, the same enumeration values, array mark and, if both give one,
length. -/
structure SameDataType (mode : Mode) (cur des : Column) : Prop where
  name : SameType mode cur.typeName des.typeName
  enumValues : cur.enumValues = des.enumValues
  array : cur.array = des.array
  length : ∀ x y, cur.length = some x → des.length = some y → x.intVal = y.intVal

/-- The same definition of a MySQL column, apart from the default. A column with a CHECK is never the same as
another one. -/
structure SameDefinition (mode : Mode) (cur des : Column) : Prop where
  type : SameDataType mode cur des
  unsigned : cur.unsigned = des.unsigned
  notNull : cur.notNull = some true ↔ des.notNull = some true ∨ des.keyOption = .primary
  timezone : cur.timezone = des.timezone
  noCheck : cur.check = none ∧ des.check = none
  charset : des.charset = [] ∨ cur.charset = des.charset
  collate : des.collate = [] ∨ cur.collate = des.collate
  onUpdate : cur.onUpdate = des.onUpdate

/-- The same CHECK. -/
def SameCheck (cur des : Option CheckDefinition) : Prop :=
  cur.map (fun c => (c.definition, c.notForReplication)) = des.map fun c => (c.definition, c.notForReplication)

/-- The same columns in the same order and direction. -/
def SameColumns : List IndexColumn → List IndexColumn → Prop
  | [], [] => True
  | c :: cs, d :: ds => c.column = d.column ∧ SameDirection c.direction d.direction ∧ SameColumns cs ds
  | _, _ => False

/-- The same index: the same uniqueness, columns, condition and included columns, and every option of the desired
index has the same value in the current one. -/
structure SameIndex (cur des : Index) : Prop where
  unique : cur.unique = des.unique
  primary : cur.primary = des.primary
  columns : SameColumns cur.columns des.columns
  whereExpr : cur.whereExpr = des.whereExpr
  included : cur.included = des.included
  options : ∀ o ∈ des.options, ∃ o', cur.options.find? (·.optionName = o.optionName) = some o' ∧ SameValue o'.value o.value

/-- The same primary key, or none on both sides. -/
def SameKey : Option Index → Option Index → Prop
  | none, none => True
  | some c, some d => SameIndex c d
  | _, _ => False

/-- The action of a foreign key; for Postgres and SQL Server the default is NO ACTION. -/
def actionOf (mode : Mode) (a : Str) : Str := if (mode = .postgres ∨ mode = .mssql) ∧ a = [] then lit "NO ACTION" else a

/-- The same foreign key, given that they have the same name. -/
structure SameForeignKey (mode : Mode) (cur des : ForeignKey) : Prop where
  onUpdate : actionOf mode cur.onUpdate = actionOf mode des.onUpdate
  onDelete : actionOf mode cur.onDelete = actionOf mode des.onDelete
  notForReplication : cur.notForReplication = des.notForReplication

/-- Equal conditions: up to letter case, or up to the parentheses that Postgres omits. -/
def SameCondition (cur des : Str) : Prop := toLower cur = toLower des ∨ lit "(" ++ cur ++ lit ")" = des

/-- The same policy. The roles and the WITH CHECK condition count only if the USING conditions are the same up to letter
case, the roles only if the WITH CHECK conditions are, too; their order does not count. -/
structure SamePolicy (cur des : Policy) : Prop where
  scope : toLower cur.scope = toLower des.scope
  permissive : toLower cur.permissive = toLower des.permissive
  using_ : SameCondition cur.using_ des.using_
  withCheck : toLower cur.using_ = toLower des.using_ → SameCondition cur.withCheck des.withCheck
  roles : toLower cur.using_ = toLower des.using_ → toLower cur.withCheck = toLower des.withCheck →
    (cur.roles.map toLower).Perm (des.roles.map toLower)

/-- The same trigger: the same time, event and table, and the same statements up to spaces and letter case. -/
structure SameTrigger (cur des : Trigger) : Prop where
  time : cur.time = des.time
  event : cur.event = des.event
  tableName : cur.tableName = des.tableName
  body : cur.body.map (fun s => toLower (s.filter (· ≠ ' '))) = des.body.map fun s => toLower (s.filter (· ≠ ' '))

end Sqldef.Spec
