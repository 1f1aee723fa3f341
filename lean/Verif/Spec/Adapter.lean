import Verif.Model.Adapter
import Verif.Spec.Layout
import Verif.Spec.WrittenMore
import Mathlib.Data.List.Forall2
/-
What the rows that a Postgres server returns say about a table: the columns, the keys, the indexes and the policies that
they stand for, in the language of Spec/Written.lean.  Nothing here refers to the text of a dump.
-/
namespace Sqldef.Spec.Dumped
open Written

/-- A word that can be written as a name without quotes. -/
def BareName (n : Str) : Prop := IsWord n ∧ keywordCode (toLower n) = none ∧ toLower n ≠ lit "dual"

/-- A text of the server that stands for these tokens, on one line and without a semicolon. -/
def Stands (text : Str) (ts : List Token) : Prop := Layout .postgres text ts ∧ ';' ∉ text ∧ '\n' ∉ text

/-! ### Columns -/

/-- The types that are shown without a length. -/
def simpleTypes : List (String × Ty) :=
  [("smallint", .integer "smallint" none false false), ("integer", .integer "integer" none false false),
   ("bigint", .integer "bigint" none false false), ("real", .approximate "real" none false false),
   ("double precision", .doublePrecision none false false), ("numeric", .exact "numeric" none false false),
   ("money", .money "money" false false), ("date", .plain "date"), ("boolean", .plain "boolean"), ("json", .plain "json"),
   ("jsonb", .plain "jsonb"), ("uuid", .plain "uuid"), ("point", .plain "point"), ("polygon", .plain "polygon"),
   ("text", .text "text" .none .none), ("citext", .text "citext" .none .none),
   ("character varying", .varying none .none .none),
   ("timestamp without time zone", .zoned "timestamp" none none), ("timestamp with time zone", .zoned "timestamp" none (some true)),
   ("time without time zone", .zoned "time" none none), ("time with time zone", .zoned "time" none (some true))]

/-- The types of columns that take their values from a sequence. -/
def serialTypes : List (String × Ty) :=
  [("smallint", .integer "smallserial" none false false), ("integer", .integer "serial" none false false),
   ("bigint", .integer "bigserial" none false false)]

/-- The types that are shown with a length. -/
def sizedTypes : List (String × (Str → Ty)) :=
  [("character varying", fun n => .varying (some n) .none .none), ("character", fun n => .chars "character" (some n) .none .none),
   ("bit", fun n => .integer "bit" (some n) false false)]

/-- The types of the elements of arrays. -/
def elementTypes : List (String × Ty) :=
  [("smallint", .integer "smallint" none false false), ("integer", .integer "integer" none false false),
   ("bigint", .integer "bigint" none false false), ("real", .approximate "real" none false false),
   ("double precision", .doublePrecision none false false), ("numeric", .exact "numeric" none false false),
   ("date", .plain "date"), ("boolean", .plain "boolean"), ("json", .plain "json"), ("jsonb", .plain "jsonb"),
   ("uuid", .plain "uuid"), ("text", .text "text" .none .none), ("character varying", .varying none .none .none),
   ("timestamp without time zone", .zoned "timestamp" none (some false)),
   ("timestamp with time zone", .zoned "timestamp" none (some true))]

/-- The default is the next value of a sequence. -/
def IsSerial (default : Option Str) : Prop := ∃ d, default = some (lit "nextval(" ++ d)

/-- The type that the row gives to the column. -/
inductive TypeSays (r : Pg.Row) : Ty → ArrayMark → Prop
  | simple {name : String} {ty : Ty} : (name, ty) ∈ simpleTypes → r.dataType = lit name → ¬ IsSerial r.default →
    r.maxLength = none → TypeSays r ty .none
  | serial {name : String} {ty : Ty} : (name, ty) ∈ serialTypes → r.dataType = lit name → IsSerial r.default →
    r.maxLength = none → TypeSays r ty .none
  | sized {name : String} {ty : Str → Ty} {n : Int} : (name, ty) ∈ sizedTypes → r.dataType = lit name → ¬ IsSerial r.default →
    r.maxLength = some (showInt n) → 0 < n → n < 2 ^ 63 → TypeSays r (ty (showInt n)) .none
  | array {name : String} {ty : Ty} : (name, ty) ∈ elementTypes → r.dataType = lit name ++ lit "[]" → ¬ IsSerial r.default →
    r.maxLength = none → TypeSays r ty .brackets

/-- The default that the row gives to the column: none, the next value of a sequence (which is part of the type), or a
value. -/
inductive DefaultSays : Option Str → List ColOption → Prop
  | none : DefaultSays none []
  | serial (d : Str) : DefaultSays (some (lit "nextval(" ++ d)) []
  | value {d : Str} {w : Wrap} {v : Written.Value} : Stands d (w.around v.tokens) → ¬ IsSerial (some d) →
    DefaultSays (some d) [.default Option.none w v]

/-- The identity of the column. -/
inductive IdentitySays : Option Str → List ColOption → Prop
  | none : IdentitySays none []
  | always : IdentitySays (some (lit "ALWAYS")) [.generated true Option.none]
  | byDefault : IdentitySays (some (lit "BY DEFAULT")) [.generated false Option.none]

/-- The check of the column. -/
inductive CheckSays : Option Str → List ColOption → Prop
  | none : CheckSays none []
  | check {c : Str} {e : Ex} {noInherit : Bool} : Stands c (ColOption.check false e noInherit).tokens → e.Proper → e.depth < 199 →
    CheckSays (some c) [.check false e noInherit]

/-- A name that can stand between quotes in a dump. -/
structure CleanColumn (n : Str) : Prop where
  nonempty : n ≠ []
  noQuote : '"' ∉ n
  quiet : ';' ∉ n ∧ '\n' ∉ n
  first : n.head? ≠ some ' '
  last : n.getLast? ≠ some ' '

/-- The column that the row stands for. -/
structure RowSays (r : Pg.Row) (c : Col) : Prop where
  name : c.name = r.name
  clean : CleanColumn r.name
  type : TypeSays r c.type c.array
  options : ∃ d g k, DefaultSays r.default d ∧ IdentitySays r.identity g ∧ CheckSays r.check k ∧
    c.options = (if r.isUnique then [.unique] else []) ++ (if r.isNullable = lit "YES" then [] else [.notNull]) ++ d ++ g ++ k

/-! ### Tables -/

/-- The primary key, if there is one. -/
def keyItems (names : List Str) : List Item :=
  match names with
  | [] => []
  | n :: ns => [.index { head := .primary, first := { name := n }, rest := ns.map fun n => { name := n } }]

/-- The table that the rows stand for: `columns` and `key` are the columns and the names of the columns of the primary
key. -/
structure TableSays (schema name : Str) (columns : List Pg.Row) (key : List Str) (t : Written.Table) : Prop where
  bare : BareName schema ∧ BareName name
  ref : t.name = { schema := some schema, name := name }
  columns : ∃ cs, List.Forall₂ RowSays columns (t.first :: cs) ∧ t.rest = cs.map Item.column ++ keyItems key
  key : ∀ n ∈ key, CleanColumn n
  fresh : t.ifNotExists = false
  options : t.options = []

/-! ### Indexes, foreign keys and policies -/

/-- The index that a row stands for; the indexes of primary keys are part of the table. -/
def IndexSays (row : Str × Str) (i : NewIndex) : Prop :=
  Stands row.2 i.tokens ∧ i.form.Clear ∧ (∀ c ∈ i.first :: i.rest, c.length = none) ∧ trimSpace row.2 = row.2 ∧
    ¬ lit "--" <+: row.2

/-- The index is the one of the primary key, going by its name. -/
def IsKeyIndex (row : Str × Str) : Prop := lit "_pkey" <:+ row.1

instance (row : Str × Str) : Decidable (IsKeyIndex row) := inferInstanceAs (Decidable (_ <:+ _))

/-- The name is not surrounded by quotes or spaces. -/
def Untrimmed (n : Str) : Prop :=
  n.head? ≠ some ' ' ∧ n.head? ≠ some '"' ∧ n.getLast? ≠ some ' ' ∧ n.getLast? ≠ some '"'

/-- The actions of foreign keys. -/
def refActions : List (String × RefAction) :=
  [("NO ACTION", .noAction), ("CASCADE", .cascade), ("SET NULL", .setNull), ("RESTRICT", .restrict)]

/-- The foreign key that a row stands for. -/
structure ForeignKeySays (r : Pg.FkRow) (a : Alter) : Prop where
  names : BareName r.tableSchema ∧ BareName r.tableName ∧ BareName r.constraintName ∧ BareName r.columnName ∧
    BareName r.foreignTableSchema ∧ BareName r.foreignTableName ∧ BareName r.foreignColumnName
  actions : ∃ w u v d, (w, u) ∈ refActions ∧ (v, d) ∈ refActions ∧ r.foreignUpdateRule = lit w ∧ r.foreignDeleteRule = lit v ∧
    a = { table := { schema := some r.tableSchema, name := r.tableName },
          added := .foreignKey
            { constraint := some r.constraintName, first := r.columnName,
              table := { schema := some r.foreignTableSchema, name := r.foreignTableName },
              refFirst := r.foreignColumnName, actions := .updateDelete u d } }

/-- The words of a policy. -/
def policyScopes : List (String × String) :=
  [("ALL", "all"), ("SELECT", "select"), ("INSERT", "insert"), ("UPDATE", "update"), ("DELETE", "delete")]

/-- The condition of a policy. -/
inductive ConditionSays : Option Str → Option Ex → Prop
  | none : ConditionSays none none
  | some {c : Str} {e : Ex} : Stands c e.tokens → trimSpace c = c → e.Proper → e.depth < 200 → ConditionSays (some c) (some e)

/-- The policy that a row stands for. (The schema of the table is not said.) -/
structure PolicySays (table : Str) (r : Pg.PolicyRow) (p : NewPolicy) : Prop where
  names : BareName table ∧ BareName r.policyName
  table : p.table = { name := table }
  name : p.name = r.policyName
  permissive : (r.permissive = lit "PERMISSIVE" ∧ p.permissive = some true) ∨ (r.permissive = lit "RESTRICTIVE" ∧ p.permissive = some false)
  scope : ∃ w v, (w, v) ∈ policyScopes ∧ r.cmd = lit w ∧ p.scope = some v
  roles : r.roles = lit "{" ++ join (lit ",") (p.first :: p.rest) ++ lit "}" ∧ ∀ n ∈ p.first :: p.rest, BareName n
  condition : ConditionSays r.qual p.condition
  check : ConditionSays r.withCheck p.check

/-! ### Everything about a table -/

/-- The statements that describe a table. -/
structure Described where
  table : Written.Table
  indexes : List NewIndex
  foreignKeys : List Alter
  policies : List NewPolicy

/-- The statements in the order in which they are written. -/
def Described.sentences (d : Described) : List Sentence :=
  .table d.table :: (d.indexes.map Sentence.index ++ d.foreignKeys.map Sentence.alter ++ d.policies.map Sentence.policy)

/-- What the catalog says about a table. -/
structure CatalogSays (cat : Pg.Catalog) (schema name : Str) (d : Described) : Prop where
  table : TableSays schema name (cat.columns schema name) (cat.primaryKey schema name) d.table
  untrimmed : ∀ row ∈ cat.indexes schema name, Untrimmed row.1
  indexes : List.Forall₂ IndexSays ((cat.indexes schema name).filter fun row => ¬ IsKeyIndex row) d.indexes
  foreignKeys : List.Forall₂ ForeignKeySays (cat.foreignKeys schema name) d.foreignKeys
  policies : List.Forall₂ (PolicySays name) (cat.policies schema name) d.policies

/-- What belongs to a table has different names and says that it belongs to it. (A policy does not say to which schema the
table belongs: only the tables of the schema `public` can have them.) -/
structure Orderly (cat : Pg.Catalog) (schema name : Str) (d : Described) : Prop where
  columns : ((cat.columns schema name).map (·.name)).Nodup
  indexTables : ∀ i ∈ d.indexes, i.table = { schema := some schema, name := name }
  indexNames : (d.indexes.map (·.name)).Nodup ∧ lit "PRIMARY" ∉ d.indexes.map (·.name)
  indexOptions : ∀ i ∈ d.indexes, (i.spec.options.map (·.name)).Nodup
  keyTables : ∀ r ∈ cat.foreignKeys schema name, r.tableSchema = schema ∧ r.tableName = name
  keyNames : ((cat.foreignKeys schema name).map (·.constraintName)).Nodup
  policySchema : cat.policies schema name ≠ [] → schema = lit "public"
  policyNames : ((cat.policies schema name).map (·.policyName)).Nodup

end Sqldef.Spec.Dumped
