import Verif.Spec.Adapter
/-
What the rows that a SQL Server returns say about a table: the columns, the primary key, the index and the foreign keys
that they stand for, in the language of Spec/Written.lean.  Nothing here refers to the text of a dump.
-/
namespace Sqldef.Spec.Dumped
open Written

/-- A text of the server that stands for these tokens, on one line and without a semicolon. -/
def MsStands (text : Str) (ts : List Token) : Prop := Layout .mssql text ts ∧ ';' ∉ text ∧ '\n' ∉ text

/-- A name that can stand between brackets in a dump. -/
structure BracketName (n : Str) : Prop where
  nonempty : n ≠ []
  noBracket : ']' ∉ n
  quiet : ';' ∉ n ∧ '\n' ∉ n

/-! ### Columns -/

/-- The types that are shown without a length. -/
def msPlainTypes : List (String × Ty) :=
  [("bit", .integer "bit" none false false), ("tinyint", .integer "tinyint" none false false),
   ("smallint", .integer "smallint" none false false), ("int", .integer "int" none false false),
   ("bigint", .integer "bigint" none false false), ("real", .approximate "real" none false false),
   ("float", .approximate "float" none false false), ("decimal", .exact "decimal" none false false),
   ("numeric", .exact "numeric" none false false), ("money", .money "money" false false),
   ("smallmoney", .money "smallmoney" false false), ("date", .plain "date"), ("datetime2", .plain "datetime2"),
   ("smalldatetime", .plain "smalldatetime"), ("datetime", .sized "datetime" none),
   ("datetimeoffset", .sized "datetimeoffset" none), ("time", .zoned "time" none none),
   ("nchar", .chars "nchar" none .none .none), ("nvarchar", .chars "nvarchar" none .none .none),
   ("text", .text "text" .none .none), ("ntext", .plain "ntext")]

/-- The types that are shown with their length. -/
def msSizedTypes : List (String × (Str → Ty)) :=
  [("char", fun n => .chars "char" (some n) .none .none), ("varchar", fun n => .chars "varchar" (some n) .none .none),
   ("binary", fun n => .sized "binary" (some n)), ("varbinary", fun n => .sized "varbinary" (some n))]

/-- The type of the column. -/
inductive MsTypeSays (c : Ms.Column) : Ty → Prop
  | plain {name : String} {ty : Ty} : (name, ty) ∈ msPlainTypes → c.dataType = lit name → MsTypeSays c ty
  | sized {name : String} {ty : Str → Ty} : (name, ty) ∈ msSizedTypes → c.dataType = lit name → GoodInt c.length →
    MsTypeSays c (ty c.length)

/-- The default of the column: the name of the constraint and the value. -/
inductive MsDefaultSays : Str → Str → List ColOption → Prop
  | none {d : Str} : MsDefaultSays [] d []
  | value {n d : Str} {w : Wrap} {v : Written.Value} : BareName n → MsStands d (w.around v.tokens) →
    MsDefaultSays n d [.default (some n) w v]

/-- The identity of the column. -/
inductive MsIdentitySays : Option Ms.Identity → List ColOption → Prop
  | none : MsIdentitySays none []
  | identity {i : Ms.Identity} : GoodInt i.seedValue → GoodInt i.incrementValue →
    MsIdentitySays (some i) (.identity i.seedValue i.incrementValue :: if i.notForReplication then [.notForReplication] else [])

/-- The check of the column. -/
inductive MsCheckSays : Option Ms.Check → List ColOption → Prop
  | none : MsCheckSays none []
  | check {k : Ms.Check} {e : Ex} : BracketName k.name → GoodName k.name → MsStands k.definition (parens e.tokens) → e.Proper →
    e.depth < 199 → MsCheckSays (some k) [.namedCheck k.name k.notForReplication e]

/-- The column that the row stands for. -/
structure MsColumnSays (r : Ms.Column) (c : Col) : Prop where
  bare : BareName r.name
  name : c.name = r.name
  type : MsTypeSays r c.type
  array : c.array = .none
  options : ∃ d g k, MsDefaultSays r.defaultName r.defaultVal d ∧ MsIdentitySays r.identity g ∧ MsCheckSays r.check k ∧
    c.options = (if r.nullable then [] else [.notNull]) ++ d ++ g ++ k

/-! ### Indexes -/

/-- The columns of an index. -/
def msColumnsOf (cs : List Ms.IndexColumnRow) (r : Ms.IndexRow) : List Ms.IndexColumnRow := cs.filter fun c => c.indexName = r.name

/-- A column of an index. -/
def msIndexCol (c : Ms.IndexColumnRow) : IndexCol :=
  { name := c.columnName, direction := if c.isDescending then some false else none }

/-- The options of an index. -/
def msIndexOptions (r : Ms.IndexRow) : IndexOpts :=
  .list (.switch "pad_index" r.padIndex)
    [.fillfactor r.fillfactor, .switch "ignore_dup_key" r.ignoreDupKey, .switch "statistics_norecompute" r.noRecompute,
     .switch "statistics_incremental" r.incremental, .switch "allow_row_locks" r.rowLocks, .switch "allow_page_locks" r.pageLocks]

/-- The kind of an index, its columns and the columns that are included in it. -/
structure MsIndexSays (cs : List Ms.IndexColumnRow) (r : Ms.IndexRow) (clustered : Option Bool) (first : IndexCol) (rest : List IndexCol)
    (included : Option (Str × List Str)) : Prop where
  name : BracketName r.name
  kind : (r.typeDesc = lit "CLUSTERED" ∧ clustered = some true) ∨ (r.typeDesc = lit "NONCLUSTERED" ∧ clustered = some false)
  columns : ((msColumnsOf cs r).filter fun c => !c.isIncluded).map msIndexCol = first :: rest
  names : ∀ c ∈ msColumnsOf cs r, BracketName c.columnName
  included : ((msColumnsOf cs r).filter fun c => c.isIncluded).map (·.columnName) =
    match included with
    | none => []
    | some (n, ns) => n :: ns
  fillfactor : r.fillfactor ≠ [] ∧ ∀ c ∈ r.fillfactor, isDigit c = true

/-- The primary key that a row stands for. -/
def MsPrimarySays (cs : List Ms.IndexColumnRow) (r : Ms.IndexRow) (p : Pk) : Prop :=
  ∃ clustered first rest included, MsIndexSays cs r clustered first rest included ∧
    p = { name := r.name, clustered := clustered, first := first, rest := rest, options := msIndexOptions r }

/-- The index that a row stands for. -/
def MsSecondarySays (schema table : Str) (cs : List Ms.IndexColumnRow) (r : Ms.IndexRow) (i : NewIndex) : Prop :=
  ∃ clustered first rest included, MsIndexSays cs r clustered first rest included ∧
    i = { unique := r.isUnique, clustered := clustered, name := r.name, table := { schema := some schema, name := table },
          first := first, rest := rest, form := .plain included none (msIndexOptions r) .none }

/-! ### Foreign keys -/

/-- The actions of foreign keys. -/
def msActions : List (String × RefAction) := [("NO_ACTION", .noAction), ("CASCADE", .cascade), ("SET_NULL", .setNull)]

/-- The foreign key that a row stands for. (The schema of the other table is not said.) -/
structure MsForeignKeySays (r : Ms.FkRow) (f : Fk) : Prop where
  names : BracketName r.constraintName ∧ BracketName r.columnName ∧ BracketName r.foreignTableName ∧ BracketName r.foreignColumnName
  actions : ∃ w u v d, (w, u) ∈ msActions ∧ (v, d) ∈ msActions ∧ r.foreignUpdateRule = lit w ∧ r.foreignDeleteRule = lit v ∧
    f = { constraint := some r.constraintName, first := r.columnName, table := { name := r.foreignTableName },
          refFirst := r.foreignColumnName, actions := .updateDelete u d, notForReplication := r.notForReplication }

/-! ### Everything about a table -/

/-- The statements that describe a table. -/
structure MsDescribed where
  table : Written.Table
  index : Option NewIndex

/-- The statements in the order in which they are written. -/
def MsDescribed.sentences (d : MsDescribed) : List Sentence := .table d.table :: d.index.toList.map Sentence.index

/-- What the catalog says about a table: its columns, its primary key, its foreign keys, and at most one index besides the
one of the primary key. -/
structure MsCatalogSays (cat : Ms.Catalog) (schema name : Str) (d : MsDescribed) : Prop where
  bare : BareName schema ∧ BareName name
  ref : d.table.name = { schema := some schema, name := name }
  items : ∃ (cs : List Col) (p : Option Pk) (fs : List Fk),
    List.Forall₂ MsColumnSays (cat.columns schema name) (d.table.first :: cs) ∧
    List.Forall₂ (MsPrimarySays (cat.indexColumns schema name)) ((cat.indexes schema name).filter fun r => r.isPrimary) p.toList ∧
    List.Forall₂ MsForeignKeySays (cat.foreignKeys schema name) fs ∧
    d.table.rest = cs.map Item.column ++ p.toList.map Item.primaryKey ++ fs.map Item.foreignKey
  index : List.Forall₂ (MsSecondarySays schema name (cat.indexColumns schema name))
    ((cat.indexes schema name).filter fun r => !r.isPrimary) d.index.toList
  fresh : d.table.ifNotExists = false
  options : d.table.options = []

/-- What belongs to a table has different names. -/
structure MsOrderly (cat : Ms.Catalog) (schema name : Str) : Prop where
  columns : ((cat.columns schema name).map (·.name)).Nodup
  indexes : ((cat.indexes schema name).map (·.name)).Nodup
  foreignKeys : ((cat.foreignKeys schema name).map (·.constraintName)).Nodup

/-- The database answers the queries of the adapter as the catalog says; the order in which the indexes of a table are
written is arbitrary. -/
structure MsAdapter {σ : Type} (db : Db σ) (cat : σ → Ms.Catalog) : Prop where
  tableNames : ∀ s, db.tableNames s = .ok (Ms.tableNames (cat s))
  dumpTableDDL : ∀ s table, ∃ text, db.dumpTableDDL s table = .ok text ∧ Ms.IsDump (cat s) table text
  views : ∀ s, db.views s = .ok (Ms.views (cat s))
  triggers : ∀ s, db.triggers s = .ok (cat s).triggers

end Sqldef.Spec.Dumped
