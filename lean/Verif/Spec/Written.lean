import Verif.Model.SqlAst
import Verif.Spec.Condition
/-
The language of `CREATE TABLE`: what can be written, how it is written (as a sequence of tokens) and what it means (as
a syntax tree of /repo/sqlparser/ast.go).  Nothing here refers to the grammar or its actions.

Names are identifiers (quoted ones, and words that are no keywords).  Numbers and strings are given by their text.
Not covered: names that are keywords, and what `Spec/Condition.lean` leaves out of conditions.
-/
namespace Sqldef.Spec.Written

/-! ### Small parts -/

/-- A name. -/
abbrev nm (n : Str) : Token := named n
/-- A string. -/
def str (s : Str) : Token := ⟨.string, s⟩
/-- A whole number as written. -/
def int (n : Str) : Token := ⟨.integral, n⟩
/-- A number with a fraction as written. -/
def flt (n : Str) : Token := ⟨.float, n⟩

/-- `(n)` -/
def lengthTokens (l : Option Str) : List Token := optionally l fun n => parens [int n]

/-- The value of a number in the syntax tree. -/
def intVal (n : Str) : SqlVal := ⟨.intVal, n⟩

/-- Names with commas between them; there is at least one. -/
def nameTokens (first : Str) (rest : List Str) : List Token := nm first :: rest.flatMap fun n => [sym ',', nm n]

/-- A table, with or without a schema. -/
structure TableRef where
  schema : Option Str := none
  name : Str

def TableRef.tokens (t : TableRef) : List Token := optionally t.schema (fun s => [nm s, sym '.']) ++ [nm t.name]

def TableRef.meaning (t : TableRef) : SqlTableName := { name := t.name, qualifier := t.schema.getD [] }

/-! ### Types -/

/-- `CHARACTER SET name` -/
inductive Charset
  | none
  | name (s : Str)
  | binary

def Charset.tokens : Charset → List Token
  | .none => []
  | .name s => [kw "CHARACTER", kw "SET", nm s]
  | .binary => [kw "CHARACTER", kw "SET", kw "BINARY"]

def Charset.meaning : Charset → Str
  | .none => []
  | .name s => s
  | .binary => lit "binary"

/-- `COLLATE name` -/
inductive Collation
  | none
  | name (s : Str)
  | binary

def Collation.tokens : Collation → List Token
  | .none => []
  | .name s => [kw "COLLATE", nm s]
  | .binary => [kw "BINARY"]

def Collation.meaning : Collation → Str
  | .none => []
  | .name s => s
  | .binary => lit "binary"

/-- `WITH TIME ZONE` or `WITHOUT TIME ZONE`. -/
def zoneTokens : Option Bool → List Token
  | none => []
  | some true => [kw "WITH", kw "TIME", kw "ZONE"]
  | some false => [kw "WITHOUT", kw "TIME", kw "ZONE"]

/-- `UNSIGNED ZEROFILL` -/
def signTokens (unsigned zerofill : Bool) : List Token :=
  given (unsigned = true) [kw "UNSIGNED"] ++ given (zerofill = true) [kw "ZEROFILL"]

def integerWords : List String :=
  ["bit", "tinyint", "smallint", "smallserial", "mediumint", "int", "integer", "serial", "bigint", "bigserial"]
def approximateWords : List String := ["real", "double", "float"]
def exactWords : List String := ["decimal", "numeric"]
def moneyWords : List String := ["money", "smallmoney"]
def plainWords : List String :=
  ["date", "datetime2", "smalldatetime", "year", "bool", "boolean", "ntext", "blob", "tinyblob", "mediumblob",
   "longblob", "json", "jsonb", "uuid", "geometry", "point", "linestring", "polygon", "geometrycollection",
   "multipoint", "multilinestring", "multipolygon"]
def sizedWords : List String := ["datetime", "datetimeoffset", "binary", "varbinary"]
def zonedWords : List String := ["time", "timestamp"]
def charWords : List String := ["char", "character", "varchar", "nchar", "nvarchar"]
def textWords : List String := ["text", "tinytext", "mediumtext", "longtext", "citext"]
def choiceWords : List String := ["enum", "set"]

/-- The type of a column. -/
inductive Ty
  | integer (word : String) (length : Option Str) (unsigned zerofill : Bool)
  | approximate (word : String) (size : Option (Str × Str)) (unsigned zerofill : Bool)
  | doublePrecision (size : Option (Str × Str)) (unsigned zerofill : Bool)
  | exact (word : String) (size : Option (Str × Option Str)) (unsigned zerofill : Bool)
  | money (word : String) (unsigned zerofill : Bool)
  | plain (word : String)
  | sized (word : String) (length : Option Str)
  | zoned (word : String) (length : Option Str) (zone : Option Bool)
  | chars (word : String) (length : Option Str) (charset : Charset) (collation : Collation)
  | varying (length : Option Str) (charset : Charset) (collation : Collation)
  | text (word : String) (charset : Charset) (collation : Collation)
  | choice (word : String) (first : Str) (rest : List Str) (charset : Charset) (collation : Collation)

/-- The word is one of those that stand for such a type. -/
def Ty.Known : Ty → Prop
  | .integer w _ _ _ => w ∈ integerWords
  | .approximate w _ _ _ => w ∈ approximateWords
  | .doublePrecision _ _ _ => True
  | .exact w _ _ _ => w ∈ exactWords
  | .money w _ _ => w ∈ moneyWords
  | .plain w => w ∈ plainWords
  | .sized w _ => w ∈ sizedWords
  | .zoned w _ _ => w ∈ zonedWords
  | .chars w _ _ _ => w ∈ charWords
  | .varying _ _ _ => True
  | .text w _ _ => w ∈ textWords
  | .choice w _ _ _ _ => w ∈ choiceWords

def Ty.tokens : Ty → List Token
  | .integer w l u z => kw w :: (lengthTokens l ++ signTokens u z)
  | .approximate w s u z => kw w :: (optionally s (fun p => parens [int p.1, sym ',', int p.2]) ++ signTokens u z)
  | .doublePrecision s u z =>
    kw "double" :: kw "precision" :: (optionally s (fun p => parens [int p.1, sym ',', int p.2]) ++ signTokens u z)
  | .exact w s u z =>
    kw w :: (optionally s (fun p => parens (int p.1 :: optionally p.2 fun q => [sym ',', int q])) ++ signTokens u z)
  | .money w u z => kw w :: signTokens u z
  | .plain w => [kw w]
  | .sized w l => kw w :: lengthTokens l
  | .zoned w l z => kw w :: (lengthTokens l ++ zoneTokens z)
  | .chars w l cs co => kw w :: (lengthTokens l ++ cs.tokens ++ co.tokens)
  | .varying l cs co => kw "character" :: kw "varying" :: (lengthTokens l ++ cs.tokens ++ co.tokens)
  | .text w cs co => kw w :: (cs.tokens ++ co.tokens)
  | .choice w a as cs co =>
    kw w :: (parens (str a :: as.flatMap fun x => [sym ',', str x]) ++ cs.tokens ++ co.tokens)

def Ty.meaning : Ty → SqlColumnType
  | .integer w l u _ => { type := lit w, length := l.map intVal, unsigned := u }
  | .approximate w s u _ =>
    { type := lit w, length := s.map fun p => intVal p.1, scale := s.map fun p => intVal p.2, unsigned := u }
  | .doublePrecision s u _ =>
    { type := lit "double precision", length := s.map fun p => intVal p.1, scale := s.map fun p => intVal p.2, unsigned := u }
  | .exact w s u _ =>
    { type := lit w, length := s.map fun p => intVal p.1, scale := s.bind fun p => p.2.map intVal, unsigned := u }
  | .money w u _ => { type := lit w, unsigned := u }
  | .plain w => { type := lit w }
  | .sized w l => { type := lit w, length := l.map intVal }
  | .zoned w l z => { type := lit w, length := l.map intVal, timezone := z = some true }
  | .chars w l cs co => { type := lit w, length := l.map intVal, charset := cs.meaning, collate := co.meaning }
  | .varying l cs co =>
    { type := lit "character varying", length := l.map intVal, charset := cs.meaning, collate := co.meaning }
  | .text w cs co => { type := lit w, charset := cs.meaning, collate := co.meaning }
  | .choice w a as cs co =>
    { type := lit w, enumValues := (a :: as).map fun x => lit "'" ++ x ++ lit "'", charset := cs.meaning, collate := co.meaning }

/-- `[]` or `ARRAY` after a type. -/
inductive ArrayMark
  | none
  | brackets
  | word

def ArrayMark.tokens : ArrayMark → List Token
  | .none => []
  | .brackets => [sym '[', sym ']']
  | .word => [kw "ARRAY"]

def ArrayMark.meaning : ArrayMark → Bool
  | .none => false
  | _ => true

/-! ### Defaults -/

/-- What may follow `CURRENT_TIMESTAMP`: nothing, `()` or `(n)`. -/
inductive Digits
  | none
  | empty
  | some (n : Str)

def Digits.tokens : Digits → List Token
  | .none => []
  | .empty => parens []
  | .some n => parens [int n]

/-- The present time. -/
inductive Now
  | timestamp (d : Digits)
  | time (d : Digits)
  | date
  | getdate

def Now.tokens : Now → List Token
  | .timestamp d => kw "CURRENT_TIMESTAMP" :: d.tokens
  | .time d => kw "CURRENT_TIME" :: d.tokens
  | .date => [kw "CURRENT_DATE"]
  | .getdate => kw "GETDATE" :: parens []

def Digits.meaning (w : Str) : Digits → Str
  | .some n => w ++ lit "(" ++ n ++ lit ")"
  | _ => w

def Now.meaning : Now → SqlVal
  | .timestamp d => ⟨.valArg, d.meaning (lit "current_timestamp")⟩
  | .time d => ⟨.valArg, d.meaning (lit "current_time")⟩
  | .date => ⟨.valArg, lit "current_date"⟩
  | .getdate => ⟨.valArg, lit "getdate"⟩

/-- The cast after a string: `'x'::text`. -/
inductive Cast
  | none
  | varying
  | timestamp (zone : Option Bool)
  | bpchar
  | text

def Cast.tokens : Cast → List Token
  | .none => []
  | .varying => [castMark, kw "CHARACTER", kw "VARYING"]
  | .timestamp z => castMark :: kw "TIMESTAMP" :: zoneTokens z
  | .bpchar => [castMark, kw "BPCHAR"]
  | .text => [castMark, kw "TEXT"]

/-- The value of a default. -/
inductive Value
  | string (s : Str) (cast : Cast)
  | integer (n : Str)
  | float (n : Str)
  | null
  | now (n : Now)
  | bits (b : Str)
  | bool (b : Bool)
  | nowCall

def Value.tokens : Value → List Token
  | .string s c => str s :: c.tokens
  | .integer n => [int n]
  | .float n => [flt n]
  | .null => [kw "NULL"]
  | .now n => n.tokens
  | .bits b => [⟨.bitLiteral, b⟩]
  | .bool b => [if b then kw "TRUE" else kw "FALSE"]
  | .nowCall => kw "NOW" :: parens []

/-- What a default means. (`NOW()` is kept as if it were a bit string: its rendering is `b'now'`.) -/
def Value.meaning : Value → SqlVal
  | .string s _ => ⟨.strVal, s⟩
  | .integer n => ⟨.intVal, n⟩
  | .float n => ⟨.floatVal, n⟩
  | .null => ⟨.valArg, lit "null"⟩
  | .now n => n.meaning
  | .bits b => ⟨.bitVal, b⟩
  | .bool b => ⟨.valBool, if b then lit "true" else lit "false"⟩
  | .nowCall => ⟨.bitVal, lit "now"⟩

/-- The parentheses around a default: none, one pair or two pairs. -/
inductive Wrap
  | none
  | once
  | twice

def Wrap.around : Wrap → List Token → List Token
  | .none, ts => ts
  | .once, ts => parens ts
  | .twice, ts => parens (parens ts)

/-! ### Sequences -/

/-- An option of a sequence. -/
inductive SeqOption
  | start (with_ : Bool) (n : Str)
  | increment (by_ : Bool) (n : Str)
  | minvalue (n : Str)
  | maxvalue (n : Str)
  | cache (n : Str)
  | noMinvalue
  | noMaxvalue
  | noCycle
  | cycle
  | ownedByNone
  | ownedBy (table column : Str)

def SeqOption.tokens : SeqOption → List Token
  | .start w n => kw "START" :: (given (w = true) [kw "WITH"] ++ [int n])
  | .increment b n => kw "INCREMENT" :: (given (b = true) [kw "BY"] ++ [int n])
  | .minvalue n => [kw "MINVALUE", int n]
  | .maxvalue n => [kw "MAXVALUE", int n]
  | .cache n => [kw "CACHE", int n]
  | .noMinvalue => [kw "NO", kw "MINVALUE"]
  | .noMaxvalue => [kw "NO", kw "MAXVALUE"]
  | .noCycle => [kw "NO", kw "CYCLE"]
  | .cycle => [kw "CYCLE"]
  | .ownedByNone => [kw "OWNED", kw "BY", kw "NONE"]
  | .ownedBy t c => [kw "OWNED", kw "BY", nm t, sym '.', nm c]

/-- The sequence with one more option. -/
def SeqOption.apply (s : SqlSequence) : SeqOption → SqlSequence
  | .start _ n => { s with startWith := some (intVal n) }
  | .increment _ n => { s with incrementBy := some (intVal n) }
  | .minvalue n => { s with minValue := some (intVal n) }
  | .maxvalue n => { s with maxValue := some (intVal n) }
  | .cache n => { s with cache := some (intVal n) }
  | .noMinvalue => { s with noMinValue := some true }
  | .noMaxvalue => { s with noMaxValue := some true }
  | .noCycle => { s with noCycle := some true }
  | .cycle => { s with cycle := some true }
  | .ownedByNone => { s with ownedBy := lit "NONE" }
  | .ownedBy t c => { s with ownedBy := t ++ lit "." ++ c }

/-! ### Columns -/

/-- An option of a column. -/
inductive ColOption
  | null
  | notNull
  | default (constraint : Option Str) (wrap : Wrap) (v : Value)
  | onUpdate (n : Now)
  | autoIncrement (underscore : Bool)
  | primaryKey
  | key
  | uniqueKey
  | unique
  | comment (s : Str)
  | references (table : Str) (columns : Option (Str × List Str))
  | generated (always : Bool) (options : Option (List SeqOption))
  | identity (start increment : Str)
  | notForReplication
  | check (notForReplication : Bool) (e : Ex) (noInherit : Bool)
  | namedCheck (name : Str) (notForReplication : Bool) (e : Ex)

/-- `NOT FOR REPLICATION` or nothing. -/
def replicationTokens (b : Bool) : List Token := given (b = true) [kw "NOT", kw "FOR", kw "REPLICATION"]

def ColOption.tokens : ColOption → List Token
  | .null => [kw "NULL"]
  | .notNull => [kw "NOT", kw "NULL"]
  | .default c w v => optionally c (fun n => [kw "CONSTRAINT", nm n]) ++ kw "DEFAULT" :: w.around v.tokens
  | .onUpdate n => kw "ON" :: kw "UPDATE" :: n.tokens
  | .autoIncrement u => [if u then kw "AUTO_INCREMENT" else kw "AUTOINCREMENT"]
  | .primaryKey => [kw "PRIMARY", kw "KEY"]
  | .key => [kw "KEY"]
  | .uniqueKey => [kw "UNIQUE", kw "KEY"]
  | .unique => [kw "UNIQUE"]
  | .comment s => [kw "COMMENT", str s]
  | .references t cols => kw "REFERENCES" :: nm t :: optionally cols fun p => parens (nameTokens p.1 p.2)
  | .generated a o =>
    kw "GENERATED" :: ((if a then [kw "ALWAYS"] else [kw "BY", kw "DEFAULT"]) ++ kw "AS" :: kw "IDENTITY" ::
      optionally o fun os => parens (os.flatMap SeqOption.tokens))
  | .identity a b => kw "IDENTITY" :: parens [int a, sym ',', int b]
  | .notForReplication => [kw "NOT", kw "FOR", kw "REPLICATION"]
  | .check r e i => kw "CHECK" :: (replicationTokens r ++ parens e.tokens ++ given (i = true) [kw "NO", kw "INHERIT"])
  | .namedCheck n r e => kw "CONSTRAINT" :: nm n :: kw "CHECK" :: (replicationTokens r ++ parens e.tokens)

/-- The column with one more option. -/
def ColOption.apply (t : SqlColumnType) : ColOption → SqlColumnType
  | .null => { t with notNull := some false }
  | .notNull => { t with notNull := some true }
  | .default c _ v => { t with default := some { value := some v.meaning, constraintName := c.getD [] } }
  | .onUpdate n => { t with onUpdate := some n.meaning }
  | .autoIncrement _ => { t with autoincrement := true }
  | .primaryKey => { t with keyOpt := .primary }
  | .key => { t with keyOpt := .key }
  | .uniqueKey => { t with keyOpt := .uniqueKey }
  | .unique => { t with keyOpt := .unique }
  | .comment _ => t
  | .references r _ => { t with references := r }
  | .generated a o =>
    { t with identity := some { behavior := if a then lit "always" else lit "by default",
                                sequence := o.map fun os => os.foldl SeqOption.apply {} },
             notNull := some true }
  | .identity a b =>
    { t with identity := some { sequence := some { startWith := some (intVal a), incrementBy := some (intVal b) } } }
  | .notForReplication => { t with identity := t.identity.map fun i => { i with notForReplication := true } }
  | .check r e i => { t with check := some { whereExpr := e.meaning, notForReplication := r }, checkNoInherit := i }
  | .namedCheck n r e =>
    { t with check := some { whereExpr := e.meaning, constraintName := shownName n, notForReplication := r } }

/-- The condition of a check can be written as it is, between the parentheses of the check. -/
def ColOption.Clear : ColOption → Prop
  | .check _ e _ => e.Proper ∧ e.depth < 199
  | .namedCheck n _ e => GoodName n ∧ e.Proper ∧ e.depth < 199
  | _ => True

/-- The option makes the column an identity column. -/
def ColOption.isIdentity : ColOption → Bool
  | .generated _ _ => true
  | .identity _ _ => true
  | _ => false

/-- The options can be told apart: `UNIQUE` followed by `KEY` would be the one option `UNIQUE KEY`; and
`NOT FOR REPLICATION` only comes after an identity. -/
def clearOptions (identity : Bool) : List ColOption → Prop
  | [] => True
  | .unique :: .key :: _ => False
  | .notForReplication :: rest => identity = true ∧ clearOptions identity rest
  | o :: rest => clearOptions (identity || o.isIdentity) rest

/-- A column. -/
structure Col where
  name : Str
  type : Ty
  array : ArrayMark := .none
  options : List ColOption := []

def Col.tokens (c : Col) : List Token :=
  nm c.name :: (c.type.tokens ++ c.array.tokens ++ c.options.flatMap ColOption.tokens)

def Col.Clear (c : Col) : Prop := c.type.Known ∧ clearOptions false c.options ∧ ∀ o ∈ c.options, o.Clear

def Col.meaning (c : Col) : SqlColumn :=
  { name := c.name
    type := c.options.foldl ColOption.apply { c.type.meaning with array := c.array.meaning } }

/-! ### Indexes -/

/-- A column of an index. -/
structure IndexCol where
  name : Str
  length : Option Str := none
  direction : Option Bool := none

/-- `ASC`, `DESC` or nothing. -/
def directionTokens : Option Bool → List Token
  | none => []
  | some true => [kw "ASC"]
  | some false => [kw "DESC"]

def IndexCol.tokens (c : IndexCol) : List Token := nm c.name :: (lengthTokens c.length ++ directionTokens c.direction)

def IndexCol.meaning (c : IndexCol) : SqlIndexColumn :=
  { column := c.name, length := c.length.map intVal, direction := if c.direction = some false then lit "desc" else lit "asc" }

/-- The columns of an index, with commas between them. -/
def indexColTokens (first : IndexCol) (rest : List IndexCol) : List Token :=
  first.tokens ++ rest.flatMap fun c => sym ',' :: c.tokens

/-- The switches of an index in SQL Server. -/
def switchWords : List String :=
  ["pad_index", "ignore_dup_key", "statistics_norecompute", "statistics_incremental", "allow_row_locks", "allow_page_locks"]

/-- An option of an index. -/
inductive IndexOpt
  | using (n : Str)
  | keyBlockSize (equal : Bool) (n : Str)
  | comment (s : Str)
  | parser (n : Str)
  | fillfactor (n : Str)
  | switch (word : String) (on : Bool)

def IndexOpt.Known : IndexOpt → Prop
  | .switch w _ => w ∈ switchWords
  | _ => True

def IndexOpt.tokens : IndexOpt → List Token
  | .using n => [kw "USING", nm n]
  | .keyBlockSize e n => kw "KEY_BLOCK_SIZE" :: (given (e = true) [sym '='] ++ [int n])
  | .comment s => [kw "COMMENT", str s]
  | .parser n => [kw "WITH", kw "PARSER", nm n]
  | .fillfactor n => [kw "FILLFACTOR", sym '=', int n]
  | .switch w on => [kw w, sym '=', if on then kw "ON" else kw "OFF"]

/-- What an option means. (Of `USING`, the name of the method is lost.) -/
def IndexOpt.meaning : IndexOpt → SqlIndexOption
  | .using _ => { name := lit "using" }
  | .keyBlockSize _ n => { name := lit "key_block_size", value := some (intVal n) }
  | .comment s => { name := lit "comment", value := some ⟨.strVal, s⟩ }
  | .parser n => { name := lit "parser", value := some ⟨.strVal, n⟩ }
  | .fillfactor n => { name := lit "fillfactor", value := some (intVal n) }
  | .switch w on => { name := lit w, value := some ⟨.valBool, if on then lit "true" else lit "false"⟩ }

/-- The options of an index: none, some one after the other, or some in `WITH ( , )`. -/
inductive IndexOpts
  | none
  | plain (first : IndexOpt) (rest : List IndexOpt)
  | list (first : IndexOpt) (rest : List IndexOpt)

def IndexOpts.all : IndexOpts → List IndexOpt
  | .none => []
  | .plain o os => o :: os
  | .list o os => o :: os

def IndexOpts.tokens : IndexOpts → List Token
  | .none => []
  | .plain o os => o.tokens ++ os.flatMap IndexOpt.tokens
  | .list o os => kw "WITH" :: parens (o.tokens ++ os.flatMap fun o => sym ',' :: o.tokens)

/-- `ON filegroup` or `ON scheme (column)`. -/
inductive Partition
  | none
  | name (n : Str)
  | scheme (n c : Str)

def Partition.tokens : Partition → List Token
  | .none => []
  | .name n => [kw "ON", nm n]
  | .scheme n c => kw "ON" :: nm n :: parens [nm c]

def Partition.meaning : Partition → Option SqlIndexPartition
  | .none => Option.none
  | .name n => some { name := n, column := [] }
  | .scheme n c => some { name := n, column := c }

/-- `CLUSTERED` or `NONCLUSTERED`. -/
def clusteredTokens : Option Bool → List Token
  | none => []
  | some true => [kw "CLUSTERED"]
  | some false => [kw "NONCLUSTERED"]

/-- `INDEX` or `KEY`. -/
def indexWord (index : Bool) : Token := if index then kw "INDEX" else kw "KEY"
@[inherit_doc indexWord] def indexText (index : Bool) : Str := if index then lit "index" else lit "key"

/-- How an index begins; the flags say whether `INDEX` or `KEY` is written. -/
inductive IndexHead
  | primary
  | spatial (index : Bool) (name : Str)
  | fulltext (index : Option Bool) (name : Str)
  | unique (index : Option Bool) (name : Str)
  | plain (index : Bool) (name : Str) (clustered : Option Bool)
  | uniqueAfter (index : Bool) (name : Str) (clustered : Option Bool)

def IndexHead.tokens : IndexHead → List Token
  | .primary => [kw "PRIMARY", kw "KEY"]
  | .spatial i n => [kw "SPATIAL", indexWord i, nm n]
  | .fulltext i n => kw "FULLTEXT" :: (optionally i (fun i => [indexWord i]) ++ [nm n])
  | .unique i n => kw "UNIQUE" :: (optionally i (fun i => [indexWord i]) ++ [nm n])
  | .plain i n c => indexWord i :: nm n :: clusteredTokens c
  | .uniqueAfter i n c => indexWord i :: nm n :: kw "UNIQUE" :: clusteredTokens c

/-- An index in `CREATE TABLE`. -/
structure Ix where
  head : IndexHead
  first : IndexCol
  rest : List IndexCol := []
  options : IndexOpts := .none
  partition : Partition := .none

def Ix.tokens (i : Ix) : List Token :=
  i.head.tokens ++ parens (indexColTokens i.first i.rest) ++ i.options.tokens ++ i.partition.tokens

/-- The columns, options and partition of an index. -/
def Ix.body (i : Ix) : SqlIndexDef :=
  { name := [], type := [], columns := (i.first :: i.rest).map IndexCol.meaning,
    options := i.options.all.map IndexOpt.meaning, partition := i.partition.meaning }

/-- What an index means; `CLUSTERED` is the default where it can be written. -/
def Ix.meaning (i : Ix) : SqlIndexDef :=
  let b := i.body
  match i.head with
  | .primary => { b with name := lit "PRIMARY", type := lit "primary key", primary := true, unique := true }
  | .spatial i n => { b with name := n, type := lit "spatial " ++ indexText i }
  | .fulltext i n => { b with name := n, type := lit "fulltext" ++ (i.map fun i => lit " " ++ indexText i).getD [] }
  | .unique i n => { b with name := n, type := lit "unique" ++ (i.map fun i => lit " " ++ indexText i).getD [], unique := true }
  | .plain i n c => { b with name := n, type := indexText i, clustered := c.getD true }
  | .uniqueAfter i n c => { b with name := n, type := indexText i, unique := true, clustered := c.getD true }

/-- `CONSTRAINT name PRIMARY KEY (...)` -/
structure Pk where
  name : Str
  clustered : Option Bool := none
  first : IndexCol
  rest : List IndexCol := []
  options : IndexOpts := .none
  partition : Partition := .none

def Pk.tokens (p : Pk) : List Token :=
  kw "CONSTRAINT" :: nm p.name :: kw "PRIMARY" :: kw "KEY" ::
    (clusteredTokens p.clustered ++ parens (indexColTokens p.first p.rest) ++ p.options.tokens ++ p.partition.tokens)

def Pk.meaning (p : Pk) : SqlIndexDef :=
  { name := p.name, type := lit "primary key", primary := true, unique := true, clustered := p.clustered.getD true,
    columns := (p.first :: p.rest).map IndexCol.meaning, options := p.options.all.map IndexOpt.meaning,
    partition := p.partition.meaning }

/-! ### Foreign keys -/

/-- What happens to the rows that refer to a row. -/
inductive RefAction
  | restrict
  | cascade
  | setNull
  | noAction

def RefAction.tokens : RefAction → List Token
  | .restrict => [kw "RESTRICT"]
  | .cascade => [kw "CASCADE"]
  | .setNull => [kw "SET", kw "NULL"]
  | .noAction => [kw "NO", kw "ACTION"]

def RefAction.meaning : RefAction → Str
  | .restrict => lit "RESTRICT"
  | .cascade => lit "CASCADE"
  | .setNull => lit "SET NULL"
  | .noAction => lit "NO ACTION"

/-- The actions of a foreign key, in the order in which they are written. -/
inductive RefActions
  | none
  | delete (a : RefAction)
  | update (a : RefAction)
  | deleteUpdate (d u : RefAction)
  | updateDelete (u d : RefAction)

def RefActions.tokens : RefActions → List Token
  | .none => []
  | .delete a => kw "ON" :: kw "DELETE" :: a.tokens
  | .update a => kw "ON" :: kw "UPDATE" :: a.tokens
  | .deleteUpdate d u => kw "ON" :: kw "DELETE" :: (d.tokens ++ kw "ON" :: kw "UPDATE" :: u.tokens)
  | .updateDelete u d => kw "ON" :: kw "UPDATE" :: (u.tokens ++ kw "ON" :: kw "DELETE" :: d.tokens)

def RefActions.onDelete : RefActions → Str
  | .delete a => a.meaning
  | .deleteUpdate d _ => d.meaning
  | .updateDelete _ d => d.meaning
  | _ => []

def RefActions.onUpdate : RefActions → Str
  | .update a => a.meaning
  | .deleteUpdate _ u => u.meaning
  | .updateDelete u _ => u.meaning
  | _ => []

/-- A foreign key. -/
structure Fk where
  constraint : Option Str := none
  index : Option Str := none
  first : Str
  rest : List Str := []
  table : TableRef
  refFirst : Str
  refRest : List Str := []
  actions : RefActions := .none
  notForReplication : Bool := false

def Fk.tokens (f : Fk) : List Token :=
  kw "CONSTRAINT" :: (optionally f.constraint (fun n => [nm n]) ++ kw "FOREIGN" :: kw "KEY" ::
    (optionally f.index (fun n => [nm n]) ++ parens (nameTokens f.first f.rest) ++ kw "REFERENCES" ::
      (f.table.tokens ++ parens (nameTokens f.refFirst f.refRest) ++ f.actions.tokens ++
        given (f.notForReplication = true) [kw "NOT", kw "FOR", kw "REPLICATION"])))

/-- What a foreign key means. (The schema of the other table is lost.) -/
def Fk.meaning (f : Fk) : SqlForeignKey :=
  { constraintName := f.constraint.getD [], indexName := f.index.getD [], indexColumns := f.first :: f.rest,
    referenceName := f.table.name, referenceColumns := f.refFirst :: f.refRest, onDelete := f.actions.onDelete,
    onUpdate := f.actions.onUpdate, notForReplication := f.notForReplication }

/-! ### Tables -/

/-- What stands between the parentheses of `CREATE TABLE`. -/
inductive Item
  | column (c : Col)
  | index (i : Ix)
  | foreignKey (f : Fk)
  | primaryKey (p : Pk)

def Item.tokens : Item → List Token
  | .column c => c.tokens
  | .index i => i.tokens
  | .foreignKey f => f.tokens
  | .primaryKey p => p.tokens

def Item.Clear : Item → Prop
  | .column c => c.Clear
  | .index i => ∀ o ∈ i.options.all, o.Known
  | .foreignKey _ => True
  | .primaryKey p => ∀ o ∈ p.options.all, o.Known

/-- The columns, indexes and foreign keys with one more item. -/
def Item.apply (s : SqlTableSpec) : Item → SqlTableSpec
  | .column c => { s with columns := s.columns ++ [c.meaning] }
  | .index i => { s with indexes := s.indexes ++ [i.meaning] }
  | .foreignKey f => { s with foreignKeys := s.foreignKeys ++ [f.meaning] }
  | .primaryKey p => { s with indexes := s.indexes ++ [p.meaning] }

/-- The keywords among the options of a table. -/
def optionWords : List String :=
  ["auto_increment", "binary", "character", "charset", "collate", "comment", "default", "key_block_size", "set", "without"]

/-- A word of the options of a table. -/
inductive OptionWord
  | keyword (w : String)
  | name (n : Str)
  | string (s : Str)
  | int (n : Str)

def OptionWord.token : OptionWord → Token
  | .keyword w => kw w
  | .name n => nm n
  | .string s => str s
  | .int n => Written.int n

def OptionWord.Known : OptionWord → Prop
  | .keyword w => w ∈ optionWords
  | _ => True

/-- How it is kept. (Quotes in a string are not doubled again.) -/
def OptionWord.text : OptionWord → Str
  | .keyword w => lit w
  | .name n => n
  | .string s => lit "'" ++ s ++ lit "'"
  | .int n => n

/-- An option of a table: words, each with or without an equals sign before it. -/
structure TableOption where
  first : OptionWord
  rest : List (Bool × OptionWord) := []

def TableOption.tokens (o : TableOption) : List Token :=
  o.first.token :: o.rest.flatMap fun p => given (p.1 = true) [sym '='] ++ [p.2.token]

def TableOption.Known (o : TableOption) : Prop := o.first.Known ∧ ∀ p ∈ o.rest, p.2.Known

def TableOption.text (o : TableOption) : Str :=
  o.first.text ++ o.rest.flatMap fun p => (if p.1 then lit "=" else lit " ") ++ p.2.text

/-- The options of a table with commas between them. -/
def tableOptionTokens : List TableOption → List Token
  | [] => []
  | o :: os => o.tokens ++ os.flatMap fun o => sym ',' :: o.tokens

def tableOptionText : List TableOption → Str
  | [] => []
  | o :: os => lit " " ++ o.text ++ os.flatMap fun o => lit ", " ++ o.text

/-- A `CREATE TABLE` statement. -/
structure Table where
  ifNotExists : Bool := false
  name : TableRef
  first : Col
  rest : List Item := []
  options : List TableOption := []

def Table.tokens (t : Table) : List Token :=
  kw "CREATE" :: kw "TABLE" :: (given (t.ifNotExists = true) [kw "IF", kw "NOT", kw "EXISTS"] ++ t.name.tokens ++
    parens (t.first.tokens ++ t.rest.flatMap fun i => sym ',' :: i.tokens) ++ tableOptionTokens t.options)

def Table.Clear (t : Table) : Prop := t.first.Clear ∧ (∀ i ∈ t.rest, i.Clear) ∧ ∀ o ∈ t.options, o.Known

/-- The columns, indexes and foreign keys of the statement. -/
def Table.spec (t : Table) : SqlTableSpec := t.rest.foldl Item.apply { columns := [t.first.meaning] }

/-- What the statement means. -/
def Table.meaning (t : Table) : SqlDDL :=
  { action := lit "create", newName := t.name.meaning, tableSpec := some { t.spec with options := tableOptionText t.options } }

end Sqldef.Spec.Written
