import Verif.Model.SqlAst
import Verif.Model.Scanner
import Verif.Model.Keywords
/-
The nodes of `/repo/sqlparser/ast.go` that the actions of the grammar (`/repo/sqlparser/parser.y`) build.

`/repo/schema/parser.go` uses expressions, table expressions, select statements and the statements of a trigger only
through `sqlparser.String(node)`, that is through their `Format` methods. The model renders these nodes when they are
built: a constructor of the code is a function here that takes the renderings of the parts and returns the rendering
of the node, the work of the `Format` method it cites. What the actions themselves look at (the kind of an expression)
is kept in `ExprKind`.

`Myprintf` (/repo/sqlparser/tracked_buffer.go:62-110) panics on a `%v` for a nil interface. This can happen to an
expression: its rendering is then `none`.
-/
namespace Sqldef.Go

/-- The text that a `Format` method writes; `none`: it panics. -/
abbrev Txt := Option Str

/-- The texts one after the other. -/
def cat : List Txt → Txt
  | [] => some []
  | a :: l => a.bind fun s => (cat l).map (s ++ ·)

/-- The texts with a separator between them. -/
def sepBy (sep : Str) : List Txt → Txt
  | [] => some []
  | [a] => a
  | a :: l => cat [a, some sep, sepBy sep l]

/-- What the actions of the grammar and the `Format` methods ask about an expression: whether it is a `*SQLVal`, a
`*NullVal`, a `*UnaryExpr`, a `*ParenExpr` or a `*FuncExpr` called `rand`. -/
inductive ExprKind
  | other
  | val (v : SqlVal)
  | null
  | unary
  | rand
  | paren (inner : Txt)
  deriving DecidableEq, Repr

/-- An expression that is not nil: its rendering and its kind. -/
structure ExprNode where
  text : Txt
  kind : ExprKind := .other
  deriving DecidableEq, Repr

/-- `Expr`, /repo/sqlparser/ast.go:2061-2069: an interface, `none` is nil. -/
abbrev Expr := Option ExprNode

/-- `%v` for an expression, /repo/sqlparser/tracked_buffer.go:96-102. -/
def Expr.fmt (e : Expr) : Txt := e.bind (·.text)

/-- An expression of no particular kind. -/
def node (t : Txt) : Expr := some { text := t }

/-- The expression as `/repo/schema/parser.go` uses it. -/
def ExprNode.sql (e : ExprNode) : SqlExpr where
  text := e.text.getD []
  inner := match e.kind with
    | .paren inner => some (inner.getD [])
    | _ => none
  panics := e.text.isNone

/-! ### Identifiers and values -/

/-- `isLetter(uint16(c))` and `isDigit(uint16(c))`, /repo/sqlparser/ast.go:3592-3593: the character is cut to 16 bits. -/
def cut16 (c : Char) : Char := Char.ofNat (c.toNat % 65536)

/-- Whether `formatID` goes to `mustEscape` because of a character, /repo/sqlparser/ast.go:3591-3597; `first`: `i == 0`. -/
def oddCharacter (system : Bool) : (first : Bool) → Str → Bool
  | _, [] => false
  | first, c :: s =>
    (!isLetter (cut16 c) && (!system || !isCarat (cut16 c)) && (first || !isDigit (cut16 c))) || oddCharacter system false s

/-- `formatID`, /repo/sqlparser/ast.go:3585-3614. `lowered` is the identifier in lower case. -/
def formatID (original : Str) : Str :=
  if oddCharacter (hasPrefix (lit "@@") original) true original || (keywordCode (toLower original)).isSome then
    '`' :: original.flatMap (fun c => if c = '`' then ['`', '`'] else [c]) ++ ['`']
  else original

/-- `encodeBytesSQL`, /repo/sqlparser/dependency/sqltypes/value.go:321-334. -/
def encodeBytesSQL (s : Str) : Str :=
  '\'' :: s.flatMap (fun c => match encodeRef.find? (fun p => p.1 = c) with
    | some p => ['\\', p.2]
    | none => [c]) ++ ['\'']

/-- `SQLVal.Format`, /repo/sqlparser/ast.go:2483-2500. The `%t` of a boolean is unknown to `Myprintf`, which panics. -/
def formatVal (v : SqlVal) : Txt :=
  match v.type with
  | .strVal => some (encodeBytesSQL v.val)
  | .intVal | .floatVal | .hexNum | .valArg => some v.val
  | .hexVal => some (lit "X'" ++ v.val ++ lit "'")
  | .bitVal => some (lit "B'" ++ v.val ++ lit "'")
  | .valBool => none

/-- `NewStrVal` to `NewValArg`, /repo/sqlparser/ast.go:2435-2467. -/
def NewStrVal (s : Str) : Option SqlVal := some ⟨.strVal, s⟩
@[inherit_doc NewStrVal] def NewIntVal (s : Str) : Option SqlVal := some ⟨.intVal, s⟩
@[inherit_doc NewStrVal] def NewFloatVal (s : Str) : Option SqlVal := some ⟨.floatVal, s⟩
@[inherit_doc NewStrVal] def NewHexNum (s : Str) : Option SqlVal := some ⟨.hexNum, s⟩
@[inherit_doc NewStrVal] def NewHexVal (s : Str) : Option SqlVal := some ⟨.hexVal, s⟩
@[inherit_doc NewStrVal] def NewBitVal (s : Str) : Option SqlVal := some ⟨.bitVal, s⟩
@[inherit_doc NewStrVal] def NewValArg (s : Str) : Option SqlVal := some ⟨.valArg, s⟩

/-- `NewBoolSQLVal`, /repo/sqlparser/ast.go:2469-2471. -/
def NewBoolSQLVal (b : Bool) : Option SqlVal := some ⟨.valBool, if b then lit "true" else lit "false"⟩

/-- `NewValArgWithOpt`, /repo/sqlparser/ast.go:2473-2480. -/
def NewValArgWithOpt (s : Str) : Option SqlVal → Option SqlVal
  | some v => NewValArg (s ++ lit "(" ++ v.val ++ lit ")")
  | none => NewValArg s

/-- A `*SQLVal` as an expression. -/
def valExpr (v : Option SqlVal) : Expr := v.map fun v => { text := formatVal v, kind := .val v }

/-- `NullVal`, /repo/sqlparser/ast.go:2521-2526. -/
def NullVal : Expr := some { text := some (lit "null"), kind := .null }

/-- `BoolVal.Format`, /repo/sqlparser/ast.go:2545-2551. -/
def boolExpr (b : Bool) : Expr := node (some (if b then lit "true" else lit "false"))

/-- `TableName.Format`, /repo/sqlparser/ast.go:1870-1878. -/
def formatTableName (t : SqlTableName) : Str :=
  if t.name = [] then []
  else (if t.qualifier = [] then [] else formatID t.qualifier ++ lit ".") ++ formatID t.name

/-- `ToViewName`, /repo/sqlparser/ast.go:1897-1902. -/
def toViewName (t : SqlTableName) : SqlTableName := { qualifier := t.qualifier, name := toLower t.name }

/-- `ColName`, /repo/sqlparser/ast.go:2562-2570. -/
structure ColName where
  Name : Str := []
  Qualifier : SqlTableName := { name := [] }
  deriving DecidableEq, Repr

/-- `ColName.Format`, /repo/sqlparser/ast.go:2573-2578. -/
def ColName.fmt (c : ColName) : Str :=
  (if c.Qualifier.name = [] then [] else formatTableName c.Qualifier ++ lit ".") ++ formatID c.Name

/-- A `*ColName` as an expression. -/
def ColName.expr (c : ColName) : Expr := node (some c.fmt)

/-! ### Expressions -/

/-- `AndExpr.Format`, /repo/sqlparser/ast.go:2156-2158. -/
def AndExpr (Left Right : Expr) : Expr := node (cat [Left.fmt, some (lit " and "), Right.fmt])

/-- `OrExpr.Format`, /repo/sqlparser/ast.go:2181-2183. -/
def OrExpr (Left Right : Expr) : Expr := node (cat [Left.fmt, some (lit " or "), Right.fmt])

/-- `NotExpr.Format`, /repo/sqlparser/ast.go:2206-2208. -/
def NotExpr (E : Expr) : Expr := node (cat [some (lit "not "), E.fmt])

/-- `ParenExpr.Format`, /repo/sqlparser/ast.go:2230-2232. -/
def ParenExpr (E : Expr) : Expr :=
  some { text := cat [some (lit "("), E.fmt, some (lit ")")], kind := .paren E.fmt }

/-- ` escape %v`, /repo/sqlparser/ast.go:2277-2279. -/
def formatEscape : Expr → Txt
  | none => some []
  | some e => cat [some (lit " escape "), e.text]

/-- `ComparisonExpr.Format`, /repo/sqlparser/ast.go:2275-2280. -/
def ComparisonExpr (Left : Expr) (Operator : Str) (Right : Expr) (Escape : Expr := none) : Expr :=
  node (cat [Left.fmt, some (lit " " ++ Operator ++ lit " "), Right.fmt, formatEscape Escape])

/-- `RangeCond.Format`, /repo/sqlparser/ast.go:2312-2314. -/
def RangeCond (Left : Expr) (Operator : Str) (From To : Expr) : Expr :=
  node (cat [Left.fmt, some (lit " " ++ Operator ++ lit " "), From.fmt, some (lit " and "), To.fmt])

/-- `IsExpr.Format`, /repo/sqlparser/ast.go:2349-2351. -/
def IsExpr (Operator : Str) (E : Expr) : Expr := node (cat [E.fmt, some (lit " " ++ Operator)])

/-- `ExistsExpr.Format`, /repo/sqlparser/ast.go:2373-2375. -/
def ExistsExpr (Subquery : Txt) : Expr := node (cat [some (lit "exists "), Subquery])

/-- `Exprs.Format`, /repo/sqlparser/ast.go:2133-2139. -/
def formatExprs (l : List Expr) : Txt := sepBy (lit ", ") (l.map Expr.fmt)

/-- `ValTuple.Format`, /repo/sqlparser/ast.go:2619-2621. -/
def formatTuple (l : List Expr) : Txt := cat [some (lit "("), formatExprs l, some (lit ")")]

/-- A `ValTuple` as an expression. -/
def tupleExpr (l : List Expr) : Expr := node (formatTuple l)

/-- `Subquery.Format`, /repo/sqlparser/ast.go:2642-2644. -/
def Subquery (Select : Txt) : Txt := cat [some (lit "("), Select, some (lit ")")]

/-- `ListArg.Format`, /repo/sqlparser/ast.go:2664-2666. -/
def ListArg (s : Str) : Expr := node (some s)

/-- `BinaryExpr.Format`, /repo/sqlparser/ast.go:2698-2700. -/
def BinaryExpr (Left : Expr) (Operator : Str) (Right : Expr) : Expr :=
  node (cat [Left.fmt, some (lit " " ++ Operator ++ lit " "), Right.fmt])

/-- Whether the expression is a `*UnaryExpr`, /repo/sqlparser/ast.go:2735. -/
def Expr.isUnary (e : Expr) : Bool :=
  match e with
  | some { kind := .unary, .. } => true
  | _ => false

/-- `UnaryExpr.Format`, /repo/sqlparser/ast.go:2734-2740. -/
def UnaryExpr (Operator : Str) (E : Expr) : Expr :=
  some { text := cat [some Operator, some (if E.isUnary then lit " " else []), E.fmt], kind := .unary }

/-- `IntervalExpr.Format`, /repo/sqlparser/ast.go:2763-2765. -/
def IntervalExpr (E : Expr) (Unit : Str) : Expr :=
  node (cat [some (lit "interval "), E.fmt, some (lit " " ++ Unit)])

/-- `CollateExpr.Format`, /repo/sqlparser/ast.go:2788-2790. -/
def CollateExpr (E : Expr) (Charset : Str) : Expr := node (cat [E.fmt, some (lit " collate " ++ Charset)])

/-- `SelectExprs.Format`, `TableExprs.Format`: the parts with commas, /repo/sqlparser/ast.go:1608-1614, 1762-1768. -/
def commas (l : List Txt) : Txt := sepBy (lit ", ") l

/-- `FuncExpr.Format`, /repo/sqlparser/ast.go:2815-2827. -/
def FuncExpr (Name : Str) (Qualifier : Str := []) (Distinct : Bool := false) (Exprs : List Txt := []) : Expr :=
  some { text := cat [some (if Qualifier = [] then [] else formatID Qualifier ++ lit "."), some (Name ++ lit "("),
                      some (if Distinct then lit "distinct " else []), commas Exprs, some (lit ")")],
         kind := if toLower Name = lit "rand" then .rand else .other }

/-- A list with a prefix if it is not empty: `GroupBy.Format`, `OrderBy.Format`, /repo/sqlparser/ast.go:3201-3228. -/
def prefixed (p : Str) (l : List Txt) : Txt := if l.isEmpty then some [] else cat [some p, commas l]

/-- `OrderBy.Format`, /repo/sqlparser/ast.go:3222-3228. -/
def formatOrderBy (l : List Txt) : Txt := prefixed (lit " order by ") l

/-- `GroupConcatExpr.Format`, /repo/sqlparser/ast.go:2888-2890. -/
def GroupConcatExpr (Distinct : Str) (Exprs : List Txt) (OrderBy : List Txt) (Separator : Str) : Expr :=
  node (cat [some (lit "group_concat(" ++ Distinct), commas Exprs, formatOrderBy OrderBy, some (Separator ++ lit ")")])

/-- `ValuesFuncExpr.Format`, /repo/sqlparser/ast.go:2927-2929. -/
def ValuesFuncExpr (Name : ColName) : Expr := node (some (lit "values(" ++ Name.fmt ++ lit ")"))

/-- `SubstrExpr.Format`, /repo/sqlparser/ast.go:2954-2961. -/
def SubstrExpr (Name : ColName) (From To : Expr) : Expr :=
  match To with
  | none => node (cat [some (lit "substr(" ++ Name.fmt ++ lit ", "), From.fmt, some (lit ")")])
  | some to => node (cat [some (lit "substr(" ++ Name.fmt ++ lit ", "), From.fmt, some (lit ", "), to.text, some (lit ")")])

/-- `ConvertType`, /repo/sqlparser/ast.go:3032-3038. -/
structure ConvertType where
  Ty : Str := []
  Length : Option SqlVal := none
  Scale : Option SqlVal := none
  Operator : Str := []
  Charset : Str := []
  deriving DecidableEq, Repr

/-- `ConvertType.Format`, /repo/sqlparser/ast.go:3046-3058. -/
def ConvertType.fmt (t : ConvertType) : Txt :=
  cat [some t.Ty,
    match t.Length with
    | none => some []
    | some n => cat [some (lit "("), formatVal n,
        match t.Scale with
        | none => some []
        | some m => cat [some (lit ", "), formatVal m],
        some (lit ")")],
    some (if t.Charset = [] then [] else t.Operator ++ lit " " ++ t.Charset)]

/-- `ConvertExpr.Format`, /repo/sqlparser/ast.go:2987-2989. The expression is nil for `::type` without an operand
(/repo/sqlparser/parser.y:3173-3176): the rendering panics. -/
def ConvertExpr (E : Expr := none) (Ty : ConvertType) : Expr :=
  node (cat [some (lit "convert("), E.fmt, some (lit ", "), Ty.fmt, some (lit ")")])

/-- `ConvertUsingExpr.Format`, /repo/sqlparser/ast.go:3013-3015. -/
def ConvertUsingExpr (E : Expr) (Ty : Str) : Expr :=
  node (cat [some (lit "convert("), E.fmt, some (lit " using " ++ Ty ++ lit ")")])

/-- `MatchExpr.Format`, /repo/sqlparser/ast.go:3080-3082. -/
def MatchExpr (Columns : List Txt) (E : Expr) (Opt : Str) : Expr :=
  node (cat [some (lit "match("), commas Columns, some (lit ") against ("), E.fmt, some (Opt ++ lit ")")])

/-- `When.Format`, /repo/sqlparser/ast.go:3182-3184. -/
def When (Cond Val : Expr) : Txt := cat [some (lit "when "), Cond.fmt, some (lit " then "), Val.fmt]

/-- `CaseExpr.Format`, /repo/sqlparser/ast.go:3116-3128. -/
def CaseExpr (E : Expr) (Whens : List Txt) (Else : Expr) : Expr :=
  node (cat [some (lit "case "),
    match E with
    | none => some []
    | some e => cat [e.text, some (lit " ")],
    cat (Whens.map fun w => cat [w, some (lit " ")]),
    match Else with
    | none => some []
    | some e => cat [some (lit "else "), e.text, some (lit " ")],
    some (lit "end")])

/-- `Default.Format`, /repo/sqlparser/ast.go:3160-3165. -/
def Default (ColName : Str := []) : Expr :=
  node (some (lit "default" ++ if ColName = [] then [] else lit "(" ++ ColName ++ lit ")"))

/-! ### Select and the other statements -/

/-- `Where.Format`, /repo/sqlparser/ast.go:2043-2048, of `NewWhere(Type, e)`, /repo/sqlparser/ast.go:2035-2040. -/
def formatWhere (Ty : Str) : Expr → Txt
  | none => some []
  | some e => cat [some (lit " " ++ Ty ++ lit " "), e.text]

/-- `Comments.Format`, /repo/sqlparser/ast.go:1580-1584. -/
def formatComments (l : List Str) : Str := l.flatMap (· ++ lit " ")

/-- `StarExpr.Format`, /repo/sqlparser/ast.go:1641-1646. -/
def StarExpr (TableName : SqlTableName := { name := [] }) : Txt :=
  some ((if TableName.name = [] then [] else formatTableName TableName ++ lit ".") ++ lit "*")

/-- `AliasedExpr.Format`, /repo/sqlparser/ast.go:1665-1670. -/
def AliasedExpr (E : Expr) (As : Str) : Txt :=
  cat [E.fmt, some (if As = [] then [] else lit " as " ++ formatID As)]

/-- `Nextval.Format`, /repo/sqlparser/ast.go:1689-1691. -/
def Nextval (E : Expr) : Txt := cat [some (lit "next "), E.fmt, some (lit " values")]

/-- `Columns.Format`, /repo/sqlparser/ast.go:1701-1711. The list is nil or has an element. -/
def formatColumns (l : List Str) : Str :=
  if l = [] then [] else lit "(" ++ join (lit ", ") (l.map formatID) ++ lit ")"

/-- `Partitions.Format`, /repo/sqlparser/ast.go:1737-1747. The list is nil or has an element. -/
def formatPartitions (l : List Str) : Str :=
  if l = [] then [] else lit " partition (" ++ join (lit ", ") (l.map formatID) ++ lit ")"

/-- `IndexHints.Format`, /repo/sqlparser/ast.go:1999-2007. The list has an element. -/
def IndexHints (Ty : Str) (Indexes : List Str) : Str :=
  lit " " ++ Ty ++ lit "index " ++ lit "(" ++ join (lit ", ") (Indexes.map formatID) ++ lit ")"

/-- `AliasedTableExpr.Format`, /repo/sqlparser/ast.go:1800-1809. `Hints` is empty for nil. -/
def AliasedTableExpr (E : Txt) (Partitions : List Str := []) (As : Str := []) (Hints : Str := []) : Txt :=
  cat [E, some (formatPartitions Partitions), some (if As = [] then [] else lit " as " ++ formatID As), some Hints]

/-- `ParenTableExpr.Format`, /repo/sqlparser/ast.go:1910-1912. -/
def ParenTableExpr (Exprs : List Txt) : Txt := cat [some (lit "("), commas Exprs, some (lit ")")]

/-- `JoinCondition.Format`, /repo/sqlparser/ast.go:1932-1939. -/
def JoinCondition (On : Expr := none) (Using : List Str := []) : Txt :=
  cat [match On with
    | none => some []
    | some e => cat [some (lit " on "), e.text],
    some (if Using = [] then [] else lit " using " ++ formatColumns Using)]

/-- `JoinTableExpr.Format`, /repo/sqlparser/ast.go:1969-1971. -/
def JoinTableExpr (LeftExpr : Txt) (Join : Str) (RightExpr : Txt) (Condition : Txt := some []) : Txt :=
  cat [LeftExpr, some (lit " " ++ Join ++ lit " "), RightExpr, Condition]

/-- `Order.Format`, /repo/sqlparser/ast.go:3252-3265: no direction for a null and for `rand()`. -/
def Order (E : Expr) (Direction : Str) : Txt :=
  match E with
  | some { text := t, kind := .null } => t
  | some { text := t, kind := .rand } => t
  | e => cat [e.fmt, some (lit " " ++ Direction)]

/-- `Limit.Format`, /repo/sqlparser/ast.go:3283-3292; nil is the empty text. -/
def Limit (Offset : Expr := none) (Rowcount : Expr) : Txt :=
  cat [some (lit " limit "),
    match Offset with
    | none => some []
    | some e => cat [e.text, some (lit ", ")],
    Rowcount.fmt]

/-- `Select.Format`, /repo/sqlparser/ast.go:297-303, up to the ORDER BY, the LIMIT and the lock that
/repo/sqlparser/parser.y:381-386 adds at the end. -/
def Select (Comments : List Str) (Cache : Str := []) (Distinct : Str := []) (Hints : Str := []) (SelectExprs : List Txt)
    (From : List Txt) (Where : Expr := none) (GroupBy : List Expr := []) (Having : Expr := none) : Txt :=
  cat [some (lit "select " ++ formatComments Comments ++ Cache ++ Distinct ++ Hints), commas SelectExprs,
    some (lit " from "), commas From, formatWhere (lit "where") Where,
    prefixed (lit " group by ") (GroupBy.map Expr.fmt), formatWhere (lit "having") Having]

/-- `ParenSelect.Format`, /repo/sqlparser/ast.go:384-386. -/
def ParenSelect (Select : Txt) : Txt := cat [some (lit "("), Select, some (lit ")")]

/-- `Union.Format`, /repo/sqlparser/ast.go:425-428. -/
def Union (Ty : Str) (Left Right : Txt) (OrderBy : List Txt) (Limit : Txt) (Lock : Str) : Txt :=
  cat [Left, some (lit " " ++ Ty ++ lit " "), Right, formatOrderBy OrderBy, Limit, some Lock]

/-- `Values.Format`, /repo/sqlparser/ast.go:3309-3315. -/
def formatValues (l : List (List Expr)) : Txt := prefixed (lit "values ") (l.map formatTuple)

/-- `UpdateExpr`, /repo/sqlparser/ast.go:3348-3351. -/
structure UpdateExpr where
  Name : ColName := {}
  E : Expr := none
  deriving DecidableEq, Repr

/-- `UpdateExprs.Format`, `UpdateExpr.Format`, /repo/sqlparser/ast.go:3330-3336, 3354-3356. -/
def formatUpdates (l : List UpdateExpr) : Txt := commas (l.map fun u => cat [some (u.Name.fmt ++ lit " = "), u.E.fmt])

/-- The part of `Insert`, /repo/sqlparser/ast.go:474-483, that `insert_data` fills. -/
structure Insert where
  Columns : List Str := []
  Rows : Txt := none
  deriving DecidableEq, Repr

/-- `Insert.Format`, /repo/sqlparser/ast.go:492-497, with `OnDup.Format`, /repo/sqlparser/ast.go:3421-3426. -/
def formatInsert (Action : Str) (Comments : List Str) (Ignore : Str) (Table : SqlTableName) (Partitions : List Str)
    (Columns : List Str) (Rows : Txt) (OnDup : List UpdateExpr) : Txt :=
  cat [some (Action ++ lit " " ++ formatComments Comments ++ Ignore ++ lit "into " ++ formatTableName Table ++
      formatPartitions Partitions ++ formatColumns Columns ++ lit " "), Rows,
    if OnDup.isEmpty then some [] else cat [some (lit " on duplicate key update "), formatUpdates OnDup]]

/-- `Update.Format`, /repo/sqlparser/ast.go:536-540. -/
def formatUpdate (Comments : List Str) (TableExprs : List Txt) (Exprs : List UpdateExpr) (Where : Expr)
    (OrderBy : List Txt) (Limit : Txt) : Txt :=
  cat [some (lit "update " ++ formatComments Comments), commas TableExprs, some (lit " set "), formatUpdates Exprs,
    formatWhere (lit "where") Where, formatOrderBy OrderBy, Limit]

/-- `Delete.Format`, /repo/sqlparser/ast.go:570-576. `Targets` is nil or has an element. -/
def formatDelete (Comments : List Str) (Targets : List SqlTableName := []) (TableExprs : List Txt)
    (Partitions : List Str := []) (Where : Expr) (OrderBy : List Txt := []) (Limit : Txt := some []) : Txt :=
  cat [some (lit "delete " ++ formatComments Comments),
    some (if Targets.isEmpty then [] else join (lit ", ") (Targets.map formatTableName) ++ lit " "),
    some (lit "from "), commas TableExprs, some (formatPartitions Partitions), formatWhere (lit "where") Where,
    formatOrderBy OrderBy, Limit]

/-! ### Statements -/

/-- `Statement`: a `*DDL`; a select, an insert, an update or a delete by its rendering; anything else. -/
inductive Statement
  | ddl (d : SqlDDL)
  | dml (text : Txt)
  | other
  deriving DecidableEq, Repr

/-- The rendering of a statement of a trigger; only these kinds occur there (/repo/sqlparser/parser.y:725-730). -/
def Statement.fmt : Statement → Txt
  | .dml t => t
  | _ => none

/-- `LengthScaleOption`, /repo/sqlparser/ast.go:1271-1274. -/
structure LengthScaleOption where
  Length : Option SqlVal := none
  Scale : Option SqlVal := none
  deriving DecidableEq, Repr

/-- `IndexInfo`, /repo/sqlparser/ast.go:1239-1247. -/
structure IndexInfo where
  Ty : Str := []
  Name : Str := []
  Primary : Bool := false
  Spatial : Bool := false
  Fulltext : Bool := false
  Unique : Bool := false
  Clustered : Bool := false
  deriving DecidableEq, Repr

/-- `IndexDefinition`, /repo/sqlparser/ast.go:1192-1197. -/
def IndexDefinition (Info : IndexInfo) (Columns : List SqlIndexColumn) (Options : List SqlIndexOption)
    (Partition : Option SqlIndexPartition) : SqlIndexDef where
  name := Info.Name
  type := Info.Ty
  primary := Info.Primary
  unique := Info.Unique
  clustered := Info.Clustered
  columns := Columns
  options := Options
  partition := Partition

/-- `NewWhere(WhereStr, e)`, /repo/sqlparser/ast.go:2035-2040, as `/repo/schema/parser.go` uses it. -/
def whereOf (e : Expr) : Option SqlWhere := e.map fun e => { isWhere := true, expr := e.sql }

/-- `View`, /repo/sqlparser/ast.go:1590-1594. -/
def View (Name : SqlTableName) (Definition : Txt) : SqlView where
  name := Name.name
  definition := Definition.getD []
  panics := Definition.isNone

/-- `Trigger`, /repo/sqlparser/ast.go:1596-1602. -/
def Trigger (Name : Str) (TableName : SqlTableName) (Time Event : Str) (Body : List Statement) : SqlTrigger where
  name := Name
  tableName := TableName
  time := Time
  event := Event
  body := Body.map fun s => s.fmt.getD []
  panics := Body.any fun s => s.fmt.isNone

end Sqldef.Go
