import Verif.Model.SqlNodes
/-
The values of the symbols of the grammar. Generated by tools/actions.py from /repo/sqlparser/parser.y.
-/
namespace Sqldef

/-- `yySymType`, /repo/sqlparser/parser.y:53-118: one field for each field of the union. The fields `setExprs`,
`setExpr`, `partDefs`, `partDef`, `partSpec`, `vindexParam`, `vindexParams`, `showFilter` and `empty` are left out:
what is built from them is not used by `/repo/schema/parser.go`. -/
structure SymType where
  statement : Go.Statement := .other
  selStmt : Go.Txt := none
  ddl : SqlDDL := { action := [] }
  ins : Go.Insert := {}
  byt : Nat := 0
  bytes : Str := []
  bytes2 : List Str := []
  str : Str := []
  strs : List Str := []
  selectExprs : List Go.Txt := []
  selectExpr : Go.Txt := none
  columns : List Str := []
  partitions : List Str := []
  colName : Go.ColName := {}
  tableExprs : List Go.Txt := []
  tableExpr : Go.Txt := none
  joinCondition : Go.Txt := some []
  tableName : SqlTableName := { name := [] }
  tableNames : List SqlTableName := []
  indexHints : Str := []
  expr : Go.Expr := none
  exprs : List Go.Expr := []
  boolVal : Bool := false
  colTuple : Go.Expr := none
  values : List (List Go.Expr) := []
  valTuple : List Go.Expr := []
  subquery : Go.Txt := none
  whens : List Go.Txt := []
  when_ : Go.Txt := none
  orderBy : List Go.Txt := []
  order_ : Go.Txt := none
  limit : Go.Txt := some []
  updateExprs : List Go.UpdateExpr := []
  updateExpr : Go.UpdateExpr := {}
  colIdent : Str := []
  colIdents : List Str := []
  tableIdent : Str := []
  convertType : Go.ConvertType := {}
  aliasedTableName : Go.Txt := none
  tableSpec : SqlTableSpec := { columns := [] }
  columnType : SqlColumnType := { type := [] }
  optVal : Option SqlVal := none
  lengthScale : Go.LengthScaleOption := {}
  columnDefinition : SqlColumn := { name := [], type := { type := [] } }
  indexDefinition : SqlIndexDef := { name := [], type := [], columns := [] }
  indexInfo : Go.IndexInfo := {}
  indexOption : SqlIndexOption := { name := [] }
  indexOptions : List SqlIndexOption := []
  indexPartition : Option SqlIndexPartition := none
  indexColumn : SqlIndexColumn := { column := [] }
  indexColumns : List SqlIndexColumn := []
  foreignKeyDefinition : SqlForeignKey := { constraintName := [], indexColumns := [], referenceName := [], referenceColumns := [] }
  sequence : SqlSequence := {}
  triggerBody : List Go.Statement := []
  deriving DecidableEq, Repr

namespace SymType

/-- The value with another `statement`, /repo/sqlparser/parser.y:53-118. -/
def setStatement (s : SymType) (x : Go.Statement) : SymType := { s with statement := x }
/-- The value with another `selStmt`, /repo/sqlparser/parser.y:53-118. -/
def setSelStmt (s : SymType) (x : Go.Txt) : SymType := { s with selStmt := x }
/-- The value with another `ddl`, /repo/sqlparser/parser.y:53-118. -/
def setDdl (s : SymType) (x : SqlDDL) : SymType := { s with ddl := x }
/-- The value with another `ins`, /repo/sqlparser/parser.y:53-118. -/
def setIns (s : SymType) (x : Go.Insert) : SymType := { s with ins := x }
/-- The value with another `byt`, /repo/sqlparser/parser.y:53-118. -/
def setByt (s : SymType) (x : Nat) : SymType := { s with byt := x }
/-- The value with another `bytes`, /repo/sqlparser/parser.y:53-118. -/
def setBytes (s : SymType) (x : Str) : SymType := { s with bytes := x }
/-- The value with another `bytes2`, /repo/sqlparser/parser.y:53-118. -/
def setBytes2 (s : SymType) (x : List Str) : SymType := { s with bytes2 := x }
/-- The value with another `str`, /repo/sqlparser/parser.y:53-118. -/
def setStr (s : SymType) (x : Str) : SymType := { s with str := x }
/-- The value with another `strs`, /repo/sqlparser/parser.y:53-118. -/
def setStrs (s : SymType) (x : List Str) : SymType := { s with strs := x }
/-- The value with another `selectExprs`, /repo/sqlparser/parser.y:53-118. -/
def setSelectExprs (s : SymType) (x : List Go.Txt) : SymType := { s with selectExprs := x }
/-- The value with another `selectExpr`, /repo/sqlparser/parser.y:53-118. -/
def setSelectExpr (s : SymType) (x : Go.Txt) : SymType := { s with selectExpr := x }
/-- The value with another `columns`, /repo/sqlparser/parser.y:53-118. -/
def setColumns (s : SymType) (x : List Str) : SymType := { s with columns := x }
/-- The value with another `partitions`, /repo/sqlparser/parser.y:53-118. -/
def setPartitions (s : SymType) (x : List Str) : SymType := { s with partitions := x }
/-- The value with another `colName`, /repo/sqlparser/parser.y:53-118. -/
def setColName (s : SymType) (x : Go.ColName) : SymType := { s with colName := x }
/-- The value with another `tableExprs`, /repo/sqlparser/parser.y:53-118. -/
def setTableExprs (s : SymType) (x : List Go.Txt) : SymType := { s with tableExprs := x }
/-- The value with another `tableExpr`, /repo/sqlparser/parser.y:53-118. -/
def setTableExpr (s : SymType) (x : Go.Txt) : SymType := { s with tableExpr := x }
/-- The value with another `joinCondition`, /repo/sqlparser/parser.y:53-118. -/
def setJoinCondition (s : SymType) (x : Go.Txt) : SymType := { s with joinCondition := x }
/-- The value with another `tableName`, /repo/sqlparser/parser.y:53-118. -/
def setTableName (s : SymType) (x : SqlTableName) : SymType := { s with tableName := x }
/-- The value with another `tableNames`, /repo/sqlparser/parser.y:53-118. -/
def setTableNames (s : SymType) (x : List SqlTableName) : SymType := { s with tableNames := x }
/-- The value with another `indexHints`, /repo/sqlparser/parser.y:53-118. -/
def setIndexHints (s : SymType) (x : Str) : SymType := { s with indexHints := x }
/-- The value with another `expr`, /repo/sqlparser/parser.y:53-118. -/
def setExpr (s : SymType) (x : Go.Expr) : SymType := { s with expr := x }
/-- The value with another `exprs`, /repo/sqlparser/parser.y:53-118. -/
def setExprs (s : SymType) (x : List Go.Expr) : SymType := { s with exprs := x }
/-- The value with another `boolVal`, /repo/sqlparser/parser.y:53-118. -/
def setBoolVal (s : SymType) (x : Bool) : SymType := { s with boolVal := x }
/-- The value with another `colTuple`, /repo/sqlparser/parser.y:53-118. -/
def setColTuple (s : SymType) (x : Go.Expr) : SymType := { s with colTuple := x }
/-- The value with another `values`, /repo/sqlparser/parser.y:53-118. -/
def setValues (s : SymType) (x : List (List Go.Expr)) : SymType := { s with values := x }
/-- The value with another `valTuple`, /repo/sqlparser/parser.y:53-118. -/
def setValTuple (s : SymType) (x : List Go.Expr) : SymType := { s with valTuple := x }
/-- The value with another `subquery`, /repo/sqlparser/parser.y:53-118. -/
def setSubquery (s : SymType) (x : Go.Txt) : SymType := { s with subquery := x }
/-- The value with another `whens`, /repo/sqlparser/parser.y:53-118. -/
def setWhens (s : SymType) (x : List Go.Txt) : SymType := { s with whens := x }
/-- The value with another `when`, /repo/sqlparser/parser.y:53-118. -/
def setWhen_ (s : SymType) (x : Go.Txt) : SymType := { s with when_ := x }
/-- The value with another `orderBy`, /repo/sqlparser/parser.y:53-118. -/
def setOrderBy (s : SymType) (x : List Go.Txt) : SymType := { s with orderBy := x }
/-- The value with another `order`, /repo/sqlparser/parser.y:53-118. -/
def setOrder_ (s : SymType) (x : Go.Txt) : SymType := { s with order_ := x }
/-- The value with another `limit`, /repo/sqlparser/parser.y:53-118. -/
def setLimit (s : SymType) (x : Go.Txt) : SymType := { s with limit := x }
/-- The value with another `updateExprs`, /repo/sqlparser/parser.y:53-118. -/
def setUpdateExprs (s : SymType) (x : List Go.UpdateExpr) : SymType := { s with updateExprs := x }
/-- The value with another `updateExpr`, /repo/sqlparser/parser.y:53-118. -/
def setUpdateExpr (s : SymType) (x : Go.UpdateExpr) : SymType := { s with updateExpr := x }
/-- The value with another `colIdent`, /repo/sqlparser/parser.y:53-118. -/
def setColIdent (s : SymType) (x : Str) : SymType := { s with colIdent := x }
/-- The value with another `colIdents`, /repo/sqlparser/parser.y:53-118. -/
def setColIdents (s : SymType) (x : List Str) : SymType := { s with colIdents := x }
/-- The value with another `tableIdent`, /repo/sqlparser/parser.y:53-118. -/
def setTableIdent (s : SymType) (x : Str) : SymType := { s with tableIdent := x }
/-- The value with another `convertType`, /repo/sqlparser/parser.y:53-118. -/
def setConvertType (s : SymType) (x : Go.ConvertType) : SymType := { s with convertType := x }
/-- The value with another `aliasedTableName`, /repo/sqlparser/parser.y:53-118. -/
def setAliasedTableName (s : SymType) (x : Go.Txt) : SymType := { s with aliasedTableName := x }
/-- The value with another `TableSpec`, /repo/sqlparser/parser.y:53-118. -/
def setTableSpec (s : SymType) (x : SqlTableSpec) : SymType := { s with tableSpec := x }
/-- The value with another `columnType`, /repo/sqlparser/parser.y:53-118. -/
def setColumnType (s : SymType) (x : SqlColumnType) : SymType := { s with columnType := x }
/-- The value with another `optVal`, /repo/sqlparser/parser.y:53-118. -/
def setOptVal (s : SymType) (x : Option SqlVal) : SymType := { s with optVal := x }
/-- The value with another `LengthScaleOption`, /repo/sqlparser/parser.y:53-118. -/
def setLengthScale (s : SymType) (x : Go.LengthScaleOption) : SymType := { s with lengthScale := x }
/-- The value with another `columnDefinition`, /repo/sqlparser/parser.y:53-118. -/
def setColumnDefinition (s : SymType) (x : SqlColumn) : SymType := { s with columnDefinition := x }
/-- The value with another `indexDefinition`, /repo/sqlparser/parser.y:53-118. -/
def setIndexDefinition (s : SymType) (x : SqlIndexDef) : SymType := { s with indexDefinition := x }
/-- The value with another `indexInfo`, /repo/sqlparser/parser.y:53-118. -/
def setIndexInfo (s : SymType) (x : Go.IndexInfo) : SymType := { s with indexInfo := x }
/-- The value with another `indexOption`, /repo/sqlparser/parser.y:53-118. -/
def setIndexOption (s : SymType) (x : SqlIndexOption) : SymType := { s with indexOption := x }
/-- The value with another `indexOptions`, /repo/sqlparser/parser.y:53-118. -/
def setIndexOptions (s : SymType) (x : List SqlIndexOption) : SymType := { s with indexOptions := x }
/-- The value with another `indexPartition`, /repo/sqlparser/parser.y:53-118. -/
def setIndexPartition (s : SymType) (x : Option SqlIndexPartition) : SymType := { s with indexPartition := x }
/-- The value with another `indexColumn`, /repo/sqlparser/parser.y:53-118. -/
def setIndexColumn (s : SymType) (x : SqlIndexColumn) : SymType := { s with indexColumn := x }
/-- The value with another `indexColumns`, /repo/sqlparser/parser.y:53-118. -/
def setIndexColumns (s : SymType) (x : List SqlIndexColumn) : SymType := { s with indexColumns := x }
/-- The value with another `foreignKeyDefinition`, /repo/sqlparser/parser.y:53-118. -/
def setForeignKeyDefinition (s : SymType) (x : SqlForeignKey) : SymType := { s with foreignKeyDefinition := x }
/-- The value with another `sequence`, /repo/sqlparser/parser.y:53-118. -/
def setSequence (s : SymType) (x : SqlSequence) : SymType := { s with sequence := x }
/-- The value with another `triggerBody`, /repo/sqlparser/parser.y:53-118. -/
def setTriggerBody (s : SymType) (x : List Go.Statement) : SymType := { s with triggerBody := x }

end SymType

end Sqldef
