import Verif.Model.SymType
/-
The actions of the grammar /repo/sqlparser/parser.y, as far as they compute values. Generated by tools/actions.py.

`ruleN d` is the value that the action of rule N gives to the left-hand side, where `d n` is the value of the n-th
symbol of the right-hand side (`$n`, `yyDollar[n]`). The code first sets `yyVAL` to the value of the first symbol
(/repo/sqlparser/parser.go:3392) and the action then sets one field; a rule without an action keeps the value of
the first symbol. The effects on the tokenizer and the ways to fail are in `Verif.Model.SqlParse`.
-/
namespace Sqldef.Go

/-- Rule 576, /repo/sqlparser/parser.y:3003-3009: an integer keeps its value. -/
def unaryPlus (e : Expr) : Expr :=
  match e with
  | some { kind := .val ⟨.intVal, _⟩, .. } => e
  | _ => UnaryExpr (Operator := lit "+") (E := e)

/-- Rule 577, /repo/sqlparser/parser.y:3011-3023: the sign of an integer becomes part of it. An empty text is
an index out of range (`num.Val[0]`): see `Sql.act`. -/
def unaryMinus (e : Expr) : Expr :=
  match e with
  | some { kind := .val ⟨.intVal, '-' :: s⟩, .. } => valExpr (NewIntVal s)
  | some { kind := .val ⟨.intVal, s⟩, .. } => valExpr (NewIntVal ('-' :: s))
  | _ => UnaryExpr (Operator := lit "-") (E := e)

/-- Rule 706, /repo/sqlparser/parser.y:3613-3620: one expression in parentheses is not a tuple. -/
def tupleOrParen (l : List Expr) : Expr :=
  match l with
  | [e] => ParenExpr e
  | _ => tupleExpr l

end Sqldef.Go

namespace Sqldef.Sql

/-- `command: select_statement`, /repo/sqlparser/parser.y:358. -/
def rule4 (d : Nat → SymType) : SymType :=
  (d 1).setStatement (.dml ((d 1).selStmt))

/-- `select_statement: base_select order_by_opt limit_opt lock_opt`, /repo/sqlparser/parser.y:381. -/
def rule22 (d : Nat → SymType) : SymType :=
  (d 1).setSelStmt (Go.cat [(d 1).selStmt, Go.formatOrderBy (d 2).orderBy, (d 3).limit, some (d 4).str])

/-- `select_statement: union_lhs union_op union_rhs order_by_opt limit_opt lock_opt`, /repo/sqlparser/parser.y:389. -/
def rule23 (d : Nat → SymType) : SymType :=
  (d 1).setSelStmt (Go.Union (Ty := (d 2).str) (Left := (d 1).selStmt) (Right := (d 3).selStmt) (OrderBy := (d 4).orderBy) (Limit := (d 5).limit) (Lock := (d 6).str))

/-- `select_statement: SELECT comment_opt cache_opt NEXT num_val for_from table_name`, /repo/sqlparser/parser.y:393. -/
def rule24 (d : Nat → SymType) : SymType :=
  (d 1).setSelStmt (Go.Select (Comments := (d 2).bytes2) (Cache := (d 3).str) (SelectExprs := [Go.Nextval (E := (d 5).expr)]) (From := [Go.AliasedTableExpr (E := some (Go.formatTableName ((d 7).tableName)))]))

/-- `stream_statement: STREAM comment_opt select_expression FROM table_name`, /repo/sqlparser/parser.y:399. -/
def rule25 (d : Nat → SymType) : SymType :=
  (d 1).setStatement .other

/-- `base_select: SELECT comment_opt cache_opt distinct_opt straight_join_opt select_expression_list from_opt where_expression_opt group_by_opt having_opt`, /repo/sqlparser/parser.y:406. -/
def rule26 (d : Nat → SymType) : SymType :=
  (d 1).setSelStmt (Go.Select (Comments := (d 2).bytes2) (Cache := (d 3).str) (Distinct := (d 4).str) (Hints := (d 5).str) (SelectExprs := (d 6).selectExprs) (From := (d 7).tableExprs) (Where := (d 8).expr) (GroupBy := (d 9).exprs) (Having := (d 10).expr))

/-- `union_lhs: select_statement`, /repo/sqlparser/parser.y:412. -/
def rule27 (d : Nat → SymType) : SymType :=
  (d 1).setSelStmt ((d 1).selStmt)

/-- `union_lhs: openb select_statement closeb`, /repo/sqlparser/parser.y:416. -/
def rule28 (d : Nat → SymType) : SymType :=
  (d 1).setSelStmt (Go.ParenSelect (Select := (d 2).selStmt))

/-- `union_rhs: base_select`, /repo/sqlparser/parser.y:422. -/
def rule29 (d : Nat → SymType) : SymType :=
  (d 1).setSelStmt ((d 1).selStmt)

/-- `union_rhs: openb select_statement closeb`, /repo/sqlparser/parser.y:426. -/
def rule30 (d : Nat → SymType) : SymType :=
  (d 1).setSelStmt (Go.ParenSelect (Select := (d 2).selStmt))

/-- `insert_statement: insert_or_replace comment_opt ignore_opt into_table_name opt_partition_clause insert_data on_dup_opt`, /repo/sqlparser/parser.y:433. -/
def rule31 (d : Nat → SymType) : SymType :=
  (d 1).setStatement (.dml (Go.formatInsert (d 1).str (d 2).bytes2 (d 3).str (d 4).tableName (d 5).partitions (d 6).ins.Columns (d 6).ins.Rows (d 7).updateExprs))

/-- `insert_statement: insert_or_replace comment_opt ignore_opt into_table_name opt_partition_clause SET update_list on_dup_opt`, /repo/sqlparser/parser.y:445. -/
def rule32 (d : Nat → SymType) : SymType :=
  (d 1).setStatement (.dml (Go.formatInsert (d 1).str (d 2).bytes2 (d 3).str (d 4).tableName (d 5).partitions ((d 7).updateExprs.map fun u => u.Name.Name) (Go.formatValues [(d 7).updateExprs.map fun u => u.E]) (d 8).updateExprs))

/-- `insert_or_replace: INSERT`, /repo/sqlparser/parser.y:457. -/
def rule33 (d : Nat → SymType) : SymType :=
  (d 1).setStr (lit "insert")

/-- `insert_or_replace: REPLACE`, /repo/sqlparser/parser.y:461. -/
def rule34 (d : Nat → SymType) : SymType :=
  (d 1).setStr (lit "replace")

/-- `update_statement: UPDATE comment_opt table_references SET update_list where_expression_opt order_by_opt limit_opt`, /repo/sqlparser/parser.y:467. -/
def rule35 (d : Nat → SymType) : SymType :=
  (d 1).setStatement (.dml (Go.formatUpdate (Comments := (d 2).bytes2) (TableExprs := (d 3).tableExprs) (Exprs := (d 5).updateExprs) (Where := (d 6).expr) (OrderBy := (d 7).orderBy) (Limit := (d 8).limit)))

/-- `delete_statement: DELETE comment_opt FROM table_name opt_partition_clause where_expression_opt order_by_opt limit_opt`, /repo/sqlparser/parser.y:473. -/
def rule36 (d : Nat → SymType) : SymType :=
  (d 1).setStatement (.dml (Go.formatDelete (Comments := (d 2).bytes2) (TableExprs := [Go.AliasedTableExpr (E := some (Go.formatTableName ((d 4).tableName)))]) (Partitions := (d 5).partitions) (Where := (d 6).expr) (OrderBy := (d 7).orderBy) (Limit := (d 8).limit)))

/-- `delete_statement: DELETE comment_opt FROM table_name_list USING table_references where_expression_opt`, /repo/sqlparser/parser.y:477. -/
def rule37 (d : Nat → SymType) : SymType :=
  (d 1).setStatement (.dml (Go.formatDelete (Comments := (d 2).bytes2) (Targets := (d 4).tableNames) (TableExprs := (d 6).tableExprs) (Where := (d 7).expr)))

/-- `delete_statement: DELETE comment_opt table_name_list from_or_using table_references where_expression_opt`, /repo/sqlparser/parser.y:481. -/
def rule38 (d : Nat → SymType) : SymType :=
  (d 1).setStatement (.dml (Go.formatDelete (Comments := (d 2).bytes2) (Targets := (d 3).tableNames) (TableExprs := (d 5).tableExprs) (Where := (d 6).expr)))

/-- `table_name_list: table_name`, /repo/sqlparser/parser.y:491. -/
def rule41 (d : Nat → SymType) : SymType :=
  (d 1).setTableNames [(d 1).tableName]

/-- `table_name_list: table_name_list ',' table_name`, /repo/sqlparser/parser.y:495. -/
def rule42 (d : Nat → SymType) : SymType :=
  (d 1).setTableNames ((d 1).tableNames ++ [(d 3).tableName])

/-- `opt_partition_clause: `, /repo/sqlparser/parser.y:500. -/
def rule43 (d : Nat → SymType) : SymType :=
  (d 1).setPartitions []

/-- `opt_partition_clause: PARTITION openb partition_list closeb`, /repo/sqlparser/parser.y:504. -/
def rule44 (d : Nat → SymType) : SymType :=
  (d 1).setPartitions ((d 3).partitions)

/-- `set_statement: SET comment_opt set_list`, /repo/sqlparser/parser.y:510. -/
def rule45 (d : Nat → SymType) : SymType :=
  (d 1).setStatement .other

/-- `set_statement: SET comment_opt set_session_or_global set_list`, /repo/sqlparser/parser.y:514. -/
def rule46 (d : Nat → SymType) : SymType :=
  (d 1).setStatement .other

/-- `set_statement: SET comment_opt set_session_or_global TRANSACTION transaction_chars`, /repo/sqlparser/parser.y:518. -/
def rule47 (d : Nat → SymType) : SymType :=
  (d 1).setStatement .other

/-- `set_statement: SET comment_opt TRANSACTION transaction_chars`, /repo/sqlparser/parser.y:522. -/
def rule48 (d : Nat → SymType) : SymType :=
  (d 1).setStatement .other

/-- `set_session_or_global: SESSION`, /repo/sqlparser/parser.y:570. -/
def rule58 (d : Nat → SymType) : SymType :=
  (d 1).setStr (lit "session")

/-- `set_session_or_global: GLOBAL`, /repo/sqlparser/parser.y:574. -/
def rule59 (d : Nat → SymType) : SymType :=
  (d 1).setStr (lit "global")

/-- `create_statement: create_table_prefix table_spec`, /repo/sqlparser/parser.y:580. -/
def rule60 (d : Nat → SymType) : SymType :=
  (d 1).setStatement (.ddl { (d 1).ddl with tableSpec := some ((d 2).tableSpec) })

/-- `create_statement: CREATE unique_opt clustered_opt INDEX sql_id ON table_name '(' index_column_list ')' include_columns_opt where_expression_opt index_option_opt index_partition_opt`, /repo/sqlparser/parser.y:585. -/
def rule61 (d : Nat → SymType) : SymType :=
  (d 1).setStatement (.ddl ({ action := lit "create index", table := (d 7).tableName, newName := (d 7).tableName, indexSpec := some ({ name := (d 5).colIdent, unique := (d 2).boolVal, clustered := (d 3).boolVal, included := (d 11).columns, whereClause := Go.whereOf ((d 12).expr), options := (d 13).indexOptions, partition := (d 14).indexPartition } : SqlIndexSpec), indexCols := (d 9).indexColumns } : SqlDDL))

/-- `create_statement: CREATE unique_opt clustered_opt INDEX sql_id USING sql_id ON table_name '(' index_column_list ')' index_option_opt`, /repo/sqlparser/parser.y:605. -/
def rule62 (d : Nat → SymType) : SymType :=
  (d 1).setStatement (.ddl ({ action := lit "create index", table := (d 9).tableName, newName := (d 9).tableName, indexSpec := some ({ name := (d 5).colIdent, unique := (d 2).boolVal, options := (d 13).indexOptions } : SqlIndexSpec), indexCols := (d 11).indexColumns } : SqlDDL))

/-- `create_statement: CREATE unique_opt clustered_opt INDEX sql_id ON table_name USING sql_id '(' index_column_list ')' where_expression_opt index_option_opt`, /repo/sqlparser/parser.y:621. -/
def rule63 (d : Nat → SymType) : SymType :=
  (d 1).setStatement (.ddl ({ action := lit "create index", table := (d 7).tableName, newName := (d 7).tableName, indexSpec := some ({ name := (d 5).colIdent, unique := (d 2).boolVal, whereClause := Go.whereOf ((d 13).expr) } : SqlIndexSpec), indexCols := (d 11).indexColumns } : SqlDDL))

/-- `create_statement: CREATE or_replace_opt VIEW table_name AS select_statement`, /repo/sqlparser/parser.y:636. -/
def rule64 (d : Nat → SymType) : SymType :=
  (d 1).setStatement (.ddl ({ action := lit "create view", view := some (Go.View (Name := Go.toViewName ((d 4).tableName)) (Definition := (d 6).selStmt)) } : SqlDDL))

/-- `create_statement: CREATE VINDEX sql_id vindex_type_opt vindex_params_opt`, /repo/sqlparser/parser.y:644. -/
def rule65 (d : Nat → SymType) : SymType :=
  (d 1).setStatement (.ddl ({ action := lit "create vindex" } : SqlDDL))

/-- `create_statement: CREATE DATABASE not_exists_opt ID ddl_force_eof`, /repo/sqlparser/parser.y:652. -/
def rule66 (d : Nat → SymType) : SymType :=
  (d 1).setStatement .other

/-- `create_statement: CREATE SCHEMA not_exists_opt ID ddl_force_eof`, /repo/sqlparser/parser.y:656. -/
def rule67 (d : Nat → SymType) : SymType :=
  (d 1).setStatement .other

/-- `create_statement: CREATE POLICY sql_id ON table_name policy_as_opt policy_for_opt TO sql_id_list using_opt with_check_opt`, /repo/sqlparser/parser.y:660. -/
def rule68 (d : Nat → SymType) : SymType :=
  (d 1).setStatement (.ddl ({ action := lit "create policy", table := (d 5).tableName, policy := some ({ name := (d 3).colIdent, permissive := (d 6).bytes, scope := (d 7).bytes, to := (d 9).colIdents, using_ := Option.map Go.ExprNode.sql ((d 10).expr), withCheck := Option.map Go.ExprNode.sql ((d 11).expr) } : SqlPolicy) } : SqlDDL))

/-- `create_statement: CREATE TRIGGER sql_id trigger_time trigger_event ON table_name FOR EACH ROW trigger_statement`, /repo/sqlparser/parser.y:671. -/
def rule69 (d : Nat → SymType) : SymType :=
  (d 1).setStatement (.ddl ({ action := lit "create trigger", trigger := some (Go.Trigger (Name := (d 3).colIdent) (TableName := (d 7).tableName) (Time := (d 4).str) (Event := (d 5).str) (Body := [(d 11).statement])) } : SqlDDL))

/-- `create_statement: CREATE TRIGGER sql_id ON table_name trigger_time trigger_event AS trigger_body`, /repo/sqlparser/parser.y:681. -/
def rule70 (d : Nat → SymType) : SymType :=
  (d 1).setStatement (.ddl ({ action := lit "create trigger", trigger := some (Go.Trigger (Name := (d 3).colIdent) (TableName := (d 5).tableName) (Time := (d 6).str) (Event := (d 7).str) (Body := (d 9).triggerBody)) } : SqlDDL))

/-- `trigger_time: BEFORE`, /repo/sqlparser/parser.y:693. -/
def rule71 (d : Nat → SymType) : SymType :=
  (d 1).setStr ((d 1).bytes)

/-- `trigger_time: AFTER`, /repo/sqlparser/parser.y:697. -/
def rule72 (d : Nat → SymType) : SymType :=
  (d 1).setStr ((d 1).bytes)

/-- `trigger_event: INSERT`, /repo/sqlparser/parser.y:703. -/
def rule73 (d : Nat → SymType) : SymType :=
  (d 1).setStr ((d 1).bytes)

/-- `trigger_event: UPDATE`, /repo/sqlparser/parser.y:707. -/
def rule74 (d : Nat → SymType) : SymType :=
  (d 1).setStr ((d 1).bytes)

/-- `trigger_event: DELETE`, /repo/sqlparser/parser.y:711. -/
def rule75 (d : Nat → SymType) : SymType :=
  (d 1).setStr ((d 1).bytes)

/-- `trigger_body: trigger_statement`, /repo/sqlparser/parser.y:717. -/
def rule76 (d : Nat → SymType) : SymType :=
  (d 1).setTriggerBody [(d 1).statement]

/-- `trigger_body: trigger_body trigger_statement`, /repo/sqlparser/parser.y:721. -/
def rule77 (d : Nat → SymType) : SymType :=
  (d 1).setTriggerBody ((d 1).triggerBody ++ [(d 2).statement])

/-- `trigger_statement: insert_statement`, /repo/sqlparser/parser.y:727. -/
def rule78 (d : Nat → SymType) : SymType :=
  (d 1).setStatement ((d 1).statement)

/-- `policy_as_opt: `, /repo/sqlparser/parser.y:734. -/
def rule81 (d : Nat → SymType) : SymType :=
  (d 1).setBytes []

/-- `policy_as_opt: AS PERMISSIVE`, /repo/sqlparser/parser.y:738. -/
def rule82 (d : Nat → SymType) : SymType :=
  (d 1).setBytes ((d 2).bytes)

/-- `policy_as_opt: AS RESTRICTIVE`, /repo/sqlparser/parser.y:742. -/
def rule83 (d : Nat → SymType) : SymType :=
  (d 1).setBytes ((d 2).bytes)

/-- `policy_for_opt: `, /repo/sqlparser/parser.y:747. -/
def rule84 (d : Nat → SymType) : SymType :=
  (d 1).setBytes []

/-- `policy_for_opt: FOR ALL`, /repo/sqlparser/parser.y:751. -/
def rule85 (d : Nat → SymType) : SymType :=
  (d 1).setBytes ((d 2).bytes)

/-- `policy_for_opt: FOR SELECT`, /repo/sqlparser/parser.y:755. -/
def rule86 (d : Nat → SymType) : SymType :=
  (d 1).setBytes ((d 2).bytes)

/-- `policy_for_opt: FOR INSERT`, /repo/sqlparser/parser.y:759. -/
def rule87 (d : Nat → SymType) : SymType :=
  (d 1).setBytes ((d 2).bytes)

/-- `policy_for_opt: FOR UPDATE`, /repo/sqlparser/parser.y:763. -/
def rule88 (d : Nat → SymType) : SymType :=
  (d 1).setBytes ((d 2).bytes)

/-- `policy_for_opt: FOR DELETE`, /repo/sqlparser/parser.y:767. -/
def rule89 (d : Nat → SymType) : SymType :=
  (d 1).setBytes ((d 2).bytes)

/-- `using_opt: `, /repo/sqlparser/parser.y:772. -/
def rule90 (d : Nat → SymType) : SymType :=
  (d 1).setExpr none

/-- `using_opt: USING expression`, /repo/sqlparser/parser.y:776. -/
def rule91 (d : Nat → SymType) : SymType :=
  (d 1).setExpr ((d 2).expr)

/-- `with_check_opt: `, /repo/sqlparser/parser.y:781. -/
def rule92 (d : Nat → SymType) : SymType :=
  (d 1).setExpr none

/-- `with_check_opt: WITH CHECK expression`, /repo/sqlparser/parser.y:785. -/
def rule93 (d : Nat → SymType) : SymType :=
  (d 1).setExpr ((d 3).expr)

/-- `unique_opt: `, /repo/sqlparser/parser.y:790. -/
def rule94 (d : Nat → SymType) : SymType :=
  (d 1).setBoolVal false

/-- `unique_opt: UNIQUE`, /repo/sqlparser/parser.y:794. -/
def rule95 (d : Nat → SymType) : SymType :=
  (d 1).setBoolVal true

/-- `vindex_type_opt: `, /repo/sqlparser/parser.y:799. -/
def rule96 (d : Nat → SymType) : SymType :=
  (d 1).setColIdent (lit "")

/-- `vindex_type_opt: USING vindex_type`, /repo/sqlparser/parser.y:803. -/
def rule97 (d : Nat → SymType) : SymType :=
  (d 1).setColIdent ((d 2).colIdent)

/-- `vindex_type: ID`, /repo/sqlparser/parser.y:809. -/
def rule98 (d : Nat → SymType) : SymType :=
  (d 1).setColIdent ((d 1).bytes)

/-- `or_replace_opt: `, /repo/sqlparser/parser.y:841. -/
def rule104 (d : Nat → SymType) : SymType :=
  (d 1).setBytes []

/-- `or_replace_opt: OR REPLACE`, /repo/sqlparser/parser.y:845. -/
def rule105 (d : Nat → SymType) : SymType :=
  (d 1).setBytes []

/-- `create_table_prefix: CREATE TABLE not_exists_opt table_name`, /repo/sqlparser/parser.y:851. `setDDL` records the statement for callers that tolerate errors; it is not read here. -/
def rule106 (d : Nat → SymType) : SymType :=
  (d 1).setDdl ({ action := lit "create", newName := (d 4).tableName } : SqlDDL)

/-- `table_spec: '(' table_column_list ')' table_option_list`, /repo/sqlparser/parser.y:858. -/
def rule107 (d : Nat → SymType) : SymType :=
  (d 1).setTableSpec { (d 2).tableSpec with options := (d 4).str }

/-- `table_column_list: column_definition`, /repo/sqlparser/parser.y:865. -/
def rule108 (d : Nat → SymType) : SymType :=
  (d 1).setTableSpec ({ columns := [(d 1).columnDefinition] } : SqlTableSpec)

/-- `table_column_list: table_column_list ',' column_definition`, /repo/sqlparser/parser.y:870. -/
def rule109 (d : Nat → SymType) : SymType :=
  (d 1).setTableSpec { (d 1).tableSpec with columns := (d 1).tableSpec.columns ++ [(d 3).columnDefinition] }

/-- `table_column_list: table_column_list ',' index_definition`, /repo/sqlparser/parser.y:874. -/
def rule110 (d : Nat → SymType) : SymType :=
  (d 1).setTableSpec { (d 1).tableSpec with indexes := (d 1).tableSpec.indexes ++ [(d 3).indexDefinition] }

/-- `table_column_list: table_column_list ',' foreign_key_definition`, /repo/sqlparser/parser.y:878. -/
def rule111 (d : Nat → SymType) : SymType :=
  (d 1).setTableSpec { (d 1).tableSpec with foreignKeys := (d 1).tableSpec.foreignKeys ++ [(d 3).foreignKeyDefinition] }

/-- `table_column_list: table_column_list ',' primary_key_definition`, /repo/sqlparser/parser.y:882. -/
def rule112 (d : Nat → SymType) : SymType :=
  (d 1).setTableSpec { (d 1).tableSpec with indexes := (d 1).tableSpec.indexes ++ [(d 3).indexDefinition] }

/-- `column_definition: ID column_definition_type`, /repo/sqlparser/parser.y:888. -/
def rule113 (d : Nat → SymType) : SymType :=
  (d 1).setColumnDefinition ({ name := (d 1).bytes, type := (d 2).columnType } : SqlColumn)

/-- `column_type: numeric_type unsigned_opt zero_fill_opt`, /repo/sqlparser/parser.y:893. -/
def rule114 (d : Nat → SymType) : SymType :=
  (d 1).setColumnType { (d 1).columnType with unsigned := (d 2).boolVal }

/-- `column_definition_type: column_type array_opt`, /repo/sqlparser/parser.y:904. -/
def rule119 (d : Nat → SymType) : SymType :=
  (d 1).setColumnType { (d 1).columnType with notNull := none, default := none, onUpdate := none, autoincrement := false, keyOpt := .none, identity := none, array := (d 2).boolVal }

/-- `column_definition_type: column_definition_type NULL`, /repo/sqlparser/parser.y:916. -/
def rule120 (d : Nat → SymType) : SymType :=
  (d 1).setColumnType { (d 1).columnType with notNull := some false }

/-- `column_definition_type: column_definition_type NOT NULL`, /repo/sqlparser/parser.y:921. -/
def rule121 (d : Nat → SymType) : SymType :=
  (d 1).setColumnType { (d 1).columnType with notNull := some true }

/-- `column_definition_type: column_definition_type default_definition`, /repo/sqlparser/parser.y:926. -/
def rule122 (d : Nat → SymType) : SymType :=
  (d 1).setColumnType { (d 1).columnType with default := some ({ value := (d 2).optVal } : SqlDefault) }

/-- `column_definition_type: column_definition_type CONSTRAINT sql_id default_definition`, /repo/sqlparser/parser.y:931. -/
def rule123 (d : Nat → SymType) : SymType :=
  (d 1).setColumnType { (d 1).columnType with default := some ({ constraintName := (d 3).colIdent, value := (d 4).optVal } : SqlDefault) }

/-- `column_definition_type: column_definition_type ON UPDATE current_timestamp`, /repo/sqlparser/parser.y:936. -/
def rule124 (d : Nat → SymType) : SymType :=
  (d 1).setColumnType { (d 1).columnType with onUpdate := (d 4).optVal }

/-- `column_definition_type: column_definition_type AUTO_INCREMENT`, /repo/sqlparser/parser.y:941. -/
def rule125 (d : Nat → SymType) : SymType :=
  (d 1).setColumnType { (d 1).columnType with autoincrement := true }

/-- `column_definition_type: column_definition_type AUTOINCREMENT`, /repo/sqlparser/parser.y:946. -/
def rule126 (d : Nat → SymType) : SymType :=
  (d 1).setColumnType { (d 1).columnType with autoincrement := true }

/-- `column_definition_type: column_definition_type PRIMARY KEY`, /repo/sqlparser/parser.y:951. -/
def rule127 (d : Nat → SymType) : SymType :=
  (d 1).setColumnType { (d 1).columnType with keyOpt := .primary }

/-- `column_definition_type: column_definition_type KEY`, /repo/sqlparser/parser.y:956. -/
def rule128 (d : Nat → SymType) : SymType :=
  (d 1).setColumnType { (d 1).columnType with keyOpt := .key }

/-- `column_definition_type: column_definition_type UNIQUE KEY`, /repo/sqlparser/parser.y:961. -/
def rule129 (d : Nat → SymType) : SymType :=
  (d 1).setColumnType { (d 1).columnType with keyOpt := .uniqueKey }

/-- `column_definition_type: column_definition_type UNIQUE`, /repo/sqlparser/parser.y:966. -/
def rule130 (d : Nat → SymType) : SymType :=
  (d 1).setColumnType { (d 1).columnType with keyOpt := .unique }

/-- `column_definition_type: column_definition_type CHECK not_for_replication_opt openb expression closeb no_inherit_opt`, /repo/sqlparser/parser.y:971. A nil expression is a nil dereference: see `Sql.act`. -/
def rule131 (d : Nat → SymType) : SymType :=
  (d 1).setColumnType { (d 1).columnType with check := (d 5).expr.map fun e => { whereExpr := e.sql, notForReplication := (d 3).boolVal }, checkNoInherit := (d 7).boolVal }

/-- `column_definition_type: column_definition_type CONSTRAINT sql_id CHECK not_for_replication_opt openb expression closeb`, /repo/sqlparser/parser.y:977. A nil expression is a nil dereference: see `Sql.act`. -/
def rule132 (d : Nat → SymType) : SymType :=
  (d 1).setColumnType { (d 1).columnType with check := (d 7).expr.map fun e => { whereExpr := e.sql, constraintName := Go.formatID (d 3).colIdent, notForReplication := (d 5).boolVal } }

/-- `column_definition_type: column_definition_type COMMENT_KEYWORD STRING`, /repo/sqlparser/parser.y:982. -/
def rule133 (d : Nat → SymType) : SymType :=
  (d 1).setColumnType ((d 1).columnType)

/-- `column_definition_type: column_definition_type REFERENCES table_id`, /repo/sqlparser/parser.y:987. -/
def rule134 (d : Nat → SymType) : SymType :=
  (d 1).setColumnType { (d 1).columnType with references := (d 3).tableIdent }

/-- `column_definition_type: column_definition_type REFERENCES table_id '(' column_list ')'`, /repo/sqlparser/parser.y:992. -/
def rule135 (d : Nat → SymType) : SymType :=
  (d 1).setColumnType { (d 1).columnType with references := (d 3).tableIdent }

/-- `column_definition_type: column_definition_type GENERATED identity_behavior AS IDENTITY`, /repo/sqlparser/parser.y:998. -/
def rule136 (d : Nat → SymType) : SymType :=
  (d 1).setColumnType { (d 1).columnType with identity := some ({ behavior := (d 3).str } : SqlIdentity), notNull := some true }

/-- `column_definition_type: column_definition_type GENERATED identity_behavior AS IDENTITY '(' sequence_opt ')'`, /repo/sqlparser/parser.y:1004. -/
def rule137 (d : Nat → SymType) : SymType :=
  (d 1).setColumnType { (d 1).columnType with identity := some ({ behavior := (d 3).str, sequence := some ((d 7).sequence) } : SqlIdentity), notNull := some true }

/-- `column_definition_type: column_definition_type IDENTITY '(' INTEGRAL ',' INTEGRAL ')'`, /repo/sqlparser/parser.y:1010. -/
def rule138 (d : Nat → SymType) : SymType :=
  (d 1).setColumnType { (d 1).columnType with identity := some ({ sequence := some ({ startWith := Go.NewIntVal ((d 4).bytes), incrementBy := Go.NewIntVal ((d 6).bytes) } : SqlSequence), notForReplication := false } : SqlIdentity) }

/-- `column_definition_type: column_definition_type NOT FOR REPLICATION`, /repo/sqlparser/parser.y:1016. A nil identity is a nil dereference: see `Sql.act`. -/
def rule139 (d : Nat → SymType) : SymType :=
  (d 1).setColumnType { (d 1).columnType with identity := (d 1).columnType.identity.map fun i => { i with notForReplication := true } }

/-- `default_definition: DEFAULT default_val`, /repo/sqlparser/parser.y:1023. -/
def rule140 (d : Nat → SymType) : SymType :=
  (d 1).setOptVal ((d 2).optVal)

/-- `default_definition: DEFAULT '(' default_val ')'`, /repo/sqlparser/parser.y:1027. -/
def rule141 (d : Nat → SymType) : SymType :=
  (d 1).setOptVal ((d 3).optVal)

/-- `default_definition: DEFAULT '(' '(' default_val ')' ')'`, /repo/sqlparser/parser.y:1031. -/
def rule142 (d : Nat → SymType) : SymType :=
  (d 1).setOptVal ((d 4).optVal)

/-- `default_val: STRING character_cast_opt`, /repo/sqlparser/parser.y:1037. -/
def rule143 (d : Nat → SymType) : SymType :=
  (d 1).setOptVal (Go.NewStrVal ((d 1).bytes))

/-- `default_val: INTEGRAL`, /repo/sqlparser/parser.y:1041. -/
def rule144 (d : Nat → SymType) : SymType :=
  (d 1).setOptVal (Go.NewIntVal ((d 1).bytes))

/-- `default_val: FLOAT`, /repo/sqlparser/parser.y:1045. -/
def rule145 (d : Nat → SymType) : SymType :=
  (d 1).setOptVal (Go.NewFloatVal ((d 1).bytes))

/-- `default_val: NULL`, /repo/sqlparser/parser.y:1049. -/
def rule146 (d : Nat → SymType) : SymType :=
  (d 1).setOptVal (Go.NewValArg ((d 1).bytes))

/-- `default_val: current_timestamp`, /repo/sqlparser/parser.y:1053. -/
def rule147 (d : Nat → SymType) : SymType :=
  (d 1).setOptVal ((d 1).optVal)

/-- `default_val: BIT_LITERAL`, /repo/sqlparser/parser.y:1057. -/
def rule148 (d : Nat → SymType) : SymType :=
  (d 1).setOptVal (Go.NewBitVal ((d 1).bytes))

/-- `default_val: boolean_value`, /repo/sqlparser/parser.y:1061. -/
def rule149 (d : Nat → SymType) : SymType :=
  (d 1).setOptVal (Go.NewBoolSQLVal ((d 1).boolVal))

/-- `default_val: NOW openb closeb`, /repo/sqlparser/parser.y:1065. -/
def rule150 (d : Nat → SymType) : SymType :=
  (d 1).setOptVal (Go.NewBitVal ((d 1).bytes))

/-- `identity_behavior: ALWAYS`, /repo/sqlparser/parser.y:1071. -/
def rule151 (d : Nat → SymType) : SymType :=
  (d 1).setStr ((d 1).bytes)

/-- `identity_behavior: BY DEFAULT`, /repo/sqlparser/parser.y:1075. -/
def rule152 (d : Nat → SymType) : SymType :=
  (d 1).setStr ((d 1).bytes ++ (lit " ") ++ ((d 2).bytes))

/-- `sequence_opt: `, /repo/sqlparser/parser.y:1080. -/
def rule153 (d : Nat → SymType) : SymType :=
  (d 1).setSequence ({} : SqlSequence)

/-- `sequence_opt: sequence_opt START WITH INTEGRAL`, /repo/sqlparser/parser.y:1084. -/
def rule154 (d : Nat → SymType) : SymType :=
  (d 1).setSequence { (d 1).sequence with startWith := Go.NewIntVal ((d 4).bytes) }

/-- `sequence_opt: sequence_opt START INTEGRAL`, /repo/sqlparser/parser.y:1089. -/
def rule155 (d : Nat → SymType) : SymType :=
  (d 1).setSequence { (d 1).sequence with startWith := Go.NewIntVal ((d 3).bytes) }

/-- `sequence_opt: sequence_opt INCREMENT BY INTEGRAL`, /repo/sqlparser/parser.y:1094. -/
def rule156 (d : Nat → SymType) : SymType :=
  (d 1).setSequence { (d 1).sequence with incrementBy := Go.NewIntVal ((d 4).bytes) }

/-- `sequence_opt: sequence_opt INCREMENT INTEGRAL`, /repo/sqlparser/parser.y:1099. -/
def rule157 (d : Nat → SymType) : SymType :=
  (d 1).setSequence { (d 1).sequence with incrementBy := Go.NewIntVal ((d 3).bytes) }

/-- `sequence_opt: sequence_opt MINVALUE INTEGRAL`, /repo/sqlparser/parser.y:1104. -/
def rule158 (d : Nat → SymType) : SymType :=
  (d 1).setSequence { (d 1).sequence with minValue := Go.NewIntVal ((d 3).bytes) }

/-- `sequence_opt: sequence_opt MAXVALUE INTEGRAL`, /repo/sqlparser/parser.y:1109. -/
def rule159 (d : Nat → SymType) : SymType :=
  (d 1).setSequence { (d 1).sequence with maxValue := Go.NewIntVal ((d 3).bytes) }

/-- `sequence_opt: sequence_opt CACHE INTEGRAL`, /repo/sqlparser/parser.y:1114. -/
def rule160 (d : Nat → SymType) : SymType :=
  (d 1).setSequence { (d 1).sequence with cache := Go.NewIntVal ((d 3).bytes) }

/-- `sequence_opt: sequence_opt NO MINVALUE`, /repo/sqlparser/parser.y:1119. -/
def rule161 (d : Nat → SymType) : SymType :=
  (d 1).setSequence { (d 1).sequence with noMinValue := some true }

/-- `sequence_opt: sequence_opt NO MAXVALUE`, /repo/sqlparser/parser.y:1124. -/
def rule162 (d : Nat → SymType) : SymType :=
  (d 1).setSequence { (d 1).sequence with noMaxValue := some true }

/-- `sequence_opt: sequence_opt NO CYCLE`, /repo/sqlparser/parser.y:1129. -/
def rule163 (d : Nat → SymType) : SymType :=
  (d 1).setSequence { (d 1).sequence with noCycle := some true }

/-- `sequence_opt: sequence_opt CYCLE`, /repo/sqlparser/parser.y:1134. -/
def rule164 (d : Nat → SymType) : SymType :=
  (d 1).setSequence { (d 1).sequence with cycle := some true }

/-- `sequence_opt: sequence_opt OWNED BY NONE`, /repo/sqlparser/parser.y:1139. -/
def rule165 (d : Nat → SymType) : SymType :=
  (d 1).setSequence { (d 1).sequence with ownedBy := lit "NONE" }

/-- `sequence_opt: sequence_opt OWNED BY table_id '.' reserved_sql_id`, /repo/sqlparser/parser.y:1144. -/
def rule166 (d : Nat → SymType) : SymType :=
  (d 1).setSequence { (d 1).sequence with ownedBy := (d 4).tableIdent ++ (lit ".") ++ ((d 6).colIdent) }

/-- `current_timestamp: CURRENT_TIMESTAMP length_opt`, /repo/sqlparser/parser.y:1151. -/
def rule167 (d : Nat → SymType) : SymType :=
  (d 1).setOptVal (Go.NewValArgWithOpt ((d 1).bytes) ((d 2).optVal))

/-- `current_timestamp: CURRENT_TIMESTAMP '(' ')'`, /repo/sqlparser/parser.y:1155. -/
def rule168 (d : Nat → SymType) : SymType :=
  (d 1).setOptVal (Go.NewValArgWithOpt ((d 1).bytes) none)

/-- `current_timestamp: CURRENT_TIME length_opt`, /repo/sqlparser/parser.y:1159. -/
def rule169 (d : Nat → SymType) : SymType :=
  (d 1).setOptVal (Go.NewValArgWithOpt ((d 1).bytes) ((d 2).optVal))

/-- `current_timestamp: CURRENT_TIME '(' ')'`, /repo/sqlparser/parser.y:1163. -/
def rule170 (d : Nat → SymType) : SymType :=
  (d 1).setOptVal (Go.NewValArgWithOpt ((d 1).bytes) none)

/-- `current_timestamp: CURRENT_DATE`, /repo/sqlparser/parser.y:1167. -/
def rule171 (d : Nat → SymType) : SymType :=
  (d 1).setOptVal (Go.NewValArgWithOpt ((d 1).bytes) none)

/-- `current_timestamp: GETDATE '(' ')'`, /repo/sqlparser/parser.y:1171. -/
def rule172 (d : Nat → SymType) : SymType :=
  (d 1).setOptVal (Go.NewValArgWithOpt ((d 1).bytes) none)

/-- `no_inherit_opt: `, /repo/sqlparser/parser.y:1176. -/
def rule173 (d : Nat → SymType) : SymType :=
  (d 1).setBoolVal false

/-- `no_inherit_opt: NO INHERIT`, /repo/sqlparser/parser.y:1180. -/
def rule174 (d : Nat → SymType) : SymType :=
  (d 1).setBoolVal true

/-- `character_cast_opt: `, /repo/sqlparser/parser.y:1185. -/
def rule175 (d : Nat → SymType) : SymType :=
  (d 1).setBytes []

/-- `numeric_type: int_type length_opt`, /repo/sqlparser/parser.y:1195. -/
def rule180 (d : Nat → SymType) : SymType :=
  (d 1).setColumnType { (d 1).columnType with length := (d 2).optVal }

/-- `numeric_type: decimal_type`, /repo/sqlparser/parser.y:1200. -/
def rule181 (d : Nat → SymType) : SymType :=
  (d 1).setColumnType ((d 1).columnType)

/-- `int_type: BIT`, /repo/sqlparser/parser.y:1206. -/
def rule182 (d : Nat → SymType) : SymType :=
  (d 1).setColumnType ({ type := (d 1).bytes } : SqlColumnType)

/-- `int_type: TINYINT`, /repo/sqlparser/parser.y:1210. -/
def rule183 (d : Nat → SymType) : SymType :=
  (d 1).setColumnType ({ type := (d 1).bytes } : SqlColumnType)

/-- `int_type: SMALLINT`, /repo/sqlparser/parser.y:1214. -/
def rule184 (d : Nat → SymType) : SymType :=
  (d 1).setColumnType ({ type := (d 1).bytes } : SqlColumnType)

/-- `int_type: SMALLSERIAL`, /repo/sqlparser/parser.y:1218. -/
def rule185 (d : Nat → SymType) : SymType :=
  (d 1).setColumnType ({ type := (d 1).bytes } : SqlColumnType)

/-- `int_type: MEDIUMINT`, /repo/sqlparser/parser.y:1222. -/
def rule186 (d : Nat → SymType) : SymType :=
  (d 1).setColumnType ({ type := (d 1).bytes } : SqlColumnType)

/-- `int_type: INT`, /repo/sqlparser/parser.y:1226. -/
def rule187 (d : Nat → SymType) : SymType :=
  (d 1).setColumnType ({ type := (d 1).bytes } : SqlColumnType)

/-- `int_type: INTEGER`, /repo/sqlparser/parser.y:1230. -/
def rule188 (d : Nat → SymType) : SymType :=
  (d 1).setColumnType ({ type := (d 1).bytes } : SqlColumnType)

/-- `int_type: SERIAL`, /repo/sqlparser/parser.y:1234. -/
def rule189 (d : Nat → SymType) : SymType :=
  (d 1).setColumnType ({ type := (d 1).bytes } : SqlColumnType)

/-- `int_type: BIGINT`, /repo/sqlparser/parser.y:1238. -/
def rule190 (d : Nat → SymType) : SymType :=
  (d 1).setColumnType ({ type := (d 1).bytes } : SqlColumnType)

/-- `int_type: BIGSERIAL`, /repo/sqlparser/parser.y:1242. -/
def rule191 (d : Nat → SymType) : SymType :=
  (d 1).setColumnType ({ type := (d 1).bytes } : SqlColumnType)

/-- `decimal_type: REAL float_length_opt`, /repo/sqlparser/parser.y:1248. -/
def rule192 (d : Nat → SymType) : SymType :=
  (d 1).setColumnType { ({ type := (d 1).bytes } : SqlColumnType) with length := ((d 2).lengthScale).Length, scale := ((d 2).lengthScale).Scale }

/-- `decimal_type: DOUBLE PRECISION float_length_opt`, /repo/sqlparser/parser.y:1254. -/
def rule193 (d : Nat → SymType) : SymType :=
  (d 1).setColumnType { ({ type := (d 1).bytes ++ (lit " ") ++ ((d 2).bytes) } : SqlColumnType) with length := ((d 3).lengthScale).Length, scale := ((d 3).lengthScale).Scale }

/-- `decimal_type: DOUBLE float_length_opt`, /repo/sqlparser/parser.y:1260. -/
def rule194 (d : Nat → SymType) : SymType :=
  (d 1).setColumnType { ({ type := (d 1).bytes } : SqlColumnType) with length := ((d 2).lengthScale).Length, scale := ((d 2).lengthScale).Scale }

/-- `decimal_type: FLOAT_TYPE float_length_opt`, /repo/sqlparser/parser.y:1266. -/
def rule195 (d : Nat → SymType) : SymType :=
  (d 1).setColumnType { ({ type := (d 1).bytes } : SqlColumnType) with length := ((d 2).lengthScale).Length, scale := ((d 2).lengthScale).Scale }

/-- `decimal_type: DECIMAL decimal_length_opt`, /repo/sqlparser/parser.y:1272. -/
def rule196 (d : Nat → SymType) : SymType :=
  (d 1).setColumnType { ({ type := (d 1).bytes } : SqlColumnType) with length := ((d 2).lengthScale).Length, scale := ((d 2).lengthScale).Scale }

/-- `decimal_type: NUMERIC decimal_length_opt`, /repo/sqlparser/parser.y:1278. -/
def rule197 (d : Nat → SymType) : SymType :=
  (d 1).setColumnType { ({ type := (d 1).bytes } : SqlColumnType) with length := ((d 2).lengthScale).Length, scale := ((d 2).lengthScale).Scale }

/-- `decimal_type: MONEY`, /repo/sqlparser/parser.y:1284. -/
def rule198 (d : Nat → SymType) : SymType :=
  (d 1).setColumnType ({ type := (d 1).bytes } : SqlColumnType)

/-- `decimal_type: SMALLMONEY`, /repo/sqlparser/parser.y:1288. -/
def rule199 (d : Nat → SymType) : SymType :=
  (d 1).setColumnType ({ type := (d 1).bytes } : SqlColumnType)

/-- `time_type: DATE`, /repo/sqlparser/parser.y:1294. -/
def rule200 (d : Nat → SymType) : SymType :=
  (d 1).setColumnType ({ type := (d 1).bytes } : SqlColumnType)

/-- `time_type: TIME length_opt time_zone_opt`, /repo/sqlparser/parser.y:1298. -/
def rule201 (d : Nat → SymType) : SymType :=
  (d 1).setColumnType ({ type := (d 1).bytes, length := (d 2).optVal, timezone := (d 3).boolVal } : SqlColumnType)

/-- `time_type: TIMESTAMP length_opt time_zone_opt`, /repo/sqlparser/parser.y:1302. -/
def rule202 (d : Nat → SymType) : SymType :=
  (d 1).setColumnType ({ type := (d 1).bytes, length := (d 2).optVal, timezone := (d 3).boolVal } : SqlColumnType)

/-- `time_type: DATETIME length_opt`, /repo/sqlparser/parser.y:1306. -/
def rule203 (d : Nat → SymType) : SymType :=
  (d 1).setColumnType ({ type := (d 1).bytes, length := (d 2).optVal } : SqlColumnType)

/-- `time_type: DATETIME2`, /repo/sqlparser/parser.y:1310. -/
def rule204 (d : Nat → SymType) : SymType :=
  (d 1).setColumnType ({ type := (d 1).bytes } : SqlColumnType)

/-- `time_type: DATETIMEOFFSET length_opt`, /repo/sqlparser/parser.y:1314. -/
def rule205 (d : Nat → SymType) : SymType :=
  (d 1).setColumnType ({ type := (d 1).bytes, length := (d 2).optVal } : SqlColumnType)

/-- `time_type: SMALLDATETIME`, /repo/sqlparser/parser.y:1318. -/
def rule206 (d : Nat → SymType) : SymType :=
  (d 1).setColumnType ({ type := (d 1).bytes } : SqlColumnType)

/-- `time_type: YEAR`, /repo/sqlparser/parser.y:1322. -/
def rule207 (d : Nat → SymType) : SymType :=
  (d 1).setColumnType ({ type := (d 1).bytes } : SqlColumnType)

/-- `bool_type: BOOL`, /repo/sqlparser/parser.y:1328. -/
def rule208 (d : Nat → SymType) : SymType :=
  (d 1).setColumnType ({ type := (d 1).bytes } : SqlColumnType)

/-- `bool_type: BOOLEAN`, /repo/sqlparser/parser.y:1332. -/
def rule209 (d : Nat → SymType) : SymType :=
  (d 1).setColumnType ({ type := (d 1).bytes } : SqlColumnType)

/-- `char_type: CHAR length_opt charset_opt collate_opt`, /repo/sqlparser/parser.y:1338. -/
def rule210 (d : Nat → SymType) : SymType :=
  (d 1).setColumnType ({ type := (d 1).bytes, length := (d 2).optVal, charset := (d 3).str, collate := (d 4).str } : SqlColumnType)

/-- `char_type: CHARACTER length_opt charset_opt collate_opt`, /repo/sqlparser/parser.y:1342. -/
def rule211 (d : Nat → SymType) : SymType :=
  (d 1).setColumnType ({ type := (d 1).bytes, length := (d 2).optVal, charset := (d 3).str, collate := (d 4).str } : SqlColumnType)

/-- `char_type: VARCHAR length_opt charset_opt collate_opt`, /repo/sqlparser/parser.y:1346. -/
def rule212 (d : Nat → SymType) : SymType :=
  (d 1).setColumnType ({ type := (d 1).bytes, length := (d 2).optVal, charset := (d 3).str, collate := (d 4).str } : SqlColumnType)

/-- `char_type: NCHAR length_opt charset_opt collate_opt`, /repo/sqlparser/parser.y:1350. -/
def rule213 (d : Nat → SymType) : SymType :=
  (d 1).setColumnType ({ type := (d 1).bytes, length := (d 2).optVal, charset := (d 3).str, collate := (d 4).str } : SqlColumnType)

/-- `char_type: NVARCHAR length_opt charset_opt collate_opt`, /repo/sqlparser/parser.y:1354. -/
def rule214 (d : Nat → SymType) : SymType :=
  (d 1).setColumnType ({ type := (d 1).bytes, length := (d 2).optVal, charset := (d 3).str, collate := (d 4).str } : SqlColumnType)

/-- `char_type: NTEXT`, /repo/sqlparser/parser.y:1358. -/
def rule215 (d : Nat → SymType) : SymType :=
  (d 1).setColumnType ({ type := (d 1).bytes } : SqlColumnType)

/-- `char_type: CHARACTER VARYING length_opt charset_opt collate_opt`, /repo/sqlparser/parser.y:1362. -/
def rule216 (d : Nat → SymType) : SymType :=
  (d 1).setColumnType ({ type := (d 1).bytes ++ (lit " ") ++ ((d 2).bytes), length := (d 3).optVal, charset := (d 4).str, collate := (d 5).str } : SqlColumnType)

/-- `char_type: BINARY length_opt`, /repo/sqlparser/parser.y:1366. -/
def rule217 (d : Nat → SymType) : SymType :=
  (d 1).setColumnType ({ type := (d 1).bytes, length := (d 2).optVal } : SqlColumnType)

/-- `char_type: VARBINARY length_opt`, /repo/sqlparser/parser.y:1370. -/
def rule218 (d : Nat → SymType) : SymType :=
  (d 1).setColumnType ({ type := (d 1).bytes, length := (d 2).optVal } : SqlColumnType)

/-- `char_type: TEXT charset_opt collate_opt`, /repo/sqlparser/parser.y:1374. -/
def rule219 (d : Nat → SymType) : SymType :=
  (d 1).setColumnType ({ type := (d 1).bytes, charset := (d 2).str, collate := (d 3).str } : SqlColumnType)

/-- `char_type: TINYTEXT charset_opt collate_opt`, /repo/sqlparser/parser.y:1378. -/
def rule220 (d : Nat → SymType) : SymType :=
  (d 1).setColumnType ({ type := (d 1).bytes, charset := (d 2).str, collate := (d 3).str } : SqlColumnType)

/-- `char_type: MEDIUMTEXT charset_opt collate_opt`, /repo/sqlparser/parser.y:1382. -/
def rule221 (d : Nat → SymType) : SymType :=
  (d 1).setColumnType ({ type := (d 1).bytes, charset := (d 2).str, collate := (d 3).str } : SqlColumnType)

/-- `char_type: LONGTEXT charset_opt collate_opt`, /repo/sqlparser/parser.y:1386. -/
def rule222 (d : Nat → SymType) : SymType :=
  (d 1).setColumnType ({ type := (d 1).bytes, charset := (d 2).str, collate := (d 3).str } : SqlColumnType)

/-- `char_type: CITEXT charset_opt collate_opt`, /repo/sqlparser/parser.y:1390. -/
def rule223 (d : Nat → SymType) : SymType :=
  (d 1).setColumnType ({ type := (d 1).bytes, charset := (d 2).str, collate := (d 3).str } : SqlColumnType)

/-- `char_type: BLOB`, /repo/sqlparser/parser.y:1394. -/
def rule224 (d : Nat → SymType) : SymType :=
  (d 1).setColumnType ({ type := (d 1).bytes } : SqlColumnType)

/-- `char_type: TINYBLOB`, /repo/sqlparser/parser.y:1398. -/
def rule225 (d : Nat → SymType) : SymType :=
  (d 1).setColumnType ({ type := (d 1).bytes } : SqlColumnType)

/-- `char_type: MEDIUMBLOB`, /repo/sqlparser/parser.y:1402. -/
def rule226 (d : Nat → SymType) : SymType :=
  (d 1).setColumnType ({ type := (d 1).bytes } : SqlColumnType)

/-- `char_type: LONGBLOB`, /repo/sqlparser/parser.y:1406. -/
def rule227 (d : Nat → SymType) : SymType :=
  (d 1).setColumnType ({ type := (d 1).bytes } : SqlColumnType)

/-- `char_type: JSON`, /repo/sqlparser/parser.y:1410. -/
def rule228 (d : Nat → SymType) : SymType :=
  (d 1).setColumnType ({ type := (d 1).bytes } : SqlColumnType)

/-- `char_type: JSONB`, /repo/sqlparser/parser.y:1414. -/
def rule229 (d : Nat → SymType) : SymType :=
  (d 1).setColumnType ({ type := (d 1).bytes } : SqlColumnType)

/-- `char_type: UUID`, /repo/sqlparser/parser.y:1418. -/
def rule230 (d : Nat → SymType) : SymType :=
  (d 1).setColumnType ({ type := (d 1).bytes } : SqlColumnType)

/-- `char_type: ENUM '(' enum_values ')' charset_opt collate_opt`, /repo/sqlparser/parser.y:1422. -/
def rule231 (d : Nat → SymType) : SymType :=
  (d 1).setColumnType ({ type := (d 1).bytes, enumValues := (d 3).strs, charset := (d 5).str, collate := (d 6).str } : SqlColumnType)

/-- `char_type: SET '(' enum_values ')' charset_opt collate_opt`, /repo/sqlparser/parser.y:1427. -/
def rule232 (d : Nat → SymType) : SymType :=
  (d 1).setColumnType ({ type := (d 1).bytes, enumValues := (d 3).strs, charset := (d 5).str, collate := (d 6).str } : SqlColumnType)

/-- `spatial_type: GEOMETRY`, /repo/sqlparser/parser.y:1433. -/
def rule233 (d : Nat → SymType) : SymType :=
  (d 1).setColumnType ({ type := (d 1).bytes } : SqlColumnType)

/-- `spatial_type: POINT`, /repo/sqlparser/parser.y:1437. -/
def rule234 (d : Nat → SymType) : SymType :=
  (d 1).setColumnType ({ type := (d 1).bytes } : SqlColumnType)

/-- `spatial_type: LINESTRING`, /repo/sqlparser/parser.y:1441. -/
def rule235 (d : Nat → SymType) : SymType :=
  (d 1).setColumnType ({ type := (d 1).bytes } : SqlColumnType)

/-- `spatial_type: POLYGON`, /repo/sqlparser/parser.y:1445. -/
def rule236 (d : Nat → SymType) : SymType :=
  (d 1).setColumnType ({ type := (d 1).bytes } : SqlColumnType)

/-- `spatial_type: GEOMETRYCOLLECTION`, /repo/sqlparser/parser.y:1449. -/
def rule237 (d : Nat → SymType) : SymType :=
  (d 1).setColumnType ({ type := (d 1).bytes } : SqlColumnType)

/-- `spatial_type: MULTIPOINT`, /repo/sqlparser/parser.y:1453. -/
def rule238 (d : Nat → SymType) : SymType :=
  (d 1).setColumnType ({ type := (d 1).bytes } : SqlColumnType)

/-- `spatial_type: MULTILINESTRING`, /repo/sqlparser/parser.y:1457. -/
def rule239 (d : Nat → SymType) : SymType :=
  (d 1).setColumnType ({ type := (d 1).bytes } : SqlColumnType)

/-- `spatial_type: MULTIPOLYGON`, /repo/sqlparser/parser.y:1461. -/
def rule240 (d : Nat → SymType) : SymType :=
  (d 1).setColumnType ({ type := (d 1).bytes } : SqlColumnType)

/-- `enum_values: STRING`, /repo/sqlparser/parser.y:1467. -/
def rule241 (d : Nat → SymType) : SymType :=
  (d 1).setStrs [lit "'" ++ (d 1).bytes ++ lit "'"]

/-- `enum_values: enum_values ',' STRING`, /repo/sqlparser/parser.y:1472. -/
def rule242 (d : Nat → SymType) : SymType :=
  (d 1).setStrs ((d 1).strs ++ [lit "'" ++ ((d 3).bytes) ++ (lit "'")])

/-- `length_opt: `, /repo/sqlparser/parser.y:1477. -/
def rule243 (d : Nat → SymType) : SymType :=
  (d 1).setOptVal none

/-- `length_opt: '(' INTEGRAL ')'`, /repo/sqlparser/parser.y:1481. -/
def rule244 (d : Nat → SymType) : SymType :=
  (d 1).setOptVal (Go.NewIntVal ((d 2).bytes))

/-- `float_length_opt: `, /repo/sqlparser/parser.y:1486. -/
def rule245 (d : Nat → SymType) : SymType :=
  (d 1).setLengthScale ({} : Go.LengthScaleOption)

/-- `float_length_opt: '(' INTEGRAL ',' INTEGRAL ')'`, /repo/sqlparser/parser.y:1490. -/
def rule246 (d : Nat → SymType) : SymType :=
  (d 1).setLengthScale ({ Length := Go.NewIntVal ((d 2).bytes), Scale := Go.NewIntVal ((d 4).bytes) } : Go.LengthScaleOption)

/-- `decimal_length_opt: `, /repo/sqlparser/parser.y:1498. -/
def rule247 (d : Nat → SymType) : SymType :=
  (d 1).setLengthScale ({} : Go.LengthScaleOption)

/-- `decimal_length_opt: '(' INTEGRAL ')'`, /repo/sqlparser/parser.y:1502. -/
def rule248 (d : Nat → SymType) : SymType :=
  (d 1).setLengthScale ({ Length := Go.NewIntVal ((d 2).bytes) } : Go.LengthScaleOption)

/-- `decimal_length_opt: '(' INTEGRAL ',' INTEGRAL ')'`, /repo/sqlparser/parser.y:1508. -/
def rule249 (d : Nat → SymType) : SymType :=
  (d 1).setLengthScale ({ Length := Go.NewIntVal ((d 2).bytes), Scale := Go.NewIntVal ((d 4).bytes) } : Go.LengthScaleOption)

/-- `time_zone_opt: `, /repo/sqlparser/parser.y:1516. -/
def rule250 (d : Nat → SymType) : SymType :=
  (d 1).setBoolVal false

/-- `time_zone_opt: WITH TIME ZONE`, /repo/sqlparser/parser.y:1520. -/
def rule251 (d : Nat → SymType) : SymType :=
  (d 1).setBoolVal true

/-- `time_zone_opt: WITHOUT TIME ZONE`, /repo/sqlparser/parser.y:1524. -/
def rule252 (d : Nat → SymType) : SymType :=
  (d 1).setBoolVal false

/-- `unsigned_opt: `, /repo/sqlparser/parser.y:1529. -/
def rule253 (d : Nat → SymType) : SymType :=
  (d 1).setBoolVal false

/-- `unsigned_opt: UNSIGNED`, /repo/sqlparser/parser.y:1533. -/
def rule254 (d : Nat → SymType) : SymType :=
  (d 1).setBoolVal true

/-- `zero_fill_opt: `, /repo/sqlparser/parser.y:1538. -/
def rule255 (d : Nat → SymType) : SymType :=
  (d 1).setBoolVal false

/-- `zero_fill_opt: ZEROFILL`, /repo/sqlparser/parser.y:1542. -/
def rule256 (d : Nat → SymType) : SymType :=
  (d 1).setBoolVal true

/-- `array_opt: `, /repo/sqlparser/parser.y:1547. -/
def rule257 (d : Nat → SymType) : SymType :=
  (d 1).setBoolVal false

/-- `array_opt: '[' ']'`, /repo/sqlparser/parser.y:1551. -/
def rule258 (d : Nat → SymType) : SymType :=
  (d 1).setBoolVal true

/-- `array_opt: ARRAY`, /repo/sqlparser/parser.y:1555. -/
def rule259 (d : Nat → SymType) : SymType :=
  (d 1).setBoolVal true

/-- `charset_opt: `, /repo/sqlparser/parser.y:1560. -/
def rule260 (d : Nat → SymType) : SymType :=
  (d 1).setStr (lit "")

/-- `charset_opt: CHARACTER SET ID`, /repo/sqlparser/parser.y:1564. -/
def rule261 (d : Nat → SymType) : SymType :=
  (d 1).setStr ((d 3).bytes)

/-- `charset_opt: CHARACTER SET BINARY`, /repo/sqlparser/parser.y:1568. -/
def rule262 (d : Nat → SymType) : SymType :=
  (d 1).setStr ((d 3).bytes)

/-- `collate_opt: `, /repo/sqlparser/parser.y:1573. -/
def rule263 (d : Nat → SymType) : SymType :=
  (d 1).setStr (lit "")

/-- `collate_opt: BINARY`, /repo/sqlparser/parser.y:1577. -/
def rule264 (d : Nat → SymType) : SymType :=
  (d 1).setStr ((d 1).bytes)

/-- `collate_opt: COLLATE ID`, /repo/sqlparser/parser.y:1581. -/
def rule265 (d : Nat → SymType) : SymType :=
  (d 1).setStr ((d 2).bytes)

/-- `index_definition: index_info '(' index_column_list ')' index_option_opt index_partition_opt`, /repo/sqlparser/parser.y:1587. -/
def rule266 (d : Nat → SymType) : SymType :=
  (d 1).setIndexDefinition (Go.IndexDefinition (Info := (d 1).indexInfo) (Columns := (d 3).indexColumns) (Options := (d 5).indexOptions) (Partition := (d 6).indexPartition))

/-- `index_option_opt: `, /repo/sqlparser/parser.y:1592. -/
def rule267 (d : Nat → SymType) : SymType :=
  (d 1).setIndexOptions []

/-- `index_option_opt: index_option_list`, /repo/sqlparser/parser.y:1596. -/
def rule268 (d : Nat → SymType) : SymType :=
  (d 1).setIndexOptions ((d 1).indexOptions)

/-- `index_option_opt: WITH '(' mssql_index_option_list ')'`, /repo/sqlparser/parser.y:1600. -/
def rule269 (d : Nat → SymType) : SymType :=
  (d 1).setIndexOptions ((d 3).indexOptions)

/-- `index_option_list: index_option`, /repo/sqlparser/parser.y:1606. -/
def rule270 (d : Nat → SymType) : SymType :=
  (d 1).setIndexOptions [(d 1).indexOption]

/-- `index_option_list: index_option_list index_option`, /repo/sqlparser/parser.y:1610. -/
def rule271 (d : Nat → SymType) : SymType :=
  (d 1).setIndexOptions ((d 1).indexOptions ++ [(d 2).indexOption])

/-- `mssql_index_option_list: index_option`, /repo/sqlparser/parser.y:1616. -/
def rule272 (d : Nat → SymType) : SymType :=
  (d 1).setIndexOptions [(d 1).indexOption]

/-- `mssql_index_option_list: mssql_index_option_list ',' index_option`, /repo/sqlparser/parser.y:1620. -/
def rule273 (d : Nat → SymType) : SymType :=
  (d 1).setIndexOptions ((d 1).indexOptions ++ [(d 3).indexOption])

/-- `index_option: USING ID`, /repo/sqlparser/parser.y:1626. -/
def rule274 (d : Nat → SymType) : SymType :=
  (d 1).setIndexOption ({ name := (d 1).bytes } : SqlIndexOption)

/-- `index_option: KEY_BLOCK_SIZE equal_opt INTEGRAL`, /repo/sqlparser/parser.y:1630. -/
def rule275 (d : Nat → SymType) : SymType :=
  (d 1).setIndexOption ({ name := (d 1).bytes, value := Go.NewIntVal ((d 3).bytes) } : SqlIndexOption)

/-- `index_option: COMMENT_KEYWORD STRING`, /repo/sqlparser/parser.y:1635. -/
def rule276 (d : Nat → SymType) : SymType :=
  (d 1).setIndexOption ({ name := (d 1).bytes, value := Go.NewStrVal ((d 2).bytes) } : SqlIndexOption)

/-- `index_option: WITH PARSER sql_id`, /repo/sqlparser/parser.y:1639. -/
def rule277 (d : Nat → SymType) : SymType :=
  (d 1).setIndexOption ({ name := (d 2).bytes, value := Go.NewStrVal ((d 3).colIdent) } : SqlIndexOption)

/-- `index_option: PAD_INDEX '=' on_off`, /repo/sqlparser/parser.y:1643. -/
def rule278 (d : Nat → SymType) : SymType :=
  (d 1).setIndexOption ({ name := (d 1).bytes, value := (d 3).optVal } : SqlIndexOption)

/-- `index_option: FILLFACTOR '=' INTEGRAL`, /repo/sqlparser/parser.y:1647. -/
def rule279 (d : Nat → SymType) : SymType :=
  (d 1).setIndexOption ({ name := (d 1).bytes, value := Go.NewIntVal ((d 3).bytes) } : SqlIndexOption)

/-- `index_option: IGNORE_DUP_KEY '=' on_off`, /repo/sqlparser/parser.y:1651. -/
def rule280 (d : Nat → SymType) : SymType :=
  (d 1).setIndexOption ({ name := (d 1).bytes, value := (d 3).optVal } : SqlIndexOption)

/-- `index_option: STATISTICS_NORECOMPUTE '=' on_off`, /repo/sqlparser/parser.y:1655. -/
def rule281 (d : Nat → SymType) : SymType :=
  (d 1).setIndexOption ({ name := (d 1).bytes, value := (d 3).optVal } : SqlIndexOption)

/-- `index_option: STATISTICS_INCREMENTAL '=' on_off`, /repo/sqlparser/parser.y:1659. -/
def rule282 (d : Nat → SymType) : SymType :=
  (d 1).setIndexOption ({ name := (d 1).bytes, value := (d 3).optVal } : SqlIndexOption)

/-- `index_option: ALLOW_ROW_LOCKS '=' on_off`, /repo/sqlparser/parser.y:1663. -/
def rule283 (d : Nat → SymType) : SymType :=
  (d 1).setIndexOption ({ name := (d 1).bytes, value := (d 3).optVal } : SqlIndexOption)

/-- `index_option: ALLOW_PAGE_LOCKS '=' on_off`, /repo/sqlparser/parser.y:1667. -/
def rule284 (d : Nat → SymType) : SymType :=
  (d 1).setIndexOption ({ name := (d 1).bytes, value := (d 3).optVal } : SqlIndexOption)

/-- `equal_opt: `, /repo/sqlparser/parser.y:1672. -/
def rule285 (d : Nat → SymType) : SymType :=
  (d 1).setStr (lit "")

/-- `equal_opt: '='`, /repo/sqlparser/parser.y:1677. -/
def rule286 (d : Nat → SymType) : SymType :=
  (d 1).setStr ((d 1).bytes)

/-- `on_off: ON`, /repo/sqlparser/parser.y:1683. -/
def rule287 (d : Nat → SymType) : SymType :=
  (d 1).setOptVal (Go.NewBoolSQLVal true)

/-- `on_off: OFF`, /repo/sqlparser/parser.y:1687. -/
def rule288 (d : Nat → SymType) : SymType :=
  (d 1).setOptVal (Go.NewBoolSQLVal false)

/-- `index_partition_opt: `, /repo/sqlparser/parser.y:1693. -/
def rule289 (d : Nat → SymType) : SymType :=
  (d 1).setIndexPartition none

/-- `index_partition_opt: ON sql_id`, /repo/sqlparser/parser.y:1697. -/
def rule290 (d : Nat → SymType) : SymType :=
  (d 1).setIndexPartition (some ({ name := (d 2).colIdent, column := [] } : SqlIndexPartition))

/-- `index_partition_opt: ON sql_id openb sql_id closeb`, /repo/sqlparser/parser.y:1701. -/
def rule291 (d : Nat → SymType) : SymType :=
  (d 1).setIndexPartition (some ({ name := (d 2).colIdent, column := (d 4).colIdent } : SqlIndexPartition))

/-- `index_info: PRIMARY KEY`, /repo/sqlparser/parser.y:1707. -/
def rule292 (d : Nat → SymType) : SymType :=
  (d 1).setIndexInfo ({ Ty := (d 1).bytes ++ (lit " ") ++ ((d 2).bytes), Name := lit "PRIMARY", Primary := true, Unique := true } : Go.IndexInfo)

/-- `index_info: SPATIAL index_or_key ID`, /repo/sqlparser/parser.y:1711. -/
def rule293 (d : Nat → SymType) : SymType :=
  (d 1).setIndexInfo ({ Ty := (d 1).bytes ++ (lit " ") ++ ((d 2).str), Name := (d 3).bytes, Spatial := true, Unique := false } : Go.IndexInfo)

/-- `index_info: FULLTEXT index_or_key ID`, /repo/sqlparser/parser.y:1715. -/
def rule294 (d : Nat → SymType) : SymType :=
  (d 1).setIndexInfo ({ Ty := (d 1).bytes ++ (lit " ") ++ ((d 2).str), Name := (d 3).bytes, Fulltext := true } : Go.IndexInfo)

/-- `index_info: FULLTEXT ID`, /repo/sqlparser/parser.y:1719. -/
def rule295 (d : Nat → SymType) : SymType :=
  (d 1).setIndexInfo ({ Ty := (d 1).bytes, Name := (d 2).bytes, Fulltext := true } : Go.IndexInfo)

/-- `index_info: UNIQUE index_or_key ID`, /repo/sqlparser/parser.y:1723. -/
def rule296 (d : Nat → SymType) : SymType :=
  (d 1).setIndexInfo ({ Ty := (d 1).bytes ++ (lit " ") ++ ((d 2).str), Name := (d 3).bytes, Unique := true } : Go.IndexInfo)

/-- `index_info: UNIQUE ID`, /repo/sqlparser/parser.y:1727. -/
def rule297 (d : Nat → SymType) : SymType :=
  (d 1).setIndexInfo ({ Ty := (d 1).bytes, Name := (d 2).bytes, Unique := true } : Go.IndexInfo)

/-- `index_info: index_or_key ID clustered_opt`, /repo/sqlparser/parser.y:1731. -/
def rule298 (d : Nat → SymType) : SymType :=
  (d 1).setIndexInfo ({ Ty := (d 1).str, Name := (d 2).bytes, Unique := false, Clustered := (d 3).boolVal } : Go.IndexInfo)

/-- `index_info: index_or_key ID UNIQUE clustered_opt`, /repo/sqlparser/parser.y:1735. -/
def rule299 (d : Nat → SymType) : SymType :=
  (d 1).setIndexInfo ({ Ty := (d 1).str, Name := (d 2).bytes, Unique := true, Clustered := (d 4).boolVal } : Go.IndexInfo)

/-- `index_or_key: INDEX`, /repo/sqlparser/parser.y:1741. -/
def rule300 (d : Nat → SymType) : SymType :=
  (d 1).setStr ((d 1).bytes)

/-- `index_or_key: KEY`, /repo/sqlparser/parser.y:1745. -/
def rule301 (d : Nat → SymType) : SymType :=
  (d 1).setStr ((d 1).bytes)

/-- `index_column_list: index_column`, /repo/sqlparser/parser.y:1751. -/
def rule302 (d : Nat → SymType) : SymType :=
  (d 1).setIndexColumns [(d 1).indexColumn]

/-- `index_column_list: index_column_list ',' index_column`, /repo/sqlparser/parser.y:1755. -/
def rule303 (d : Nat → SymType) : SymType :=
  (d 1).setIndexColumns ((d 1).indexColumns ++ [(d 3).indexColumn])

/-- `index_column: sql_id length_opt asc_desc_opt`, /repo/sqlparser/parser.y:1761. -/
def rule304 (d : Nat → SymType) : SymType :=
  (d 1).setIndexColumn ({ column := (d 1).colIdent, length := (d 2).optVal, direction := (d 3).str } : SqlIndexColumn)

/-- `index_column: KEY length_opt`, /repo/sqlparser/parser.y:1766. -/
def rule305 (d : Nat → SymType) : SymType :=
  (d 1).setIndexColumn ({ column := (d 1).bytes, length := (d 2).optVal } : SqlIndexColumn)

/-- `foreign_key_definition: foreign_key_without_options not_for_replication_opt`, /repo/sqlparser/parser.y:1772. -/
def rule306 (d : Nat → SymType) : SymType :=
  (d 1).setForeignKeyDefinition { (d 1).foreignKeyDefinition with notForReplication := (d 2).boolVal }

/-- `foreign_key_definition: foreign_key_without_options ON DELETE reference_option not_for_replication_opt`, /repo/sqlparser/parser.y:1777. -/
def rule307 (d : Nat → SymType) : SymType :=
  (d 1).setForeignKeyDefinition { (d 1).foreignKeyDefinition with onUpdate := lit "", onDelete := (d 4).colIdent, notForReplication := (d 5).boolVal }

/-- `foreign_key_definition: foreign_key_without_options ON UPDATE reference_option not_for_replication_opt`, /repo/sqlparser/parser.y:1784. -/
def rule308 (d : Nat → SymType) : SymType :=
  (d 1).setForeignKeyDefinition { (d 1).foreignKeyDefinition with onUpdate := (d 4).colIdent, onDelete := lit "", notForReplication := (d 5).boolVal }

/-- `foreign_key_definition: foreign_key_without_options ON DELETE reference_option ON UPDATE reference_option not_for_replication_opt`, /repo/sqlparser/parser.y:1791. -/
def rule309 (d : Nat → SymType) : SymType :=
  (d 1).setForeignKeyDefinition { (d 1).foreignKeyDefinition with onUpdate := (d 7).colIdent, onDelete := (d 4).colIdent, notForReplication := (d 8).boolVal }

/-- `foreign_key_definition: foreign_key_without_options ON UPDATE reference_option ON DELETE reference_option not_for_replication_opt`, /repo/sqlparser/parser.y:1798. -/
def rule310 (d : Nat → SymType) : SymType :=
  (d 1).setForeignKeyDefinition { (d 1).foreignKeyDefinition with onUpdate := (d 4).colIdent, onDelete := (d 7).colIdent, notForReplication := (d 8).boolVal }

/-- `foreign_key_without_options: CONSTRAINT sql_id_opt FOREIGN KEY sql_id_opt '(' sql_id_list ')' REFERENCES table_name '(' sql_id_list ')'`, /repo/sqlparser/parser.y:1807. -/
def rule311 (d : Nat → SymType) : SymType :=
  (d 1).setForeignKeyDefinition ({ constraintName := (d 2).colIdent, indexName := (d 5).colIdent, indexColumns := (d 7).colIdents, referenceName := ((d 10).tableName).name, referenceColumns := (d 12).colIdents } : SqlForeignKey)

/-- `reference_option: RESTRICT`, /repo/sqlparser/parser.y:1819. -/
def rule312 (d : Nat → SymType) : SymType :=
  (d 1).setColIdent (lit "RESTRICT")

/-- `reference_option: CASCADE`, /repo/sqlparser/parser.y:1823. -/
def rule313 (d : Nat → SymType) : SymType :=
  (d 1).setColIdent (lit "CASCADE")

/-- `reference_option: SET NULL`, /repo/sqlparser/parser.y:1827. -/
def rule314 (d : Nat → SymType) : SymType :=
  (d 1).setColIdent (lit "SET NULL")

/-- `reference_option: NO ACTION`, /repo/sqlparser/parser.y:1831. -/
def rule315 (d : Nat → SymType) : SymType :=
  (d 1).setColIdent (lit "NO ACTION")

/-- `primary_key_definition: CONSTRAINT sql_id PRIMARY KEY clustered_opt '(' index_column_list ')' index_option_opt index_partition_opt`, /repo/sqlparser/parser.y:1837. -/
def rule316 (d : Nat → SymType) : SymType :=
  (d 1).setIndexDefinition (Go.IndexDefinition (Info := ({ Ty := (d 3).bytes ++ (lit " ") ++ ((d 4).bytes), Name := (d 2).colIdent, Primary := true, Unique := true, Clustered := (d 5).boolVal } : Go.IndexInfo)) (Columns := (d 7).indexColumns) (Options := (d 9).indexOptions) (Partition := (d 10).indexPartition))

/-- `clustered_opt: `, /repo/sqlparser/parser.y:1848. -/
def rule317 (d : Nat → SymType) : SymType :=
  (d 1).setBoolVal true

/-- `clustered_opt: CLUSTERED`, /repo/sqlparser/parser.y:1852. -/
def rule318 (d : Nat → SymType) : SymType :=
  (d 1).setBoolVal true

/-- `clustered_opt: NONCLUSTERED`, /repo/sqlparser/parser.y:1856. -/
def rule319 (d : Nat → SymType) : SymType :=
  (d 1).setBoolVal false

/-- `not_for_replication_opt: `, /repo/sqlparser/parser.y:1862. -/
def rule320 (d : Nat → SymType) : SymType :=
  (d 1).setBoolVal false

/-- `not_for_replication_opt: NOT FOR REPLICATION`, /repo/sqlparser/parser.y:1866. -/
def rule321 (d : Nat → SymType) : SymType :=
  (d 1).setBoolVal true

/-- `sql_id_opt: `, /repo/sqlparser/parser.y:1871. -/
def rule322 (d : Nat → SymType) : SymType :=
  (d 1).setColIdent (lit "")

/-- `sql_id_list: sql_id`, /repo/sqlparser/parser.y:1878. -/
def rule324 (d : Nat → SymType) : SymType :=
  (d 1).setColIdents [(d 1).colIdent]

/-- `sql_id_list: sql_id_list ',' sql_id`, /repo/sqlparser/parser.y:1882. -/
def rule325 (d : Nat → SymType) : SymType :=
  (d 1).setColIdents ((d 1).colIdents ++ [(d 3).colIdent])

/-- `table_option_list: `, /repo/sqlparser/parser.y:1887. -/
def rule326 (d : Nat → SymType) : SymType :=
  (d 1).setStr (lit "")

/-- `table_option_list: table_option`, /repo/sqlparser/parser.y:1891. -/
def rule327 (d : Nat → SymType) : SymType :=
  (d 1).setStr (lit " " ++ ((d 1).str))

/-- `table_option_list: table_option_list ',' table_option`, /repo/sqlparser/parser.y:1895. -/
def rule328 (d : Nat → SymType) : SymType :=
  (d 1).setStr ((d 1).str ++ (lit ", ") ++ ((d 3).str))

/-- `table_option: table_opt_value`, /repo/sqlparser/parser.y:1903. -/
def rule329 (d : Nat → SymType) : SymType :=
  (d 1).setStr ((d 1).str)

/-- `table_option: table_option table_opt_value`, /repo/sqlparser/parser.y:1907. -/
def rule330 (d : Nat → SymType) : SymType :=
  (d 1).setStr ((d 1).str ++ (lit " ") ++ ((d 2).str))

/-- `table_option: table_option '=' table_opt_value`, /repo/sqlparser/parser.y:1911. -/
def rule331 (d : Nat → SymType) : SymType :=
  (d 1).setStr ((d 1).str ++ (lit "=") ++ ((d 3).str))

/-- `table_opt_value: reserved_sql_id`, /repo/sqlparser/parser.y:1917. -/
def rule332 (d : Nat → SymType) : SymType :=
  (d 1).setStr ((d 1).colIdent)

/-- `table_opt_value: STRING`, /repo/sqlparser/parser.y:1921. -/
def rule333 (d : Nat → SymType) : SymType :=
  (d 1).setStr (lit "'" ++ ((d 1).bytes) ++ (lit "'"))

/-- `table_opt_value: INTEGRAL`, /repo/sqlparser/parser.y:1925. -/
def rule334 (d : Nat → SymType) : SymType :=
  (d 1).setStr ((d 1).bytes)

/-- `alter_statement: ALTER ignore_opt TABLE table_name non_add_drop_or_rename_operation force_eof`, /repo/sqlparser/parser.y:1931. -/
def rule335 (d : Nat → SymType) : SymType :=
  (d 1).setStatement (.ddl ({ action := lit "alter", table := (d 4).tableName, newName := (d 4).tableName } : SqlDDL))

/-- `alter_statement: ALTER ignore_opt TABLE table_name ADD unique_opt alter_object_type_index sql_id '(' index_column_list ')'`, /repo/sqlparser/parser.y:1935. -/
def rule336 (d : Nat → SymType) : SymType :=
  (d 1).setStatement (.ddl ({ action := lit "add index", table := (d 4).tableName, newName := (d 4).tableName, indexSpec := some ({ name := (d 8).colIdent, unique := (d 6).boolVal } : SqlIndexSpec), indexCols := (d 10).indexColumns } : SqlDDL))

/-- `alter_statement: ALTER ignore_opt TABLE ONLY table_name ADD CONSTRAINT sql_id PRIMARY KEY '(' index_column_list ')'`, /repo/sqlparser/parser.y:1949. -/
def rule337 (d : Nat → SymType) : SymType :=
  (d 1).setStatement (.ddl ({ action := lit "add primary key", table := (d 5).tableName, newName := (d 5).tableName, indexSpec := some ({ name := (d 8).colIdent, unique := false } : SqlIndexSpec), indexCols := (d 12).indexColumns } : SqlDDL))

/-- `alter_statement: ALTER ignore_opt TABLE ONLY table_name ADD foreign_key_definition`, /repo/sqlparser/parser.y:1963. -/
def rule338 (d : Nat → SymType) : SymType :=
  (d 1).setStatement (.ddl ({ action := lit "add foreign key", table := (d 5).tableName, newName := (d 5).tableName, foreignKey := some ((d 7).foreignKeyDefinition) } : SqlDDL))

/-- `alter_statement: ALTER ignore_opt TABLE table_name ADD alter_object_type_rest force_eof`, /repo/sqlparser/parser.y:1972. -/
def rule339 (d : Nat → SymType) : SymType :=
  (d 1).setStatement (.ddl ({ action := lit "alter", table := (d 4).tableName, newName := (d 4).tableName } : SqlDDL))

/-- `alter_statement: ALTER ignore_opt TABLE table_name DROP alter_object_type force_eof`, /repo/sqlparser/parser.y:1976. -/
def rule340 (d : Nat → SymType) : SymType :=
  (d 1).setStatement (.ddl ({ action := lit "alter", table := (d 4).tableName, newName := (d 4).tableName } : SqlDDL))

/-- `alter_statement: ALTER ignore_opt TABLE table_name ADD VINDEX sql_id '(' column_list ')' vindex_type_opt vindex_params_opt`, /repo/sqlparser/parser.y:1980. -/
def rule341 (d : Nat → SymType) : SymType :=
  (d 1).setStatement (.ddl ({ action := lit "add vindex", table := (d 4).tableName } : SqlDDL))

/-- `alter_statement: ALTER ignore_opt TABLE table_name DROP VINDEX sql_id`, /repo/sqlparser/parser.y:1993. -/
def rule342 (d : Nat → SymType) : SymType :=
  (d 1).setStatement (.ddl ({ action := lit "drop vindex", table := (d 4).tableName } : SqlDDL))

/-- `alter_statement: ALTER ignore_opt TABLE table_name RENAME to_opt table_name`, /repo/sqlparser/parser.y:2003. -/
def rule343 (d : Nat → SymType) : SymType :=
  (d 1).setStatement (.ddl ({ action := lit "rename", table := (d 4).tableName, newName := (d 7).tableName } : SqlDDL))

/-- `alter_statement: ALTER ignore_opt TABLE table_name RENAME index_opt force_eof`, /repo/sqlparser/parser.y:2008. -/
def rule344 (d : Nat → SymType) : SymType :=
  (d 1).setStatement (.ddl ({ action := lit "alter", table := (d 4).tableName, newName := (d 4).tableName } : SqlDDL))

/-- `alter_statement: ALTER VIEW table_name ddl_force_eof`, /repo/sqlparser/parser.y:2013. -/
def rule345 (d : Nat → SymType) : SymType :=
  (d 1).setStatement (.ddl ({ action := lit "alter", table := Go.toViewName ((d 3).tableName), newName := Go.toViewName ((d 3).tableName) } : SqlDDL))

/-- `alter_statement: ALTER ignore_opt TABLE table_name partition_operation`, /repo/sqlparser/parser.y:2017. -/
def rule346 (d : Nat → SymType) : SymType :=
  (d 1).setStatement (.ddl ({ action := lit "alter", table := (d 4).tableName } : SqlDDL))

/-- `rename_statement: RENAME TABLE table_name TO table_name`, /repo/sqlparser/parser.y:2075. -/
def rule372 (d : Nat → SymType) : SymType :=
  (d 1).setStatement (.ddl ({ action := lit "rename", table := (d 3).tableName, newName := (d 5).tableName } : SqlDDL))

/-- `drop_statement: DROP TABLE exists_opt table_name`, /repo/sqlparser/parser.y:2081. -/
def rule373 (d : Nat → SymType) : SymType :=
  (d 1).setStatement (.ddl { action := lit "drop", table := (d 4).tableName })

/-- `drop_statement: DROP INDEX ID ON table_name ddl_force_eof`, /repo/sqlparser/parser.y:2089. -/
def rule374 (d : Nat → SymType) : SymType :=
  (d 1).setStatement (.ddl ({ action := lit "alter", table := (d 5).tableName, newName := (d 5).tableName } : SqlDDL))

/-- `drop_statement: DROP VIEW exists_opt table_name ddl_force_eof`, /repo/sqlparser/parser.y:2094. -/
def rule375 (d : Nat → SymType) : SymType :=
  (d 1).setStatement (.ddl { action := lit "drop", table := Go.toViewName (d 4).tableName })

/-- `drop_statement: DROP DATABASE exists_opt ID`, /repo/sqlparser/parser.y:2102. -/
def rule376 (d : Nat → SymType) : SymType :=
  (d 1).setStatement .other

/-- `drop_statement: DROP SCHEMA exists_opt ID`, /repo/sqlparser/parser.y:2106. -/
def rule377 (d : Nat → SymType) : SymType :=
  (d 1).setStatement .other

/-- `truncate_statement: TRUNCATE TABLE table_name`, /repo/sqlparser/parser.y:2112. -/
def rule378 (d : Nat → SymType) : SymType :=
  (d 1).setStatement (.ddl ({ action := lit "truncate", table := (d 3).tableName } : SqlDDL))

/-- `truncate_statement: TRUNCATE table_name`, /repo/sqlparser/parser.y:2116. -/
def rule379 (d : Nat → SymType) : SymType :=
  (d 1).setStatement (.ddl ({ action := lit "truncate", table := (d 2).tableName } : SqlDDL))

/-- `analyze_statement: ANALYZE TABLE table_name`, /repo/sqlparser/parser.y:2121. -/
def rule380 (d : Nat → SymType) : SymType :=
  (d 1).setStatement (.ddl ({ action := lit "alter", table := (d 3).tableName, newName := (d 3).tableName } : SqlDDL))

/-- `show_statement: SHOW BINARY ID ddl_force_eof`, /repo/sqlparser/parser.y:2127. -/
def rule381 (d : Nat → SymType) : SymType :=
  (d 1).setStatement .other

/-- `show_statement: SHOW CHARACTER SET ddl_force_eof`, /repo/sqlparser/parser.y:2131. -/
def rule382 (d : Nat → SymType) : SymType :=
  (d 1).setStatement .other

/-- `show_statement: SHOW CREATE DATABASE ddl_force_eof`, /repo/sqlparser/parser.y:2135. -/
def rule383 (d : Nat → SymType) : SymType :=
  (d 1).setStatement .other

/-- `show_statement: SHOW CREATE ID ddl_force_eof`, /repo/sqlparser/parser.y:2140. -/
def rule384 (d : Nat → SymType) : SymType :=
  (d 1).setStatement .other

/-- `show_statement: SHOW CREATE PROCEDURE ddl_force_eof`, /repo/sqlparser/parser.y:2144. -/
def rule385 (d : Nat → SymType) : SymType :=
  (d 1).setStatement .other

/-- `show_statement: SHOW CREATE TABLE ddl_force_eof`, /repo/sqlparser/parser.y:2148. -/
def rule386 (d : Nat → SymType) : SymType :=
  (d 1).setStatement .other

/-- `show_statement: SHOW CREATE TRIGGER ddl_force_eof`, /repo/sqlparser/parser.y:2152. -/
def rule387 (d : Nat → SymType) : SymType :=
  (d 1).setStatement .other

/-- `show_statement: SHOW CREATE VIEW ddl_force_eof`, /repo/sqlparser/parser.y:2156. -/
def rule388 (d : Nat → SymType) : SymType :=
  (d 1).setStatement .other

/-- `show_statement: SHOW DATABASES ddl_force_eof`, /repo/sqlparser/parser.y:2160. -/
def rule389 (d : Nat → SymType) : SymType :=
  (d 1).setStatement .other

/-- `show_statement: SHOW INDEX ddl_force_eof`, /repo/sqlparser/parser.y:2164. -/
def rule390 (d : Nat → SymType) : SymType :=
  (d 1).setStatement .other

/-- `show_statement: SHOW KEYS ddl_force_eof`, /repo/sqlparser/parser.y:2168. -/
def rule391 (d : Nat → SymType) : SymType :=
  (d 1).setStatement .other

/-- `show_statement: SHOW PROCEDURE ddl_force_eof`, /repo/sqlparser/parser.y:2172. -/
def rule392 (d : Nat → SymType) : SymType :=
  (d 1).setStatement .other

/-- `show_statement: SHOW show_session_or_global STATUS ddl_force_eof`, /repo/sqlparser/parser.y:2176. -/
def rule393 (d : Nat → SymType) : SymType :=
  (d 1).setStatement .other

/-- `show_statement: SHOW TABLE ddl_force_eof`, /repo/sqlparser/parser.y:2180. -/
def rule394 (d : Nat → SymType) : SymType :=
  (d 1).setStatement .other

/-- `show_statement: SHOW extended_opt full_opt tables_or_processlist from_database_opt like_or_where_opt`, /repo/sqlparser/parser.y:2184. -/
def rule395 (d : Nat → SymType) : SymType :=
  (d 1).setStatement .other

/-- `show_statement: SHOW show_session_or_global VARIABLES ddl_force_eof`, /repo/sqlparser/parser.y:2194. -/
def rule396 (d : Nat → SymType) : SymType :=
  (d 1).setStatement .other

/-- `show_statement: SHOW VINDEXES`, /repo/sqlparser/parser.y:2198. -/
def rule397 (d : Nat → SymType) : SymType :=
  (d 1).setStatement .other

/-- `show_statement: SHOW VINDEXES ON table_name`, /repo/sqlparser/parser.y:2202. -/
def rule398 (d : Nat → SymType) : SymType :=
  (d 1).setStatement .other

/-- `show_statement: SHOW VITESS_KEYSPACES`, /repo/sqlparser/parser.y:2206. -/
def rule399 (d : Nat → SymType) : SymType :=
  (d 1).setStatement .other

/-- `show_statement: SHOW VITESS_SHARDS`, /repo/sqlparser/parser.y:2210. -/
def rule400 (d : Nat → SymType) : SymType :=
  (d 1).setStatement .other

/-- `show_statement: SHOW VITESS_TABLETS`, /repo/sqlparser/parser.y:2214. -/
def rule401 (d : Nat → SymType) : SymType :=
  (d 1).setStatement .other

/-- `show_statement: SHOW VSCHEMA_TABLES`, /repo/sqlparser/parser.y:2218. -/
def rule402 (d : Nat → SymType) : SymType :=
  (d 1).setStatement .other

/-- `show_statement: SHOW ID ddl_force_eof`, /repo/sqlparser/parser.y:2228. -/
def rule403 (d : Nat → SymType) : SymType :=
  (d 1).setStatement .other

/-- `tables_or_processlist: TABLES`, /repo/sqlparser/parser.y:2234. -/
def rule404 (d : Nat → SymType) : SymType :=
  (d 1).setStr ((d 1).bytes)

/-- `tables_or_processlist: PROCESSLIST`, /repo/sqlparser/parser.y:2238. -/
def rule405 (d : Nat → SymType) : SymType :=
  (d 1).setStr ((d 1).bytes)

/-- `extended_opt: `, /repo/sqlparser/parser.y:2243. -/
def rule406 (d : Nat → SymType) : SymType :=
  (d 1).setStr (lit "")

/-- `extended_opt: EXTENDED`, /repo/sqlparser/parser.y:2248. -/
def rule407 (d : Nat → SymType) : SymType :=
  (d 1).setStr (lit "extended ")

/-- `full_opt: `, /repo/sqlparser/parser.y:2253. -/
def rule408 (d : Nat → SymType) : SymType :=
  (d 1).setStr (lit "")

/-- `full_opt: FULL`, /repo/sqlparser/parser.y:2258. -/
def rule409 (d : Nat → SymType) : SymType :=
  (d 1).setStr (lit "full ")

/-- `from_database_opt: `, /repo/sqlparser/parser.y:2263. -/
def rule410 (d : Nat → SymType) : SymType :=
  (d 1).setStr (lit "")

/-- `from_database_opt: FROM table_id`, /repo/sqlparser/parser.y:2268. -/
def rule411 (d : Nat → SymType) : SymType :=
  (d 1).setStr ((d 2).tableIdent)

/-- `from_database_opt: IN table_id`, /repo/sqlparser/parser.y:2272. -/
def rule412 (d : Nat → SymType) : SymType :=
  (d 1).setStr ((d 2).tableIdent)

/-- `show_session_or_global: `, /repo/sqlparser/parser.y:2291. -/
def rule416 (d : Nat → SymType) : SymType :=
  (d 1).setStr (lit "")

/-- `show_session_or_global: SESSION`, /repo/sqlparser/parser.y:2296. -/
def rule417 (d : Nat → SymType) : SymType :=
  (d 1).setStr (lit "session")

/-- `show_session_or_global: GLOBAL`, /repo/sqlparser/parser.y:2300. -/
def rule418 (d : Nat → SymType) : SymType :=
  (d 1).setStr (lit "global")

/-- `use_statement: USE table_id`, /repo/sqlparser/parser.y:2306. -/
def rule419 (d : Nat → SymType) : SymType :=
  (d 1).setStatement .other

/-- `use_statement: USE`, /repo/sqlparser/parser.y:2310. -/
def rule420 (d : Nat → SymType) : SymType :=
  (d 1).setStatement .other

/-- `begin_statement: BEGIN`, /repo/sqlparser/parser.y:2316. -/
def rule421 (d : Nat → SymType) : SymType :=
  (d 1).setStatement .other

/-- `begin_statement: START TRANSACTION`, /repo/sqlparser/parser.y:2320. -/
def rule422 (d : Nat → SymType) : SymType :=
  (d 1).setStatement .other

/-- `commit_statement: COMMIT`, /repo/sqlparser/parser.y:2326. -/
def rule423 (d : Nat → SymType) : SymType :=
  (d 1).setStatement .other

/-- `rollback_statement: ROLLBACK`, /repo/sqlparser/parser.y:2332. -/
def rule424 (d : Nat → SymType) : SymType :=
  (d 1).setStatement .other

/-- `other_statement: DESC force_eof`, /repo/sqlparser/parser.y:2338. -/
def rule425 (d : Nat → SymType) : SymType :=
  (d 1).setStatement .other

/-- `other_statement: DESCRIBE force_eof`, /repo/sqlparser/parser.y:2342. -/
def rule426 (d : Nat → SymType) : SymType :=
  (d 1).setStatement .other

/-- `other_statement: EXPLAIN force_eof`, /repo/sqlparser/parser.y:2346. -/
def rule427 (d : Nat → SymType) : SymType :=
  (d 1).setStatement .other

/-- `other_statement: REPAIR force_eof`, /repo/sqlparser/parser.y:2350. -/
def rule428 (d : Nat → SymType) : SymType :=
  (d 1).setStatement .other

/-- `other_statement: OPTIMIZE force_eof`, /repo/sqlparser/parser.y:2354. -/
def rule429 (d : Nat → SymType) : SymType :=
  (d 1).setStatement .other

/-- `comment_opt: $$430 comment_list`, /repo/sqlparser/parser.y:2359. -/
def rule431 (d : Nat → SymType) : SymType :=
  (d 1).setBytes2 ((d 2).bytes2)

/-- `comment_list: `, /repo/sqlparser/parser.y:2369. -/
def rule432 (d : Nat → SymType) : SymType :=
  (d 1).setBytes2 []

/-- `comment_list: comment_list COMMENT`, /repo/sqlparser/parser.y:2373. -/
def rule433 (d : Nat → SymType) : SymType :=
  (d 1).setBytes2 ((d 1).bytes2 ++ [(d 2).bytes])

/-- `union_op: UNION`, /repo/sqlparser/parser.y:2379. -/
def rule434 (d : Nat → SymType) : SymType :=
  (d 1).setStr (lit "union")

/-- `union_op: UNION ALL`, /repo/sqlparser/parser.y:2383. -/
def rule435 (d : Nat → SymType) : SymType :=
  (d 1).setStr (lit "union all")

/-- `union_op: UNION DISTINCT`, /repo/sqlparser/parser.y:2387. -/
def rule436 (d : Nat → SymType) : SymType :=
  (d 1).setStr (lit "union distinct")

/-- `cache_opt: `, /repo/sqlparser/parser.y:2392. -/
def rule437 (d : Nat → SymType) : SymType :=
  (d 1).setStr (lit "")

/-- `cache_opt: SQL_NO_CACHE`, /repo/sqlparser/parser.y:2396. -/
def rule438 (d : Nat → SymType) : SymType :=
  (d 1).setStr (lit "sql_no_cache ")

/-- `cache_opt: SQL_CACHE`, /repo/sqlparser/parser.y:2400. -/
def rule439 (d : Nat → SymType) : SymType :=
  (d 1).setStr (lit "sql_cache ")

/-- `distinct_opt: `, /repo/sqlparser/parser.y:2405. -/
def rule440 (d : Nat → SymType) : SymType :=
  (d 1).setStr (lit "")

/-- `distinct_opt: DISTINCT`, /repo/sqlparser/parser.y:2409. -/
def rule441 (d : Nat → SymType) : SymType :=
  (d 1).setStr (lit "distinct ")

/-- `straight_join_opt: `, /repo/sqlparser/parser.y:2414. -/
def rule442 (d : Nat → SymType) : SymType :=
  (d 1).setStr (lit "")

/-- `straight_join_opt: STRAIGHT_JOIN`, /repo/sqlparser/parser.y:2418. -/
def rule443 (d : Nat → SymType) : SymType :=
  (d 1).setStr (lit "straight_join ")

/-- `select_expression_list_opt: `, /repo/sqlparser/parser.y:2423. -/
def rule444 (d : Nat → SymType) : SymType :=
  (d 1).setSelectExprs []

/-- `select_expression_list_opt: select_expression_list`, /repo/sqlparser/parser.y:2427. -/
def rule445 (d : Nat → SymType) : SymType :=
  (d 1).setSelectExprs ((d 1).selectExprs)

/-- `select_expression_list: select_expression`, /repo/sqlparser/parser.y:2433. -/
def rule446 (d : Nat → SymType) : SymType :=
  (d 1).setSelectExprs [(d 1).selectExpr]

/-- `select_expression_list: select_expression_list ',' select_expression`, /repo/sqlparser/parser.y:2437. -/
def rule447 (d : Nat → SymType) : SymType :=
  (d 1).setSelectExprs ((d 1).selectExprs ++ [(d 3).selectExpr])

/-- `select_expression: '*'`, /repo/sqlparser/parser.y:2443. -/
def rule448 (d : Nat → SymType) : SymType :=
  (d 1).setSelectExpr Go.StarExpr

/-- `select_expression: expression as_ci_opt`, /repo/sqlparser/parser.y:2447. -/
def rule449 (d : Nat → SymType) : SymType :=
  (d 1).setSelectExpr (Go.AliasedExpr (E := (d 1).expr) (As := (d 2).colIdent))

/-- `select_expression: table_id '.' '*'`, /repo/sqlparser/parser.y:2451. -/
def rule450 (d : Nat → SymType) : SymType :=
  (d 1).setSelectExpr (Go.StarExpr (TableName := ({ name := (d 1).tableIdent } : SqlTableName)))

/-- `select_expression: table_id '.' reserved_table_id '.' '*'`, /repo/sqlparser/parser.y:2455. -/
def rule451 (d : Nat → SymType) : SymType :=
  (d 1).setSelectExpr (Go.StarExpr (TableName := ({ qualifier := (d 1).tableIdent, name := (d 3).tableIdent } : SqlTableName)))

/-- `as_ci_opt: `, /repo/sqlparser/parser.y:2460. -/
def rule452 (d : Nat → SymType) : SymType :=
  (d 1).setColIdent []

/-- `as_ci_opt: col_alias`, /repo/sqlparser/parser.y:2464. -/
def rule453 (d : Nat → SymType) : SymType :=
  (d 1).setColIdent ((d 1).colIdent)

/-- `as_ci_opt: AS col_alias`, /repo/sqlparser/parser.y:2468. -/
def rule454 (d : Nat → SymType) : SymType :=
  (d 1).setColIdent ((d 2).colIdent)

/-- `col_alias: STRING`, /repo/sqlparser/parser.y:2475. -/
def rule456 (d : Nat → SymType) : SymType :=
  (d 1).setColIdent ((d 1).bytes)

/-- `from_opt: `, /repo/sqlparser/parser.y:2480. -/
def rule457 (d : Nat → SymType) : SymType :=
  (d 1).setTableExprs [Go.AliasedTableExpr (E := some (Go.formatTableName ({ name := lit "dual" } : SqlTableName)))]

/-- `from_opt: FROM table_references`, /repo/sqlparser/parser.y:2484. -/
def rule458 (d : Nat → SymType) : SymType :=
  (d 1).setTableExprs ((d 2).tableExprs)

/-- `table_references: table_reference`, /repo/sqlparser/parser.y:2490. -/
def rule459 (d : Nat → SymType) : SymType :=
  (d 1).setTableExprs [(d 1).tableExpr]

/-- `table_references: table_references ',' table_reference`, /repo/sqlparser/parser.y:2494. -/
def rule460 (d : Nat → SymType) : SymType :=
  (d 1).setTableExprs ((d 1).tableExprs ++ [(d 3).tableExpr])

/-- `table_factor: aliased_table_name`, /repo/sqlparser/parser.y:2504. -/
def rule463 (d : Nat → SymType) : SymType :=
  (d 1).setTableExpr ((d 1).aliasedTableName)

/-- `table_factor: subquery as_opt table_id`, /repo/sqlparser/parser.y:2508. -/
def rule464 (d : Nat → SymType) : SymType :=
  (d 1).setTableExpr (Go.AliasedTableExpr (E := (d 1).subquery) (As := (d 3).tableIdent))

/-- `table_factor: openb table_references closeb`, /repo/sqlparser/parser.y:2512. -/
def rule465 (d : Nat → SymType) : SymType :=
  (d 1).setTableExpr (Go.ParenTableExpr (Exprs := (d 2).tableExprs))

/-- `aliased_table_name: table_name as_opt_id index_hint_list`, /repo/sqlparser/parser.y:2518. -/
def rule466 (d : Nat → SymType) : SymType :=
  (d 1).setAliasedTableName (Go.AliasedTableExpr (E := some (Go.formatTableName ((d 1).tableName))) (As := (d 2).tableIdent) (Hints := (d 3).indexHints))

/-- `aliased_table_name: table_name PARTITION openb partition_list closeb as_opt_id index_hint_list`, /repo/sqlparser/parser.y:2522. -/
def rule467 (d : Nat → SymType) : SymType :=
  (d 1).setAliasedTableName (Go.AliasedTableExpr (E := some (Go.formatTableName ((d 1).tableName))) (Partitions := (d 4).partitions) (As := (d 6).tableIdent) (Hints := (d 7).indexHints))

/-- `column_list: sql_id`, /repo/sqlparser/parser.y:2528. -/
def rule468 (d : Nat → SymType) : SymType :=
  (d 1).setColumns [(d 1).colIdent]

/-- `column_list: KEY`, /repo/sqlparser/parser.y:2533. -/
def rule469 (d : Nat → SymType) : SymType :=
  (d 1).setColumns [(d 1).bytes]

/-- `column_list: column_list ',' sql_id`, /repo/sqlparser/parser.y:2537. -/
def rule470 (d : Nat → SymType) : SymType :=
  (d 1).setColumns ((d 1).columns ++ [(d 3).colIdent])

/-- `partition_list: sql_id`, /repo/sqlparser/parser.y:2543. -/
def rule471 (d : Nat → SymType) : SymType :=
  (d 1).setPartitions [(d 1).colIdent]

/-- `partition_list: partition_list ',' sql_id`, /repo/sqlparser/parser.y:2547. -/
def rule472 (d : Nat → SymType) : SymType :=
  (d 1).setPartitions ((d 1).partitions ++ [(d 3).colIdent])

/-- `join_table: table_reference inner_join table_factor join_condition_opt`, /repo/sqlparser/parser.y:2560. -/
def rule473 (d : Nat → SymType) : SymType :=
  (d 1).setTableExpr (Go.JoinTableExpr (LeftExpr := (d 1).tableExpr) (Join := (d 2).str) (RightExpr := (d 3).tableExpr) (Condition := (d 4).joinCondition))

/-- `join_table: table_reference straight_join table_factor on_expression_opt`, /repo/sqlparser/parser.y:2564. -/
def rule474 (d : Nat → SymType) : SymType :=
  (d 1).setTableExpr (Go.JoinTableExpr (LeftExpr := (d 1).tableExpr) (Join := (d 2).str) (RightExpr := (d 3).tableExpr) (Condition := (d 4).joinCondition))

/-- `join_table: table_reference outer_join table_reference join_condition`, /repo/sqlparser/parser.y:2568. -/
def rule475 (d : Nat → SymType) : SymType :=
  (d 1).setTableExpr (Go.JoinTableExpr (LeftExpr := (d 1).tableExpr) (Join := (d 2).str) (RightExpr := (d 3).tableExpr) (Condition := (d 4).joinCondition))

/-- `join_table: table_reference natural_join table_factor`, /repo/sqlparser/parser.y:2572. -/
def rule476 (d : Nat → SymType) : SymType :=
  (d 1).setTableExpr (Go.JoinTableExpr (LeftExpr := (d 1).tableExpr) (Join := (d 2).str) (RightExpr := (d 3).tableExpr))

/-- `join_condition: ON expression`, /repo/sqlparser/parser.y:2578. -/
def rule477 (d : Nat → SymType) : SymType :=
  (d 1).setJoinCondition (Go.JoinCondition (On := (d 2).expr))

/-- `join_condition: USING '(' column_list ')'`, /repo/sqlparser/parser.y:2580. -/
def rule478 (d : Nat → SymType) : SymType :=
  (d 1).setJoinCondition (Go.JoinCondition (Using := (d 3).columns))

/-- `join_condition_opt: `, /repo/sqlparser/parser.y:2583. -/
def rule479 (d : Nat → SymType) : SymType :=
  (d 1).setJoinCondition Go.JoinCondition

/-- `join_condition_opt: join_condition`, /repo/sqlparser/parser.y:2586. -/
def rule480 (d : Nat → SymType) : SymType :=
  (d 1).setJoinCondition ((d 1).joinCondition)

/-- `on_expression_opt: `, /repo/sqlparser/parser.y:2589. -/
def rule481 (d : Nat → SymType) : SymType :=
  (d 1).setJoinCondition Go.JoinCondition

/-- `on_expression_opt: ON expression`, /repo/sqlparser/parser.y:2592. -/
def rule482 (d : Nat → SymType) : SymType :=
  (d 1).setJoinCondition (Go.JoinCondition (On := (d 2).expr))

/-- `as_opt_id: `, /repo/sqlparser/parser.y:2600. -/
def rule485 (d : Nat → SymType) : SymType :=
  (d 1).setTableIdent (lit "")

/-- `as_opt_id: table_alias`, /repo/sqlparser/parser.y:2604. -/
def rule486 (d : Nat → SymType) : SymType :=
  (d 1).setTableIdent ((d 1).tableIdent)

/-- `as_opt_id: AS table_alias`, /repo/sqlparser/parser.y:2608. -/
def rule487 (d : Nat → SymType) : SymType :=
  (d 1).setTableIdent ((d 2).tableIdent)

/-- `table_alias: STRING`, /repo/sqlparser/parser.y:2615. -/
def rule489 (d : Nat → SymType) : SymType :=
  (d 1).setTableIdent ((d 1).bytes)

/-- `inner_join: JOIN`, /repo/sqlparser/parser.y:2621. -/
def rule490 (d : Nat → SymType) : SymType :=
  (d 1).setStr (lit "join")

/-- `inner_join: INNER JOIN`, /repo/sqlparser/parser.y:2625. -/
def rule491 (d : Nat → SymType) : SymType :=
  (d 1).setStr (lit "join")

/-- `inner_join: CROSS JOIN`, /repo/sqlparser/parser.y:2629. -/
def rule492 (d : Nat → SymType) : SymType :=
  (d 1).setStr (lit "join")

/-- `straight_join: STRAIGHT_JOIN`, /repo/sqlparser/parser.y:2635. -/
def rule493 (d : Nat → SymType) : SymType :=
  (d 1).setStr (lit "straight_join")

/-- `outer_join: LEFT JOIN`, /repo/sqlparser/parser.y:2641. -/
def rule494 (d : Nat → SymType) : SymType :=
  (d 1).setStr (lit "left join")

/-- `outer_join: LEFT OUTER JOIN`, /repo/sqlparser/parser.y:2645. -/
def rule495 (d : Nat → SymType) : SymType :=
  (d 1).setStr (lit "left join")

/-- `outer_join: RIGHT JOIN`, /repo/sqlparser/parser.y:2649. -/
def rule496 (d : Nat → SymType) : SymType :=
  (d 1).setStr (lit "right join")

/-- `outer_join: RIGHT OUTER JOIN`, /repo/sqlparser/parser.y:2653. -/
def rule497 (d : Nat → SymType) : SymType :=
  (d 1).setStr (lit "right join")

/-- `natural_join: NATURAL JOIN`, /repo/sqlparser/parser.y:2659. -/
def rule498 (d : Nat → SymType) : SymType :=
  (d 1).setStr (lit "natural join")

/-- `natural_join: NATURAL outer_join`, /repo/sqlparser/parser.y:2663. -/
def rule499 (d : Nat → SymType) : SymType :=
  (d 1).setStr (if (d 2).str = lit "left join" then lit "natural left join" else lit "natural right join")

/-- `into_table_name: INTO table_name`, /repo/sqlparser/parser.y:2673. -/
def rule500 (d : Nat → SymType) : SymType :=
  (d 1).setTableName ((d 2).tableName)

/-- `into_table_name: table_name`, /repo/sqlparser/parser.y:2677. -/
def rule501 (d : Nat → SymType) : SymType :=
  (d 1).setTableName ((d 1).tableName)

/-- `table_name: table_id`, /repo/sqlparser/parser.y:2683. -/
def rule502 (d : Nat → SymType) : SymType :=
  (d 1).setTableName ({ name := (d 1).tableIdent } : SqlTableName)

/-- `table_name: table_id '.' reserved_table_id`, /repo/sqlparser/parser.y:2687. -/
def rule503 (d : Nat → SymType) : SymType :=
  (d 1).setTableName ({ qualifier := (d 1).tableIdent, name := (d 3).tableIdent } : SqlTableName)

/-- `index_hint_list: `, /repo/sqlparser/parser.y:2692. -/
def rule504 (d : Nat → SymType) : SymType :=
  (d 1).setIndexHints []

/-- `index_hint_list: USE INDEX openb column_list closeb`, /repo/sqlparser/parser.y:2696. -/
def rule505 (d : Nat → SymType) : SymType :=
  (d 1).setIndexHints (Go.IndexHints (Ty := lit "use ") (Indexes := (d 4).columns))

/-- `index_hint_list: IGNORE INDEX openb column_list closeb`, /repo/sqlparser/parser.y:2700. -/
def rule506 (d : Nat → SymType) : SymType :=
  (d 1).setIndexHints (Go.IndexHints (Ty := lit "ignore ") (Indexes := (d 4).columns))

/-- `index_hint_list: FORCE INDEX openb column_list closeb`, /repo/sqlparser/parser.y:2704. -/
def rule507 (d : Nat → SymType) : SymType :=
  (d 1).setIndexHints (Go.IndexHints (Ty := lit "force ") (Indexes := (d 4).columns))

/-- `where_expression_opt: `, /repo/sqlparser/parser.y:2709. -/
def rule508 (d : Nat → SymType) : SymType :=
  (d 1).setExpr none

/-- `where_expression_opt: WHERE expression`, /repo/sqlparser/parser.y:2713. -/
def rule509 (d : Nat → SymType) : SymType :=
  (d 1).setExpr ((d 2).expr)

/-- `include_columns_opt: `, /repo/sqlparser/parser.y:2718. -/
def rule510 (d : Nat → SymType) : SymType :=
  (d 1).setColumns []

/-- `include_columns_opt: INCLUDE '(' column_list ')'`, /repo/sqlparser/parser.y:2722. -/
def rule511 (d : Nat → SymType) : SymType :=
  (d 1).setColumns ((d 3).columns)

/-- `expression: condition`, /repo/sqlparser/parser.y:2728. -/
def rule512 (d : Nat → SymType) : SymType :=
  (d 1).setExpr ((d 1).expr)

/-- `expression: expression AND expression`, /repo/sqlparser/parser.y:2732. -/
def rule513 (d : Nat → SymType) : SymType :=
  (d 1).setExpr (Go.AndExpr (Left := (d 1).expr) (Right := (d 3).expr))

/-- `expression: expression OR expression`, /repo/sqlparser/parser.y:2736. -/
def rule514 (d : Nat → SymType) : SymType :=
  (d 1).setExpr (Go.OrExpr (Left := (d 1).expr) (Right := (d 3).expr))

/-- `expression: NOT expression`, /repo/sqlparser/parser.y:2740. -/
def rule515 (d : Nat → SymType) : SymType :=
  (d 1).setExpr (Go.NotExpr (E := (d 2).expr))

/-- `expression: expression IS is_suffix`, /repo/sqlparser/parser.y:2744. -/
def rule516 (d : Nat → SymType) : SymType :=
  (d 1).setExpr (Go.IsExpr (Operator := (d 3).str) (E := (d 1).expr))

/-- `expression: value_expression`, /repo/sqlparser/parser.y:2748. -/
def rule517 (d : Nat → SymType) : SymType :=
  (d 1).setExpr ((d 1).expr)

/-- `expression: DEFAULT default_opt`, /repo/sqlparser/parser.y:2752. -/
def rule518 (d : Nat → SymType) : SymType :=
  (d 1).setExpr (Go.Default (ColName := (d 2).str))

/-- `default_opt: `, /repo/sqlparser/parser.y:2757. -/
def rule519 (d : Nat → SymType) : SymType :=
  (d 1).setStr (lit "")

/-- `default_opt: openb ID closeb`, /repo/sqlparser/parser.y:2762. -/
def rule520 (d : Nat → SymType) : SymType :=
  (d 1).setStr ((d 2).bytes)

/-- `boolean_value: TRUE`, /repo/sqlparser/parser.y:2768. -/
def rule521 (d : Nat → SymType) : SymType :=
  (d 1).setBoolVal true

/-- `boolean_value: FALSE`, /repo/sqlparser/parser.y:2772. -/
def rule522 (d : Nat → SymType) : SymType :=
  (d 1).setBoolVal false

/-- `condition: value_expression compare value_expression`, /repo/sqlparser/parser.y:2778. -/
def rule523 (d : Nat → SymType) : SymType :=
  (d 1).setExpr (Go.ComparisonExpr (Left := (d 1).expr) (Operator := (d 2).str) (Right := (d 3).expr))

/-- `condition: value_expression IN col_tuple`, /repo/sqlparser/parser.y:2782. -/
def rule524 (d : Nat → SymType) : SymType :=
  (d 1).setExpr (Go.ComparisonExpr (Left := (d 1).expr) (Operator := lit "in") (Right := (d 3).colTuple))

/-- `condition: value_expression NOT IN col_tuple`, /repo/sqlparser/parser.y:2786. -/
def rule525 (d : Nat → SymType) : SymType :=
  (d 1).setExpr (Go.ComparisonExpr (Left := (d 1).expr) (Operator := lit "not in") (Right := (d 4).colTuple))

/-- `condition: value_expression LIKE value_expression like_escape_opt`, /repo/sqlparser/parser.y:2790. -/
def rule526 (d : Nat → SymType) : SymType :=
  (d 1).setExpr (Go.ComparisonExpr (Left := (d 1).expr) (Operator := lit "like") (Right := (d 3).expr) (Escape := (d 4).expr))

/-- `condition: value_expression NOT LIKE value_expression like_escape_opt`, /repo/sqlparser/parser.y:2794. -/
def rule527 (d : Nat → SymType) : SymType :=
  (d 1).setExpr (Go.ComparisonExpr (Left := (d 1).expr) (Operator := lit "not like") (Right := (d 4).expr) (Escape := (d 5).expr))

/-- `condition: value_expression REGEXP value_expression`, /repo/sqlparser/parser.y:2798. -/
def rule528 (d : Nat → SymType) : SymType :=
  (d 1).setExpr (Go.ComparisonExpr (Left := (d 1).expr) (Operator := lit "regexp") (Right := (d 3).expr))

/-- `condition: value_expression NOT REGEXP value_expression`, /repo/sqlparser/parser.y:2802. -/
def rule529 (d : Nat → SymType) : SymType :=
  (d 1).setExpr (Go.ComparisonExpr (Left := (d 1).expr) (Operator := lit "not regexp") (Right := (d 4).expr))

/-- `condition: value_expression BETWEEN value_expression AND value_expression`, /repo/sqlparser/parser.y:2806. -/
def rule530 (d : Nat → SymType) : SymType :=
  (d 1).setExpr (Go.RangeCond (Left := (d 1).expr) (Operator := lit "between") (From := (d 3).expr) (To := (d 5).expr))

/-- `condition: value_expression NOT BETWEEN value_expression AND value_expression`, /repo/sqlparser/parser.y:2810. -/
def rule531 (d : Nat → SymType) : SymType :=
  (d 1).setExpr (Go.RangeCond (Left := (d 1).expr) (Operator := lit "not between") (From := (d 4).expr) (To := (d 6).expr))

/-- `condition: EXISTS subquery`, /repo/sqlparser/parser.y:2814. -/
def rule532 (d : Nat → SymType) : SymType :=
  (d 1).setExpr (Go.ExistsExpr (Subquery := (d 2).subquery))

/-- `is_suffix: NULL`, /repo/sqlparser/parser.y:2820. -/
def rule533 (d : Nat → SymType) : SymType :=
  (d 1).setStr (lit "is null")

/-- `is_suffix: NOT NULL`, /repo/sqlparser/parser.y:2824. -/
def rule534 (d : Nat → SymType) : SymType :=
  (d 1).setStr (lit "is not null")

/-- `is_suffix: TRUE`, /repo/sqlparser/parser.y:2828. -/
def rule535 (d : Nat → SymType) : SymType :=
  (d 1).setStr (lit "is true")

/-- `is_suffix: NOT TRUE`, /repo/sqlparser/parser.y:2832. -/
def rule536 (d : Nat → SymType) : SymType :=
  (d 1).setStr (lit "is not true")

/-- `is_suffix: FALSE`, /repo/sqlparser/parser.y:2836. -/
def rule537 (d : Nat → SymType) : SymType :=
  (d 1).setStr (lit "is false")

/-- `is_suffix: NOT FALSE`, /repo/sqlparser/parser.y:2840. -/
def rule538 (d : Nat → SymType) : SymType :=
  (d 1).setStr (lit "is not false")

/-- `compare: '='`, /repo/sqlparser/parser.y:2846. -/
def rule539 (d : Nat → SymType) : SymType :=
  (d 1).setStr (lit "=")

/-- `compare: '<'`, /repo/sqlparser/parser.y:2850. -/
def rule540 (d : Nat → SymType) : SymType :=
  (d 1).setStr (lit "<")

/-- `compare: '>'`, /repo/sqlparser/parser.y:2854. -/
def rule541 (d : Nat → SymType) : SymType :=
  (d 1).setStr (lit ">")

/-- `compare: LE`, /repo/sqlparser/parser.y:2858. -/
def rule542 (d : Nat → SymType) : SymType :=
  (d 1).setStr (lit "<=")

/-- `compare: GE`, /repo/sqlparser/parser.y:2862. -/
def rule543 (d : Nat → SymType) : SymType :=
  (d 1).setStr (lit ">=")

/-- `compare: NE`, /repo/sqlparser/parser.y:2866. -/
def rule544 (d : Nat → SymType) : SymType :=
  (d 1).setStr (lit "!=")

/-- `compare: NULL_SAFE_EQUAL`, /repo/sqlparser/parser.y:2870. -/
def rule545 (d : Nat → SymType) : SymType :=
  (d 1).setStr (lit "<=>")

/-- `like_escape_opt: `, /repo/sqlparser/parser.y:2875. -/
def rule546 (d : Nat → SymType) : SymType :=
  (d 1).setExpr none

/-- `like_escape_opt: ESCAPE value_expression`, /repo/sqlparser/parser.y:2879. -/
def rule547 (d : Nat → SymType) : SymType :=
  (d 1).setExpr ((d 2).expr)

/-- `col_tuple: row_tuple`, /repo/sqlparser/parser.y:2885. -/
def rule548 (d : Nat → SymType) : SymType :=
  (d 1).setColTuple (Go.tupleExpr ((d 1).valTuple))

/-- `col_tuple: subquery`, /repo/sqlparser/parser.y:2889. -/
def rule549 (d : Nat → SymType) : SymType :=
  (d 1).setColTuple (Go.node ((d 1).subquery))

/-- `col_tuple: LIST_ARG`, /repo/sqlparser/parser.y:2893. -/
def rule550 (d : Nat → SymType) : SymType :=
  (d 1).setColTuple (Go.ListArg ((d 1).bytes))

/-- `subquery: openb select_statement closeb`, /repo/sqlparser/parser.y:2899. -/
def rule551 (d : Nat → SymType) : SymType :=
  (d 1).setSubquery (Go.Subquery ((d 2).selStmt))

/-- `expression_list: expression`, /repo/sqlparser/parser.y:2905. -/
def rule552 (d : Nat → SymType) : SymType :=
  (d 1).setExprs [(d 1).expr]

/-- `expression_list: expression_list ',' expression`, /repo/sqlparser/parser.y:2909. -/
def rule553 (d : Nat → SymType) : SymType :=
  (d 1).setExprs ((d 1).exprs ++ [(d 3).expr])

/-- `value_expression: value`, /repo/sqlparser/parser.y:2915. -/
def rule554 (d : Nat → SymType) : SymType :=
  (d 1).setExpr ((d 1).expr)

/-- `value_expression: boolean_value`, /repo/sqlparser/parser.y:2919. -/
def rule555 (d : Nat → SymType) : SymType :=
  (d 1).setExpr (Go.boolExpr ((d 1).boolVal))

/-- `value_expression: column_name`, /repo/sqlparser/parser.y:2923. -/
def rule556 (d : Nat → SymType) : SymType :=
  (d 1).setExpr (Go.ColName.expr ((d 1).colName))

/-- `value_expression: tuple_expression`, /repo/sqlparser/parser.y:2927. -/
def rule557 (d : Nat → SymType) : SymType :=
  (d 1).setExpr ((d 1).expr)

/-- `value_expression: subquery`, /repo/sqlparser/parser.y:2931. -/
def rule558 (d : Nat → SymType) : SymType :=
  (d 1).setExpr (Go.node ((d 1).subquery))

/-- `value_expression: value_expression '&' value_expression`, /repo/sqlparser/parser.y:2935. -/
def rule559 (d : Nat → SymType) : SymType :=
  (d 1).setExpr (Go.BinaryExpr (Left := (d 1).expr) (Operator := lit "&") (Right := (d 3).expr))

/-- `value_expression: value_expression '|' value_expression`, /repo/sqlparser/parser.y:2939. -/
def rule560 (d : Nat → SymType) : SymType :=
  (d 1).setExpr (Go.BinaryExpr (Left := (d 1).expr) (Operator := lit "|") (Right := (d 3).expr))

/-- `value_expression: value_expression '^' value_expression`, /repo/sqlparser/parser.y:2943. -/
def rule561 (d : Nat → SymType) : SymType :=
  (d 1).setExpr (Go.BinaryExpr (Left := (d 1).expr) (Operator := lit "^") (Right := (d 3).expr))

/-- `value_expression: value_expression '+' value_expression`, /repo/sqlparser/parser.y:2947. -/
def rule562 (d : Nat → SymType) : SymType :=
  (d 1).setExpr (Go.BinaryExpr (Left := (d 1).expr) (Operator := lit "+") (Right := (d 3).expr))

/-- `value_expression: value_expression '-' value_expression`, /repo/sqlparser/parser.y:2951. -/
def rule563 (d : Nat → SymType) : SymType :=
  (d 1).setExpr (Go.BinaryExpr (Left := (d 1).expr) (Operator := lit "-") (Right := (d 3).expr))

/-- `value_expression: value_expression '*' value_expression`, /repo/sqlparser/parser.y:2955. -/
def rule564 (d : Nat → SymType) : SymType :=
  (d 1).setExpr (Go.BinaryExpr (Left := (d 1).expr) (Operator := lit "*") (Right := (d 3).expr))

/-- `value_expression: value_expression '/' value_expression`, /repo/sqlparser/parser.y:2959. -/
def rule565 (d : Nat → SymType) : SymType :=
  (d 1).setExpr (Go.BinaryExpr (Left := (d 1).expr) (Operator := lit "/") (Right := (d 3).expr))

/-- `value_expression: value_expression DIV value_expression`, /repo/sqlparser/parser.y:2963. -/
def rule566 (d : Nat → SymType) : SymType :=
  (d 1).setExpr (Go.BinaryExpr (Left := (d 1).expr) (Operator := lit "div") (Right := (d 3).expr))

/-- `value_expression: value_expression '%' value_expression`, /repo/sqlparser/parser.y:2967. -/
def rule567 (d : Nat → SymType) : SymType :=
  (d 1).setExpr (Go.BinaryExpr (Left := (d 1).expr) (Operator := lit "%") (Right := (d 3).expr))

/-- `value_expression: value_expression MOD value_expression`, /repo/sqlparser/parser.y:2971. -/
def rule568 (d : Nat → SymType) : SymType :=
  (d 1).setExpr (Go.BinaryExpr (Left := (d 1).expr) (Operator := lit "%") (Right := (d 3).expr))

/-- `value_expression: value_expression SHIFT_LEFT value_expression`, /repo/sqlparser/parser.y:2975. -/
def rule569 (d : Nat → SymType) : SymType :=
  (d 1).setExpr (Go.BinaryExpr (Left := (d 1).expr) (Operator := lit "<<") (Right := (d 3).expr))

/-- `value_expression: value_expression SHIFT_RIGHT value_expression`, /repo/sqlparser/parser.y:2979. -/
def rule570 (d : Nat → SymType) : SymType :=
  (d 1).setExpr (Go.BinaryExpr (Left := (d 1).expr) (Operator := lit ">>") (Right := (d 3).expr))

/-- `value_expression: column_name JSON_EXTRACT_OP value`, /repo/sqlparser/parser.y:2983. -/
def rule571 (d : Nat → SymType) : SymType :=
  (d 1).setExpr (Go.BinaryExpr (Left := Go.ColName.expr ((d 1).colName)) (Operator := lit "->") (Right := (d 3).expr))

/-- `value_expression: column_name JSON_UNQUOTE_EXTRACT_OP value`, /repo/sqlparser/parser.y:2987. -/
def rule572 (d : Nat → SymType) : SymType :=
  (d 1).setExpr (Go.BinaryExpr (Left := Go.ColName.expr ((d 1).colName)) (Operator := lit "->>") (Right := (d 3).expr))

/-- `value_expression: value_expression COLLATE charset`, /repo/sqlparser/parser.y:2991. -/
def rule573 (d : Nat → SymType) : SymType :=
  (d 1).setExpr (Go.CollateExpr (E := (d 1).expr) (Charset := (d 3).str))

/-- `value_expression: BINARY value_expression`, /repo/sqlparser/parser.y:2995. -/
def rule574 (d : Nat → SymType) : SymType :=
  (d 1).setExpr (Go.UnaryExpr (Operator := lit "binary ") (E := (d 2).expr))

/-- `value_expression: UNDERSCORE_BINARY value_expression`, /repo/sqlparser/parser.y:2999. -/
def rule575 (d : Nat → SymType) : SymType :=
  (d 1).setExpr (Go.UnaryExpr (Operator := lit "_binary ") (E := (d 2).expr))

/-- `value_expression: '+' value_expression`, /repo/sqlparser/parser.y:3003. -/
def rule576 (d : Nat → SymType) : SymType :=
  (d 1).setExpr (Go.unaryPlus (d 2).expr)

/-- `value_expression: '-' value_expression`, /repo/sqlparser/parser.y:3011. -/
def rule577 (d : Nat → SymType) : SymType :=
  (d 1).setExpr (Go.unaryMinus (d 2).expr)

/-- `value_expression: '~' value_expression`, /repo/sqlparser/parser.y:3025. -/
def rule578 (d : Nat → SymType) : SymType :=
  (d 1).setExpr (Go.UnaryExpr (Operator := lit "~") (E := (d 2).expr))

/-- `value_expression: '!' value_expression`, /repo/sqlparser/parser.y:3029. -/
def rule579 (d : Nat → SymType) : SymType :=
  (d 1).setExpr (Go.UnaryExpr (Operator := lit "!") (E := (d 2).expr))

/-- `value_expression: INTERVAL value_expression sql_id`, /repo/sqlparser/parser.y:3033. -/
def rule580 (d : Nat → SymType) : SymType :=
  (d 1).setExpr (Go.IntervalExpr (E := (d 2).expr) (Unit := (d 3).colIdent))

/-- `value_expression: value_expression TYPECAST simple_convert_type`, /repo/sqlparser/parser.y:3041. -/
def rule581 (d : Nat → SymType) : SymType :=
  (d 1).setExpr (Go.ConvertExpr (E := (d 1).expr) (Ty := (d 3).convertType))

/-- `function_call_generic: sql_id openb select_expression_list_opt closeb`, /repo/sqlparser/parser.y:3055. -/
def rule586 (d : Nat → SymType) : SymType :=
  (d 1).setExpr (Go.FuncExpr (Name := (d 1).colIdent) (Exprs := (d 3).selectExprs))

/-- `function_call_generic: sql_id openb DISTINCT select_expression_list closeb`, /repo/sqlparser/parser.y:3059. -/
def rule587 (d : Nat → SymType) : SymType :=
  (d 1).setExpr (Go.FuncExpr (Name := (d 1).colIdent) (Distinct := true) (Exprs := (d 4).selectExprs))

/-- `function_call_generic: table_id '.' reserved_sql_id openb select_expression_list_opt closeb`, /repo/sqlparser/parser.y:3063. -/
def rule588 (d : Nat → SymType) : SymType :=
  (d 1).setExpr (Go.FuncExpr (Qualifier := (d 1).tableIdent) (Name := (d 3).colIdent) (Exprs := (d 5).selectExprs))

/-- `function_call_keyword: LEFT openb select_expression_list closeb`, /repo/sqlparser/parser.y:3073. -/
def rule589 (d : Nat → SymType) : SymType :=
  (d 1).setExpr (Go.FuncExpr (Name := lit "left") (Exprs := (d 3).selectExprs))

/-- `function_call_keyword: RIGHT openb select_expression_list closeb`, /repo/sqlparser/parser.y:3077. -/
def rule590 (d : Nat → SymType) : SymType :=
  (d 1).setExpr (Go.FuncExpr (Name := lit "right") (Exprs := (d 3).selectExprs))

/-- `function_call_keyword: CONVERT openb expression ',' convert_type closeb`, /repo/sqlparser/parser.y:3081. -/
def rule591 (d : Nat → SymType) : SymType :=
  (d 1).setExpr (Go.ConvertExpr (E := (d 3).expr) (Ty := (d 5).convertType))

/-- `function_call_keyword: CAST openb expression AS convert_type closeb`, /repo/sqlparser/parser.y:3085. -/
def rule592 (d : Nat → SymType) : SymType :=
  (d 1).setExpr (Go.ConvertExpr (E := (d 3).expr) (Ty := (d 5).convertType))

/-- `function_call_keyword: CONVERT openb expression USING charset closeb`, /repo/sqlparser/parser.y:3089. -/
def rule593 (d : Nat → SymType) : SymType :=
  (d 1).setExpr (Go.ConvertUsingExpr (E := (d 3).expr) (Ty := (d 5).str))

/-- `function_call_keyword: SUBSTR openb column_name ',' value_expression closeb`, /repo/sqlparser/parser.y:3093. -/
def rule594 (d : Nat → SymType) : SymType :=
  (d 1).setExpr (Go.SubstrExpr (Name := (d 3).colName) (From := (d 5).expr) (To := none))

/-- `function_call_keyword: SUBSTR openb column_name ',' value_expression ',' value_expression closeb`, /repo/sqlparser/parser.y:3097. -/
def rule595 (d : Nat → SymType) : SymType :=
  (d 1).setExpr (Go.SubstrExpr (Name := (d 3).colName) (From := (d 5).expr) (To := (d 7).expr))

/-- `function_call_keyword: SUBSTR openb column_name FROM value_expression FOR value_expression closeb`, /repo/sqlparser/parser.y:3101. -/
def rule596 (d : Nat → SymType) : SymType :=
  (d 1).setExpr (Go.SubstrExpr (Name := (d 3).colName) (From := (d 5).expr) (To := (d 7).expr))

/-- `function_call_keyword: SUBSTRING openb column_name ',' value_expression closeb`, /repo/sqlparser/parser.y:3105. -/
def rule597 (d : Nat → SymType) : SymType :=
  (d 1).setExpr (Go.SubstrExpr (Name := (d 3).colName) (From := (d 5).expr) (To := none))

/-- `function_call_keyword: SUBSTRING openb column_name ',' value_expression ',' value_expression closeb`, /repo/sqlparser/parser.y:3109. -/
def rule598 (d : Nat → SymType) : SymType :=
  (d 1).setExpr (Go.SubstrExpr (Name := (d 3).colName) (From := (d 5).expr) (To := (d 7).expr))

/-- `function_call_keyword: SUBSTRING openb column_name FROM value_expression FOR value_expression closeb`, /repo/sqlparser/parser.y:3113. -/
def rule599 (d : Nat → SymType) : SymType :=
  (d 1).setExpr (Go.SubstrExpr (Name := (d 3).colName) (From := (d 5).expr) (To := (d 7).expr))

/-- `function_call_keyword: MATCH openb select_expression_list closeb AGAINST openb value_expression match_option closeb`, /repo/sqlparser/parser.y:3117. -/
def rule600 (d : Nat → SymType) : SymType :=
  (d 1).setExpr (Go.MatchExpr (Columns := (d 3).selectExprs) (E := (d 7).expr) (Opt := (d 8).str))

/-- `function_call_keyword: GROUP_CONCAT openb distinct_opt select_expression_list order_by_opt separator_opt closeb`, /repo/sqlparser/parser.y:3121. -/
def rule601 (d : Nat → SymType) : SymType :=
  (d 1).setExpr (Go.GroupConcatExpr (Distinct := (d 3).str) (Exprs := (d 4).selectExprs) (OrderBy := (d 5).orderBy) (Separator := (d 6).str))

/-- `function_call_keyword: CASE expression_opt when_expression_list else_expression_opt END`, /repo/sqlparser/parser.y:3125. -/
def rule602 (d : Nat → SymType) : SymType :=
  (d 1).setExpr (Go.CaseExpr (E := (d 2).expr) (Whens := (d 3).whens) (Else := (d 4).expr))

/-- `function_call_keyword: VALUES openb column_name closeb`, /repo/sqlparser/parser.y:3129. -/
def rule603 (d : Nat → SymType) : SymType :=
  (d 1).setExpr (Go.ValuesFuncExpr (Name := (d 3).colName))

/-- `function_call_nonkeyword: CURRENT_TIMESTAMP func_datetime_precision_opt`, /repo/sqlparser/parser.y:3139. -/
def rule604 (d : Nat → SymType) : SymType :=
  (d 1).setExpr (Go.FuncExpr (Name := lit "current_timestamp"))

/-- `function_call_nonkeyword: UTC_TIMESTAMP func_datetime_precision_opt`, /repo/sqlparser/parser.y:3143. -/
def rule605 (d : Nat → SymType) : SymType :=
  (d 1).setExpr (Go.FuncExpr (Name := lit "utc_timestamp"))

/-- `function_call_nonkeyword: UTC_TIME func_datetime_precision_opt`, /repo/sqlparser/parser.y:3147. -/
def rule606 (d : Nat → SymType) : SymType :=
  (d 1).setExpr (Go.FuncExpr (Name := lit "utc_time"))

/-- `function_call_nonkeyword: UTC_DATE func_datetime_precision_opt`, /repo/sqlparser/parser.y:3151. -/
def rule607 (d : Nat → SymType) : SymType :=
  (d 1).setExpr (Go.FuncExpr (Name := lit "utc_date"))

/-- `function_call_nonkeyword: LOCALTIME func_datetime_precision_opt`, /repo/sqlparser/parser.y:3156. -/
def rule608 (d : Nat → SymType) : SymType :=
  (d 1).setExpr (Go.FuncExpr (Name := lit "localtime"))

/-- `function_call_nonkeyword: LOCALTIMESTAMP func_datetime_precision_opt`, /repo/sqlparser/parser.y:3161. -/
def rule609 (d : Nat → SymType) : SymType :=
  (d 1).setExpr (Go.FuncExpr (Name := lit "localtimestamp"))

/-- `function_call_nonkeyword: CURRENT_DATE func_datetime_precision_opt`, /repo/sqlparser/parser.y:3166. -/
def rule610 (d : Nat → SymType) : SymType :=
  (d 1).setExpr (Go.FuncExpr (Name := lit "current_date"))

/-- `function_call_nonkeyword: CURRENT_TIME func_datetime_precision_opt`, /repo/sqlparser/parser.y:3171. -/
def rule611 (d : Nat → SymType) : SymType :=
  (d 1).setExpr (Go.FuncExpr (Name := lit "current_time"))

/-- `function_call_nonkeyword: TYPECAST simple_convert_type`, /repo/sqlparser/parser.y:3175. -/
def rule612 (d : Nat → SymType) : SymType :=
  (d 1).setExpr (Go.ConvertExpr (Ty := (d 2).convertType))

/-- `function_call_conflict: IF openb select_expression_list closeb`, /repo/sqlparser/parser.y:3189. -/
def rule615 (d : Nat → SymType) : SymType :=
  (d 1).setExpr (Go.FuncExpr (Name := lit "if") (Exprs := (d 3).selectExprs))

/-- `function_call_conflict: DATABASE openb select_expression_list_opt closeb`, /repo/sqlparser/parser.y:3193. -/
def rule616 (d : Nat → SymType) : SymType :=
  (d 1).setExpr (Go.FuncExpr (Name := lit "database") (Exprs := (d 3).selectExprs))

/-- `function_call_conflict: MOD openb select_expression_list closeb`, /repo/sqlparser/parser.y:3197. -/
def rule617 (d : Nat → SymType) : SymType :=
  (d 1).setExpr (Go.FuncExpr (Name := lit "mod") (Exprs := (d 3).selectExprs))

/-- `function_call_conflict: REPLACE openb select_expression_list closeb`, /repo/sqlparser/parser.y:3201. -/
def rule618 (d : Nat → SymType) : SymType :=
  (d 1).setExpr (Go.FuncExpr (Name := lit "replace") (Exprs := (d 3).selectExprs))

/-- `match_option: `, /repo/sqlparser/parser.y:3206. -/
def rule619 (d : Nat → SymType) : SymType :=
  (d 1).setStr (lit "")

/-- `match_option: IN BOOLEAN MODE`, /repo/sqlparser/parser.y:3211. -/
def rule620 (d : Nat → SymType) : SymType :=
  (d 1).setStr (lit " in boolean mode")

/-- `match_option: IN NATURAL LANGUAGE MODE`, /repo/sqlparser/parser.y:3215. -/
def rule621 (d : Nat → SymType) : SymType :=
  (d 1).setStr (lit " in natural language mode")

/-- `match_option: IN NATURAL LANGUAGE MODE WITH QUERY EXPANSION`, /repo/sqlparser/parser.y:3219. -/
def rule622 (d : Nat → SymType) : SymType :=
  (d 1).setStr (lit " in natural language mode with query expansion")

/-- `match_option: WITH QUERY EXPANSION`, /repo/sqlparser/parser.y:3223. -/
def rule623 (d : Nat → SymType) : SymType :=
  (d 1).setStr (lit " with query expansion")

/-- `charset: ID`, /repo/sqlparser/parser.y:3229. -/
def rule624 (d : Nat → SymType) : SymType :=
  (d 1).setStr ((d 1).bytes)

/-- `charset: STRING`, /repo/sqlparser/parser.y:3233. -/
def rule625 (d : Nat → SymType) : SymType :=
  (d 1).setStr ((d 1).bytes)

/-- `convert_type: BINARY length_opt`, /repo/sqlparser/parser.y:3239. -/
def rule626 (d : Nat → SymType) : SymType :=
  (d 1).setConvertType ({ Ty := (d 1).bytes, Length := (d 2).optVal } : Go.ConvertType)

/-- `convert_type: CHAR length_opt charset_opt`, /repo/sqlparser/parser.y:3243. -/
def rule627 (d : Nat → SymType) : SymType :=
  (d 1).setConvertType ({ Ty := (d 1).bytes, Length := (d 2).optVal, Charset := (d 3).str, Operator := lit " character set" } : Go.ConvertType)

/-- `convert_type: CHAR length_opt ID`, /repo/sqlparser/parser.y:3247. -/
def rule628 (d : Nat → SymType) : SymType :=
  (d 1).setConvertType ({ Ty := (d 1).bytes, Length := (d 2).optVal, Charset := (d 3).bytes } : Go.ConvertType)

/-- `convert_type: DATE`, /repo/sqlparser/parser.y:3251. -/
def rule629 (d : Nat → SymType) : SymType :=
  (d 1).setConvertType ({ Ty := (d 1).bytes } : Go.ConvertType)

/-- `convert_type: DATETIME length_opt`, /repo/sqlparser/parser.y:3255. -/
def rule630 (d : Nat → SymType) : SymType :=
  (d 1).setConvertType ({ Ty := (d 1).bytes, Length := (d 2).optVal } : Go.ConvertType)

/-- `convert_type: DECIMAL decimal_length_opt`, /repo/sqlparser/parser.y:3259. -/
def rule631 (d : Nat → SymType) : SymType :=
  (d 1).setConvertType { ({ Ty := (d 1).bytes } : Go.ConvertType) with Length := ((d 2).lengthScale).Length, Scale := ((d 2).lengthScale).Scale }

/-- `convert_type: JSON`, /repo/sqlparser/parser.y:3265. -/
def rule632 (d : Nat → SymType) : SymType :=
  (d 1).setConvertType ({ Ty := (d 1).bytes } : Go.ConvertType)

/-- `convert_type: JSONB`, /repo/sqlparser/parser.y:3269. -/
def rule633 (d : Nat → SymType) : SymType :=
  (d 1).setConvertType ({ Ty := (d 1).bytes } : Go.ConvertType)

/-- `convert_type: NCHAR length_opt`, /repo/sqlparser/parser.y:3273. -/
def rule634 (d : Nat → SymType) : SymType :=
  (d 1).setConvertType ({ Ty := (d 1).bytes, Length := (d 2).optVal } : Go.ConvertType)

/-- `convert_type: SIGNED`, /repo/sqlparser/parser.y:3277. -/
def rule635 (d : Nat → SymType) : SymType :=
  (d 1).setConvertType ({ Ty := (d 1).bytes } : Go.ConvertType)

/-- `convert_type: SIGNED INTEGER`, /repo/sqlparser/parser.y:3281. -/
def rule636 (d : Nat → SymType) : SymType :=
  (d 1).setConvertType ({ Ty := (d 1).bytes } : Go.ConvertType)

/-- `convert_type: TIME length_opt`, /repo/sqlparser/parser.y:3285. -/
def rule637 (d : Nat → SymType) : SymType :=
  (d 1).setConvertType ({ Ty := (d 1).bytes, Length := (d 2).optVal } : Go.ConvertType)

/-- `convert_type: UNSIGNED`, /repo/sqlparser/parser.y:3289. -/
def rule638 (d : Nat → SymType) : SymType :=
  (d 1).setConvertType ({ Ty := (d 1).bytes } : Go.ConvertType)

/-- `convert_type: UNSIGNED INTEGER`, /repo/sqlparser/parser.y:3293. -/
def rule639 (d : Nat → SymType) : SymType :=
  (d 1).setConvertType ({ Ty := (d 1).bytes } : Go.ConvertType)

/-- `simple_convert_type: BINARY`, /repo/sqlparser/parser.y:3299. -/
def rule640 (d : Nat → SymType) : SymType :=
  (d 1).setConvertType ({ Ty := (d 1).bytes } : Go.ConvertType)

/-- `simple_convert_type: CHARACTER VARYING`, /repo/sqlparser/parser.y:3303. -/
def rule641 (d : Nat → SymType) : SymType :=
  (d 1).setConvertType ({ Ty := (d 1).bytes ++ (lit " ") ++ ((d 2).bytes) } : Go.ConvertType)

/-- `simple_convert_type: DATE`, /repo/sqlparser/parser.y:3307. -/
def rule642 (d : Nat → SymType) : SymType :=
  (d 1).setConvertType ({ Ty := (d 1).bytes } : Go.ConvertType)

/-- `simple_convert_type: DATETIME`, /repo/sqlparser/parser.y:3311. -/
def rule643 (d : Nat → SymType) : SymType :=
  (d 1).setConvertType ({ Ty := (d 1).bytes } : Go.ConvertType)

/-- `simple_convert_type: int_type`, /repo/sqlparser/parser.y:3315. -/
def rule644 (d : Nat → SymType) : SymType :=
  (d 1).setConvertType ({ Ty := ((d 1).columnType).type } : Go.ConvertType)

/-- `simple_convert_type: bool_type`, /repo/sqlparser/parser.y:3319. -/
def rule645 (d : Nat → SymType) : SymType :=
  (d 1).setConvertType ({ Ty := ((d 1).columnType).type } : Go.ConvertType)

/-- `simple_convert_type: TEXT`, /repo/sqlparser/parser.y:3323. -/
def rule646 (d : Nat → SymType) : SymType :=
  (d 1).setConvertType ({ Ty := (d 1).bytes } : Go.ConvertType)

/-- `expression_opt: `, /repo/sqlparser/parser.y:3328. -/
def rule647 (d : Nat → SymType) : SymType :=
  (d 1).setExpr none

/-- `expression_opt: expression`, /repo/sqlparser/parser.y:3332. -/
def rule648 (d : Nat → SymType) : SymType :=
  (d 1).setExpr ((d 1).expr)

/-- `separator_opt: `, /repo/sqlparser/parser.y:3337. -/
def rule649 (d : Nat → SymType) : SymType :=
  (d 1).setStr (lit "")

/-- `separator_opt: SEPARATOR STRING`, /repo/sqlparser/parser.y:3341. -/
def rule650 (d : Nat → SymType) : SymType :=
  (d 1).setStr (lit " separator '" ++ ((d 2).bytes) ++ (lit "'"))

/-- `when_expression_list: when_expression`, /repo/sqlparser/parser.y:3347. -/
def rule651 (d : Nat → SymType) : SymType :=
  (d 1).setWhens [(d 1).when_]

/-- `when_expression_list: when_expression_list when_expression`, /repo/sqlparser/parser.y:3351. -/
def rule652 (d : Nat → SymType) : SymType :=
  (d 1).setWhens ((d 1).whens ++ [(d 2).when_])

/-- `when_expression: WHEN expression THEN expression`, /repo/sqlparser/parser.y:3357. -/
def rule653 (d : Nat → SymType) : SymType :=
  (d 1).setWhen_ (Go.When (Cond := (d 2).expr) (Val := (d 4).expr))

/-- `else_expression_opt: `, /repo/sqlparser/parser.y:3362. -/
def rule654 (d : Nat → SymType) : SymType :=
  (d 1).setExpr none

/-- `else_expression_opt: ELSE expression`, /repo/sqlparser/parser.y:3366. -/
def rule655 (d : Nat → SymType) : SymType :=
  (d 1).setExpr ((d 2).expr)

/-- `column_name: sql_id`, /repo/sqlparser/parser.y:3372. -/
def rule656 (d : Nat → SymType) : SymType :=
  (d 1).setColName ({ Name := (d 1).colIdent } : Go.ColName)

/-- `column_name: table_id '.' reserved_sql_id`, /repo/sqlparser/parser.y:3376. -/
def rule657 (d : Nat → SymType) : SymType :=
  (d 1).setColName ({ Qualifier := ({ name := (d 1).tableIdent } : SqlTableName), Name := (d 3).colIdent } : Go.ColName)

/-- `column_name: table_id '.' reserved_table_id '.' reserved_sql_id`, /repo/sqlparser/parser.y:3380. -/
def rule658 (d : Nat → SymType) : SymType :=
  (d 1).setColName ({ Qualifier := ({ qualifier := (d 1).tableIdent, name := (d 3).tableIdent } : SqlTableName), Name := (d 5).colIdent } : Go.ColName)

/-- `value: STRING`, /repo/sqlparser/parser.y:3386. -/
def rule659 (d : Nat → SymType) : SymType :=
  (d 1).setExpr (Go.valExpr (Go.NewStrVal ((d 1).bytes)))

/-- `value: HEX`, /repo/sqlparser/parser.y:3390. -/
def rule660 (d : Nat → SymType) : SymType :=
  (d 1).setExpr (Go.valExpr (Go.NewHexVal ((d 1).bytes)))

/-- `value: BIT_LITERAL`, /repo/sqlparser/parser.y:3394. -/
def rule661 (d : Nat → SymType) : SymType :=
  (d 1).setExpr (Go.valExpr (Go.NewBitVal ((d 1).bytes)))

/-- `value: INTEGRAL`, /repo/sqlparser/parser.y:3398. -/
def rule662 (d : Nat → SymType) : SymType :=
  (d 1).setExpr (Go.valExpr (Go.NewIntVal ((d 1).bytes)))

/-- `value: FLOAT`, /repo/sqlparser/parser.y:3402. -/
def rule663 (d : Nat → SymType) : SymType :=
  (d 1).setExpr (Go.valExpr (Go.NewFloatVal ((d 1).bytes)))

/-- `value: HEXNUM`, /repo/sqlparser/parser.y:3406. -/
def rule664 (d : Nat → SymType) : SymType :=
  (d 1).setExpr (Go.valExpr (Go.NewHexNum ((d 1).bytes)))

/-- `value: VALUE_ARG`, /repo/sqlparser/parser.y:3410. -/
def rule665 (d : Nat → SymType) : SymType :=
  (d 1).setExpr (Go.valExpr (Go.NewValArg ((d 1).bytes)))

/-- `value: NULL`, /repo/sqlparser/parser.y:3414. -/
def rule666 (d : Nat → SymType) : SymType :=
  (d 1).setExpr Go.NullVal

/-- `num_val: sql_id`, /repo/sqlparser/parser.y:3420. The test of the word is in `Sql.act`. -/
def rule667 (d : Nat → SymType) : SymType :=
  (d 1).setExpr (Go.valExpr (Go.NewIntVal (lit "1")))

/-- `num_val: INTEGRAL VALUES`, /repo/sqlparser/parser.y:3429. -/
def rule668 (d : Nat → SymType) : SymType :=
  (d 1).setExpr (Go.valExpr (Go.NewIntVal ((d 1).bytes)))

/-- `num_val: VALUE_ARG VALUES`, /repo/sqlparser/parser.y:3433. -/
def rule669 (d : Nat → SymType) : SymType :=
  (d 1).setExpr (Go.valExpr (Go.NewValArg ((d 1).bytes)))

/-- `group_by_opt: `, /repo/sqlparser/parser.y:3438. -/
def rule670 (d : Nat → SymType) : SymType :=
  (d 1).setExprs []

/-- `group_by_opt: GROUP BY expression_list`, /repo/sqlparser/parser.y:3442. -/
def rule671 (d : Nat → SymType) : SymType :=
  (d 1).setExprs ((d 3).exprs)

/-- `having_opt: `, /repo/sqlparser/parser.y:3447. -/
def rule672 (d : Nat → SymType) : SymType :=
  (d 1).setExpr none

/-- `having_opt: HAVING expression`, /repo/sqlparser/parser.y:3451. -/
def rule673 (d : Nat → SymType) : SymType :=
  (d 1).setExpr ((d 2).expr)

/-- `order_by_opt: `, /repo/sqlparser/parser.y:3456. -/
def rule674 (d : Nat → SymType) : SymType :=
  (d 1).setOrderBy []

/-- `order_by_opt: ORDER BY order_list`, /repo/sqlparser/parser.y:3460. -/
def rule675 (d : Nat → SymType) : SymType :=
  (d 1).setOrderBy ((d 3).orderBy)

/-- `order_list: order`, /repo/sqlparser/parser.y:3466. -/
def rule676 (d : Nat → SymType) : SymType :=
  (d 1).setOrderBy [(d 1).order_]

/-- `order_list: order_list ',' order`, /repo/sqlparser/parser.y:3470. -/
def rule677 (d : Nat → SymType) : SymType :=
  (d 1).setOrderBy ((d 1).orderBy ++ [(d 3).order_])

/-- `order: expression asc_desc_opt`, /repo/sqlparser/parser.y:3476. -/
def rule678 (d : Nat → SymType) : SymType :=
  (d 1).setOrder_ (Go.Order (E := (d 1).expr) (Direction := (d 2).str))

/-- `asc_desc_opt: `, /repo/sqlparser/parser.y:3481. -/
def rule679 (d : Nat → SymType) : SymType :=
  (d 1).setStr (lit "asc")

/-- `asc_desc_opt: ASC`, /repo/sqlparser/parser.y:3485. -/
def rule680 (d : Nat → SymType) : SymType :=
  (d 1).setStr (lit "asc")

/-- `asc_desc_opt: DESC`, /repo/sqlparser/parser.y:3489. -/
def rule681 (d : Nat → SymType) : SymType :=
  (d 1).setStr (lit "desc")

/-- `limit_opt: `, /repo/sqlparser/parser.y:3494. -/
def rule682 (d : Nat → SymType) : SymType :=
  (d 1).setLimit (some [])

/-- `limit_opt: LIMIT expression`, /repo/sqlparser/parser.y:3498. -/
def rule683 (d : Nat → SymType) : SymType :=
  (d 1).setLimit (Go.Limit (Rowcount := (d 2).expr))

/-- `limit_opt: LIMIT expression ',' expression`, /repo/sqlparser/parser.y:3502. -/
def rule684 (d : Nat → SymType) : SymType :=
  (d 1).setLimit (Go.Limit (Offset := (d 2).expr) (Rowcount := (d 4).expr))

/-- `limit_opt: LIMIT expression OFFSET expression`, /repo/sqlparser/parser.y:3506. -/
def rule685 (d : Nat → SymType) : SymType :=
  (d 1).setLimit (Go.Limit (Offset := (d 4).expr) (Rowcount := (d 2).expr))

/-- `lock_opt: `, /repo/sqlparser/parser.y:3511. -/
def rule686 (d : Nat → SymType) : SymType :=
  (d 1).setStr (lit "")

/-- `lock_opt: FOR UPDATE`, /repo/sqlparser/parser.y:3515. -/
def rule687 (d : Nat → SymType) : SymType :=
  (d 1).setStr (lit " for update")

/-- `lock_opt: LOCK IN SHARE MODE`, /repo/sqlparser/parser.y:3519. -/
def rule688 (d : Nat → SymType) : SymType :=
  (d 1).setStr (lit " lock in share mode")

/-- `insert_data: VALUES tuple_list`, /repo/sqlparser/parser.y:3532. -/
def rule689 (d : Nat → SymType) : SymType :=
  (d 1).setIns ({ Rows := Go.formatValues ((d 2).values) } : Go.Insert)

/-- `insert_data: select_statement`, /repo/sqlparser/parser.y:3536. -/
def rule690 (d : Nat → SymType) : SymType :=
  (d 1).setIns ({ Rows := (d 1).selStmt } : Go.Insert)

/-- `insert_data: openb select_statement closeb`, /repo/sqlparser/parser.y:3540. -/
def rule691 (d : Nat → SymType) : SymType :=
  (d 1).setIns ({ Rows := (d 2).selStmt } : Go.Insert)

/-- `insert_data: openb ins_column_list closeb VALUES tuple_list`, /repo/sqlparser/parser.y:3545. -/
def rule692 (d : Nat → SymType) : SymType :=
  (d 1).setIns ({ Columns := (d 2).columns, Rows := Go.formatValues ((d 5).values) } : Go.Insert)

/-- `insert_data: openb ins_column_list closeb select_statement`, /repo/sqlparser/parser.y:3549. -/
def rule693 (d : Nat → SymType) : SymType :=
  (d 1).setIns ({ Columns := (d 2).columns, Rows := (d 4).selStmt } : Go.Insert)

/-- `insert_data: openb ins_column_list closeb openb select_statement closeb`, /repo/sqlparser/parser.y:3553. -/
def rule694 (d : Nat → SymType) : SymType :=
  (d 1).setIns ({ Columns := (d 2).columns, Rows := (d 5).selStmt } : Go.Insert)

/-- `ins_column_list: sql_id`, /repo/sqlparser/parser.y:3560. -/
def rule695 (d : Nat → SymType) : SymType :=
  (d 1).setColumns [(d 1).colIdent]

/-- `ins_column_list: sql_id '.' sql_id`, /repo/sqlparser/parser.y:3564. -/
def rule696 (d : Nat → SymType) : SymType :=
  (d 1).setColumns [(d 3).colIdent]

/-- `ins_column_list: ins_column_list ',' sql_id`, /repo/sqlparser/parser.y:3568. -/
def rule697 (d : Nat → SymType) : SymType :=
  (d 1).setColumns ((d 1).columns ++ [(d 3).colIdent])

/-- `ins_column_list: ins_column_list ',' sql_id '.' sql_id`, /repo/sqlparser/parser.y:3572. -/
def rule698 (d : Nat → SymType) : SymType :=
  (d 1).setColumns ((d 1).columns ++ [(d 5).colIdent])

/-- `on_dup_opt: `, /repo/sqlparser/parser.y:3577. -/
def rule699 (d : Nat → SymType) : SymType :=
  (d 1).setUpdateExprs []

/-- `on_dup_opt: ON DUPLICATE KEY UPDATE update_list`, /repo/sqlparser/parser.y:3581. -/
def rule700 (d : Nat → SymType) : SymType :=
  (d 1).setUpdateExprs ((d 5).updateExprs)

/-- `tuple_list: tuple_or_empty`, /repo/sqlparser/parser.y:3587. -/
def rule701 (d : Nat → SymType) : SymType :=
  (d 1).setValues [(d 1).valTuple]

/-- `tuple_list: tuple_list ',' tuple_or_empty`, /repo/sqlparser/parser.y:3591. -/
def rule702 (d : Nat → SymType) : SymType :=
  (d 1).setValues ((d 1).values ++ [(d 3).valTuple])

/-- `tuple_or_empty: row_tuple`, /repo/sqlparser/parser.y:3597. -/
def rule703 (d : Nat → SymType) : SymType :=
  (d 1).setValTuple ((d 1).valTuple)

/-- `tuple_or_empty: openb closeb`, /repo/sqlparser/parser.y:3601. -/
def rule704 (d : Nat → SymType) : SymType :=
  (d 1).setValTuple []

/-- `row_tuple: openb expression_list closeb`, /repo/sqlparser/parser.y:3607. -/
def rule705 (d : Nat → SymType) : SymType :=
  (d 1).setValTuple ((d 2).exprs)

/-- `tuple_expression: row_tuple`, /repo/sqlparser/parser.y:3613. -/
def rule706 (d : Nat → SymType) : SymType :=
  (d 1).setExpr (Go.tupleOrParen (d 1).valTuple)

/-- `update_list: update_expression`, /repo/sqlparser/parser.y:3623. -/
def rule707 (d : Nat → SymType) : SymType :=
  (d 1).setUpdateExprs [(d 1).updateExpr]

/-- `update_list: update_list ',' update_expression`, /repo/sqlparser/parser.y:3627. -/
def rule708 (d : Nat → SymType) : SymType :=
  (d 1).setUpdateExprs ((d 1).updateExprs ++ [(d 3).updateExpr])

/-- `update_expression: column_name '=' expression`, /repo/sqlparser/parser.y:3633. -/
def rule709 (d : Nat → SymType) : SymType :=
  (d 1).setUpdateExpr ({ Name := (d 1).colName, E := (d 3).expr } : Go.UpdateExpr)

/-- `charset_or_character_set: CHARACTER SET`, /repo/sqlparser/parser.y:3668. -/
def rule717 (d : Nat → SymType) : SymType :=
  (d 1).setBytes (lit "charset")

/-- `charset_value: sql_id`, /repo/sqlparser/parser.y:3675. -/
def rule719 (d : Nat → SymType) : SymType :=
  (d 1).setExpr (Go.valExpr (Go.NewStrVal ((d 1).colIdent)))

/-- `charset_value: STRING`, /repo/sqlparser/parser.y:3679. -/
def rule720 (d : Nat → SymType) : SymType :=
  (d 1).setExpr (Go.valExpr (Go.NewStrVal ((d 1).bytes)))

/-- `charset_value: DEFAULT`, /repo/sqlparser/parser.y:3683. -/
def rule721 (d : Nat → SymType) : SymType :=
  (d 1).setExpr Go.Default

/-- `exists_opt: `, /repo/sqlparser/parser.y:3692. -/
def rule724 (d : Nat → SymType) : SymType :=
  (d 1).setByt 0

/-- `exists_opt: IF EXISTS`, /repo/sqlparser/parser.y:3694. -/
def rule725 (d : Nat → SymType) : SymType :=
  (d 1).setByt 1

/-- `ignore_opt: `, /repo/sqlparser/parser.y:3702. -/
def rule728 (d : Nat → SymType) : SymType :=
  (d 1).setStr (lit "")

/-- `ignore_opt: IGNORE`, /repo/sqlparser/parser.y:3704. -/
def rule729 (d : Nat → SymType) : SymType :=
  (d 1).setStr (lit "ignore ")

/-- `sql_id: ID`, /repo/sqlparser/parser.y:3743. -/
def rule745 (d : Nat → SymType) : SymType :=
  (d 1).setColIdent ((d 1).bytes)

/-- `sql_id: non_reserved_keyword`, /repo/sqlparser/parser.y:3747. -/
def rule746 (d : Nat → SymType) : SymType :=
  (d 1).setColIdent ((d 1).bytes)

/-- `reserved_sql_id: reserved_keyword`, /repo/sqlparser/parser.y:3754. -/
def rule748 (d : Nat → SymType) : SymType :=
  (d 1).setColIdent ((d 1).bytes)

/-- `table_id: ID`, /repo/sqlparser/parser.y:3760. -/
def rule749 (d : Nat → SymType) : SymType :=
  (d 1).setTableIdent ((d 1).bytes)

/-- `table_id: non_reserved_keyword`, /repo/sqlparser/parser.y:3764. -/
def rule750 (d : Nat → SymType) : SymType :=
  (d 1).setTableIdent ((d 1).bytes)

/-- `reserved_table_id: reserved_keyword`, /repo/sqlparser/parser.y:3771. -/
def rule752 (d : Nat → SymType) : SymType :=
  (d 1).setTableIdent ((d 1).bytes)

/-- The value of the left-hand side of a rule, the `switch` of /repo/sqlparser/parser.go:3408-7848. -/
def value (r : Nat) (d : Nat → SymType) : SymType :=
  bif Nat.blt r 393 then (bif Nat.blt r 204 then (bif Nat.blt r 115 then (bif Nat.blt r 69 then (bif Nat.blt r 39 then (bif Nat.blt r 29 then (bif Nat.blt r 24 then (bif Nat.blt r 5 then (bif Nat.blt r 4 then d 1
          else rule4 d)
         else (bif Nat.blt r 22 then d 1
          else (bif Nat.blt r 23 then rule22 d
           else rule23 d)))
        else (bif Nat.blt r 26 then (bif Nat.blt r 25 then rule24 d
          else rule25 d)
         else (bif Nat.blt r 27 then rule26 d
          else (bif Nat.blt r 28 then rule27 d
           else rule28 d))))
       else (bif Nat.blt r 34 then (bif Nat.blt r 31 then (bif Nat.blt r 30 then rule29 d
          else rule30 d)
         else (bif Nat.blt r 32 then rule31 d
          else (bif Nat.blt r 33 then rule32 d
           else rule33 d)))
        else (bif Nat.blt r 36 then (bif Nat.blt r 35 then rule34 d
          else rule35 d)
         else (bif Nat.blt r 37 then rule36 d
          else (bif Nat.blt r 38 then rule37 d
           else rule38 d)))))
      else (bif Nat.blt r 58 then (bif Nat.blt r 45 then (bif Nat.blt r 42 then (bif Nat.blt r 41 then d 1
          else rule41 d)
         else (bif Nat.blt r 43 then rule42 d
          else (bif Nat.blt r 44 then rule43 d
           else rule44 d)))
        else (bif Nat.blt r 47 then (bif Nat.blt r 46 then rule45 d
          else rule46 d)
         else (bif Nat.blt r 48 then rule47 d
          else (bif Nat.blt r 49 then rule48 d
           else d 1))))
       else (bif Nat.blt r 63 then (bif Nat.blt r 60 then (bif Nat.blt r 59 then rule58 d
          else rule59 d)
         else (bif Nat.blt r 61 then rule60 d
          else (bif Nat.blt r 62 then rule61 d
           else rule62 d)))
        else (bif Nat.blt r 66 then (bif Nat.blt r 64 then rule63 d
          else (bif Nat.blt r 65 then rule64 d
           else rule65 d))
         else (bif Nat.blt r 67 then rule66 d
          else (bif Nat.blt r 68 then rule67 d
           else rule68 d))))))
     else (bif Nat.blt r 90 then (bif Nat.blt r 79 then (bif Nat.blt r 74 then (bif Nat.blt r 71 then (bif Nat.blt r 70 then rule69 d
          else rule70 d)
         else (bif Nat.blt r 72 then rule71 d
          else (bif Nat.blt r 73 then rule72 d
           else rule73 d)))
        else (bif Nat.blt r 76 then (bif Nat.blt r 75 then rule74 d
          else rule75 d)
         else (bif Nat.blt r 77 then rule76 d
          else (bif Nat.blt r 78 then rule77 d
           else rule78 d))))
       else (bif Nat.blt r 85 then (bif Nat.blt r 82 then (bif Nat.blt r 81 then d 1
          else rule81 d)
         else (bif Nat.blt r 83 then rule82 d
          else (bif Nat.blt r 84 then rule83 d
           else rule84 d)))
        else (bif Nat.blt r 87 then (bif Nat.blt r 86 then rule85 d
          else rule86 d)
         else (bif Nat.blt r 88 then rule87 d
          else (bif Nat.blt r 89 then rule88 d
           else rule89 d)))))
      else (bif Nat.blt r 104 then (bif Nat.blt r 95 then (bif Nat.blt r 92 then (bif Nat.blt r 91 then rule90 d
          else rule91 d)
         else (bif Nat.blt r 93 then rule92 d
          else (bif Nat.blt r 94 then rule93 d
           else rule94 d)))
        else (bif Nat.blt r 97 then (bif Nat.blt r 96 then rule95 d
          else rule96 d)
         else (bif Nat.blt r 98 then rule97 d
          else (bif Nat.blt r 99 then rule98 d
           else d 1))))
       else (bif Nat.blt r 109 then (bif Nat.blt r 106 then (bif Nat.blt r 105 then rule104 d
          else rule105 d)
         else (bif Nat.blt r 107 then rule106 d
          else (bif Nat.blt r 108 then rule107 d
           else rule108 d)))
        else (bif Nat.blt r 112 then (bif Nat.blt r 110 then rule109 d
          else (bif Nat.blt r 111 then rule110 d
           else rule111 d))
         else (bif Nat.blt r 113 then rule112 d
          else (bif Nat.blt r 114 then rule113 d
           else rule114 d)))))))
    else (bif Nat.blt r 159 then (bif Nat.blt r 138 then (bif Nat.blt r 128 then (bif Nat.blt r 123 then (bif Nat.blt r 120 then (bif Nat.blt r 119 then d 1
          else rule119 d)
         else (bif Nat.blt r 121 then rule120 d
          else (bif Nat.blt r 122 then rule121 d
           else rule122 d)))
        else (bif Nat.blt r 125 then (bif Nat.blt r 124 then rule123 d
          else rule124 d)
         else (bif Nat.blt r 126 then rule125 d
          else (bif Nat.blt r 127 then rule126 d
           else rule127 d))))
       else (bif Nat.blt r 133 then (bif Nat.blt r 130 then (bif Nat.blt r 129 then rule128 d
          else rule129 d)
         else (bif Nat.blt r 131 then rule130 d
          else (bif Nat.blt r 132 then rule131 d
           else rule132 d)))
        else (bif Nat.blt r 135 then (bif Nat.blt r 134 then rule133 d
          else rule134 d)
         else (bif Nat.blt r 136 then rule135 d
          else (bif Nat.blt r 137 then rule136 d
           else rule137 d)))))
      else (bif Nat.blt r 148 then (bif Nat.blt r 143 then (bif Nat.blt r 140 then (bif Nat.blt r 139 then rule138 d
          else rule139 d)
         else (bif Nat.blt r 141 then rule140 d
          else (bif Nat.blt r 142 then rule141 d
           else rule142 d)))
        else (bif Nat.blt r 145 then (bif Nat.blt r 144 then rule143 d
          else rule144 d)
         else (bif Nat.blt r 146 then rule145 d
          else (bif Nat.blt r 147 then rule146 d
           else rule147 d))))
       else (bif Nat.blt r 153 then (bif Nat.blt r 150 then (bif Nat.blt r 149 then rule148 d
          else rule149 d)
         else (bif Nat.blt r 151 then rule150 d
          else (bif Nat.blt r 152 then rule151 d
           else rule152 d)))
        else (bif Nat.blt r 156 then (bif Nat.blt r 154 then rule153 d
          else (bif Nat.blt r 155 then rule154 d
           else rule155 d))
         else (bif Nat.blt r 157 then rule156 d
          else (bif Nat.blt r 158 then rule157 d
           else rule158 d))))))
     else (bif Nat.blt r 183 then (bif Nat.blt r 169 then (bif Nat.blt r 164 then (bif Nat.blt r 161 then (bif Nat.blt r 160 then rule159 d
          else rule160 d)
         else (bif Nat.blt r 162 then rule161 d
          else (bif Nat.blt r 163 then rule162 d
           else rule163 d)))
        else (bif Nat.blt r 166 then (bif Nat.blt r 165 then rule164 d
          else rule165 d)
         else (bif Nat.blt r 167 then rule166 d
          else (bif Nat.blt r 168 then rule167 d
           else rule168 d))))
       else (bif Nat.blt r 174 then (bif Nat.blt r 171 then (bif Nat.blt r 170 then rule169 d
          else rule170 d)
         else (bif Nat.blt r 172 then rule171 d
          else (bif Nat.blt r 173 then rule172 d
           else rule173 d)))
        else (bif Nat.blt r 180 then (bif Nat.blt r 175 then rule174 d
          else (bif Nat.blt r 176 then rule175 d
           else d 1))
         else (bif Nat.blt r 181 then rule180 d
          else (bif Nat.blt r 182 then rule181 d
           else rule182 d)))))
      else (bif Nat.blt r 193 then (bif Nat.blt r 188 then (bif Nat.blt r 185 then (bif Nat.blt r 184 then rule183 d
          else rule184 d)
         else (bif Nat.blt r 186 then rule185 d
          else (bif Nat.blt r 187 then rule186 d
           else rule187 d)))
        else (bif Nat.blt r 190 then (bif Nat.blt r 189 then rule188 d
          else rule189 d)
         else (bif Nat.blt r 191 then rule190 d
          else (bif Nat.blt r 192 then rule191 d
           else rule192 d))))
       else (bif Nat.blt r 198 then (bif Nat.blt r 195 then (bif Nat.blt r 194 then rule193 d
          else rule194 d)
         else (bif Nat.blt r 196 then rule195 d
          else (bif Nat.blt r 197 then rule196 d
           else rule197 d)))
        else (bif Nat.blt r 201 then (bif Nat.blt r 199 then rule198 d
          else (bif Nat.blt r 200 then rule199 d
           else rule200 d))
         else (bif Nat.blt r 202 then rule201 d
          else (bif Nat.blt r 203 then rule202 d
           else rule203 d))))))))
   else (bif Nat.blt r 286 then (bif Nat.blt r 245 then (bif Nat.blt r 224 then (bif Nat.blt r 214 then (bif Nat.blt r 209 then (bif Nat.blt r 206 then (bif Nat.blt r 205 then rule204 d
          else rule205 d)
         else (bif Nat.blt r 207 then rule206 d
          else (bif Nat.blt r 208 then rule207 d
           else rule208 d)))
        else (bif Nat.blt r 211 then (bif Nat.blt r 210 then rule209 d
          else rule210 d)
         else (bif Nat.blt r 212 then rule211 d
          else (bif Nat.blt r 213 then rule212 d
           else rule213 d))))
       else (bif Nat.blt r 219 then (bif Nat.blt r 216 then (bif Nat.blt r 215 then rule214 d
          else rule215 d)
         else (bif Nat.blt r 217 then rule216 d
          else (bif Nat.blt r 218 then rule217 d
           else rule218 d)))
        else (bif Nat.blt r 221 then (bif Nat.blt r 220 then rule219 d
          else rule220 d)
         else (bif Nat.blt r 222 then rule221 d
          else (bif Nat.blt r 223 then rule222 d
           else rule223 d)))))
      else (bif Nat.blt r 234 then (bif Nat.blt r 229 then (bif Nat.blt r 226 then (bif Nat.blt r 225 then rule224 d
          else rule225 d)
         else (bif Nat.blt r 227 then rule226 d
          else (bif Nat.blt r 228 then rule227 d
           else rule228 d)))
        else (bif Nat.blt r 231 then (bif Nat.blt r 230 then rule229 d
          else rule230 d)
         else (bif Nat.blt r 232 then rule231 d
          else (bif Nat.blt r 233 then rule232 d
           else rule233 d))))
       else (bif Nat.blt r 239 then (bif Nat.blt r 236 then (bif Nat.blt r 235 then rule234 d
          else rule235 d)
         else (bif Nat.blt r 237 then rule236 d
          else (bif Nat.blt r 238 then rule237 d
           else rule238 d)))
        else (bif Nat.blt r 242 then (bif Nat.blt r 240 then rule239 d
          else (bif Nat.blt r 241 then rule240 d
           else rule241 d))
         else (bif Nat.blt r 243 then rule242 d
          else (bif Nat.blt r 244 then rule243 d
           else rule244 d))))))
     else (bif Nat.blt r 265 then (bif Nat.blt r 255 then (bif Nat.blt r 250 then (bif Nat.blt r 247 then (bif Nat.blt r 246 then rule245 d
          else rule246 d)
         else (bif Nat.blt r 248 then rule247 d
          else (bif Nat.blt r 249 then rule248 d
           else rule249 d)))
        else (bif Nat.blt r 252 then (bif Nat.blt r 251 then rule250 d
          else rule251 d)
         else (bif Nat.blt r 253 then rule252 d
          else (bif Nat.blt r 254 then rule253 d
           else rule254 d))))
       else (bif Nat.blt r 260 then (bif Nat.blt r 257 then (bif Nat.blt r 256 then rule255 d
          else rule256 d)
         else (bif Nat.blt r 258 then rule257 d
          else (bif Nat.blt r 259 then rule258 d
           else rule259 d)))
        else (bif Nat.blt r 262 then (bif Nat.blt r 261 then rule260 d
          else rule261 d)
         else (bif Nat.blt r 263 then rule262 d
          else (bif Nat.blt r 264 then rule263 d
           else rule264 d)))))
      else (bif Nat.blt r 275 then (bif Nat.blt r 270 then (bif Nat.blt r 267 then (bif Nat.blt r 266 then rule265 d
          else rule266 d)
         else (bif Nat.blt r 268 then rule267 d
          else (bif Nat.blt r 269 then rule268 d
           else rule269 d)))
        else (bif Nat.blt r 272 then (bif Nat.blt r 271 then rule270 d
          else rule271 d)
         else (bif Nat.blt r 273 then rule272 d
          else (bif Nat.blt r 274 then rule273 d
           else rule274 d))))
       else (bif Nat.blt r 280 then (bif Nat.blt r 277 then (bif Nat.blt r 276 then rule275 d
          else rule276 d)
         else (bif Nat.blt r 278 then rule277 d
          else (bif Nat.blt r 279 then rule278 d
           else rule279 d)))
        else (bif Nat.blt r 283 then (bif Nat.blt r 281 then rule280 d
          else (bif Nat.blt r 282 then rule281 d
           else rule282 d))
         else (bif Nat.blt r 284 then rule283 d
          else (bif Nat.blt r 285 then rule284 d
           else rule285 d)))))))
    else (bif Nat.blt r 327 then (bif Nat.blt r 306 then (bif Nat.blt r 296 then (bif Nat.blt r 291 then (bif Nat.blt r 288 then (bif Nat.blt r 287 then rule286 d
          else rule287 d)
         else (bif Nat.blt r 289 then rule288 d
          else (bif Nat.blt r 290 then rule289 d
           else rule290 d)))
        else (bif Nat.blt r 293 then (bif Nat.blt r 292 then rule291 d
          else rule292 d)
         else (bif Nat.blt r 294 then rule293 d
          else (bif Nat.blt r 295 then rule294 d
           else rule295 d))))
       else (bif Nat.blt r 301 then (bif Nat.blt r 298 then (bif Nat.blt r 297 then rule296 d
          else rule297 d)
         else (bif Nat.blt r 299 then rule298 d
          else (bif Nat.blt r 300 then rule299 d
           else rule300 d)))
        else (bif Nat.blt r 303 then (bif Nat.blt r 302 then rule301 d
          else rule302 d)
         else (bif Nat.blt r 304 then rule303 d
          else (bif Nat.blt r 305 then rule304 d
           else rule305 d)))))
      else (bif Nat.blt r 316 then (bif Nat.blt r 311 then (bif Nat.blt r 308 then (bif Nat.blt r 307 then rule306 d
          else rule307 d)
         else (bif Nat.blt r 309 then rule308 d
          else (bif Nat.blt r 310 then rule309 d
           else rule310 d)))
        else (bif Nat.blt r 313 then (bif Nat.blt r 312 then rule311 d
          else rule312 d)
         else (bif Nat.blt r 314 then rule313 d
          else (bif Nat.blt r 315 then rule314 d
           else rule315 d))))
       else (bif Nat.blt r 321 then (bif Nat.blt r 318 then (bif Nat.blt r 317 then rule316 d
          else rule317 d)
         else (bif Nat.blt r 319 then rule318 d
          else (bif Nat.blt r 320 then rule319 d
           else rule320 d)))
        else (bif Nat.blt r 324 then (bif Nat.blt r 322 then rule321 d
          else (bif Nat.blt r 323 then rule322 d
           else d 1))
         else (bif Nat.blt r 325 then rule324 d
          else (bif Nat.blt r 326 then rule325 d
           else rule326 d))))))
     else (bif Nat.blt r 372 then (bif Nat.blt r 337 then (bif Nat.blt r 332 then (bif Nat.blt r 329 then (bif Nat.blt r 328 then rule327 d
          else rule328 d)
         else (bif Nat.blt r 330 then rule329 d
          else (bif Nat.blt r 331 then rule330 d
           else rule331 d)))
        else (bif Nat.blt r 334 then (bif Nat.blt r 333 then rule332 d
          else rule333 d)
         else (bif Nat.blt r 335 then rule334 d
          else (bif Nat.blt r 336 then rule335 d
           else rule336 d))))
       else (bif Nat.blt r 342 then (bif Nat.blt r 339 then (bif Nat.blt r 338 then rule337 d
          else rule338 d)
         else (bif Nat.blt r 340 then rule339 d
          else (bif Nat.blt r 341 then rule340 d
           else rule341 d)))
        else (bif Nat.blt r 345 then (bif Nat.blt r 343 then rule342 d
          else (bif Nat.blt r 344 then rule343 d
           else rule344 d))
         else (bif Nat.blt r 346 then rule345 d
          else (bif Nat.blt r 347 then rule346 d
           else d 1)))))
      else (bif Nat.blt r 382 then (bif Nat.blt r 377 then (bif Nat.blt r 374 then (bif Nat.blt r 373 then rule372 d
          else rule373 d)
         else (bif Nat.blt r 375 then rule374 d
          else (bif Nat.blt r 376 then rule375 d
           else rule376 d)))
        else (bif Nat.blt r 379 then (bif Nat.blt r 378 then rule377 d
          else rule378 d)
         else (bif Nat.blt r 380 then rule379 d
          else (bif Nat.blt r 381 then rule380 d
           else rule381 d))))
       else (bif Nat.blt r 387 then (bif Nat.blt r 384 then (bif Nat.blt r 383 then rule382 d
          else rule383 d)
         else (bif Nat.blt r 385 then rule384 d
          else (bif Nat.blt r 386 then rule385 d
           else rule386 d)))
        else (bif Nat.blt r 390 then (bif Nat.blt r 388 then rule387 d
          else (bif Nat.blt r 389 then rule388 d
           else rule389 d))
         else (bif Nat.blt r 391 then rule390 d
          else (bif Nat.blt r 392 then rule391 d
           else rule392 d)))))))))
  else (bif Nat.blt r 562 then (bif Nat.blt r 478 then (bif Nat.blt r 436 then (bif Nat.blt r 413 then (bif Nat.blt r 403 then (bif Nat.blt r 398 then (bif Nat.blt r 395 then (bif Nat.blt r 394 then rule393 d
          else rule394 d)
         else (bif Nat.blt r 396 then rule395 d
          else (bif Nat.blt r 397 then rule396 d
           else rule397 d)))
        else (bif Nat.blt r 400 then (bif Nat.blt r 399 then rule398 d
          else rule399 d)
         else (bif Nat.blt r 401 then rule400 d
          else (bif Nat.blt r 402 then rule401 d
           else rule402 d))))
       else (bif Nat.blt r 408 then (bif Nat.blt r 405 then (bif Nat.blt r 404 then rule403 d
          else rule404 d)
         else (bif Nat.blt r 406 then rule405 d
          else (bif Nat.blt r 407 then rule406 d
           else rule407 d)))
        else (bif Nat.blt r 410 then (bif Nat.blt r 409 then rule408 d
          else rule409 d)
         else (bif Nat.blt r 411 then rule410 d
          else (bif Nat.blt r 412 then rule411 d
           else rule412 d)))))
      else (bif Nat.blt r 425 then (bif Nat.blt r 420 then (bif Nat.blt r 417 then (bif Nat.blt r 416 then d 1
          else rule416 d)
         else (bif Nat.blt r 418 then rule417 d
          else (bif Nat.blt r 419 then rule418 d
           else rule419 d)))
        else (bif Nat.blt r 422 then (bif Nat.blt r 421 then rule420 d
          else rule421 d)
         else (bif Nat.blt r 423 then rule422 d
          else (bif Nat.blt r 424 then rule423 d
           else rule424 d))))
       else (bif Nat.blt r 430 then (bif Nat.blt r 427 then (bif Nat.blt r 426 then rule425 d
          else rule426 d)
         else (bif Nat.blt r 428 then rule427 d
          else (bif Nat.blt r 429 then rule428 d
           else rule429 d)))
        else (bif Nat.blt r 433 then (bif Nat.blt r 431 then d 1
          else (bif Nat.blt r 432 then rule431 d
           else rule432 d))
         else (bif Nat.blt r 434 then rule433 d
          else (bif Nat.blt r 435 then rule434 d
           else rule435 d))))))
     else (bif Nat.blt r 456 then (bif Nat.blt r 446 then (bif Nat.blt r 441 then (bif Nat.blt r 438 then (bif Nat.blt r 437 then rule436 d
          else rule437 d)
         else (bif Nat.blt r 439 then rule438 d
          else (bif Nat.blt r 440 then rule439 d
           else rule440 d)))
        else (bif Nat.blt r 443 then (bif Nat.blt r 442 then rule441 d
          else rule442 d)
         else (bif Nat.blt r 444 then rule443 d
          else (bif Nat.blt r 445 then rule444 d
           else rule445 d))))
       else (bif Nat.blt r 451 then (bif Nat.blt r 448 then (bif Nat.blt r 447 then rule446 d
          else rule447 d)
         else (bif Nat.blt r 449 then rule448 d
          else (bif Nat.blt r 450 then rule449 d
           else rule450 d)))
        else (bif Nat.blt r 453 then (bif Nat.blt r 452 then rule451 d
          else rule452 d)
         else (bif Nat.blt r 454 then rule453 d
          else (bif Nat.blt r 455 then rule454 d
           else d 1)))))
      else (bif Nat.blt r 467 then (bif Nat.blt r 461 then (bif Nat.blt r 458 then (bif Nat.blt r 457 then rule456 d
          else rule457 d)
         else (bif Nat.blt r 459 then rule458 d
          else (bif Nat.blt r 460 then rule459 d
           else rule460 d)))
        else (bif Nat.blt r 464 then (bif Nat.blt r 463 then d 1
          else rule463 d)
         else (bif Nat.blt r 465 then rule464 d
          else (bif Nat.blt r 466 then rule465 d
           else rule466 d))))
       else (bif Nat.blt r 472 then (bif Nat.blt r 469 then (bif Nat.blt r 468 then rule467 d
          else rule468 d)
         else (bif Nat.blt r 470 then rule469 d
          else (bif Nat.blt r 471 then rule470 d
           else rule471 d)))
        else (bif Nat.blt r 475 then (bif Nat.blt r 473 then rule472 d
          else (bif Nat.blt r 474 then rule473 d
           else rule474 d))
         else (bif Nat.blt r 476 then rule475 d
          else (bif Nat.blt r 477 then rule476 d
           else rule477 d)))))))
    else (bif Nat.blt r 520 then (bif Nat.blt r 499 then (bif Nat.blt r 489 then (bif Nat.blt r 483 then (bif Nat.blt r 480 then (bif Nat.blt r 479 then rule478 d
          else rule479 d)
         else (bif Nat.blt r 481 then rule480 d
          else (bif Nat.blt r 482 then rule481 d
           else rule482 d)))
        else (bif Nat.blt r 486 then (bif Nat.blt r 485 then d 1
          else rule485 d)
         else (bif Nat.blt r 487 then rule486 d
          else (bif Nat.blt r 488 then rule487 d
           else d 1))))
       else (bif Nat.blt r 494 then (bif Nat.blt r 491 then (bif Nat.blt r 490 then rule489 d
          else rule490 d)
         else (bif Nat.blt r 492 then rule491 d
          else (bif Nat.blt r 493 then rule492 d
           else rule493 d)))
        else (bif Nat.blt r 496 then (bif Nat.blt r 495 then rule494 d
          else rule495 d)
         else (bif Nat.blt r 497 then rule496 d
          else (bif Nat.blt r 498 then rule497 d
           else rule498 d)))))
      else (bif Nat.blt r 509 then (bif Nat.blt r 504 then (bif Nat.blt r 501 then (bif Nat.blt r 500 then rule499 d
          else rule500 d)
         else (bif Nat.blt r 502 then rule501 d
          else (bif Nat.blt r 503 then rule502 d
           else rule503 d)))
        else (bif Nat.blt r 506 then (bif Nat.blt r 505 then rule504 d
          else rule505 d)
         else (bif Nat.blt r 507 then rule506 d
          else (bif Nat.blt r 508 then rule507 d
           else rule508 d))))
       else (bif Nat.blt r 514 then (bif Nat.blt r 511 then (bif Nat.blt r 510 then rule509 d
          else rule510 d)
         else (bif Nat.blt r 512 then rule511 d
          else (bif Nat.blt r 513 then rule512 d
           else rule513 d)))
        else (bif Nat.blt r 517 then (bif Nat.blt r 515 then rule514 d
          else (bif Nat.blt r 516 then rule515 d
           else rule516 d))
         else (bif Nat.blt r 518 then rule517 d
          else (bif Nat.blt r 519 then rule518 d
           else rule519 d))))))
     else (bif Nat.blt r 541 then (bif Nat.blt r 530 then (bif Nat.blt r 525 then (bif Nat.blt r 522 then (bif Nat.blt r 521 then rule520 d
          else rule521 d)
         else (bif Nat.blt r 523 then rule522 d
          else (bif Nat.blt r 524 then rule523 d
           else rule524 d)))
        else (bif Nat.blt r 527 then (bif Nat.blt r 526 then rule525 d
          else rule526 d)
         else (bif Nat.blt r 528 then rule527 d
          else (bif Nat.blt r 529 then rule528 d
           else rule529 d))))
       else (bif Nat.blt r 535 then (bif Nat.blt r 532 then (bif Nat.blt r 531 then rule530 d
          else rule531 d)
         else (bif Nat.blt r 533 then rule532 d
          else (bif Nat.blt r 534 then rule533 d
           else rule534 d)))
        else (bif Nat.blt r 538 then (bif Nat.blt r 536 then rule535 d
          else (bif Nat.blt r 537 then rule536 d
           else rule537 d))
         else (bif Nat.blt r 539 then rule538 d
          else (bif Nat.blt r 540 then rule539 d
           else rule540 d)))))
      else (bif Nat.blt r 551 then (bif Nat.blt r 546 then (bif Nat.blt r 543 then (bif Nat.blt r 542 then rule541 d
          else rule542 d)
         else (bif Nat.blt r 544 then rule543 d
          else (bif Nat.blt r 545 then rule544 d
           else rule545 d)))
        else (bif Nat.blt r 548 then (bif Nat.blt r 547 then rule546 d
          else rule547 d)
         else (bif Nat.blt r 549 then rule548 d
          else (bif Nat.blt r 550 then rule549 d
           else rule550 d))))
       else (bif Nat.blt r 556 then (bif Nat.blt r 553 then (bif Nat.blt r 552 then rule551 d
          else rule552 d)
         else (bif Nat.blt r 554 then rule553 d
          else (bif Nat.blt r 555 then rule554 d
           else rule555 d)))
        else (bif Nat.blt r 559 then (bif Nat.blt r 557 then rule556 d
          else (bif Nat.blt r 558 then rule557 d
           else rule558 d))
         else (bif Nat.blt r 560 then rule559 d
          else (bif Nat.blt r 561 then rule560 d
           else rule561 d))))))))
   else (bif Nat.blt r 649 then (bif Nat.blt r 606 then (bif Nat.blt r 582 then (bif Nat.blt r 572 then (bif Nat.blt r 567 then (bif Nat.blt r 564 then (bif Nat.blt r 563 then rule562 d
          else rule563 d)
         else (bif Nat.blt r 565 then rule564 d
          else (bif Nat.blt r 566 then rule565 d
           else rule566 d)))
        else (bif Nat.blt r 569 then (bif Nat.blt r 568 then rule567 d
          else rule568 d)
         else (bif Nat.blt r 570 then rule569 d
          else (bif Nat.blt r 571 then rule570 d
           else rule571 d))))
       else (bif Nat.blt r 577 then (bif Nat.blt r 574 then (bif Nat.blt r 573 then rule572 d
          else rule573 d)
         else (bif Nat.blt r 575 then rule574 d
          else (bif Nat.blt r 576 then rule575 d
           else rule576 d)))
        else (bif Nat.blt r 579 then (bif Nat.blt r 578 then rule577 d
          else rule578 d)
         else (bif Nat.blt r 580 then rule579 d
          else (bif Nat.blt r 581 then rule580 d
           else rule581 d)))))
      else (bif Nat.blt r 595 then (bif Nat.blt r 590 then (bif Nat.blt r 587 then (bif Nat.blt r 586 then d 1
          else rule586 d)
         else (bif Nat.blt r 588 then rule587 d
          else (bif Nat.blt r 589 then rule588 d
           else rule589 d)))
        else (bif Nat.blt r 592 then (bif Nat.blt r 591 then rule590 d
          else rule591 d)
         else (bif Nat.blt r 593 then rule592 d
          else (bif Nat.blt r 594 then rule593 d
           else rule594 d))))
       else (bif Nat.blt r 600 then (bif Nat.blt r 597 then (bif Nat.blt r 596 then rule595 d
          else rule596 d)
         else (bif Nat.blt r 598 then rule597 d
          else (bif Nat.blt r 599 then rule598 d
           else rule599 d)))
        else (bif Nat.blt r 603 then (bif Nat.blt r 601 then rule600 d
          else (bif Nat.blt r 602 then rule601 d
           else rule602 d))
         else (bif Nat.blt r 604 then rule603 d
          else (bif Nat.blt r 605 then rule604 d
           else rule605 d))))))
     else (bif Nat.blt r 628 then (bif Nat.blt r 617 then (bif Nat.blt r 611 then (bif Nat.blt r 608 then (bif Nat.blt r 607 then rule606 d
          else rule607 d)
         else (bif Nat.blt r 609 then rule608 d
          else (bif Nat.blt r 610 then rule609 d
           else rule610 d)))
        else (bif Nat.blt r 613 then (bif Nat.blt r 612 then rule611 d
          else rule612 d)
         else (bif Nat.blt r 615 then d 1
          else (bif Nat.blt r 616 then rule615 d
           else rule616 d))))
       else (bif Nat.blt r 622 then (bif Nat.blt r 619 then (bif Nat.blt r 618 then rule617 d
          else rule618 d)
         else (bif Nat.blt r 620 then rule619 d
          else (bif Nat.blt r 621 then rule620 d
           else rule621 d)))
        else (bif Nat.blt r 625 then (bif Nat.blt r 623 then rule622 d
          else (bif Nat.blt r 624 then rule623 d
           else rule624 d))
         else (bif Nat.blt r 626 then rule625 d
          else (bif Nat.blt r 627 then rule626 d
           else rule627 d)))))
      else (bif Nat.blt r 638 then (bif Nat.blt r 633 then (bif Nat.blt r 630 then (bif Nat.blt r 629 then rule628 d
          else rule629 d)
         else (bif Nat.blt r 631 then rule630 d
          else (bif Nat.blt r 632 then rule631 d
           else rule632 d)))
        else (bif Nat.blt r 635 then (bif Nat.blt r 634 then rule633 d
          else rule634 d)
         else (bif Nat.blt r 636 then rule635 d
          else (bif Nat.blt r 637 then rule636 d
           else rule637 d))))
       else (bif Nat.blt r 643 then (bif Nat.blt r 640 then (bif Nat.blt r 639 then rule638 d
          else rule639 d)
         else (bif Nat.blt r 641 then rule640 d
          else (bif Nat.blt r 642 then rule641 d
           else rule642 d)))
        else (bif Nat.blt r 646 then (bif Nat.blt r 644 then rule643 d
          else (bif Nat.blt r 645 then rule644 d
           else rule645 d))
         else (bif Nat.blt r 647 then rule646 d
          else (bif Nat.blt r 648 then rule647 d
           else rule648 d)))))))
    else (bif Nat.blt r 690 then (bif Nat.blt r 669 then (bif Nat.blt r 659 then (bif Nat.blt r 654 then (bif Nat.blt r 651 then (bif Nat.blt r 650 then rule649 d
          else rule650 d)
         else (bif Nat.blt r 652 then rule651 d
          else (bif Nat.blt r 653 then rule652 d
           else rule653 d)))
        else (bif Nat.blt r 656 then (bif Nat.blt r 655 then rule654 d
          else rule655 d)
         else (bif Nat.blt r 657 then rule656 d
          else (bif Nat.blt r 658 then rule657 d
           else rule658 d))))
       else (bif Nat.blt r 664 then (bif Nat.blt r 661 then (bif Nat.blt r 660 then rule659 d
          else rule660 d)
         else (bif Nat.blt r 662 then rule661 d
          else (bif Nat.blt r 663 then rule662 d
           else rule663 d)))
        else (bif Nat.blt r 666 then (bif Nat.blt r 665 then rule664 d
          else rule665 d)
         else (bif Nat.blt r 667 then rule666 d
          else (bif Nat.blt r 668 then rule667 d
           else rule668 d)))))
      else (bif Nat.blt r 679 then (bif Nat.blt r 674 then (bif Nat.blt r 671 then (bif Nat.blt r 670 then rule669 d
          else rule670 d)
         else (bif Nat.blt r 672 then rule671 d
          else (bif Nat.blt r 673 then rule672 d
           else rule673 d)))
        else (bif Nat.blt r 676 then (bif Nat.blt r 675 then rule674 d
          else rule675 d)
         else (bif Nat.blt r 677 then rule676 d
          else (bif Nat.blt r 678 then rule677 d
           else rule678 d))))
       else (bif Nat.blt r 684 then (bif Nat.blt r 681 then (bif Nat.blt r 680 then rule679 d
          else rule680 d)
         else (bif Nat.blt r 682 then rule681 d
          else (bif Nat.blt r 683 then rule682 d
           else rule683 d)))
        else (bif Nat.blt r 687 then (bif Nat.blt r 685 then rule684 d
          else (bif Nat.blt r 686 then rule685 d
           else rule686 d))
         else (bif Nat.blt r 688 then rule687 d
          else (bif Nat.blt r 689 then rule688 d
           else rule689 d))))))
     else (bif Nat.blt r 717 then (bif Nat.blt r 700 then (bif Nat.blt r 695 then (bif Nat.blt r 692 then (bif Nat.blt r 691 then rule690 d
          else rule691 d)
         else (bif Nat.blt r 693 then rule692 d
          else (bif Nat.blt r 694 then rule693 d
           else rule694 d)))
        else (bif Nat.blt r 697 then (bif Nat.blt r 696 then rule695 d
          else rule696 d)
         else (bif Nat.blt r 698 then rule697 d
          else (bif Nat.blt r 699 then rule698 d
           else rule699 d))))
       else (bif Nat.blt r 705 then (bif Nat.blt r 702 then (bif Nat.blt r 701 then rule700 d
          else rule701 d)
         else (bif Nat.blt r 703 then rule702 d
          else (bif Nat.blt r 704 then rule703 d
           else rule704 d)))
        else (bif Nat.blt r 708 then (bif Nat.blt r 706 then rule705 d
          else (bif Nat.blt r 707 then rule706 d
           else rule707 d))
         else (bif Nat.blt r 709 then rule708 d
          else (bif Nat.blt r 710 then rule709 d
           else d 1)))))
      else (bif Nat.blt r 729 then (bif Nat.blt r 722 then (bif Nat.blt r 719 then (bif Nat.blt r 718 then rule717 d
          else d 1)
         else (bif Nat.blt r 720 then rule719 d
          else (bif Nat.blt r 721 then rule720 d
           else rule721 d)))
        else (bif Nat.blt r 725 then (bif Nat.blt r 724 then d 1
          else rule724 d)
         else (bif Nat.blt r 726 then rule725 d
          else (bif Nat.blt r 728 then d 1
           else rule728 d))))
       else (bif Nat.blt r 748 then (bif Nat.blt r 745 then (bif Nat.blt r 730 then rule729 d
          else d 1)
         else (bif Nat.blt r 746 then rule745 d
          else (bif Nat.blt r 747 then rule746 d
           else d 1)))
        else (bif Nat.blt r 751 then (bif Nat.blt r 749 then rule748 d
          else (bif Nat.blt r 750 then rule749 d
           else rule750 d))
         else (bif Nat.blt r 752 then d 1
          else (bif Nat.blt r 753 then rule752 d
           else d 1)))))))))

end Sqldef.Sql
