import Verif.Proofs.WrittenTable
import Verif.Spec.WrittenMore

/-! The derivations of `CREATE INDEX`, `ALTER TABLE ... ADD` and `CREATE POLICY`: what they say and what they mean. -/
namespace Sqldef.Sql
open Spec Yy Written

/-! ### Trees -/

def uniqueTree : Bool → Tree SymType
  | false => .node 94 []
  | true => .node 95 [lf (kw "UNIQUE")]

def includedTree : Option (Str × List Str) → Tree SymType
  | none => .node 510 []
  | some p => .node 511 [lf (kw "INCLUDE"), lf (sym '('), columnListTree p.1 p.2, lf (sym ')')]

def whereTree : Option Ex → Tree SymType
  | none => .node 508 []
  | some e => .node 509 [lf (kw "WHERE"), exprTree e]

/-- How the statement starts. -/
def indexStart (u : Bool) (c : Option Bool) (n : Str) : List (Tree SymType) :=
  [lf (kw "CREATE"), uniqueTree u, clusteredTree c, lf (kw "INDEX"), sqlId n]

def newIndexTree (i : NewIndex) : Tree SymType :=
  match i.form with
  | .plain n c o p => .node 61 (indexStart i.unique i.clustered i.name ++ [lf (kw "ON"), tableRefTree i.table, lf (sym '('),
      indexColsTree i.first i.rest, lf (sym ')'), includedTree n, whereTree c, ixOptsTree o, partitionTree p])
  | .methodFirst m o => .node 62 (indexStart i.unique i.clustered i.name ++ [lf (kw "USING"), sqlId m, lf (kw "ON"),
      tableRefTree i.table, lf (sym '('), indexColsTree i.first i.rest, lf (sym ')'), ixOptsTree o])
  | .methodLast m c o => .node 63 (indexStart i.unique i.clustered i.name ++ [lf (kw "ON"), tableRefTree i.table,
      lf (kw "USING"), sqlId m, lf (sym '('), indexColsTree i.first i.rest, lf (sym ')'), whereTree c, ixOptsTree o])

def ignoreTree : Bool → Tree SymType
  | false => .node 728 []
  | true => .node 729 [lf (kw "IGNORE")]

def alterWordTree : Bool → Tree SymType
  | true => .node 358 [lf (kw "INDEX")]
  | false => .node 359 [lf (kw "KEY")]

def alterTree (a : Alter) : Tree SymType :=
  match a.added with
  | .index u i n c cs => .node 336 [lf (kw "ALTER"), ignoreTree a.ignore, lf (kw "TABLE"), tableRefTree a.table, lf (kw "ADD"),
      uniqueTree u, alterWordTree i, sqlId n, lf (sym '('), indexColsTree c cs, lf (sym ')')]
  | .primaryKey n c cs => .node 337 [lf (kw "ALTER"), ignoreTree a.ignore, lf (kw "TABLE"), lf (kw "ONLY"), tableRefTree a.table,
      lf (kw "ADD"), lf (kw "CONSTRAINT"), sqlId n, lf (kw "PRIMARY"), lf (kw "KEY"), lf (sym '('), indexColsTree c cs, lf (sym ')')]
  | .foreignKey f => .node 338 [lf (kw "ALTER"), ignoreTree a.ignore, lf (kw "TABLE"), lf (kw "ONLY"), tableRefTree a.table,
      lf (kw "ADD"), fkTree f]

def permissiveTree : Option Bool → Tree SymType
  | none => .node 81 []
  | some true => .node 82 [lf (kw "AS"), lf (kw "permissive")]
  | some false => .node 83 [lf (kw "AS"), lf (kw "restrictive")]

def scopeRules : List (String × Nat) := [("all", 85), ("select", 86), ("insert", 87), ("update", 88), ("delete", 89)]

def scopeTree : Option String → Tree SymType
  | none => .node 84 []
  | some w => .node ((scopeRules.lookup w).getD 0) [lf (kw "FOR"), lf (kw w)]

def usingTree : Option Ex → Tree SymType
  | none => .node 90 []
  | some e => .node 91 [lf (kw "USING"), exprTree e]

def withCheckTree : Option Ex → Tree SymType
  | none => .node 92 []
  | some e => .node 93 [lf (kw "WITH"), lf (kw "CHECK"), exprTree e]

def policyTree (p : NewPolicy) : Tree SymType :=
  .node 68 [lf (kw "CREATE"), lf (kw "POLICY"), sqlId p.name, lf (kw "ON"), tableRefTree p.table, permissiveTree p.permissive,
    scopeTree p.scope, lf (kw "TO"), idListTree p.first p.rest, usingTree p.condition, withCheckTree p.check]

noncomputable def stmtTree : Sentence → Tree SymType
  | .table t => tableTree t
  | .index i => .node 10 [newIndexTree i]
  | .alter a => .node 11 [alterTree a]
  | .policy p => .node 10 [policyTree p]

/-! ### Tokens -/

theorem said_unique (u : Bool) : said (uniqueTree u) = (given (u = true) [kw "UNIQUE"]).map seenAs := by
  cases u <;> simp [uniqueTree, given, said_node, saidAll_cons, saidAll_nil, said_lf]

theorem said_included (i : Option (Str × List Str)) : said (includedTree i) = (includedTokens i).map seenAs := by
  cases i <;> simp [includedTree, includedTokens, optionally, parens, said_node, saidAll_cons, saidAll_nil, said_lf, said_columnList]

theorem said_where (c : Option Ex) : said (whereTree c) = (whereTokens c).map seenAs := by
  cases c <;> simp [whereTree, whereTokens, optionally, said_node, saidAll_cons, saidAll_nil, said_lf, said_expr]

theorem said_newIndex (i : NewIndex) : said (newIndexTree i) = i.tokens.map seenAs := by
  unfold newIndexTree NewIndex.tokens indexStart
  cases i.form <;>
    simp [said_node, saidAll_cons, saidAll_nil, said_lf, said_unique, said_clustered, said_tableRef, said_indexCols, said_included,
      said_where, said_ixOpts, said_partition, said_sqlId, parens]

theorem said_ignore (b : Bool) : said (ignoreTree b) = (given (b = true) [kw "IGNORE"]).map seenAs := by
  cases b <;> simp [ignoreTree, given, said_node, saidAll_cons, saidAll_nil, said_lf]

theorem said_alterWord (i : Bool) : said (alterWordTree i) = [seenAs (indexWord i)] := by
  cases i <;> simp [alterWordTree, indexWord, said_node, saidAll_cons, saidAll_nil, said_lf]

theorem said_alter (a : Alter) : said (alterTree a) = a.tokens.map seenAs := by
  unfold alterTree Alter.tokens
  cases a.added <;>
    simp [said_node, saidAll_cons, saidAll_nil, said_lf, said_unique, said_ignore, said_tableRef, said_indexCols, said_alterWord,
      said_fk, said_sqlId, parens]

theorem said_permissive (p : Option Bool) :
    said (permissiveTree p) = (optionally p fun b => [kw "AS", kw (permissiveWord b)]).map seenAs := by
  rcases p with _ | _ | _ <;>
    simp [permissiveTree, optionally, permissiveWord, said_node, saidAll_cons, saidAll_nil, said_lf]

theorem said_scope (s : Option String) : said (scopeTree s) = (optionally s fun w => [kw "FOR", kw w]).map seenAs := by
  cases s <;> simp [scopeTree, optionally, said_node, saidAll_cons, saidAll_nil, said_lf]

theorem said_using (c : Option Ex) : said (usingTree c) = (optionally c fun e => kw "USING" :: e.tokens).map seenAs := by
  cases c <;> simp [usingTree, optionally, said_node, saidAll_cons, saidAll_nil, said_lf, said_expr]

theorem said_withCheck (c : Option Ex) :
    said (withCheckTree c) = (optionally c fun e => kw "WITH" :: kw "CHECK" :: e.tokens).map seenAs := by
  cases c <;> simp [withCheckTree, optionally, said_node, saidAll_cons, saidAll_nil, said_lf, said_expr]

theorem said_policy (p : NewPolicy) : said (policyTree p) = p.tokens.map seenAs := by
  simp [policyTree, NewPolicy.tokens, said_node, saidAll_cons, saidAll_nil, said_lf, said_sqlId, said_tableRef, said_permissive,
    said_scope, said_idList, said_using, said_withCheck]

theorem said_stmt (s : Sentence) : said (stmtTree s) = s.tokens.map seenAs := by
  cases s with
  | table t => exact said_table t
  | index i => simp [stmtTree, Sentence.tokens, said_node, saidAll_cons, saidAll_nil, said_newIndex]
  | alter a => simp [stmtTree, Sentence.tokens, said_node, saidAll_cons, saidAll_nil, said_alter]
  | policy p => simp [stmtTree, Sentence.tokens, said_node, saidAll_cons, saidAll_nil, said_policy]

/-! ### Values -/

theorem value_unique (u : Bool) : ((uniqueTree u).value valueOf).boolVal = u := by cases u <;> rfl

theorem value_columnList (a : Str) (as : List Str) : ((columnListTree a as).value valueOf).columns = a :: as := by
  rw [columnListTree, value_grow (g := SymType.columns) (ap := fun l x => l ++ [x]) _ _ fun _ _ _ => rfl,
    foldl_snoc (fun x => x)]
  simp only [List.map_id']
  rfl

theorem value_included (i : Option (Str × List Str)) :
    ((includedTree i).value valueOf).columns = (i.map fun p => p.1 :: p.2).getD [] := by
  cases i with
  | none => rfl
  | some p => exact value_columnList p.1 p.2

theorem value_where {c : Option Ex} (h : ClearCondition c) : Go.whereOf ((whereTree c).value valueOf).expr = whereMeaning c := by
  cases c with
  | none => rfl
  | some e =>
    show Go.whereOf (exprOf (exprTree e)) = _
    rw [value_expr (h e rfl).1]
    simp only [Go.whereOf, whereMeaning, Option.map, node_meaning]

theorem value_newIndex {i : NewIndex} (h : i.form.Clear) :
    ((newIndexTree i).value valueOf).statement = .ddl i.meaning := by
  obtain ⟨u, k, name, t, first, rest, form⟩ := i
  cases form with
  | plain n c o p =>
    have e : ((newIndexTree ⟨u, k, name, t, first, rest, .plain n c o p⟩).value valueOf).statement = .ddl
      { action := lit "create index", table := ((tableRefTree t).value valueOf).tableName,
        newName := ((tableRefTree t).value valueOf).tableName,
        indexSpec := some { name := name, unique := ((uniqueTree u).value valueOf).boolVal,
                            clustered := ((clusteredTree k).value valueOf).boolVal,
                            included := ((includedTree n).value valueOf).columns,
                            whereClause := Go.whereOf ((whereTree c).value valueOf).expr,
                            options := ((ixOptsTree o).value valueOf).indexOptions,
                            partition := ((partitionTree p).value valueOf).indexPartition },
        indexCols := ((indexColsTree first rest).value valueOf).indexColumns } := rfl
    rw [e, value_unique, value_clustered, value_tableRef, value_indexCols, value_included, value_where h.1, value_ixOpts h.2,
      value_partition]
    rfl
  | methodFirst m o =>
    have e : ((newIndexTree ⟨u, k, name, t, first, rest, .methodFirst m o⟩).value valueOf).statement = .ddl
      { action := lit "create index", table := ((tableRefTree t).value valueOf).tableName,
        newName := ((tableRefTree t).value valueOf).tableName,
        indexSpec := some { name := name, unique := ((uniqueTree u).value valueOf).boolVal,
                            options := ((ixOptsTree o).value valueOf).indexOptions },
        indexCols := ((indexColsTree first rest).value valueOf).indexColumns } := rfl
    rw [e, value_unique, value_tableRef, value_indexCols, value_ixOpts h]
    rfl
  | methodLast m c o =>
    have e : ((newIndexTree ⟨u, k, name, t, first, rest, .methodLast m c o⟩).value valueOf).statement = .ddl
      { action := lit "create index", table := ((tableRefTree t).value valueOf).tableName,
        newName := ((tableRefTree t).value valueOf).tableName,
        indexSpec := some { name := name, unique := ((uniqueTree u).value valueOf).boolVal,
                            whereClause := Go.whereOf ((whereTree c).value valueOf).expr },
        indexCols := ((indexColsTree first rest).value valueOf).indexColumns } := rfl
    rw [e, value_unique, value_tableRef, value_indexCols, value_where h.1]
    rfl

theorem value_alter (a : Alter) : ((alterTree a).value valueOf).statement = .ddl a.meaning := by
  obtain ⟨g, t, x⟩ := a
  cases x with
  | index u i n c cs =>
    have e : ((alterTree ⟨g, t, .index u i n c cs⟩).value valueOf).statement = .ddl
      { action := lit "add index", table := ((tableRefTree t).value valueOf).tableName,
        newName := ((tableRefTree t).value valueOf).tableName,
        indexSpec := some { name := n, unique := ((uniqueTree u).value valueOf).boolVal },
        indexCols := ((indexColsTree c cs).value valueOf).indexColumns } := rfl
    rw [e, value_tableRef, value_indexCols, value_unique]
    rfl
  | primaryKey n c cs =>
    have e : ((alterTree ⟨g, t, .primaryKey n c cs⟩).value valueOf).statement = .ddl
      { action := lit "add primary key", table := ((tableRefTree t).value valueOf).tableName,
        newName := ((tableRefTree t).value valueOf).tableName, indexSpec := some { name := n },
        indexCols := ((indexColsTree c cs).value valueOf).indexColumns } := rfl
    rw [e, value_tableRef, value_indexCols]
    rfl
  | foreignKey f =>
    have e : ((alterTree ⟨g, t, .foreignKey f⟩).value valueOf).statement = .ddl
      { action := lit "add foreign key", table := ((tableRefTree t).value valueOf).tableName,
        newName := ((tableRefTree t).value valueOf).tableName,
        foreignKey := some ((fkTree f).value valueOf).foreignKeyDefinition } := rfl
    rw [e, value_tableRef, value_fk]
    rfl

theorem value_permissive (p : Option Bool) :
    ((permissiveTree p).value valueOf).bytes = (p.map fun b => lit (permissiveWord b)).getD [] := by
  have h1 : ((permissiveTree (some true)).value valueOf).bytes = lit "permissive" := by decide +kernel
  have h2 : ((permissiveTree (some false)).value valueOf).bytes = lit "restrictive" := by decide +kernel
  rcases p with _ | _ | _
  · rfl
  · exact h2
  · exact h1

theorem value_scopes : ∀ w ∈ scopeWords, ((scopeTree (some w)).value valueOf).bytes = lit w := by decide +kernel

theorem value_scope {s : Option String} (h : ∀ w, s = some w → w ∈ scopeWords) :
    ((scopeTree s).value valueOf).bytes = (s.map fun w => lit w).getD [] := by
  cases s with
  | none => rfl
  | some w => exact value_scopes w (h w rfl)

theorem value_using {c : Option Ex} (h : ClearCondition c) :
    Option.map Go.ExprNode.sql ((usingTree c).value valueOf).expr = c.map Ex.meaning := by
  cases c with
  | none => rfl
  | some e =>
    show Option.map Go.ExprNode.sql (exprOf (exprTree e)) = _
    rw [value_expr (h e rfl).1]
    simp only [Option.map, node_meaning]

theorem value_withCheck {c : Option Ex} (h : ClearCondition c) :
    Option.map Go.ExprNode.sql ((withCheckTree c).value valueOf).expr = c.map Ex.meaning := by
  cases c with
  | none => rfl
  | some e =>
    show Option.map Go.ExprNode.sql (exprOf (exprTree e)) = _
    rw [value_expr (h e rfl).1]
    simp only [Option.map, node_meaning]

theorem value_policy {p : NewPolicy} (h : p.Clear) : ((policyTree p).value valueOf).statement = .ddl p.meaning := by
  have e : ((policyTree p).value valueOf).statement = .ddl
    { action := lit "create policy", table := ((tableRefTree p.table).value valueOf).tableName,
      policy := some { name := p.name, permissive := ((permissiveTree p.permissive).value valueOf).bytes,
                       scope := ((scopeTree p.scope).value valueOf).bytes, to := ((idListTree p.first p.rest).value valueOf).colIdents,
                       using_ := Option.map Go.ExprNode.sql ((usingTree p.condition).value valueOf).expr,
                       withCheck := Option.map Go.ExprNode.sql ((withCheckTree p.check).value valueOf).expr } } := rfl
  rw [e, value_tableRef, value_permissive, value_scope h.1, value_idList, value_using h.2.1, value_withCheck h.2.2]
  rfl

theorem value_create (d : Tree SymType) : ((Tree.node 10 [d]).value valueOf).statement = (d.value valueOf).statement := rfl
theorem value_alterStmt (d : Tree SymType) : ((Tree.node 11 [d]).value valueOf).statement = (d.value valueOf).statement := rfl

theorem value_stmt {s : Sentence} (h : s.Clear) : ((stmtTree s).value valueOf).statement = .ddl s.meaning := by
  cases s with
  | table t => exact value_table h
  | index i => rw [stmtTree, value_create, value_newIndex h]; rfl
  | alter a => rw [stmtTree, value_alterStmt, value_alter]; rfl
  | policy p => rw [stmtTree, value_create, value_policy h]; rfl

/-! ### Nothing is asked -/

theorem tame_unique (u : Bool) : tame (uniqueTree u) = true := by cases u <;> rfl
theorem tame_ignore (u : Bool) : tame (ignoreTree u) = true := by cases u <;> rfl
theorem tame_alterWord (u : Bool) : tame (alterWordTree u) = true := by cases u <;> rfl
theorem tame_included (i : Option (Str × List Str)) : tame (includedTree i) = true := by
  cases i with
  | none => rfl
  | some p => simp only [includedTree, tame, tameAll, tame_columnList, tame_lf]; rfl
theorem tame_permissive (p : Option Bool) : tame (permissiveTree p) = true := by rcases p with _ | _ | _ <;> rfl
theorem tame_scopes : ∀ w ∈ scopeWords, tame (scopeTree (some w)) = true := by decide +kernel
theorem tame_scope {s : Option String} (h : ∀ w, s = some w → w ∈ scopeWords) : tame (scopeTree s) = true := by
  cases s with
  | none => rfl
  | some w => exact tame_scopes w (h w rfl)

theorem fine_whereTree {c : Option Ex} (h : ClearCondition c) : fine valueOf asks (whereTree c) := by
  cases c with
  | none => exact fine_of_tame _ rfl
  | some e => exact ⟨asks_of_tame (by decide) _, trivial, fine_expr (h e rfl).1, trivial⟩
theorem fine_using {c : Option Ex} (h : ClearCondition c) : fine valueOf asks (usingTree c) := by
  cases c with
  | none => exact fine_of_tame _ rfl
  | some e => exact ⟨asks_of_tame (by decide) _, trivial, fine_expr (h e rfl).1, trivial⟩
theorem fine_withCheck {c : Option Ex} (h : ClearCondition c) : fine valueOf asks (withCheckTree c) := by
  cases c with
  | none => exact fine_of_tame _ rfl
  | some e => exact ⟨asks_of_tame (by decide) _, trivial, trivial, fine_expr (h e rfl).1, trivial⟩

theorem fine_newIndex {i : NewIndex} (h : i.form.Clear) : fine valueOf asks (newIndexTree i) := by
  unfold newIndexTree
  have h1 := fine_of_tame _ (tame_unique i.unique)
  have h2 := fine_of_tame _ (tame_clustered i.clustered)
  have h3 := fine_of_tame _ (tame_sqlId i.name)
  have h4 := fine_of_tame _ (tame_tableRef i.table)
  have h5 := fine_of_tame _ (tame_indexCols i.first i.rest)
  cases hf : i.form with
  | plain n c o p =>
    rw [hf] at h
    exact ⟨asks_of_tame (by decide) _, trivial, h1, h2, trivial, h3, trivial, h4, trivial, h5, trivial,
      fine_of_tame _ (tame_included n), fine_whereTree h.1, fine_of_tame _ (tame_ixOpts h.2), fine_of_tame _ (tame_partition p), trivial⟩
  | methodFirst m o =>
    rw [hf] at h
    exact ⟨asks_of_tame (by decide) _, trivial, h1, h2, trivial, h3, trivial, fine_of_tame _ (tame_sqlId m), trivial, h4, trivial, h5,
      trivial, fine_of_tame _ (tame_ixOpts h), trivial⟩
  | methodLast m c o =>
    rw [hf] at h
    exact ⟨asks_of_tame (by decide) _, trivial, h1, h2, trivial, h3, trivial, h4, trivial, fine_of_tame _ (tame_sqlId m), trivial, h5,
      trivial, fine_whereTree h.1, fine_of_tame _ (tame_ixOpts h.2), trivial⟩

theorem tame_alter (a : Alter) : tame (alterTree a) = true := by
  unfold alterTree
  cases a.added <;>
    (simp only [tame, tameAll, tame_lf, tame_ignore, tame_tableRef, tame_unique, tame_alterWord, tame_sqlId, tame_indexCols, tame_fk]
     rfl)

theorem fine_policy {p : NewPolicy} (h : p.Clear) : fine valueOf asks (policyTree p) :=
  ⟨asks_of_tame (by decide) _, trivial, trivial, fine_of_tame _ (tame_sqlId p.name), trivial, fine_of_tame _ (tame_tableRef p.table),
    fine_of_tame _ (tame_permissive p.permissive), fine_of_tame _ (tame_scope h.1), trivial, fine_of_tame _ (tame_idList p.first p.rest),
    fine_using h.2.1, fine_withCheck h.2.2, trivial⟩

theorem fine_stmt {s : Sentence} (h : s.Clear) : fine valueOf asks (stmtTree s) := by
  cases s with
  | table t => exact (fine_table h false).1
  | index i => exact ⟨asks_of_tame (by decide) _, fine_newIndex h, trivial⟩
  | alter a => exact ⟨asks_of_tame (by decide) _, fine_of_tame _ (tame_alter a), trivial⟩
  | policy p => exact ⟨asks_of_tame (by decide) _, fine_policy h, trivial⟩

end Sqldef.Sql
