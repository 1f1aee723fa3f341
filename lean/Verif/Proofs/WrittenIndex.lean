import Verif.Proofs.WrittenColumn

/-! The derivations of indexes and foreign keys. -/
namespace Sqldef.Sql
open Spec Yy Written

def directionTree : Option Bool → Tree SymType
  | none => .node 679 []
  | some true => .node 680 [lf (kw "ASC")]
  | some false => .node 681 [lf (kw "DESC")]

def indexColTree (c : IndexCol) : Tree SymType := .node 304 [sqlId c.name, lengthTree c.length, directionTree c.direction]

/-- One more column of an index. -/
def indexColAdd (c : IndexCol) : Nat × List (Tree SymType) := (303, [lf (sym ','), indexColTree c])

def indexColsTree (c : IndexCol) (cs : List IndexCol) : Tree SymType := grow indexColAdd (.node 302 [indexColTree c]) cs

/-- The rules for the switches. -/
def switchRules : List (String × Nat) :=
  [("pad_index", 278), ("ignore_dup_key", 280), ("statistics_norecompute", 281), ("statistics_incremental", 282),
   ("allow_row_locks", 283), ("allow_page_locks", 284)]

def switchRule (w : String) : Nat := (switchRules.lookup w).getD 0

def onOffTree : Bool → Tree SymType
  | true => .node 287 [lf (kw "ON")]
  | false => .node 288 [lf (kw "OFF")]

def ixOptTree : IndexOpt → Tree SymType
  | .using n => .node 274 [lf (kw "USING"), lf (nm n)]
  | .keyBlockSize false n => .node 275 [lf (kw "KEY_BLOCK_SIZE"), .node 285 [], lf (int n)]
  | .keyBlockSize true n => .node 275 [lf (kw "KEY_BLOCK_SIZE"), .node 286 [lf (sym '=')], lf (int n)]
  | .comment s => .node 276 [lf (kw "COMMENT"), lf (str s)]
  | .parser n => .node 277 [lf (kw "WITH"), lf (kw "PARSER"), sqlId n]
  | .fillfactor n => .node 279 [lf (kw "FILLFACTOR"), lf (sym '='), lf (int n)]
  | .switch w on => .node (switchRule w) [lf (kw w), lf (sym '='), onOffTree on]

/-- One more option of an index. -/
def ixOptAdd (o : IndexOpt) : Nat × List (Tree SymType) := (271, [ixOptTree o])
@[inherit_doc ixOptAdd] def ixOptAddComma (o : IndexOpt) : Nat × List (Tree SymType) := (273, [lf (sym ','), ixOptTree o])

def ixOptsTree : IndexOpts → Tree SymType
  | .none => .node 267 []
  | .plain o os => .node 268 [grow ixOptAdd (.node 270 [ixOptTree o]) os]
  | .list o os => .node 269 [lf (kw "WITH"), lf (sym '('), grow ixOptAddComma (.node 272 [ixOptTree o]) os, lf (sym ')')]

def partitionTree : Partition → Tree SymType
  | .none => .node 289 []
  | .name n => .node 290 [lf (kw "ON"), sqlId n]
  | .scheme n c => .node 291 [lf (kw "ON"), sqlId n, .node 993 [lf (sym '(')], sqlId c, .node 994 [lf (sym ')')]]

def clusteredTree : Option Bool → Tree SymType
  | none => .node 317 []
  | some true => .node 318 [lf (kw "CLUSTERED")]
  | some false => .node 319 [lf (kw "NONCLUSTERED")]

def indexWordTree : Bool → Tree SymType
  | true => .node 300 [lf (kw "INDEX")]
  | false => .node 301 [lf (kw "KEY")]

def headTree : IndexHead → Tree SymType
  | .primary => .node 292 [lf (kw "PRIMARY"), lf (kw "KEY")]
  | .spatial i n => .node 293 [lf (kw "SPATIAL"), indexWordTree i, lf (nm n)]
  | .fulltext (some i) n => .node 294 [lf (kw "FULLTEXT"), indexWordTree i, lf (nm n)]
  | .fulltext none n => .node 295 [lf (kw "FULLTEXT"), lf (nm n)]
  | .unique (some i) n => .node 296 [lf (kw "UNIQUE"), indexWordTree i, lf (nm n)]
  | .unique none n => .node 297 [lf (kw "UNIQUE"), lf (nm n)]
  | .plain i n c => .node 298 [indexWordTree i, lf (nm n), clusteredTree c]
  | .uniqueAfter i n c => .node 299 [indexWordTree i, lf (nm n), lf (kw "UNIQUE"), clusteredTree c]

def ixTree (i : Ix) : Tree SymType :=
  .node 266 [headTree i.head, lf (sym '('), indexColsTree i.first i.rest, lf (sym ')'), ixOptsTree i.options,
    partitionTree i.partition]

def pkTree (p : Pk) : Tree SymType :=
  .node 316 [lf (kw "CONSTRAINT"), sqlId p.name, lf (kw "PRIMARY"), lf (kw "KEY"), clusteredTree p.clustered, lf (sym '('),
    indexColsTree p.first p.rest, lf (sym ')'), ixOptsTree p.options, partitionTree p.partition]

def sqlIdOpt : Option Str → Tree SymType
  | none => .node 322 []
  | some n => .node 323 [sqlId n]

/-- One more name. -/
def idAdd (n : Str) : Nat × List (Tree SymType) := (325, [lf (sym ','), sqlId n])

def idListTree (a : Str) (as : List Str) : Tree SymType := grow idAdd (.node 324 [sqlId a]) as

def tableRefTree (t : TableRef) : Tree SymType :=
  match t.schema with
  | none => .node 502 [tableId t.name]
  | some s => .node 503 [tableId s, lf (sym '.'), .node 751 [tableId t.name]]

def actionTree : RefAction → Tree SymType
  | .restrict => .node 312 [lf (kw "RESTRICT")]
  | .cascade => .node 313 [lf (kw "CASCADE")]
  | .setNull => .node 314 [lf (kw "SET"), lf (kw "NULL")]
  | .noAction => .node 315 [lf (kw "NO"), lf (kw "ACTION")]

def replicationTree : Bool → Tree SymType
  | false => .node 320 []
  | true => .node 321 [lf (kw "NOT"), lf (kw "FOR"), lf (kw "REPLICATION")]

def fkBaseTree (f : Fk) : Tree SymType :=
  .node 311 [lf (kw "CONSTRAINT"), sqlIdOpt f.constraint, lf (kw "FOREIGN"), lf (kw "KEY"), sqlIdOpt f.index, lf (sym '('),
    idListTree f.first f.rest, lf (sym ')'), lf (kw "REFERENCES"), tableRefTree f.table, lf (sym '('),
    idListTree f.refFirst f.refRest, lf (sym ')')]

/-- What follows the columns of a foreign key. -/
def actionsAdd (n : Bool) : RefActions → Nat × List (Tree SymType)
  | .none => (306, [replicationTree n])
  | .delete a => (307, [lf (kw "ON"), lf (kw "DELETE"), actionTree a, replicationTree n])
  | .update a => (308, [lf (kw "ON"), lf (kw "UPDATE"), actionTree a, replicationTree n])
  | .deleteUpdate d u =>
    (309, [lf (kw "ON"), lf (kw "DELETE"), actionTree d, lf (kw "ON"), lf (kw "UPDATE"), actionTree u, replicationTree n])
  | .updateDelete u d =>
    (310, [lf (kw "ON"), lf (kw "UPDATE"), actionTree u, lf (kw "ON"), lf (kw "DELETE"), actionTree d, replicationTree n])

def fkTree (f : Fk) : Tree SymType :=
  .node (actionsAdd f.notForReplication f.actions).1 (fkBaseTree f :: (actionsAdd f.notForReplication f.actions).2)

/-! ### Tokens -/

theorem said_direction (d : Option Bool) : said (directionTree d) = (directionTokens d).map seenAs := by
  rcases d with _ | _ | _ <;> simp [directionTree, directionTokens, said_node, saidAll_cons, saidAll_nil, said_lf]

theorem said_indexCol (c : IndexCol) : said (indexColTree c) = c.tokens.map seenAs := by
  simp [indexColTree, IndexCol.tokens, said_node, saidAll_cons, saidAll_nil, said_sqlId, said_length, said_direction]

theorem said_indexCols (c : IndexCol) (cs : List IndexCol) :
    said (indexColsTree c cs) = (indexColTokens c cs).map seenAs := by
  simp [indexColsTree, indexColTokens, said_grow, indexColAdd, List.map_flatMap, said_node, saidAll_cons, saidAll_nil, said_lf,
    said_indexCol]

theorem said_onOff (b : Bool) : said (onOffTree b) = [seenAs (if b then kw "ON" else kw "OFF")] := by
  cases b <;> simp [onOffTree, said_node, saidAll_cons, saidAll_nil, said_lf]

theorem said_ixOpt (o : IndexOpt) : said (ixOptTree o) = o.tokens.map seenAs := by
  rcases o with _ | ⟨_ | _, _⟩ | _ | _ | _ | _ <;>
    simp [ixOptTree, IndexOpt.tokens, given, said_node, saidAll_cons, saidAll_nil, said_lf, said_sqlId, said_onOff]

theorem said_ixOpts (o : IndexOpts) : said (ixOptsTree o) = o.tokens.map seenAs := by
  cases o <;>
    simp [ixOptsTree, IndexOpts.tokens, parens, said_grow, ixOptAdd, ixOptAddComma, List.map_flatMap, said_node, saidAll_cons,
      saidAll_nil, said_lf, said_ixOpt]

theorem said_partition (p : Partition) : said (partitionTree p) = p.tokens.map seenAs := by
  cases p <;> simp [partitionTree, Partition.tokens, parens, said_node, saidAll_cons, saidAll_nil, said_lf, said_sqlId]

theorem said_clustered (c : Option Bool) : said (clusteredTree c) = (clusteredTokens c).map seenAs := by
  rcases c with _ | _ | _ <;> simp [clusteredTree, clusteredTokens, said_node, saidAll_cons, saidAll_nil, said_lf]

theorem said_indexWord (i : Bool) : said (indexWordTree i) = [seenAs (indexWord i)] := by
  cases i <;> simp [indexWordTree, indexWord, said_node, saidAll_cons, saidAll_nil, said_lf]

theorem said_head (h : IndexHead) : said (headTree h) = h.tokens.map seenAs := by
  rcases h with _ | _ | ⟨_ | _, _⟩ | ⟨_ | _, _⟩ | _ | _ <;>
    simp [headTree, IndexHead.tokens, optionally, said_node, saidAll_cons, saidAll_nil, said_lf, said_indexWord, said_clustered]

theorem said_ix (i : Ix) : said (ixTree i) = i.tokens.map seenAs := by
  simp [ixTree, Ix.tokens, parens, said_node, saidAll_cons, saidAll_nil, said_lf, said_head, said_indexCols, said_ixOpts,
    said_partition]

theorem said_pk (p : Pk) : said (pkTree p) = p.tokens.map seenAs := by
  simp [pkTree, Pk.tokens, parens, said_node, saidAll_cons, saidAll_nil, said_lf, said_sqlId, said_clustered, said_indexCols,
    said_ixOpts, said_partition]

theorem said_sqlIdOpt (n : Option Str) : said (sqlIdOpt n) = (optionally n fun n => [nm n]).map seenAs := by
  cases n <;> simp [sqlIdOpt, optionally, said_node, saidAll_cons, saidAll_nil, said_sqlId]

theorem said_idList (a : Str) (as : List Str) : said (idListTree a as) = (nameTokens a as).map seenAs := by
  simp [idListTree, nameTokens, said_grow, idAdd, List.map_flatMap, said_node, saidAll_cons, saidAll_nil, said_lf, said_sqlId]

theorem said_tableRef (t : TableRef) : said (tableRefTree t) = t.tokens.map seenAs := by
  rcases t with ⟨_ | _, _⟩ <;>
    simp [tableRefTree, TableRef.tokens, optionally, said_node, saidAll_cons, saidAll_nil, said_lf, said_tableId]

theorem said_action (a : RefAction) : said (actionTree a) = a.tokens.map seenAs := by
  cases a <;> simp [actionTree, RefAction.tokens, said_node, saidAll_cons, saidAll_nil, said_lf]

theorem said_replication (b : Bool) :
    said (replicationTree b) = (given (b = true) [kw "NOT", kw "FOR", kw "REPLICATION"]).map seenAs := by
  cases b <;> simp [replicationTree, given, said_node, saidAll_cons, saidAll_nil, said_lf]

theorem said_actions (n : Bool) (a : RefActions) : saidAll (actionsAdd n a).2 =
    (a.tokens ++ given (n = true) [kw "NOT", kw "FOR", kw "REPLICATION"]).map seenAs := by
  cases a <;> simp [actionsAdd, RefActions.tokens, saidAll_cons, saidAll_nil, said_lf, said_action, said_replication]

theorem said_fk (f : Fk) : said (fkTree f) = f.tokens.map seenAs := by
  rw [fkTree, said_node, saidAll_cons, said_actions]
  simp [fkBaseTree, Fk.tokens, parens, said_node, saidAll_cons, saidAll_nil, said_lf, said_sqlIdOpt, said_idList, said_tableRef]

/-! ### Values -/

theorem value_direction (d : Option Bool) :
    ((directionTree d).value valueOf).str = if d = some false then lit "desc" else lit "asc" := by
  rcases d with _ | _ | _ <;> rfl

theorem value_indexCol (c : IndexCol) : ((indexColTree c).value valueOf).indexColumn = c.meaning := by
  have e : ((indexColTree c).value valueOf).indexColumn =
    { column := c.name, length := ((lengthTree c.length).value valueOf).optVal,
      direction := ((directionTree c.direction).value valueOf).str } := rfl
  rw [e, value_length, value_direction]
  rfl

theorem foldl_snoc {X A : Type} (f : X → A) (l : List A) (xs : List X) :
    xs.foldl (fun l x => l ++ [f x]) l = l ++ xs.map f := by
  induction xs generalizing l with
  | nil => simp
  | cons x xs ih => rw [List.foldl_cons, ih]; simp

theorem value_indexCols (c : IndexCol) (cs : List IndexCol) :
    ((indexColsTree c cs).value valueOf).indexColumns = (c :: cs).map IndexCol.meaning := by
  have e : ((Tree.node 302 [indexColTree c]).value valueOf).indexColumns = [((indexColTree c).value valueOf).indexColumn] := rfl
  rw [indexColsTree, value_grow (g := SymType.indexColumns) (ap := fun l x => l ++ [x.meaning]) _ _ ?_, foldl_snoc, e,
    value_indexCol]
  · rfl
  · intro x _ v
    have e : (valueOf (indexColAdd x).1 (v :: valuesOf valueOf (indexColAdd x).2)).indexColumns =
      v.indexColumns ++ [((indexColTree x).value valueOf).indexColumn] := rfl
    rw [e, value_indexCol]

theorem index_words : (kw "USING").val = lit "using" ∧ (kw "KEY_BLOCK_SIZE").val = lit "key_block_size" ∧
    (kw "COMMENT").val = lit "comment" ∧ (kw "PARSER").val = lit "parser" ∧ (kw "FILLFACTOR").val = lit "fillfactor" ∧
    (∀ w ∈ switchWords, (kw w).val = lit w) ∧ (kw "INDEX").val = lit "index" ∧ (kw "KEY").val = lit "key" ∧
    (kw "PRIMARY").val = lit "primary" ∧ (kw "SPATIAL").val = lit "spatial" ∧ (kw "FULLTEXT").val = lit "fulltext" ∧
    (kw "UNIQUE").val = lit "unique" := by
  decide +kernel

theorem value_onOff (b : Bool) : ((onOffTree b).value valueOf).optVal =
    some (⟨.valBool, if b then lit "true" else lit "false"⟩ : SqlVal) := by cases b <;> rfl

theorem switchRule_word : ∀ p ∈ switchRules, switchRule p.1 = p.2 := by decide +kernel

theorem value_switch : ∀ p ∈ switchRules, ∀ a b c, (valueOf p.2 [a, b, c]).indexOption =
    { name := a.bytes, value := c.optVal } := by
  simp only [switchRules, List.forall_mem_cons]
  exact ⟨fun _ _ _ => rfl, fun _ _ _ => rfl, fun _ _ _ => rfl, fun _ _ _ => rfl, fun _ _ _ => rfl, fun _ _ _ => rfl,
    fun _ h => nomatch h⟩

theorem value_ixOpt {o : IndexOpt} (h : o.Known) : ((ixOptTree o).value valueOf).indexOption = o.meaning := by
  obtain ⟨h1, h2, h3, h4, h5, h6, _⟩ := index_words
  rcases o with _ | ⟨_ | _, n⟩ | s | n | n | ⟨w, b⟩
  · exact congrArg (fun w => ({ name := w } : SqlIndexOption)) h1
  · exact congrArg (fun w => ({ name := w, value := some (intVal n) } : SqlIndexOption)) h2
  · exact congrArg (fun w => ({ name := w, value := some (intVal n) } : SqlIndexOption)) h2
  · exact congrArg (fun w => ({ name := w, value := some ⟨.strVal, s⟩ } : SqlIndexOption)) h3
  · exact congrArg (fun w => ({ name := w, value := some ⟨.strVal, n⟩ } : SqlIndexOption)) h4
  · exact congrArg (fun w => ({ name := w, value := some (intVal n) } : SqlIndexOption)) h5
  · obtain ⟨r, hr⟩ := rule_of_word (t := switchRules) rfl h
    have e := switchRule_word _ hr
    rw [ixOptTree, value_node, show switchRule w = r from e, valuesOf, valuesOf, valuesOf, valuesOf, value_switch _ hr,
      value_lf, h6 w h, value_onOff]
    rfl

theorem value_ixOpts {o : IndexOpts} (h : ∀ x ∈ o.all, x.Known) :
    ((ixOptsTree o).value valueOf).indexOptions = o.all.map IndexOpt.meaning := by
  cases o with
  | none => rfl
  | plain o os =>
    have e : ((ixOptsTree (.plain o os)).value valueOf).indexOptions =
      ((grow ixOptAdd (.node 270 [ixOptTree o]) os).value valueOf).indexOptions := rfl
    have e1 : ((Tree.node 270 [ixOptTree o]).value valueOf).indexOptions = [((ixOptTree o).value valueOf).indexOption] := rfl
    rw [e, value_grow (g := SymType.indexOptions) (ap := fun l x => l ++ [x.meaning]) _ _ ?_, foldl_snoc, e1,
      value_ixOpt (h o List.mem_cons_self)]
    · rfl
    · intro x hx v
      have e : (valueOf (ixOptAdd x).1 (v :: valuesOf valueOf (ixOptAdd x).2)).indexOptions =
        v.indexOptions ++ [((ixOptTree x).value valueOf).indexOption] := rfl
      rw [e, value_ixOpt (h x (List.mem_cons_of_mem _ hx))]
  | list o os =>
    have e : ((ixOptsTree (.list o os)).value valueOf).indexOptions =
      ((grow ixOptAddComma (.node 272 [ixOptTree o]) os).value valueOf).indexOptions := rfl
    have e1 : ((Tree.node 272 [ixOptTree o]).value valueOf).indexOptions = [((ixOptTree o).value valueOf).indexOption] := rfl
    rw [e, value_grow (g := SymType.indexOptions) (ap := fun l x => l ++ [x.meaning]) _ _ ?_, foldl_snoc, e1,
      value_ixOpt (h o List.mem_cons_self)]
    · rfl
    · intro x hx v
      have e : (valueOf (ixOptAddComma x).1 (v :: valuesOf valueOf (ixOptAddComma x).2)).indexOptions =
        v.indexOptions ++ [((ixOptTree x).value valueOf).indexOption] := rfl
      rw [e, value_ixOpt (h x (List.mem_cons_of_mem _ hx))]

theorem value_partition (p : Partition) : ((partitionTree p).value valueOf).indexPartition = p.meaning := by
  cases p <;> rfl

theorem value_clustered (c : Option Bool) : ((clusteredTree c).value valueOf).boolVal = c.getD true := by
  rcases c with _ | _ | _ <;> rfl

theorem value_indexWord (i : Bool) : ((indexWordTree i).value valueOf).str = indexText i := by
  obtain ⟨_, _, _, _, _, _, h7, h8, _⟩ := index_words
  cases i
  · exact h8
  · exact h7

/-- What an index begins with, as the actions keep it. -/
def headInfo : IndexHead → Go.IndexInfo
  | .primary => { Ty := lit "primary key", Name := lit "PRIMARY", Primary := true, Unique := true }
  | .spatial i n => { Ty := lit "spatial " ++ indexText i, Name := n, Spatial := true }
  | .fulltext i n => { Ty := lit "fulltext" ++ (i.map fun i => lit " " ++ indexText i).getD [], Name := n, Fulltext := true }
  | .unique i n => { Ty := lit "unique" ++ (i.map fun i => lit " " ++ indexText i).getD [], Name := n, Unique := true }
  | .plain i n c => { Ty := indexText i, Name := n, Clustered := c.getD true }
  | .uniqueAfter i n c => { Ty := indexText i, Name := n, Unique := true, Clustered := c.getD true }

theorem value_head (h : IndexHead) : ((headTree h).value valueOf).indexInfo = headInfo h := by
  obtain ⟨_, _, _, _, _, _, h7, h8, h9, h10, h11, h12⟩ := index_words
  rcases h with _ | ⟨i, n⟩ | ⟨_ | i, n⟩ | ⟨_ | i, n⟩ | ⟨i, n, c⟩ | ⟨i, n, c⟩
  · have e : ((headTree .primary).value valueOf).indexInfo =
      { Ty := (kw "PRIMARY").val ++ lit " " ++ (kw "KEY").val, Name := lit "PRIMARY", Primary := true, Unique := true } := rfl
    rw [e, h9, h8]
    rfl
  · have e : ((headTree (.spatial i n)).value valueOf).indexInfo =
      { Ty := (kw "SPATIAL").val ++ lit " " ++ ((indexWordTree i).value valueOf).str, Name := n, Spatial := true } := rfl
    rw [e, h10, value_indexWord]
    rfl
  · have e : ((headTree (.fulltext none n)).value valueOf).indexInfo =
      { Ty := (kw "FULLTEXT").val, Name := n, Fulltext := true } := rfl
    rw [e, h11]
    rfl
  · have e : ((headTree (.fulltext (some i) n)).value valueOf).indexInfo =
      { Ty := (kw "FULLTEXT").val ++ lit " " ++ ((indexWordTree i).value valueOf).str, Name := n, Fulltext := true } := rfl
    rw [e, h11, value_indexWord]
    rfl
  · have e : ((headTree (.unique none n)).value valueOf).indexInfo =
      { Ty := (kw "UNIQUE").val, Name := n, Unique := true } := rfl
    rw [e, h12]
    rfl
  · have e : ((headTree (.unique (some i) n)).value valueOf).indexInfo =
      { Ty := (kw "UNIQUE").val ++ lit " " ++ ((indexWordTree i).value valueOf).str, Name := n, Unique := true } := rfl
    rw [e, h12, value_indexWord]
    rfl
  · have e : ((headTree (.plain i n c)).value valueOf).indexInfo =
      { Ty := ((indexWordTree i).value valueOf).str, Name := n, Clustered := ((clusteredTree c).value valueOf).boolVal } := rfl
    rw [e, value_indexWord, value_clustered]
    rfl
  · have e : ((headTree (.uniqueAfter i n c)).value valueOf).indexInfo =
      { Ty := ((indexWordTree i).value valueOf).str, Name := n, Unique := true,
        Clustered := ((clusteredTree c).value valueOf).boolVal } := rfl
    rw [e, value_indexWord, value_clustered]
    rfl

theorem value_ix {i : Ix} (h : ∀ o ∈ i.options.all, o.Known) : ((ixTree i).value valueOf).indexDefinition = i.meaning := by
  have e : ((ixTree i).value valueOf).indexDefinition =
    Go.IndexDefinition ((headTree i.head).value valueOf).indexInfo ((indexColsTree i.first i.rest).value valueOf).indexColumns
      ((ixOptsTree i.options).value valueOf).indexOptions ((partitionTree i.partition).value valueOf).indexPartition := rfl
  rw [e, value_head, value_indexCols, value_ixOpts h, value_partition]
  unfold Ix.meaning
  cases i.head <;> rfl

theorem value_pk {p : Pk} (h : ∀ o ∈ p.options.all, o.Known) : ((pkTree p).value valueOf).indexDefinition = p.meaning := by
  obtain ⟨_, _, _, _, _, _, _, h8, h9, _⟩ := index_words
  have e : ((pkTree p).value valueOf).indexDefinition =
    Go.IndexDefinition { Ty := (kw "PRIMARY").val ++ lit " " ++ (kw "KEY").val, Name := p.name, Primary := true,
                         Unique := true, Clustered := ((clusteredTree p.clustered).value valueOf).boolVal }
      ((indexColsTree p.first p.rest).value valueOf).indexColumns
      ((ixOptsTree p.options).value valueOf).indexOptions ((partitionTree p.partition).value valueOf).indexPartition := rfl
  rw [e, h8, h9, value_clustered, value_indexCols, value_ixOpts h, value_partition]
  rfl

theorem value_sqlIdOpt (n : Option Str) : ((sqlIdOpt n).value valueOf).colIdent = n.getD [] := by cases n <;> rfl

theorem value_idList (a : Str) (as : List Str) : ((idListTree a as).value valueOf).colIdents = a :: as := by
  rw [idListTree, value_grow (g := SymType.colIdents) (ap := fun l x => l ++ [x]) _ _ fun _ _ _ => rfl,
    foldl_snoc (fun x => x)]
  simp only [List.map_id']
  rfl

theorem value_tableRef (t : TableRef) : ((tableRefTree t).value valueOf).tableName = t.meaning := by
  rcases t with ⟨_ | _, _⟩ <;> rfl

theorem value_action (a : RefAction) : ((actionTree a).value valueOf).colIdent = a.meaning := by cases a <;> rfl

theorem value_replication (b : Bool) : ((replicationTree b).value valueOf).boolVal = b := by cases b <;> rfl

theorem value_fk (f : Fk) : ((fkTree f).value valueOf).foreignKeyDefinition = f.meaning := by
  have e : ((fkBaseTree f).value valueOf).foreignKeyDefinition =
    { constraintName := ((sqlIdOpt f.constraint).value valueOf).colIdent, indexName := ((sqlIdOpt f.index).value valueOf).colIdent,
      indexColumns := ((idListTree f.first f.rest).value valueOf).colIdents,
      referenceName := ((tableRefTree f.table).value valueOf).tableName.name,
      referenceColumns := ((idListTree f.refFirst f.refRest).value valueOf).colIdents } := rfl
  rw [value_sqlIdOpt, value_sqlIdOpt, value_idList, value_idList, value_tableRef] at e
  have key : ∀ (n : Bool) (a : RefActions) (v : SymType), v.foreignKeyDefinition.onDelete = [] → v.foreignKeyDefinition.onUpdate = [] →
      (valueOf (actionsAdd n a).1 (v :: valuesOf valueOf (actionsAdd n a).2)).foreignKeyDefinition =
      { v.foreignKeyDefinition with onDelete := a.onDelete, onUpdate := a.onUpdate, notForReplication := n } := by
    intro n a v h1 h2
    cases a with
    | none =>
      have e : (valueOf (actionsAdd n .none).1 (v :: valuesOf valueOf (actionsAdd n .none).2)).foreignKeyDefinition =
        { v.foreignKeyDefinition with notForReplication := ((replicationTree n).value valueOf).boolVal } := rfl
      rw [e, value_replication]
      cases hv : v.foreignKeyDefinition
      rw [hv] at h1 h2
      cases h1
      cases h2
      rfl
    | delete a => cases n <;> cases a <;> rfl
    | update a => cases n <;> cases a <;> rfl
    | deleteUpdate d u => cases n <;> cases d <;> cases u <;> rfl
    | updateDelete u d => cases n <;> cases d <;> cases u <;> rfl
  rw [fkTree, value_node, valuesOf, key _ _ _ (by rw [e]) (by rw [e]), e]
  rfl

end Sqldef.Sql
