import Verif.Proofs.QueryTree
import Verif.Spec.Change

/-! The derivations of the statements of triggers and of `CREATE TRIGGER`: what they say and what they mean. -/
namespace Sqldef.Sql
open Spec Yy Written

/-! ### Trees -/

def placeTree (p : Spot) : Tree SymType :=
  match p.table with
  | none => .node 656 [sqlId p.name]
  | some t => .node 657 [tableId t, lf (sym '.'), .node 747 [sqlId p.name]]

def assignTree (a : Assign) : Tree SymType := .node 709 [placeTree a.place, lf (sym '='), exprTree a.value]
def assignAdd (x : Assign) : Nat × List (Tree SymType) := (708, [lf (sym ','), assignTree x])
def assignListTree (a : Assign) (as : List Assign) : Tree SymType := grow assignAdd (.node 707 [assignTree a]) as

def rowTree : RowOf → Tree SymType
  | [] => .node 704 [openTree, closeTree]
  | a :: as => .node 703 [.node 705 [openTree, exListTree a as, closeTree]]
def rowAdd (x : RowOf) : Nat × List (Tree SymType) := (702, [lf (sym ','), rowTree x])
def rowListTree (a : RowOf) (as : List RowOf) : Tree SymType := grow rowAdd (.node 701 [rowTree a]) as

def noComments : Tree SymType := .node 431 [.node 430 [], .node 432 []]
def actionWordTree (replace : Bool) : Tree SymType := if replace then .node 34 [lf (kw "REPLACE")] else .node 33 [lf (kw "INSERT")]
def insIgnoreTree (ignore : Bool) : Tree SymType := if ignore then .node 729 [lf (kw "IGNORE")] else .node 728 []
def intoTree (into : Bool) (t : TableRef) : Tree SymType :=
  if into then .node 500 [lf (kw "INTO"), tableRefTree t] else .node 501 [tableRefTree t]

def insColumnAdd (x : Str) : Nat × List (Tree SymType) := (697, [lf (sym ','), sqlId x])
def insColumnsTree (a : Str) (as : List Str) : Tree SymType := grow insColumnAdd (.node 695 [sqlId a]) as

def insDataTree (cs : Option (Str × List Str)) (r : RowOf) (rs : List RowOf) : Tree SymType :=
  match cs with
  | none => .node 689 [lf (kw "VALUES"), rowListTree r rs]
  | some p => .node 692 [openTree, insColumnsTree p.1 p.2, closeTree, lf (kw "VALUES"), rowListTree r rs]

def otherwiseTree : Option (Assign × List Assign) → Tree SymType
  | none => .node 699 []
  | some p => .node 700 [lf (kw "ON"), lf (kw "DUPLICATE"), lf (kw "KEY"), lf (kw "UPDATE"), assignListTree p.1 p.2]

def changeTree : Change → Tree SymType
  | .insert replace ignore into t cs r rs o => .node 78 [.node 31 [actionWordTree replace, noComments, insIgnoreTree ignore, intoTree into t,
      .node 43 [], insDataTree cs r rs, otherwiseTree o]]
  | .update t a x xs c => .node 80 [.node 35 [lf (kw "UPDATE"), noComments, refListTree (.table t a) [], lf (kw "SET"), assignListTree x xs,
      whereTree c, .node 674 [], .node 682 []]]
  | .delete t c => .node 79 [.node 36 [lf (kw "DELETE"), noComments, lf (kw "FROM"), tableRefTree t, .node 43 [],
      whereTree c, .node 674 [], .node 682 []]]

def changeAdd (x : Change) : Nat × List (Tree SymType) := (77, [changeTree x])
def changesTree (a : Change) (as : List Change) : Tree SymType := grow changeAdd (.node 76 [changeTree a]) as

def momentTree (m : Moment) : Tree SymType := .node (match m with | .before => 71 | .after => 72) [lf (kw m.word)]
def causeTree (c : Cause) : Tree SymType := .node (match c with | .insert => 73 | .update => 74 | .delete => 75) [lf (kw c.word)]

def triggerTree (t : NewTrigger) : Tree SymType :=
  match t.more with
  | none => .node 10 [.node 69 [lf (kw "CREATE"), lf (kw "TRIGGER"), sqlId t.name, momentTree t.moment, causeTree t.cause, lf (kw "ON"),
      tableRefTree t.table, lf (kw "FOR"), lf (kw "EACH"), lf (kw "ROW"), changeTree t.body]]
  | some cs => .node 10 [.node 70 [lf (kw "CREATE"), lf (kw "TRIGGER"), sqlId t.name, lf (kw "ON"), tableRefTree t.table,
      momentTree t.moment, causeTree t.cause, lf (kw "AS"), changesTree t.body cs]]

/-! ### Tokens -/

theorem said_place (p : Spot) : said (placeTree p) = p.tokens.map seenAs := by
  obtain ⟨_ | t, n⟩ := p <;>
    simp [placeTree, Spot.tokens, optionally, said_node, saidAll_cons, saidAll_nil, said_lf, said_sqlId, said_tableId]

theorem said_assign (a : Assign) : said (assignTree a) = a.tokens.map seenAs := by
  simp [assignTree, Assign.tokens, said_node, saidAll_cons, saidAll_nil, said_lf, said_place, said_expr]

theorem said_assignList (a : Assign) (as : List Assign) : said (assignListTree a as) = (listed Assign.tokens a as).map seenAs :=
  said_listed 708 707 said_assign a as

theorem said_row (r : RowOf) : said (rowTree r) = (rowTokens r).map seenAs := by
  cases r <;> simp [rowTree, rowTokens, parens, openTree, closeTree, said_node, saidAll_cons, saidAll_nil, said_lf, said_exList]

theorem said_rowList (a : RowOf) (as : List RowOf) : said (rowListTree a as) = (listed rowTokens a as).map seenAs :=
  said_listed 702 701 said_row a as

theorem said_insColumns (a : Str) (as : List Str) : said (insColumnsTree a as) = (nameTokens a as).map seenAs := by
  simp [insColumnsTree, nameTokens, said_grow, insColumnAdd, List.map_flatMap, said_node, saidAll_cons, saidAll_nil, said_lf, said_sqlId]

theorem said_insData (cs : Option (Str × List Str)) (r : RowOf) (rs : List RowOf) : said (insDataTree cs r rs) =
    (optionally cs (fun p => parens (nameTokens p.1 p.2)) ++ kw "VALUES" :: listed rowTokens r rs).map seenAs := by
  cases cs <;> simp [insDataTree, optionally, parens, openTree, closeTree, said_node, saidAll_cons, saidAll_nil, said_lf, said_rowList,
    said_insColumns]

theorem said_otherwise (o : Option (Assign × List Assign)) : said (otherwiseTree o) =
    (optionally o fun p => kw "ON" :: kw "DUPLICATE" :: kw "KEY" :: kw "UPDATE" :: listed Assign.tokens p.1 p.2).map seenAs := by
  cases o <;> simp [otherwiseTree, optionally, said_node, saidAll_cons, saidAll_nil, said_lf, said_assignList]

theorem said_noComments : said noComments = [] := rfl

theorem said_change {c : Change} (h : c.Clear) : said (changeTree c) = c.tokens.map seenAs := by
  cases c with
  | insert replace ignore into t cs r rs o =>
    have e1 : said (actionWordTree replace) = [seenAs (kw (if replace then "REPLACE" else "INSERT"))] := by
      cases replace <;> simp [actionWordTree, said_node, saidAll_cons, saidAll_nil, said_lf]
    have e2 : said (insIgnoreTree ignore) = (given (ignore = true) [kw "IGNORE"]).map seenAs := by
      cases ignore <;> simp [insIgnoreTree, given, said_node, saidAll_cons, saidAll_nil, said_lf]
    have e3 : said (intoTree into t) = (given (into = true) [kw "INTO"] ++ t.tokens).map seenAs := by
      cases into <;> simp [intoTree, given, said_node, saidAll_cons, saidAll_nil, said_lf, said_tableRef]
    simp [changeTree, Change.tokens, said_node, saidAll_cons, saidAll_nil, said_noComments, e1, e2, e3, said_insData, said_otherwise]
  | update t a x xs c =>
    have e1 : said (refListTree (.table t a) []) = (t.tokens ++ optionally a Alias.tokens).map seenAs := by
      rw [said_refList (a := .table t a) (as := []) fun s hs => by
        rw [List.mem_singleton] at hs; subst hs; exact ⟨h.1.1, h.1.2, h.2.1⟩]
      simp [listed, Source.tokens]
    simp [changeTree, Change.tokens, said_node, saidAll_cons, saidAll_nil, said_lf, said_noComments, e1, said_assignList, said_where, whereTokens]
  | delete t c =>
    simp [changeTree, Change.tokens, said_node, saidAll_cons, saidAll_nil, said_lf, said_noComments, said_tableRef, said_where, whereTokens]

theorem said_changes {a : Change} {as : List Change} (h : ∀ c ∈ a :: as, c.Clear) :
    said (changesTree a as) = (a.tokens ++ as.flatMap Change.tokens).map seenAs := by
  have key : ∀ as : List Change, (∀ c ∈ as, c.Clear) → (as.flatMap fun x => saidAll (changeAdd x).2) = (as.flatMap Change.tokens).map seenAs := by
    intro as
    induction as with
    | nil => intro _; rfl
    | cons x xs ih =>
      intro h'
      rw [List.flatMap_cons, List.flatMap_cons, ih fun s hs => h' s (by simp [hs]), List.map_append]
      simp [changeAdd, saidAll_cons, saidAll_nil, said_change (h' x (by simp))]
  rw [changesTree, said_grow, said_node, saidAll_cons, saidAll_nil, said_change (h a (by simp)), List.append_nil, List.map_append,
    key as fun s hs => h s (by simp [hs])]

theorem said_trigger {t : NewTrigger} (h : t.Clear) : said (triggerTree t) = t.tokens.map seenAs := by
  have e1 : ∀ m : Moment, said (momentTree m) = [seenAs (kw m.word)] := fun m => by
    simp [momentTree, said_node, saidAll_cons, saidAll_nil, said_lf]
  have e2 : ∀ c : Cause, said (causeTree c) = [seenAs (kw c.word)] := fun c => by
    simp [causeTree, said_node, saidAll_cons, saidAll_nil, said_lf]
  obtain ⟨n, tb, m, c, b, _ | cs⟩ := t
  · have hb : b.Clear := h b (by simp [NewTrigger.changes])
    simp [triggerTree, NewTrigger.tokens, said_node, saidAll_cons, saidAll_nil, said_lf, said_sqlId, said_tableRef, e1, e2, said_change hb]
  · have hb : ∀ x ∈ b :: cs, x.Clear := h
    simp [triggerTree, NewTrigger.tokens, said_node, saidAll_cons, saidAll_nil, said_lf, said_sqlId, said_tableRef, e1, e2, said_changes hb]

/-! ### Values -/

theorem value_place {p : Spot} (h : p.Good) : (((placeTree p).value valueOf).colName).fmt = p.text := by
  obtain ⟨_ | t, n⟩ := p
  · have e : ((placeTree ⟨none, n⟩).value valueOf).colName = { Name := n } := rfl
    rw [e, Go.ColName.fmt, if_pos rfl, formatID_shown h.2]
    rfl
  · have e : ((placeTree ⟨some t, n⟩).value valueOf).colName = { Qualifier := { name := t }, Name := n } := rfl
    have ht := h.1 t rfl
    rw [e, Go.ColName.fmt, if_neg (good_ne ht), Go.formatTableName, if_neg (good_ne ht), if_pos rfl, formatID_shown h.2, formatID_shown ht]
    rfl

theorem value_assign {a : Assign} (h : a.Clear) :
    (fun u : Go.UpdateExpr => Go.cat [some (u.Name.fmt ++ lit " = "), u.E.fmt]) ((assignTree a).value valueOf).updateExpr = some a.text := by
  have e : ((assignTree a).value valueOf).updateExpr =
    { Name := ((placeTree a.place).value valueOf).colName, E := exprOf (exprTree a.value) } := rfl
  rw [e, value_expr h.2.1]
  simp only [value_place h.1]
  simp [Go.cat, Go.Expr.fmt, exNode, Assign.text]

theorem value_assignList {a : Assign} {as : List Assign} (h : ∀ x ∈ a :: as, x.Clear) :
    Go.formatUpdates ((assignListTree a as).value valueOf).updateExprs = some (shownList Assign.text a as) := by
  have e : ((assignListTree a as).value valueOf).updateExprs = (a :: as).map fun x => ((assignTree x).value valueOf).updateExpr := by
    refine value_listed (g := SymType.updateExprs) (t := fun x => ((assignTree x).value valueOf).updateExpr) rfl ?_
    intro x _ v
    rfl
  have e2 : ((a :: as).map fun x => ((assignTree x).value valueOf).updateExpr).map
      (fun u : Go.UpdateExpr => Go.cat [some (u.Name.fmt ++ lit " = "), u.E.fmt]) = (a :: as).map fun x => some x.text := by
    rw [List.map_map]
    exact List.map_congr_left fun x hx => value_assign (h x hx)
  rw [Go.formatUpdates, e, e2]
  exact sepBy_shown Assign.text a as

theorem value_row {r : RowOf} (h : RowClear r) : Go.formatTuple ((rowTree r).value valueOf).valTuple = some (rowText r) := by
  cases r with
  | nil => decide +kernel
  | cons a as =>
    have e : ((rowTree (a :: as)).value valueOf).valTuple = ((exListTree a as).value valueOf).exprs := rfl
    have h2 := sepBy_shown Ex.text a as
    rw [e, value_exList fun x hx => (h x hx).1, Go.formatTuple, Go.formatExprs, List.map_map,
      show (Go.Expr.fmt ∘ fun x => some (exNode x)) = fun x => some (Ex.text x) from rfl]
    rw [h2]
    simp [Go.cat, rowText]

theorem value_rowList {a : RowOf} {as : List RowOf} (h : ∀ x ∈ a :: as, RowClear x) :
    Go.formatValues ((rowListTree a as).value valueOf).values = some (lit "values " ++ shownList rowText a as) := by
  have e : ((rowListTree a as).value valueOf).values = (a :: as).map fun x => ((rowTree x).value valueOf).valTuple := by
    refine value_listed (g := SymType.values) (t := fun x => ((rowTree x).value valueOf).valTuple) rfl ?_
    intro x _ v
    rfl
  have e2 : ((a :: as).map fun x => ((rowTree x).value valueOf).valTuple).map Go.formatTuple = (a :: as).map fun x => some (rowText x) := by
    rw [List.map_map]
    exact List.map_congr_left fun x hx => value_row (h x hx)
  rw [Go.formatValues, e, e2, Go.prefixed, if_neg (by simp), Go.commas, sepBy_shown rowText a as]
  simp [Go.cat]

theorem value_insColumns (a : Str) (as : List Str) : ((insColumnsTree a as).value valueOf).columns = a :: as := by
  have := value_listed (g := SymType.columns) (t := fun x : Str => x) (f := insColumnAdd) (d := .node 695 [sqlId a]) (xs := as) (a := a) rfl
    (fun x _ v => rfl)
  rw [List.map_id'] at this
  exact this

theorem value_otherwise {o : Option (Assign × List Assign)} (h : ∀ p, o = some p → ∀ x ∈ p.1 :: p.2, x.Clear) :
    (if ((otherwiseTree o).value valueOf).updateExprs.isEmpty then some [] else
      Go.cat [some (lit " on duplicate key update "), Go.formatUpdates ((otherwiseTree o).value valueOf).updateExprs]) =
    some ((o.map fun p => lit " on duplicate key update " ++ shownList Assign.text p.1 p.2).getD []) := by
  cases o with
  | none => rfl
  | some p =>
    have e : ((otherwiseTree (some p)).value valueOf).updateExprs = ((assignListTree p.1 p.2).value valueOf).updateExprs := rfl
    have e2 : ((assignListTree p.1 p.2).value valueOf).updateExprs = (p.1 :: p.2).map fun x => ((assignTree x).value valueOf).updateExpr := by
      refine value_listed (g := SymType.updateExprs) (t := fun x => ((assignTree x).value valueOf).updateExpr) rfl ?_
      intro x _ v
      rfl
    rw [if_neg (by rw [e, e2]; simp), e, value_assignList (h p rfl)]
    simp [Go.cat]

theorem value_intoTree (into : Bool) (t : TableRef) : ((intoTree into t).value valueOf).tableName = ((tableRefTree t).value valueOf).tableName := by
  cases into <;> rfl

theorem value_insData {cs : Option (Str × List Str)} {r : RowOf} {rs : List RowOf} (hc : ∀ p, cs = some p → ∀ n ∈ p.1 :: p.2, GoodName n)
    (hr : ∀ x ∈ r :: rs, RowClear x) :
    Go.formatColumns ((insDataTree cs r rs).value valueOf).ins.Columns = (cs.map fun p => lit "(" ++ shownList shownName p.1 p.2 ++ lit ")").getD [] ∧
    ((insDataTree cs r rs).value valueOf).ins.Rows = some (lit "values " ++ shownList rowText r rs) := by
  cases cs with
  | none =>
    have e : ((insDataTree none r rs).value valueOf).ins = { Rows := Go.formatValues ((rowListTree r rs).value valueOf).values } := rfl
    rw [e, value_rowList hr]
    exact ⟨rfl, rfl⟩
  | some p =>
    have e : ((insDataTree (some p) r rs).value valueOf).ins =
      { Columns := ((insColumnsTree p.1 p.2).value valueOf).columns, Rows := Go.formatValues ((rowListTree r rs).value valueOf).values } := rfl
    rw [e, value_rowList hr, value_insColumns, Go.formatColumns, if_neg (List.cons_ne_nil _ _), join_shown (hc p rfl)]
    exact ⟨rfl, rfl⟩

/-- The actions of the statements, whatever their parts are. -/
theorem value_statements (x1 x2 x3 x4 x5 x6 x7 x8 : Tree SymType) :
    ((Tree.node 78 [.node 31 [x1, x2, x3, x4, x5, x6, x7]]).value valueOf).statement = .dml
      (Go.formatInsert (x1.value valueOf).str (x2.value valueOf).bytes2 (x3.value valueOf).str (x4.value valueOf).tableName
        (x5.value valueOf).partitions (x6.value valueOf).ins.Columns (x6.value valueOf).ins.Rows (x7.value valueOf).updateExprs) ∧
    ((Tree.node 80 [.node 35 [x1, x2, x3, x4, x5, x6, x7, x8]]).value valueOf).statement = .dml
      (Go.formatUpdate (x2.value valueOf).bytes2 (x3.value valueOf).tableExprs (x5.value valueOf).updateExprs (x6.value valueOf).expr
        (x7.value valueOf).orderBy (x8.value valueOf).limit) ∧
    ((Tree.node 79 [.node 36 [x1, x2, x3, x4, x5, x6, x7, x8]]).value valueOf).statement = .dml
      (Go.formatDelete (Comments := (x2.value valueOf).bytes2)
        (TableExprs := [Go.AliasedTableExpr (E := some (Go.formatTableName (x4.value valueOf).tableName))])
        (Partitions := (x5.value valueOf).partitions) (Where := (x6.value valueOf).expr) (OrderBy := (x7.value valueOf).orderBy)
        (Limit := (x8.value valueOf).limit)) := ⟨rfl, rfl, rfl⟩

theorem value_nothing : (noComments.value valueOf).bytes2 = [] ∧ ((Tree.node 43 []).value valueOf).partitions = [] ∧
    ((Tree.node 674 []).value valueOf).orderBy = [] ∧ ((Tree.node 682 []).value valueOf).limit = some [] := ⟨rfl, rfl, rfl, rfl⟩

theorem value_change {c : Change} (h : c.Clear) : ((changeTree c).value valueOf).statement = .dml (some c.text) := by
  cases c with
  | insert replace ignore into t cs r rs o =>
    obtain ⟨h1, h2, h3, h4⟩ := h
    have e1 : ((actionWordTree replace).value valueOf).str = if replace then lit "replace" else lit "insert" := by cases replace <;> rfl
    have e2 : ((insIgnoreTree ignore).value valueOf).str = if ignore then lit "ignore " else [] := by cases ignore <;> rfl
    obtain ⟨d1, d2⟩ := value_insData h2 h3
    rw [changeTree, (value_statements _ _ _ _ _ _ _ (.node 43 [])).1, value_nothing.1, value_nothing.2.1, Go.formatInsert, value_otherwise h4, d1, d2, e1, e2, value_intoTree, value_tableRef, table_text h1.1 h1.2]
    simp only [Go.formatComments, Go.formatPartitions, Go.cat, Change.text]
    cases replace <;> cases ignore <;> simp [lit]
  | update t a x xs c =>
    obtain ⟨h1, h2, h3, h4⟩ := h
    rw [changeTree, (value_statements _ _ _ _ _ _ _ _).2.1, value_nothing.1, value_nothing.2.2.1, value_nothing.2.2.2, Go.formatUpdate, value_assignList h3, value_whereText h4, value_refList (a := .table t a) (as := []) fun s hs => by
      rw [List.mem_singleton] at hs; subst hs; exact ⟨h1.1, h1.2, h2⟩]
    simp [Go.formatComments, Go.commas, Go.sepBy, Go.cat, Go.formatOrderBy, Go.prefixed, Source.text, Change.text]
  | delete t c =>
    obtain ⟨h1, h2⟩ := h
    rw [changeTree, (value_statements _ _ _ _ _ _ _ _).2.2, value_nothing.1, value_nothing.2.1, value_nothing.2.2.1, value_nothing.2.2.2, Go.formatDelete, value_whereText h2, value_tableRef, table_text h1.1 h1.2]
    simp [Go.formatComments, Go.commas, Go.sepBy, Go.cat, Go.formatOrderBy, Go.prefixed, Go.AliasedTableExpr, Go.formatPartitions, Change.text, lit]

theorem value_changes {a : Change} {as : List Change} (h : ∀ c ∈ a :: as, c.Clear) :
    ((changesTree a as).value valueOf).triggerBody = (a :: as).map fun c => .dml (some c.text) := by
  refine value_listed (g := SymType.triggerBody) (t := fun c : Change => Go.Statement.dml (some c.text)) ?_ ?_
  · have e : ((Tree.node 76 [changeTree a]).value valueOf).triggerBody = [((changeTree a).value valueOf).statement] := rfl
    rw [e, value_change (h a (by simp))]
  · intro x hx v
    have e : (valueOf (changeAdd x).1 (v :: valuesOf valueOf (changeAdd x).2)).triggerBody = v.triggerBody ++ [((changeTree x).value valueOf).statement] := rfl
    rw [e, value_change (h x (by simp [hx]))]

theorem trigger_of (n : Str) (tb : SqlTableName) (time event : Str) (cs : List Change) :
    Go.Trigger n tb time event (cs.map fun c => .dml (some c.text)) =
      { name := n, tableName := tb, time := time, event := event, body := cs.map Change.text } := by
  have h1 : (cs.map fun c => Go.Statement.dml (some c.text)).map (fun s => s.fmt.getD []) = cs.map Change.text := by
    rw [List.map_map]; rfl
  have h2 : (cs.map fun c => Go.Statement.dml (some c.text)).any (fun s => s.fmt.isNone) = false := by
    rw [List.any_eq_false]
    intro x hx
    obtain ⟨c, -, rfl⟩ := List.mem_map.mp hx
    exact fun h => nomatch h
  rw [Go.Trigger, h1, h2]

theorem value_trigger {t : NewTrigger} (h : t.Clear) : ((triggerTree t).value valueOf).statement = .ddl t.meaning := by
  have e1 : ∀ m : Moment, ((momentTree m).value valueOf).str = toLower (lit m.word) := fun m => by cases m <;> rfl
  have e2 : ∀ c : Cause, ((causeTree c).value valueOf).str = toLower (lit c.word) := fun c => by cases c <;> rfl
  obtain ⟨n, tb, m, c, b, _ | cs⟩ := t
  · have hb : b.Clear := h b (by simp [NewTrigger.changes])
    have e : ((triggerTree ⟨n, tb, m, c, b, none⟩).value valueOf).statement = .ddl
      { action := lit "create trigger",
        trigger := some (Go.Trigger n ((tableRefTree tb).value valueOf).tableName ((momentTree m).value valueOf).str
          ((causeTree c).value valueOf).str [((changeTree b).value valueOf).statement]) } := rfl
    have := trigger_of n tb.meaning (toLower (lit m.word)) (toLower (lit c.word)) [b]
    rw [List.map_singleton] at this
    rw [e, e1, e2, value_change hb, value_tableRef, this]
    rfl
  · have hb : ∀ x ∈ b :: cs, x.Clear := h
    have e : ((triggerTree ⟨n, tb, m, c, b, some cs⟩).value valueOf).statement = .ddl
      { action := lit "create trigger",
        trigger := some (Go.Trigger n ((tableRefTree tb).value valueOf).tableName ((momentTree m).value valueOf).str
          ((causeTree c).value valueOf).str ((changesTree b cs).value valueOf).triggerBody) } := rfl
    rw [e, e1, e2, value_changes hb, value_tableRef, trigger_of]
    rfl

/-! ### What is asked -/

theorem tame_place (p : Spot) : tame (placeTree p) = true := by obtain ⟨_ | t, n⟩ := p <;> rfl

theorem fine_assign {a : Assign} (h : a.Clear) : fine valueOf asks (assignTree a) :=
  ⟨asks_of_tame (by decide) _, fine_of_tame _ (tame_place _), trivial, fine_expr h.2.1, trivial⟩

theorem fine_assignList {a : Assign} {as : List Assign} (h : ∀ x ∈ a :: as, x.Clear) : fine valueOf asks (assignListTree a as) :=
  fine_grow _ _ ⟨asks_of_tame (by decide) _, fine_assign (h a (by simp)), trivial⟩
    fun x hx => ⟨rfl, trivial, fine_assign (h x (by simp [hx])), trivial⟩

theorem fine_row {r : RowOf} (h : RowClear r) : fine valueOf asks (rowTree r) := by
  cases r with
  | nil => exact fine_of_tame _ rfl
  | cons a as =>
    exact ⟨asks_of_tame (by decide) _, ⟨asks_of_tame (by decide) _, fine_of_tame _ rfl,
      fine_grow _ _ ⟨asks_of_tame (by decide) _, fine_expr (h a (by simp)).1, trivial⟩
        fun x hx => ⟨rfl, trivial, fine_expr (h x (by simp [hx])).1, trivial⟩, fine_of_tame _ rfl, trivial⟩, trivial⟩

theorem fine_rowList {a : RowOf} {as : List RowOf} (h : ∀ x ∈ a :: as, RowClear x) : fine valueOf asks (rowListTree a as) :=
  fine_grow _ _ ⟨asks_of_tame (by decide) _, fine_row (h a (by simp)), trivial⟩
    fun x hx => ⟨rfl, trivial, fine_row (h x (by simp [hx])), trivial⟩

theorem fine_insColumns (a : Str) (as : List Str) : fine valueOf asks (insColumnsTree a as) :=
  fine_grow _ _ (fine_of_tame _ rfl) fun _ _ => ⟨rfl, trivial, fine_of_tame _ rfl, trivial⟩

theorem fine_insData {cs : Option (Str × List Str)} {r : RowOf} {rs : List RowOf} (hr : ∀ x ∈ r :: rs, RowClear x) :
    fine valueOf asks (insDataTree cs r rs) := by
  cases cs with
  | none => exact ⟨asks_of_tame (by decide) _, trivial, fine_rowList hr, trivial⟩
  | some p => exact ⟨asks_of_tame (by decide) _, fine_of_tame _ rfl, fine_insColumns p.1 p.2, fine_of_tame _ rfl, trivial, fine_rowList hr, trivial⟩

theorem fine_otherwise {o : Option (Assign × List Assign)} (h : ∀ p, o = some p → ∀ x ∈ p.1 :: p.2, x.Clear) :
    fine valueOf asks (otherwiseTree o) := by
  cases o with
  | none => exact fine_of_tame _ rfl
  | some p => exact ⟨asks_of_tame (by decide) _, trivial, trivial, trivial, trivial, fine_assignList (h p rfl), trivial⟩

theorem fine_change {c : Change} (h : c.Clear) : fine valueOf asks (changeTree c) := by
  cases c with
  | insert replace ignore into t cs r rs o =>
    obtain ⟨h1, h2, h3, h4⟩ := h
    have t1 : tame (actionWordTree replace) = true := by cases replace <;> rfl
    have t2 : tame (insIgnoreTree ignore) = true := by cases ignore <;> rfl
    have t3 : fine valueOf asks (intoTree into t) := by
      cases into
      · exact ⟨asks_of_tame (by decide) _, fine_of_tame _ (tame_tableRef t), trivial⟩
      · exact ⟨asks_of_tame (by decide) _, trivial, fine_of_tame _ (tame_tableRef t), trivial⟩
    exact ⟨asks_of_tame (by decide) _, ⟨asks_of_tame (by decide) _, fine_of_tame _ t1, fine_of_tame _ rfl, fine_of_tame _ t2, t3,
      fine_of_tame _ rfl, fine_insData h3, fine_otherwise h4, trivial⟩, trivial⟩
  | update t a x xs c =>
    obtain ⟨h1, h2, h3, h4⟩ := h
    exact ⟨asks_of_tame (by decide) _, ⟨asks_of_tame (by decide) _, trivial, fine_of_tame _ rfl,
      ⟨asks_of_tame (by decide) _, fine_asRef (fine_source (.table t a) ⟨h1.1, h1.2, h2⟩), trivial⟩, trivial,
      fine_assignList h3, fine_whereTree (fun e he => h4 e he), fine_of_tame _ rfl, fine_of_tame _ rfl, trivial⟩, trivial⟩
  | delete t c =>
    obtain ⟨h1, h2⟩ := h
    exact ⟨asks_of_tame (by decide) _, ⟨asks_of_tame (by decide) _, trivial, fine_of_tame _ rfl, trivial, fine_of_tame _ (tame_tableRef t),
      fine_of_tame _ rfl, fine_whereTree (fun e he => h2 e he), fine_of_tame _ rfl, fine_of_tame _ rfl, trivial⟩, trivial⟩

theorem fine_trigger {t : NewTrigger} (h : t.Clear) : fine valueOf asks (triggerTree t) := by
  have e1 : ∀ m : Moment, tame (momentTree m) = true := fun m => by cases m <;> rfl
  have e2 : ∀ c : Cause, tame (causeTree c) = true := fun c => by cases c <;> rfl
  obtain ⟨n, tb, m, c, b, _ | cs⟩ := t
  · have hb : b.Clear := h b (by simp [NewTrigger.changes])
    exact ⟨asks_of_tame (by decide) _, ⟨asks_of_tame (by decide) _, trivial, trivial, fine_of_tame _ rfl, fine_of_tame _ (e1 m),
      fine_of_tame _ (e2 c), trivial, fine_of_tame _ (tame_tableRef tb), trivial, trivial, trivial, fine_change hb, trivial⟩, trivial⟩
  · have hb : ∀ x ∈ b :: cs, x.Clear := h
    exact ⟨asks_of_tame (by decide) _, ⟨asks_of_tame (by decide) _, trivial, trivial, fine_of_tame _ rfl, trivial,
      fine_of_tame _ (tame_tableRef tb), fine_of_tame _ (e1 m), fine_of_tame _ (e2 c), trivial,
      fine_grow _ _ ⟨asks_of_tame (by decide) _, fine_change (hb b (by simp)), trivial⟩
        fun x hx => ⟨rfl, fine_change (hb x (by simp [hx])), trivial⟩, trivial⟩, trivial⟩

end Sqldef.Sql
