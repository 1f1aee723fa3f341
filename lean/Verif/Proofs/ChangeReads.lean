import Verif.Proofs.QueryReads
import Verif.Proofs.ChangeTree

/-! The tables read the statements of triggers and `CREATE TRIGGER`. -/
namespace Sqldef.Sql
open Spec Yy Written

/-! ### What may follow -/

/-- What may follow a statement of a trigger: the end, a semicolon, or another statement. -/
def afterChange : List Nat := [1, 313, 8, 279, 9, 10]
def afterAssigns : List Nat := 12 :: afterChange
def afterRows : List Nat := 50 :: afterChange

theorem assigns_follow : ∀ la ∈ 53 :: afterAssigns, Follows 1 la := by
  have h : ∀ la ∈ 53 :: afterAssigns, (stops.any fun p => p.1 == la && decide (p.2 ≤ 1)) = true := by decide +kernel
  exact fun la hla => follows_of (h la hla)

/-! ### Assignments -/

def spotShape (p : Spot) : Spot := ⟨p.table.map fun _ => [], []⟩
def spotShapes : List Spot := [⟨none, []⟩, ⟨some [], []⟩]
theorem spotShape_mem (p : Spot) : spotShape p ∈ spotShapes := by
  obtain ⟨_ | t, n⟩ := p <;> simp [spotShape, spotShapes]
theorem blank_spot (p : Spot) : blank (placeTree p) = blank (placeTree (spotShape p)) := by
  obtain ⟨_ | t, n⟩ := p <;> rfl

def assignShape (a : Assign) : Assign := ⟨spotShape a.place, .null⟩
def anyAssign : Assign := ⟨⟨none, []⟩, .null⟩

/-- Where assignments start, and the state after their list. -/
def assignSites : List (Int × Int) := [(629, 861), (1537, 1589)]

theorem assign_starts : (1070, 1) ∈ sites ∧ ∀ p ∈ [(629 : Int), 1537, 1068], ∀ s ∈ spotShapes,
    readsAll nestEff p 0 [placeTree s, lf (sym '=')] 0 = some (1070, 0) := by decide +kernel

theorem assign_start {p : Int} (hp : p ∈ [(629 : Int), 1537, 1068]) (s : Spot) :
    readsAll nestEff p 0 ([placeTree s] ++ [lf (sym '=')]) 0 = some (1070, 0) := by
  refine Eq.trans (readsAll_alike ?_ 0) (assign_starts.2 p hp _ (spotShape_mem s))
  simp only [blankAll, List.cons_append, List.nil_append, blank_spot s]

theorem assign_like {a : Assign} (h : a.Clear) {p : Int} (hp : p ∈ [(629 : Int), 1537, 1068]) {la : Nat} (hla : la ∈ 53 :: afterAssigns) :
    readsTree nestEff p 0 (assignTree a) la = readsTree nestEff p 0 (assignTree (assignShape a)) la := by
  refine Eq.trans (reads_part_after (n := 0) (q := (1070, 0)) [placeTree a.place] [] (sym '=') (assign_start hp _)
    (expr_like h.2.1 h.2.2 assign_starts.1 (assigns_follow la hla))) ?_
  refine reads_alike ?_ la
  simp only [assignShape, assignTree, blank, blankAll, List.cons_append, List.nil_append, blank_spot a.place]

theorem reads_assigns : ∀ p ∈ assignSites, (∀ s ∈ spotShapes, ∀ la ∈ 53 :: afterAssigns,
      readsTree nestEff p.1 0 (.node 707 [assignTree ⟨s, .null⟩]) la = some (p.2, 0) ∧
      readsTree nestEff p.1 0 (.node 708 [.node 707 [assignTree anyAssign], lf (sym ','), assignTree ⟨s, .null⟩]) la = some (p.2, 0)) ∧
    readsAll nestEff p.1 0 ([.node 707 [assignTree anyAssign]] ++ [lf (sym ',')]) 0 = some (1068, 0) ∧ p.1 ∈ [(629 : Int), 1537, 1068] := by
  decide +kernel

theorem assignList_reads {p : Int × Int} (hp : p ∈ assignSites) {a : Assign} {as : List Assign} (h : ∀ x ∈ a :: as, x.Clear) :
    ∀ la, la ∈ 53 :: afterAssigns → readsTree nestEff p.1 0 (assignListTree a as) la = some (p.2, 0) := by
  obtain ⟨h1, h2, h3⟩ := reads_assigns p hp
  refine reads_grow (d₀ := .node 707 [assignTree anyAssign]) (fun la hla => ?_) (fun la hla => (h1 ⟨none, []⟩ (by simp [spotShapes]) la hla).1)
    (fun x hx la hla => ⟨by rw [assignAdd, comma_next]; decide, ?_⟩)
  · exact (reads_first (cs := []) (assign_like (h a List.mem_cons_self) h3 hla)).trans (h1 _ (spotShape_mem a.place) la hla).1
  · refine Eq.trans ?_ (h1 _ (spotShape_mem x.place) la hla).2
    exact reads_part_after (n := 0) (q := (1068, 0)) [.node 707 [assignTree anyAssign]] [] (sym ',') h2
      (assign_like (h x (List.mem_cons_of_mem _ hx)) (by decide) hla)

/-! ### Rows -/

theorem listTree_grow (d : Tree SymType) (es : List Ex) : listTree d es = grow exAdd d es := by
  induction es generalizing d with
  | nil => rw [listTree]; rfl
  | cons e es ih => rw [listTree, ih]; rfl

/-- Where rows start, and the state after one. -/
def rowSites : List (Int × Int) := [(1063, 1253), (1464, 1253), (1380, 1463)]

theorem row_rules : (∀ p ∈ rowSites, decideAct p.1 (no (sym '(').type) = .shift 50 ∧ gotoState p.1 207 = some 1255 ∧ gotoState p.1 71 = some 1254 ∧
      gotoState p.1 (kindOf 703) = some p.2 ∧ gotoState p.1 (kindOf 704) = some p.2) ∧
    (∀ la ∈ 53 :: afterRows, decideAct 1254 la = .reduce 703 ∧ decideAct 1381 la = .reduce 704) ∧
    (isRule 703 1 (kindOf 703) && quiet 703) = true ∧ (isRule 704 2 (kindOf 704) && quiet 704) = true ∧
    decideAct 1255 (no (sym ')').type) = .shift 510 ∧ steady 510 994 = true ∧ gotoState 1255 208 = some 1381 := by decide +kernel

theorem depths_lt {es : List Ex} {n : Nat} (h : ∀ e ∈ es, e.depth < n) (hn : 0 < n) : Ex.depths es < n := by
  induction es with
  | nil => rw [Ex.depths]; exact hn
  | cons e es ih =>
    rw [Ex.depths]
    exact Nat.max_lt.mpr ⟨h e (by simp), ih fun x hx => h x (by simp [hx])⟩

theorem allProper_of {es : List Ex} (h : ∀ e ∈ es, e.Proper) : Ex.AllProper es := by
  induction es with
  | nil => rw [Ex.AllProper]; trivial
  | cons e es ih =>
    rw [Ex.AllProper]
    exact ⟨h e (by simp), ih fun x hx => h x (by simp [hx])⟩

theorem row_reads {p : Int × Int} (hp : p ∈ rowSites) {r : RowOf} (h : RowClear r) : ∀ la ∈ 53 :: afterRows,
    readsTree nestEff p.1 0 (rowTree r) la = some (p.2, 0) := by
  intro la hla
  obtain ⟨r1, r2, r3, r4, r5, r6, r7⟩ := row_rules
  obtain ⟨a1, a2, a3, a4, a5⟩ := r1 p hp
  cases r with
  | nil =>
    refine reads_many (cs := [openTree, closeTree]) (q := 1381) ?_ (r2 la hla).2 r4 a5
    exact all_cons (reads_open a1 a2 (by decide) _) rfl <| all_cons (reads_close r5 r6 r7 _) rfl rfl
  | cons a as =>
    refine reads_single (parens_reads a1 a2 a3 (by decide) ?_) (r2 la hla).1 r3 a4
    have e : exListTree a as = listTree (.node 552 [exprTree a]) as := by rw [listTree_grow]; rfl
    have ha := h a List.mem_cons_self
    have hd := depths_lt (es := as) (n := 199) (fun x hx => (h x (by simp [hx])).2) (by decide)
    rw [e]
    exact list_reads _ as (allProper_of fun x hx => (h x (by simp [hx])).1) (by simp)
      (fun la hla => list_first (core_reads a ha.1) (by simp) hla (by have := ha.2; omega)) (by omega) _ listEnd_close

/-- Where lists of rows start, and the state after one. -/
def rowListSites : List (Int × Int) := [(1063, 1252), (1464, 1538)]

theorem rowList_rules : ∀ p ∈ rowListSites, (p.1, 1253) ∈ rowSites ∧ gotoState p.1 (kindOf 701) = some p.2 ∧ (1380, 1463) ∈ rowSites ∧
    decideAct p.2 (no (sym ',').type) = .shift 1380 ∧
    (∀ la ∈ 53 :: afterRows, decideAct 1253 la = .reduce 701 ∧ decideAct 1463 la = .reduce 702 ∧
      readsTree nestEff p.1 0 (.node 701 [rowTree []]) la = some (p.2, 0)) ∧
    (isRule 701 1 (kindOf 701) && quiet 701) = true ∧ (isRule 702 3 (kindOf 701) && quiet 702) = true := by decide +kernel

theorem rowList_reads {p : Int × Int} (hp : p ∈ rowListSites) {a : RowOf} {as : List RowOf} (h : ∀ x ∈ a :: as, RowClear x) :
    ∀ la, la ∈ 53 :: afterRows → readsTree nestEff p.1 0 (rowListTree a as) la = some (p.2, 0) := by
  obtain ⟨r1, r2, r3, r4, r5, r6, r7⟩ := rowList_rules p hp
  refine reads_grow (d₀ := .node 701 [rowTree []]) (fun la hla => ?_) (fun la hla => (r5 la hla).2.2)
    (fun x hx la hla => ⟨by rw [rowAdd, comma_next]; decide, ?_⟩)
  · exact reads_single (row_reads r1 (h a List.mem_cons_self) la hla) (r5 la hla).1 r6 r2
  · refine reads_many (cs := [.node 701 [rowTree []], lf (sym ','), rowTree x]) (q := 1463) ?_ (r5 la hla).2.1 r7 r2
    have := row_reads r3 (h x (List.mem_cons_of_mem _ hx)) la hla
    rw [readsAll_cons (q := p.2) (m' := 0) (by rw [comma_next]; exact (r5 53 (by decide)).2.2), readsAll_cons (reads_leaf r4),
      readsAll_cons (la := la) (cs := []) this]
    rfl

/-! ### The columns and the rows of `INSERT` -/

theorem reads_insColumns : (∀ la ∈ [53, 54], readsTree nestEff 1065 1 (.node 695 [sqlId []]) la = some (1257, 1) ∧
      readsTree nestEff 1065 1 (.node 697 [.node 695 [sqlId []], lf (sym ','), sqlId []]) la = some (1257, 1)) := by decide +kernel

theorem insColumns_reads (a : Str) (as : List Str) : ∀ la ∈ [53, 54], readsTree nestEff 1065 1 (insColumnsTree a as) la = some (1257, 1) := by
  have key : ∀ (as : List Str) (d : Tree SymType), (∀ la ∈ [53, 54], readsTree nestEff 1065 1 d la = some (1257, 1)) →
      ∀ la ∈ [53, 54], readsTree nestEff 1065 1 (grow insColumnAdd d as) la = some (1257, 1) := by
    intro as
    induction as with
    | nil => exact fun d hd => hd
    | cons x xs ih =>
      intro d hd
      refine ih _ fun la hla => ?_
      have e : readsTree nestEff 1065 1 (.node 697 [d, lf (sym ','), sqlId x]) la =
          readsTree nestEff 1065 1 (.node 697 [.node 695 [sqlId []], lf (sym ','), sqlId x]) la := by
        refine reads_first ?_
        rw [comma_next, hd 53 (by decide), (reads_insColumns 53 (by decide)).1]
      exact e.trans ((reads_alike (by rfl) la).trans (reads_insColumns la hla).2)
  refine key as _ fun la hla => ?_
  exact (reads_alike (by rfl) la).trans (reads_insColumns la hla).1

theorem insData_rules : decideAct 858 (no (kw "VALUES").type) = .shift 1063 ∧ decideAct 858 (no (sym '(').type) = .shift 50 ∧
    gotoState 858 207 = some 1065 ∧ decideAct 1257 (no (sym ')').type) = .shift 510 ∧ steady 510 994 = true ∧ gotoState 1257 208 = some 1383 ∧
    decideAct 1383 (no (kw "VALUES").type) = .shift 1464 ∧ gotoState 858 (kindOf 689) = some 1061 ∧
    (isRule 689 2 (kindOf 689) && quiet 689) = true ∧ (isRule 692 5 (kindOf 689) && quiet 692) = true ∧
    (∀ la ∈ afterRows, decideAct 1252 la = .reduce 689 ∧ decideAct 1538 la = .reduce 692) ∧
    (1063, 1252) ∈ rowListSites ∧ (1464, 1538) ∈ rowListSites := by decide +kernel

theorem insData_reads {cs : Option (Str × List Str)} {r : RowOf} {rs : List RowOf} (h : ∀ x ∈ r :: rs, RowClear x) : ∀ la ∈ afterRows,
    readsTree nestEff 858 0 (insDataTree cs r rs) la = some (1061, 0) := by
  intro la hla
  obtain ⟨r1, r2, r3, r4, r5, r6, r7, r8, r9, r10, r11, r12, r13⟩ := insData_rules
  have hla' : la ∈ 53 :: afterRows := List.mem_cons_of_mem _ hla
  cases cs with
  | none =>
    refine reads_many (cs := [lf (kw "VALUES"), rowListTree r rs]) (q := 1252) ?_ (r11 la hla).1 r9 r8
    exact all_cons (reads_leaf r1) rfl <| all_cons (rowList_reads r12 h la hla') rfl rfl
  | some p =>
    refine reads_many (cs := [openTree, insColumnsTree p.1 p.2, closeTree, lf (kw "VALUES"), rowListTree r rs]) (q := 1538) ?_
      (r11 la hla).2 r10 r8
    exact all_cons (reads_open r2 r3 (by decide) _) rfl <|
      all_cons (insColumns_reads p.1 p.2 (no (sym ')').type) (by decide +kernel)) (headToken_close _ _) <|
      all_cons (reads_close r4 r5 r6 _) rfl <|
      all_cons (reads_leaf r7) rfl <| all_cons (rowList_reads r13 h la hla') rfl rfl

theorem otherwise_rules : (∀ la ∈ afterChange, readsTree nestEff 1061 0 (otherwiseTree none) la = some (1249, 0) ∧ decideAct 1589 la = .reduce 700) ∧
    readsAll nestEff 1061 0 [lf (kw "ON"), lf (kw "DUPLICATE"), lf (kw "KEY"), lf (kw "UPDATE")] 0 = some (1537, 0) ∧
    gotoState 1061 (kindOf 700) = some 1249 ∧ (isRule 700 5 (kindOf 700) && quiet 700) = true ∧ (1537, 1589) ∈ assignSites ∧
    first (lf (kw "ON")) = some 50 := by decide +kernel

theorem otherwise_reads {o : Option (Assign × List Assign)} (h : ∀ p, o = some p → ∀ x ∈ p.1 :: p.2, x.Clear) : ∀ la ∈ afterChange,
    readsTree nestEff 1061 0 (otherwiseTree o) la = some (1249, 0) := by
  intro la hla
  obtain ⟨r1, r2, r3, r4, r5, -⟩ := otherwise_rules
  cases o with
  | none => exact (r1 la hla).1
  | some p =>
    refine reads_many (cs := [lf (kw "ON"), lf (kw "DUPLICATE"), lf (kw "KEY"), lf (kw "UPDATE"), assignListTree p.1 p.2]) (q := 1589) ?_
      (r1 la hla).2 r4 r3
    have e := assignList_reads r5 (h p rfl) la (List.mem_cons_of_mem _ (List.mem_cons_of_mem _ hla))
    refine Eq.trans (readsAll_append [lf (kw "ON"), lf (kw "DUPLICATE"), lf (kw "KEY"), lf (kw "UPDATE")] [assignListTree p.1 p.2] la) ?_
    have e2 : ∀ n, readsAll nestEff 1061 0 [lf (kw "ON"), lf (kw "DUPLICATE"), lf (kw "KEY"), lf (kw "UPDATE")] n = some (1537, 0) :=
      fun n => (reads_last_leaf [lf (kw "ON"), lf (kw "DUPLICATE"), lf (kw "KEY")] (kw "UPDATE") n 0).trans r2
    rw [e2]
    exact all_cons (q := 1589) (m' := 0) e rfl rfl

theorem otherwise_head (o : Option (Assign × List Assign)) {la : Nat} (h : la ∈ afterChange) : headToken [otherwiseTree o] la ∈ afterRows := by
  cases o with
  | none => rw [head_none rfl]; exact List.mem_cons_of_mem _ h
  | some p =>
    have := otherwise_rules.2.2.2.2.2
    rw [head_some (n := 50) (by rw [otherwiseTree, first_node _ _ _ (by rw [this]; exact fun h => nomatch h), this])]
    decide

theorem insData_head (cs : Option (Str × List Str)) (r : RowOf) (rs : List RowOf) (ds : List (Tree SymType)) (la : Nat) :
    headToken (insDataTree cs r rs :: ds) la ∈ [no (sym '(').type, no (kw "VALUES").type] := by
  cases cs with
  | none => exact List.mem_cons_of_mem _ List.mem_cons_self
  | some p => exact List.mem_cons_self

/-! ### Conditions -/

/-- Where the conditions of the statements start, and the state after them. -/
def changeWhereSites : List (Int × Int) := [(861, 1067), (885, 1085)]

theorem change_wheres : ∀ p ∈ changeWhereSites, readsAll nestEff p.1 0 [lf (kw "WHERE")] 0 = some (1069, 0) ∧ (1069, 1) ∈ sites ∧
    first (lf (kw "WHERE")) = some 12 ∧
    ∀ la ∈ afterChange, readsTree nestEff p.1 0 (whereTree none) la = some (p.2, 0) ∧
      readsTree nestEff p.1 0 (whereTree (some .null)) la = some (p.2, 0) := by decide +kernel

theorem changeWhere_reads {p : Int × Int} (hp : p ∈ changeWhereSites) {o : Option Ex} (h : ∀ e, o = some e → ClearEx e) : ∀ la ∈ afterChange,
    readsTree nestEff p.1 0 (whereTree o) la = some (p.2, 0) := by
  intro la hla
  obtain ⟨h1, hs, -, h2⟩ := change_wheres p hp
  cases o with
  | none => exact (h2 la hla).1
  | some e =>
    refine Eq.trans ?_ (h2 la hla).2
    exact reads_part_after (n := 0) (q := (1069, 0)) [] [] (kw "WHERE") h1
      (expr_like (h e rfl).1 (h e rfl).2 hs (assigns_follow _ (List.mem_cons_of_mem _ (List.mem_cons_of_mem _ hla))))

theorem changeWhere_head (o : Option Ex) {cs : List (Tree SymType)} {la : Nat} (h : headToken cs la ∈ afterChange) :
    headToken (whereTree o :: cs) la ∈ afterAssigns := by
  cases o with
  | none => rw [head_none rfl]; exact List.mem_cons_of_mem _ h
  | some e =>
    have := select_wheres.2.2.1
    rw [head_some (n := 12) (by rw [whereTree, first_node _ _ _ (by rw [this]; exact fun h => nomatch h), this])]
    decide

/-! ### Statements -/

/-- Where statements start, and the state after one. -/
def changeSites : List (Int × Int) := [(1575, 1629), (1446, 1519), (1518, 1576)]

theorem insert_starts : ∀ p ∈ changeSites, ∀ replace ignore into : Bool, ∀ t ∈ tableRefShapes,
    ∀ la ∈ [no (sym '(').type, no (kw "VALUES").type],
    readsAll viewEff p.1 0 [actionWordTree replace, noComments, insIgnoreTree ignore, intoTree into t, .node 43 []] la = some (858, 0) := by
  decide +kernel

theorem update_starts : ∀ p ∈ changeSites, ∀ t ∈ tableRefShapes, ∀ a ∈ aliasShapes,
    readsAll viewEff p.1 0 [lf (kw "UPDATE"), noComments, refListTree (.table t a) [], lf (kw "SET")] 0 = some (629, 0) := by
  decide +kernel

theorem delete_starts : ∀ p ∈ changeSites, ∀ t ∈ tableRefShapes, ∀ la ∈ afterAssigns,
    readsAll viewEff p.1 0 [lf (kw "DELETE"), noComments, lf (kw "FROM"), tableRefTree t, .node 43 []] la = some (885, 0) := by
  decide +kernel

theorem change_ends : (∀ la ∈ afterChange, decideAct 1249 la = .reduce 31 ∧
      readsAll nestEff 1067 0 [(.node 674 [] : Tree SymType), .node 682 []] la = some (1387, 0) ∧ decideAct 1387 la = .reduce 35 ∧
      readsAll nestEff 1085 0 [(.node 674 [] : Tree SymType), .node 682 []] la = some (1396, 0) ∧ decideAct 1396 la = .reduce 36 ∧
      decideAct 1520 la = .reduce 78 ∧ decideAct 1522 la = .reduce 80 ∧ decideAct 1521 la = .reduce 79) ∧
    isRule 31 7 (kindOf 31) = true ∧ viewEff 31 0 = some 0 ∧ isRule 35 8 (kindOf 35) = true ∧ viewEff 35 0 = some 0 ∧
    isRule 36 8 (kindOf 36) = true ∧ viewEff 36 0 = some 0 ∧ isRule 78 1 (kindOf 78) = true ∧ viewEff 78 0 = some 0 ∧
    isRule 79 1 (kindOf 78) = true ∧ viewEff 79 0 = some 0 ∧ isRule 80 1 (kindOf 78) = true ∧ viewEff 80 0 = some 0 ∧
    ∀ p ∈ changeSites, gotoState p.1 (kindOf 31) = some 1520 ∧ gotoState p.1 (kindOf 35) = some 1522 ∧ gotoState p.1 (kindOf 36) = some 1521 ∧
      gotoState p.1 (kindOf 78) = some p.2 := by decide +kernel

theorem viewAll_alike {s : Int} {m : Nat} {cs cs' : List (Tree SymType)} (h : blankAll cs = blankAll cs') (la : Nat) :
    readsAll viewEff s m cs la = readsAll viewEff s m cs' la := by
  rw [readsAll_blank viewEff cs, readsAll_blank viewEff cs', h]

theorem view_last_leaf {s : Int} {m : Nat} (xs : List (Tree SymType)) (t : Token) (a b : Nat) :
    readsAll viewEff s m (xs ++ [lf t]) a = readsAll viewEff s m (xs ++ [lf t]) b := by
  rw [readsAll_join, readsAll_join, headToken_cons, headToken_cons, first_lf]
  rfl

theorem view_cons {s q : Int} {m m' la : Nat} {c : Tree SymType} {cs : List (Tree SymType)} {r : Option (Int × Nat)}
    (h : readsTree viewEff s m c (headToken cs la) = some (q, m')) (hr : readsAll viewEff q m' cs la = r) :
    readsAll viewEff s m (c :: cs) la = r := by
  rw [readsAll, h]
  exact hr

theorem blank_insert (replace ignore into : Bool) (t : TableRef) :
    blankAll [actionWordTree replace, noComments, insIgnoreTree ignore, intoTree into t, .node 43 []] =
      blankAll [actionWordTree replace, noComments, insIgnoreTree ignore, intoTree into (tableRefShape t), .node 43 []] := by
  have : blank (intoTree into t) = blank (intoTree into (tableRefShape t)) := by
    cases into
    · simp only [intoTree, Bool.false_eq_true, if_false, blank, blankAll, blank_tableRef t]
    · simp only [intoTree, if_true, blank, blankAll, blank_tableRef t]
  simp only [blankAll, this]

theorem blank_tableAliasTree (a : Option Alias) : blank (tableAliasTree a) = blank (tableAliasTree (aliasShape a)) := by
  rcases a with _ | ⟨_, _ | _⟩ <;> rfl

theorem blank_update (t : TableRef) (a : Option Alias) :
    blankAll [lf (kw "UPDATE"), noComments, refListTree (.table t a) [], lf (kw "SET")] =
      blankAll [lf (kw "UPDATE"), noComments, refListTree (.table (tableRefShape t) (aliasShape a)) [], lf (kw "SET")] := by
  have : blank (refListTree (.table t a) []) = blank (refListTree (.table (tableRefShape t) (aliasShape a)) []) := by
    simp only [refListTree, grow, refTree, asRef, sourceTree, Source.isJoin, blank, blankAll, blank_tableRef t,
      blank_tableAliasTree a]
    rfl
  simp only [blankAll, this]

theorem change_reads {p : Int × Int} (hp : p ∈ changeSites) {c : Change} (h : c.Clear) : ∀ la ∈ afterChange,
    readsTree viewEff p.1 0 (changeTree c) la = some (p.2, 0) := by
  intro la hla
  obtain ⟨e, i1, i2, u1, u2, d1, d2, s1, s2, s3, s4, s5, s6, g⟩ := change_ends
  obtain ⟨e1, e2, e3, e4, e5, e6, e7, e8⟩ := e la hla
  obtain ⟨g1, g2, g3, g4⟩ := g p hp
  cases c with
  | insert replace ignore into t cs r rs o =>
    obtain ⟨h1, h2, h3, h4⟩ := h
    refine view_node (cs := [_]) (q := 1520) (m' := 0) (view_cons (q := 1520) (m' := 0) ?_ rfl) e6 s1 g4 s2
    refine view_node (q := 1249) (m' := 0) ?_ e1 i1 g1 i2
    refine Eq.trans (readsAll_join [actionWordTree replace, noComments, insIgnoreTree ignore, intoTree into t, .node 43 []]
      [insDataTree cs r rs, otherwiseTree o] la) ?_
    rw [viewAll_alike (blank_insert replace ignore into t), insert_starts p hp replace ignore into _ (tableRefShape_mem t) _ (insData_head cs r rs _ la)]
    refine readsAll_view _ ?_
    exact all_cons (insData_reads h3 _ (otherwise_head o hla)) rfl <| all_cons (otherwise_reads h4 la hla) rfl rfl
  | update t a x xs c =>
    obtain ⟨h1, h2, h3, h4⟩ := h
    refine view_node (cs := [_]) (q := 1522) (m' := 0) (view_cons (q := 1522) (m' := 0) ?_ rfl) e7 s5 g4 s6
    refine view_node (q := 1387) (m' := 0) ?_ e3 u1 g2 u2
    refine Eq.trans (readsAll_join [lf (kw "UPDATE"), noComments, refListTree (.table t a) [], lf (kw "SET")]
      [assignListTree x xs, whereTree c, .node 674 [], .node 682 []] la) ?_
    have st : ∀ n, readsAll viewEff p.1 0 [lf (kw "UPDATE"), noComments, refListTree (.table t a) [], lf (kw "SET")] n = some (629, 0) := fun n =>
      (view_last_leaf [lf (kw "UPDATE"), noComments, refListTree (.table t a) []] (kw "SET") n 0).trans
        ((viewAll_alike (blank_update t a) 0).trans (update_starts p hp _ (tableRefShape_mem t) _ (aliasShape_mem a)))
    rw [st]
    refine readsAll_view _ ?_
    have hh : headToken [(.node 674 [] : Tree SymType), .node 682 []] la ∈ afterChange := by rw [head_none rfl, head_none rfl]; exact hla
    have hw := changeWhere_head c hh
    exact all_cons (assignList_reads (p := (629, 861)) (by simp [assignSites]) h3 _ (List.mem_cons_of_mem _ hw)) rfl <|
      all_cons (changeWhere_reads (p := (861, 1067)) (by simp [changeWhereSites]) h4 _ hh) rfl e2
  | delete t c =>
    obtain ⟨h1, h2⟩ := h
    refine view_node (cs := [_]) (q := 1521) (m' := 0) (view_cons (q := 1521) (m' := 0) ?_ rfl) e8 s3 g4 s4
    refine view_node (q := 1396) (m' := 0) ?_ e5 d1 g3 d2
    refine Eq.trans (readsAll_join [lf (kw "DELETE"), noComments, lf (kw "FROM"), tableRefTree t, .node 43 []]
      [whereTree c, .node 674 [], .node 682 []] la) ?_
    have hh : headToken [(.node 674 [] : Tree SymType), .node 682 []] la ∈ afterChange := by rw [head_none rfl, head_none rfl]; exact hla
    have hw := changeWhere_head c hh
    have hb : blankAll [lf (kw "DELETE"), noComments, lf (kw "FROM"), tableRefTree t, .node 43 []] =
        blankAll [lf (kw "DELETE"), noComments, lf (kw "FROM"), tableRefTree (tableRefShape t), .node 43 []] := by
      simp only [blankAll, blank_tableRef t]
    rw [viewAll_alike hb, delete_starts p hp _ (tableRefShape_mem t) _ hw]
    refine readsAll_view _ ?_
    exact all_cons (changeWhere_reads (p := (885, 1085)) (by simp [changeWhereSites]) h2 _ hh) rfl e4

/-! ### `CREATE TRIGGER` -/

theorem first_changes : first (lf (kw "INSERT")) = some 8 ∧ first (lf (kw "REPLACE")) = some 279 ∧ first (lf (kw "UPDATE")) = some 9 ∧
    first (lf (kw "DELETE")) = some 10 := by decide +kernel

theorem change_head (c : Change) (cs : List (Tree SymType)) (la : Nat) : headToken (changeTree c :: cs) la ∈ afterChange := by
  obtain ⟨f1, f2, f3, f4⟩ := first_changes
  cases c with
  | insert replace ignore into t cs r rs o =>
    cases replace
    · have e : first (changeTree (.insert false ignore into t cs r rs o)) = some 8 := f1
      rw [head_some e]; decide
    · have e : first (changeTree (.insert true ignore into t cs r rs o)) = some 279 := f2
      rw [head_some e]; decide
  | update t a x xs c =>
    have e : first (changeTree (.update t a x xs c)) = some 9 := f3
    rw [head_some e]; decide
  | delete t c =>
    have e : first (changeTree (.delete t c)) = some 10 := f4
    rw [head_some e]; decide

theorem changes_rules : (∀ la ∈ afterChange, decideAct 1519 la = .reduce 76 ∧ decideAct 1576 la = .reduce 77) ∧
    isRule 76 1 (kindOf 76) = true ∧ viewEff 76 0 = some 0 ∧ isRule 77 2 (kindOf 76) = true ∧ viewEff 77 0 = some 0 ∧
    gotoState 1446 (kindOf 76) = some 1518 := by decide +kernel

theorem changes_reads {a : Change} {as : List Change} (h : ∀ c ∈ a :: as, c.Clear) : ∀ la ∈ afterChange,
    readsTree viewEff 1446 0 (changesTree a as) la = some (1518, 0) := by
  obtain ⟨r1, r2, r3, r4, r5, r6⟩ := changes_rules
  have key : ∀ (as : List Change) (d : Tree SymType), (∀ c ∈ as, c.Clear) →
      (∀ la ∈ afterChange, readsTree viewEff 1446 0 d la = some (1518, 0)) →
      ∀ la ∈ afterChange, readsTree viewEff 1446 0 (grow changeAdd d as) la = some (1518, 0) := by
    intro as
    induction as with
    | nil => exact fun d _ hd => hd
    | cons x xs ih =>
      intro d hc hd
      refine ih _ (fun c hc' => hc c (by simp [hc'])) fun la hla => ?_
      refine view_node (cs := [d, changeTree x]) (q := 1576) (m' := 0) ?_ (r1 la hla).2 r4 r6 r5
      exact view_cons (hd _ (change_head x [] la)) <|
        view_cons (q := 1576) (m' := 0) (change_reads (p := (1518, 1576)) (by simp [changeSites]) (hc x (by simp)) la hla) rfl
  refine key as _ (fun c hc => h c (by simp [hc])) fun la hla => ?_
  refine view_node (cs := [changeTree a]) (q := 1519) (m' := 0) ?_ (r1 la hla).1 r2 r6 r3
  exact view_cons (q := 1519) (m' := 0) (change_reads (p := (1446, 1519)) (by simp [changeSites]) (h a (by simp)) la hla) rfl

def moments : List Moment := [.before, .after]
def causes : List Cause := [.insert, .update, .delete]
theorem moment_mem (m : Moment) : m ∈ moments := by cases m <;> simp [moments]
theorem cause_mem (c : Cause) : c ∈ causes := by cases c <;> simp [causes]

theorem trigger_starts : ∀ m ∈ moments, ∀ c ∈ causes, ∀ t ∈ tableRefShapes,
    readsAll nestEff 0 0 [lf (kw "CREATE"), lf (kw "TRIGGER"), sqlId [], momentTree m, causeTree c, lf (kw "ON"),
      tableRefTree t, lf (kw "FOR"), lf (kw "EACH"), lf (kw "ROW")] 0 = some (1575, 0) ∧
    readsAll nestEff 0 0 [lf (kw "CREATE"), lf (kw "TRIGGER"), sqlId [], lf (kw "ON"), tableRefTree t, momentTree m, causeTree c,
      lf (kw "AS")] 0 = some (1446, 0) := by decide +kernel

theorem trigger_ends : (∀ la ∈ afterTable, la ∈ afterChange ∧ decideAct 1629 la = .reduce 69 ∧ decideAct 1518 la = .reduce 70 ∧
      decideAct 9 la = .reduce 10) ∧
    isRule 69 11 (kindOf 69) = true ∧ viewEff 69 0 = some 0 ∧ isRule 70 9 (kindOf 69) = true ∧ viewEff 70 0 = some 0 ∧
    gotoState 0 (kindOf 69) = some 9 ∧ isRule 10 1 (kindOf 10) = true ∧ gotoState 0 (kindOf 10) = some 2 ∧ viewEff 10 0 = some 0 := by
  decide +kernel

theorem trigger_reads {t : NewTrigger} (h : t.Clear) : ∀ la ∈ afterTable, readsTree viewEff 0 0 (triggerTree t) la = some (2, 0) := by
  intro la hla
  obtain ⟨r1, r2, r3, r4, r5, r6, r7, r8, r9⟩ := trigger_ends
  obtain ⟨a1, a2, a3, a4⟩ := r1 la hla
  obtain ⟨n, tb, m, c, b, _ | cs⟩ := t
  · have hb : b.Clear := h b (by simp [NewTrigger.changes])
    refine view_node (cs := [_]) (q := 9) (m' := 0) (view_cons (q := 9) (m' := 0) ?_ rfl) a4 r7 r8 r9
    refine view_node (q := 1629) (m' := 0) ?_ a2 r2 r6 r3
    refine Eq.trans (readsAll_join [lf (kw "CREATE"), lf (kw "TRIGGER"), sqlId n, momentTree m, causeTree c, lf (kw "ON"),
      tableRefTree tb, lf (kw "FOR"), lf (kw "EACH"), lf (kw "ROW")] [changeTree b] la) ?_
    have st : ∀ k, readsAll viewEff 0 0 [lf (kw "CREATE"), lf (kw "TRIGGER"), sqlId n, momentTree m, causeTree c, lf (kw "ON"),
        tableRefTree tb, lf (kw "FOR"), lf (kw "EACH"), lf (kw "ROW")] k = some (1575, 0) := fun k => by
      refine (view_last_leaf [lf (kw "CREATE"), lf (kw "TRIGGER"), sqlId n, momentTree m, causeTree c, lf (kw "ON"),
        tableRefTree tb, lf (kw "FOR"), lf (kw "EACH")] (kw "ROW") k 0).trans ?_
      refine Eq.trans (viewAll_alike ?_ 0) (readsAll_view _ (trigger_starts m (moment_mem m) c (cause_mem c) _ (tableRefShape_mem tb)).1)
      have : blank (sqlId n) = blank (sqlId []) := rfl
      simp only [blankAll, List.cons_append, List.nil_append, blank_tableRef tb, this]
    rw [st]
    exact view_cons (q := 1629) (m' := 0) (change_reads (p := (1575, 1629)) (by simp [changeSites]) hb la a1) rfl
  · have hb : ∀ x ∈ b :: cs, x.Clear := h
    refine view_node (cs := [_]) (q := 9) (m' := 0) (view_cons (q := 9) (m' := 0) ?_ rfl) a4 r7 r8 r9
    refine view_node (q := 1518) (m' := 0) ?_ a3 r4 r6 r5
    refine Eq.trans (readsAll_join [lf (kw "CREATE"), lf (kw "TRIGGER"), sqlId n, lf (kw "ON"), tableRefTree tb, momentTree m, causeTree c,
      lf (kw "AS")] [changesTree b cs] la) ?_
    have st : ∀ k, readsAll viewEff 0 0 [lf (kw "CREATE"), lf (kw "TRIGGER"), sqlId n, lf (kw "ON"), tableRefTree tb, momentTree m, causeTree c,
        lf (kw "AS")] k = some (1446, 0) := fun k => by
      refine (view_last_leaf [lf (kw "CREATE"), lf (kw "TRIGGER"), sqlId n, lf (kw "ON"), tableRefTree tb, momentTree m, causeTree c]
        (kw "AS") k 0).trans ?_
      refine Eq.trans (viewAll_alike ?_ 0) (readsAll_view _ (trigger_starts m (moment_mem m) c (cause_mem c) _ (tableRefShape_mem tb)).2)
      have : blank (sqlId n) = blank (sqlId []) := rfl
      simp only [blankAll, List.cons_append, List.nil_append, blank_tableRef tb, this]
    rw [st]
    exact view_cons (q := 1518) (m' := 0) (changes_reads hb la a1) rfl

/-- A `CREATE TRIGGER`, with or without a semicolon at the end, means what it says. -/
theorem parse_trigger {mode : Mode} {sql : Str} {t : NewTrigger} (h : t.Clear) (b : Bool)
    (ht : Layout mode sql (t.tokens ++ given (b = true) [sym ';'])) : parseStrictDDLWithMode mode sql = .ok (.ddl t.meaning) := by
  have hs := reads_semi b
  have hr : ∃ q m, readsAll viewEff 0 0 [triggerTree t, semiTree b] 1 = some (q, m) ∧ decideAct q 1 = .reduce 1 := by
    rw [readsAll, trigger_reads h _ (semi_head b)]
    cases hq : readsAll nestEff 2 0 [semiTree b] 1 with
    | none => rw [hq] at hs; cases hs
    | some q =>
      rw [hq] at hs
      exact ⟨q.1, q.2, readsAll_view _ hq, of_decide_eq_true hs⟩
  obtain ⟨q, m, hr, hq⟩ := hr
  obtain ⟨-, -, -, hn⟩ := layout_says ht
  have hd : noted (tokensRead [triggerTree t, semiTree b]) = (t.tokens ++ given (b = true) [sym ';']).map seenAs := by
    show saidAll [triggerTree t, semiTree b] = _
    rw [saidAll_cons, saidAll_cons, saidAll_nil, said_trigger h, said_semi, List.map_append, List.append_nil]
  have hf : fineAll valueOf asks [triggerTree t, semiTree b] := ⟨fine_trigger h, fine_of_tame _ (by cases b <;> rfl), trivial⟩
  rw [parse_of_viewReads ht (fun t ht => (hn t ht).2) hd hr hq hf, value_trigger h]
  rfl

end Sqldef.Sql
