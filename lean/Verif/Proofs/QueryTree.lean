import Verif.Proofs.WrittenMore
import Verif.Spec.Query

/-! The derivations of queries and of `CREATE VIEW`: what they say and what they mean. -/
namespace Sqldef.Sql
open Spec Yy Written

/-! ### Trees -/

def colAliasTree : Option Alias → Tree SymType
  | none => .node 452 []
  | some ⟨n, false⟩ => .node 453 [.node 455 [sqlId n]]
  | some ⟨n, true⟩ => .node 454 [lf (kw "AS"), .node 455 [sqlId n]]

def tableAliasTree : Option Alias → Tree SymType
  | none => .node 485 []
  | some ⟨n, false⟩ => .node 486 [.node 488 [tableId n]]
  | some ⟨n, true⟩ => .node 487 [lf (kw "AS"), .node 488 [tableId n]]

def pickedTree : Picked → Tree SymType
  | .all => .node 448 [lf (sym '*')]
  | .allOf t => .node 450 [tableId t, lf (sym '.'), lf (sym '*')]
  | .value e a => .node 449 [exprTree e, colAliasTree a]

def pickedAdd (x : Picked) : Nat × List (Tree SymType) := (447, [lf (sym ','), pickedTree x])
def pickedListTree (a : Picked) (as : List Picked) : Tree SymType := grow pickedAdd (.node 446 [pickedTree a]) as

def leftTree : Bool → Tree SymType
  | false => .node 494 [lf (kw "LEFT"), lf (kw "JOIN")]
  | true => .node 495 [lf (kw "LEFT"), lf (kw "OUTER"), lf (kw "JOIN")]
def rightTree : Bool → Tree SymType
  | false => .node 496 [lf (kw "RIGHT"), lf (kw "JOIN")]
  | true => .node 497 [lf (kw "RIGHT"), lf (kw "OUTER"), lf (kw "JOIN")]

def joinWordTree : JoinWord → Tree SymType
  | .join => .node 490 [lf (kw "JOIN")]
  | .innerJoin => .node 491 [lf (kw "INNER"), lf (kw "JOIN")]
  | .crossJoin => .node 492 [lf (kw "CROSS"), lf (kw "JOIN")]
  | .leftJoin => leftTree false
  | .leftOuterJoin => leftTree true
  | .rightJoin => rightTree false
  | .rightOuterJoin => rightTree true
  | .naturalJoin => .node 498 [lf (kw "NATURAL"), lf (kw "JOIN")]
  | .naturalLeftJoin => .node 499 [lf (kw "NATURAL"), leftTree false]
  | .naturalRightJoin => .node 499 [lf (kw "NATURAL"), rightTree false]

/-- The kinds of joins. -/
inductive JoinKind
  | inner
  | outer
  | natural
  deriving DecidableEq

def JoinKind.of : JoinWord → JoinKind
  | .join => .inner
  | .innerJoin => .inner
  | .crossJoin => .inner
  | .leftJoin => .outer
  | .leftOuterJoin => .outer
  | .rightJoin => .outer
  | .rightOuterJoin => .outer
  | _ => .natural

/-- `join_condition`; nothing is never used. -/
def joinOnTree : JoinOn → Tree SymType
  | .none => .node 479 []
  | .on e => .node 477 [lf (kw "ON"), exprTree e]
  | .columns a as => .node 478 [lf (kw "USING"), lf (sym '('), columnListTree a as, lf (sym ')')]

def joinOnOptTree : JoinOn → Tree SymType
  | .none => .node 479 []
  | c => .node 480 [joinOnTree c]

/-- `table_factor` and `join_table` as `table_reference`. -/
def asRef (join : Bool) (d : Tree SymType) : Tree SymType := .node (if join then 462 else 461) [d]

def sourceTree : Source → Tree SymType
  | .table t a => .node 463 [.node 466 [tableRefTree t, tableAliasTree a, .node 504 []]]
  | .group s => .node 465 [openTree, .node 459 [asRef s.isJoin (sourceTree s)], closeTree]
  | .join l w r c =>
    match JoinKind.of w with
    | .inner => .node 473 [asRef l.isJoin (sourceTree l), joinWordTree w, sourceTree r, joinOnOptTree c]
    | .outer => .node 475 [asRef l.isJoin (sourceTree l), joinWordTree w, asRef false (sourceTree r), joinOnTree c]
    | .natural => .node 476 [asRef l.isJoin (sourceTree l), joinWordTree w, sourceTree r]

def refTree (s : Source) : Tree SymType := asRef s.isJoin (sourceTree s)
def refAdd (x : Source) : Nat × List (Tree SymType) := (460, [lf (sym ','), refTree x])
def refListTree (a : Source) (as : List Source) : Tree SymType := grow refAdd (.node 459 [refTree a]) as

def fromTree : Option (Source × List Source) → Tree SymType
  | none => .node 457 []
  | some p => .node 458 [lf (kw "FROM"), refListTree p.1 p.2]

def exAdd (x : Ex) : Nat × List (Tree SymType) := (553, [lf (sym ','), exprTree x])
def exListTree (a : Ex) (as : List Ex) : Tree SymType := grow exAdd (.node 552 [exprTree a]) as

def groupTree : Option (Ex × List Ex) → Tree SymType
  | none => .node 670 []
  | some p => .node 671 [lf (kw "GROUP"), lf (kw "BY"), exListTree p.1 p.2]

def havingTree : Option Ex → Tree SymType
  | none => .node 672 []
  | some e => .node 673 [lf (kw "HAVING"), exprTree e]

def keyTree (k : SortKey) : Tree SymType := .node 678 [exprTree k.e, directionTree k.direction]
def keyAdd (x : SortKey) : Nat × List (Tree SymType) := (677, [lf (sym ','), keyTree x])
def keyListTree (a : SortKey) (as : List SortKey) : Tree SymType := grow keyAdd (.node 676 [keyTree a]) as

def orderTree : Option (SortKey × List SortKey) → Tree SymType
  | none => .node 674 []
  | some p => .node 675 [lf (kw "ORDER"), lf (kw "BY"), keyListTree p.1 p.2]

def limitTree : Option LimitPart → Tree SymType
  | none => .node 682 []
  | some (.count n) => .node 683 [lf (kw "LIMIT"), exprTree n]
  | some (.after o n) => .node 684 [lf (kw "LIMIT"), exprTree o, lf (sym ','), exprTree n]
  | some (.offset n o) => .node 685 [lf (kw "LIMIT"), exprTree n, lf (kw "OFFSET"), exprTree o]

def distinctTree : Bool → Tree SymType
  | false => .node 440 []
  | true => .node 441 [lf (kw "DISTINCT")]

/-- How a query starts. -/
def selectStart (b : Bool) : List (Tree SymType) :=
  [lf (kw "SELECT"), .node 431 [.node 430 [], .node 432 []], .node 437 [], distinctTree b, .node 442 []]

/-- What follows the selected. -/
def selectEnd (q : Query) : List (Tree SymType) :=
  [fromTree q.sources, whereTree q.condition, groupTree q.groups, havingTree q.having]

def baseTree (q : Query) : Tree SymType := .node 26 (selectStart q.distinct ++ pickedListTree q.first q.rest :: selectEnd q)

def queryTree (q : Query) : Tree SymType := .node 22 [baseTree q, orderTree q.order, limitTree q.limit, .node 686 []]

def orReplaceTree : Bool → Tree SymType
  | false => .node 104 []
  | true => .node 105 [lf (kw "OR"), lf (kw "REPLACE")]

def viewTree (v : NewView) : Tree SymType :=
  .node 10 [.node 64 [lf (kw "CREATE"), orReplaceTree v.orReplace, lf (kw "VIEW"), tableRefTree v.name, lf (kw "AS"), queryTree v.query]]

/-! ### Tokens -/

theorem said_colAlias (a : Option Alias) : said (colAliasTree a) = (optionally a Alias.tokens).map seenAs := by
  rcases a with _ | ⟨n, _ | _⟩ <;>
    simp [colAliasTree, optionally, Alias.tokens, given, said_node, saidAll_cons, saidAll_nil, said_lf, said_sqlId]

theorem said_tableAlias (a : Option Alias) : said (tableAliasTree a) = (optionally a Alias.tokens).map seenAs := by
  rcases a with _ | ⟨n, _ | _⟩ <;>
    simp [tableAliasTree, optionally, Alias.tokens, given, said_node, saidAll_cons, saidAll_nil, said_lf, said_tableId]

theorem said_picked (x : Picked) : said (pickedTree x) = x.tokens.map seenAs := by
  cases x <;> simp [pickedTree, Picked.tokens, said_node, saidAll_cons, saidAll_nil, said_lf, said_tableId, said_expr, said_colAlias]

/-- Lists with commas. -/
theorem said_listed {α : Type} {f : α → List Token} {g : α → Tree SymType} (r r0 : Nat) (h : ∀ x, said (g x) = (f x).map seenAs)
    (a : α) (as : List α) :
    said (grow (fun x => (r, [lf (sym ','), g x])) (.node r0 [g a]) as) = (listed f a as).map seenAs := by
  rw [said_grow, said_node, listed]
  simp only [saidAll_cons, saidAll_nil, h, said_lf, List.append_nil, List.map_append, List.map_flatMap, List.map_cons]
  rfl

theorem said_pickedList (a : Picked) (as : List Picked) : said (pickedListTree a as) = (listed Picked.tokens a as).map seenAs :=
  said_listed 447 446 said_picked a as

theorem said_joinWord (w : JoinWord) : said (joinWordTree w) = w.tokens.map seenAs := by
  cases w <;> simp [joinWordTree, leftTree, rightTree, JoinWord.tokens, said_node, saidAll_cons, saidAll_nil, said_lf]

theorem said_joinOn (c : JoinOn) : said (joinOnTree c) = c.tokens.map seenAs := by
  cases c <;> simp [joinOnTree, JoinOn.tokens, parens, said_node, saidAll_cons, saidAll_nil, said_lf, said_expr, said_columnList]

theorem said_joinOnOpt (c : JoinOn) : said (joinOnOptTree c) = c.tokens.map seenAs := by
  cases c <;> simp [joinOnOptTree, JoinOn.tokens, said_node, saidAll_cons, saidAll_nil, said_joinOn]

theorem natural_none {w : JoinWord} {c : JoinOn} (h : c.Fits w) (hw : JoinKind.of w = .natural) : c = .none := by
  cases c with
  | none => rfl
  | on e => cases w <;> simp [JoinKind.of] at hw <;> simp [JoinOn.Fits] at h
  | columns a as => cases w <;> simp [JoinKind.of] at hw <;> simp [JoinOn.Fits] at h

theorem said_source : ∀ s : Source, s.Proper → said (sourceTree s) = s.tokens.map seenAs
  | .table t a, _ => by
    simp [sourceTree, Source.tokens, said_node, saidAll_cons, saidAll_nil, said_tableRef, said_tableAlias]
  | .group s, h => by
    simp [sourceTree, Source.tokens, asRef, openTree, closeTree, parens, said_node, saidAll_cons, saidAll_nil, said_lf, said_source s h]
  | .join l w r c, h => by
    obtain ⟨hl, hr, -, hc⟩ := h
    rw [sourceTree, Source.tokens]
    cases hw : JoinKind.of w with
    | inner => simp [asRef, said_node, saidAll_cons, saidAll_nil, said_source l hl, said_source r hr, said_joinWord, said_joinOnOpt]
    | outer => simp [asRef, said_node, saidAll_cons, saidAll_nil, said_source l hl, said_source r hr, said_joinWord, said_joinOn]
    | natural =>
      rw [natural_none hc hw]
      simp [asRef, said_node, saidAll_cons, saidAll_nil, said_source l hl, said_source r hr, said_joinWord, JoinOn.tokens]

theorem said_ref {s : Source} (h : s.Proper) : said (refTree s) = s.tokens.map seenAs := by
  simp [refTree, asRef, said_node, saidAll_cons, saidAll_nil, said_source s h]

theorem said_refList {a : Source} {as : List Source} (h : ∀ s ∈ a :: as, s.Proper) :
    said (refListTree a as) = (listed Source.tokens a as).map seenAs := by
  have key : ∀ as : List Source, (∀ s ∈ as, s.Proper) → (as.flatMap fun x => saidAll (refAdd x).2) =
      (as.flatMap fun x => sym ',' :: x.tokens).map seenAs := by
    intro as
    induction as with
    | nil => intro _; rfl
    | cons x xs ih =>
      intro h'
      rw [List.flatMap_cons, List.flatMap_cons, ih fun s hs => h' s (by simp [hs]), List.map_append]
      simp [refAdd, saidAll_cons, saidAll_nil, said_lf, said_ref (h' x (by simp))]
  rw [refListTree, said_grow, said_node, listed, saidAll_cons, saidAll_nil, said_ref (h a (by simp)), List.append_nil, List.map_append,
    key as fun s hs => h s (by simp [hs])]

theorem said_from {f : Option (Source × List Source)} (h : ∀ p, f = some p → ∀ s ∈ p.1 :: p.2, s.Clear) :
    said (fromTree f) = (optionally f fun p => kw "FROM" :: listed Source.tokens p.1 p.2).map seenAs := by
  cases f with
  | none => rfl
  | some p => simp [fromTree, optionally, said_node, saidAll_cons, saidAll_nil, said_lf, said_refList fun s hs => (h p rfl s hs).1]

theorem said_exList (a : Ex) (as : List Ex) : said (exListTree a as) = (listed Ex.tokens a as).map seenAs :=
  said_listed 553 552 said_expr a as

theorem said_group (g : Option (Ex × List Ex)) :
    said (groupTree g) = (optionally g fun p => kw "GROUP" :: kw "BY" :: listed Ex.tokens p.1 p.2).map seenAs := by
  cases g <;> simp [groupTree, optionally, said_node, saidAll_cons, saidAll_nil, said_lf, said_exList]

theorem said_having (c : Option Ex) : said (havingTree c) = (optionally c fun e => kw "HAVING" :: e.tokens).map seenAs := by
  cases c <;> simp [havingTree, optionally, said_node, saidAll_cons, saidAll_nil, said_lf, said_expr]

theorem said_key (k : SortKey) : said (keyTree k) = k.tokens.map seenAs := by
  simp [keyTree, SortKey.tokens, said_node, saidAll_cons, saidAll_nil, said_expr, said_direction]

theorem said_keyList (a : SortKey) (as : List SortKey) : said (keyListTree a as) = (listed SortKey.tokens a as).map seenAs :=
  said_listed 677 676 said_key a as

theorem said_order (o : Option (SortKey × List SortKey)) :
    said (orderTree o) = (optionally o fun p => kw "ORDER" :: kw "BY" :: listed SortKey.tokens p.1 p.2).map seenAs := by
  cases o <;> simp [orderTree, optionally, said_node, saidAll_cons, saidAll_nil, said_lf, said_keyList]

theorem said_limit (l : Option LimitPart) : said (limitTree l) = (optionally l LimitPart.tokens).map seenAs := by
  rcases l with _ | _ | _ | _ <;>
    simp [limitTree, optionally, LimitPart.tokens, said_node, saidAll_cons, saidAll_nil, said_lf, said_expr]

theorem said_distinct (b : Bool) : said (distinctTree b) = (given (b = true) [kw "DISTINCT"]).map seenAs := by
  cases b <;> simp [distinctTree, given, said_node, saidAll_cons, saidAll_nil, said_lf]

theorem said_query {q : Query} (h : q.Clear) : said (queryTree q) = q.tokens.map seenAs := by
  simp [queryTree, baseTree, selectStart, selectEnd, Query.tokens, said_node, saidAll_cons, saidAll_nil, said_lf, said_distinct,
    said_pickedList, said_from h.2.1, said_where, whereTokens, said_group, said_having, said_order, said_limit]

theorem said_view {v : NewView} (h : v.query.Clear) : said (viewTree v) = v.tokens.map seenAs := by
  have e : said (orReplaceTree v.orReplace) = (given (v.orReplace = true) [kw "OR", kw "REPLACE"]).map seenAs := by
    cases v.orReplace <;> simp [orReplaceTree, given, said_node, saidAll_cons, saidAll_nil, said_lf]
  simp [viewTree, NewView.tokens, said_node, saidAll_cons, saidAll_nil, said_lf, said_tableRef, said_query h, e]

/-! ### Values -/

theorem good_ne {n : Str} (h : GoodName n) : n ≠ [] := h.1

theorem value_colAlias (a : Option Alias) : ((colAliasTree a).value valueOf).colIdent = (a.map (·.name)).getD [] := by
  rcases a with _ | ⟨n, _ | _⟩ <;> rfl

theorem value_tableAlias (a : Option Alias) : ((tableAliasTree a).value valueOf).tableIdent = (a.map (·.name)).getD [] := by
  rcases a with _ | ⟨n, _ | _⟩ <;> rfl

theorem alias_text {a : Option Alias} (h : GoodAlias a) :
    (if (a.map (·.name)).getD [] = [] then [] else lit " as " ++ Go.formatID ((a.map (·.name)).getD [])) = aliasText a := by
  cases a with
  | none => rfl
  | some x =>
    have hx := h x rfl
    simp only [Option.map_some, Option.getD_some, if_neg (good_ne hx), formatID_shown hx, aliasText]

theorem value_picked {x : Picked} (h : x.Clear) : ((pickedTree x).value valueOf).selectExpr = some x.text := by
  cases x with
  | all => rfl
  | allOf t =>
    have e : ((pickedTree (.allOf t)).value valueOf).selectExpr = Go.StarExpr { name := t } := rfl
    have ht := h
    rw [e, Go.StarExpr, if_neg (good_ne ht), Go.formatTableName, if_neg (good_ne ht), if_pos rfl, formatID_shown ht, Picked.text]
    simp [lit]
  | value x a =>
    have e : ((pickedTree (.value x a)).value valueOf).selectExpr =
      Go.AliasedExpr (exprOf (exprTree x)) ((colAliasTree a).value valueOf).colIdent := rfl
    rw [e, value_expr h.1.1, value_colAlias, Go.AliasedExpr, fmt_exNode, alias_text h.2]
    simp [Go.cat, Picked.text]

theorem sepBy_shown {α : Type} (f : α → Str) (a : α) (as : List α) :
    Go.sepBy (lit ", ") ((a :: as).map fun x => some (f x)) = some (shownList f a as) := by
  induction as generalizing a with
  | nil => simp [Go.sepBy, shownList]
  | cons b bs ih =>
    have := ih b
    rw [List.map_cons] at this
    rw [List.map_cons, List.map_cons, Go.sepBy, this]
    · simp [Go.cat, shownList]
    · simp

/-- The values of a list. -/
theorem value_listed {X A : Type} {g : SymType → List A} {f : X → Nat × List (Tree SymType)} {t : X → A} {d : Tree SymType} {xs : List X}
    {a : X} (h0 : g (d.value valueOf) = [t a])
    (h : ∀ x ∈ xs, ∀ v, g (valueOf (f x).1 (v :: valuesOf valueOf (f x).2)) = g v ++ [t x]) :
    g ((grow f d xs).value valueOf) = (a :: xs).map t := by
  rw [value_grow (g := g) (ap := fun l x => l ++ [t x]) _ _ h, foldl_snoc, h0]
  rfl

theorem value_pickedList {a : Picked} {as : List Picked} (h : ∀ x ∈ a :: as, x.Clear) :
    ((pickedListTree a as).value valueOf).selectExprs = (a :: as).map fun x => some x.text := by
  refine value_listed (g := SymType.selectExprs) (t := fun x : Picked => some x.text) ?_ ?_
  · have e : ((Tree.node 446 [pickedTree a]).value valueOf).selectExprs = [((pickedTree a).value valueOf).selectExpr] := rfl
    rw [e, value_picked (h a (by simp))]
  · intro x hx v
    have e : (valueOf (pickedAdd x).1 (v :: valuesOf valueOf (pickedAdd x).2)).selectExprs =
      v.selectExprs ++ [((pickedTree x).value valueOf).selectExpr] := rfl
    rw [e, value_picked (h x (by simp [hx]))]

theorem value_joinWord (w : JoinWord) : ((joinWordTree w).value valueOf).str = w.text := by
  cases w <;> rfl

theorem join_shown {a : Str} {as : List Str} (h : ∀ n ∈ a :: as, GoodName n) :
    join (lit ", ") ((a :: as).map Go.formatID) = shownList shownName a as := by
  induction as generalizing a with
  | nil => simp [join, shownList, formatID_shown (h a (by simp))]
  | cons b bs ih =>
    have := ih (a := b) fun n hn => h n (by simp [hn])
    rw [List.map_cons] at this
    rw [List.map_cons, List.map_cons, join, this, formatID_shown (h a (by simp))]
    simp [shownList]

theorem value_joinOn {w : JoinWord} {c : JoinOn} (h : c.Fits w) : ((joinOnTree c).value valueOf).joinCondition = some c.text := by
  cases c with
  | none => rfl
  | on e =>
    have e1 : ((joinOnTree (.on e)).value valueOf).joinCondition = Go.JoinCondition (exprOf (exprTree e)) := rfl
    rw [e1, value_expr h.2]
    simp [Go.JoinCondition, exNode, Go.cat, JoinOn.text]
  | columns a as =>
    have e1 : ((joinOnTree (.columns a as)).value valueOf).joinCondition =
      Go.JoinCondition none ((columnListTree a as).value valueOf).columns := rfl
    rw [e1, value_columnList]
    have e2 : ∀ x : Str, Go.cat [some [], some (lit " using " ++ (lit "(" ++ x ++ lit ")"))] = some (lit " using (" ++ x ++ lit ")") :=
      fun x => by simp [Go.cat]; rfl
    rw [JoinOn.text, ← e2, ← join_shown h.2, Go.JoinCondition, if_neg (List.cons_ne_nil a as), Go.formatColumns,
      if_neg (List.cons_ne_nil a as)]

theorem value_optional (d : Tree SymType) : ((Tree.node 480 [d]).value valueOf).joinCondition = (d.value valueOf).joinCondition := rfl

theorem value_joinOnOpt {w : JoinWord} {c : JoinOn} (h : c.Fits w) : ((joinOnOptTree c).value valueOf).joinCondition = some c.text := by
  cases c with
  | none => rfl
  | on e => rw [joinOnOptTree, value_optional, value_joinOn h]; exact fun h => nomatch h
  | columns a as => rw [joinOnOptTree, value_optional, value_joinOn h]; exact fun h => nomatch h

theorem value_asRef (b : Bool) (d : Tree SymType) : ((asRef b d).value valueOf).tableExpr = (d.value valueOf).tableExpr := by
  cases b <;> rfl

theorem table_text {t : TableRef} (h : ∀ s, t.schema = some s → GoodName s) (hn : GoodName t.name) :
    Go.formatTableName t.meaning = t.text := by
  obtain ⟨s, n⟩ := t
  cases s with
  | none =>
    simp only [TableRef.meaning, TableRef.text, Go.formatTableName, if_neg (good_ne hn), Option.getD_none, if_true, Option.map_none,
      formatID_shown hn]
  | some s =>
    have hs := h s rfl
    simp only [TableRef.meaning, TableRef.text, Go.formatTableName, if_neg (good_ne hn), Option.getD_some, if_neg (good_ne hs),
      Option.map_some, formatID_shown hn, formatID_shown hs]

theorem value_source : ∀ s : Source, s.Proper → ((sourceTree s).value valueOf).tableExpr = some s.text
  | .table t a, h => by
    have e : ((sourceTree (.table t a)).value valueOf).tableExpr = Go.AliasedTableExpr
      (some (Go.formatTableName ((tableRefTree t).value valueOf).tableName)) [] ((tableAliasTree a).value valueOf).tableIdent [] := rfl
    rw [e, value_tableRef, value_tableAlias, table_text h.1 h.2.1, Go.AliasedTableExpr, alias_text h.2.2]
    simp [Go.cat, Go.formatPartitions, Source.text]
  | .group s, h => by
    have e : ((sourceTree (.group s)).value valueOf).tableExpr =
      Go.ParenTableExpr [((asRef s.isJoin (sourceTree s)).value valueOf).tableExpr] := rfl
    rw [e, value_asRef, value_source s h]
    simp [Go.ParenTableExpr, Go.commas, Go.sepBy, Go.cat, Source.text]
  | .join l w r c, h => by
    obtain ⟨hl, hr, -, hc⟩ := h
    have key : ∀ b : Bool, Go.JoinTableExpr ((asRef l.isJoin (sourceTree l)).value valueOf).tableExpr ((joinWordTree w).value valueOf).str
        ((sourceTree r).value valueOf).tableExpr (some c.text) = some (Source.join l w r c).text := by
      intro _
      rw [value_asRef, value_source l hl, value_source r hr, value_joinWord]
      simp [Go.JoinTableExpr, Go.cat, Source.text]
    rw [sourceTree]
    cases hw : JoinKind.of w with
    | inner =>
      rw [← key true, ← value_joinOnOpt hc]
      rfl
    | outer =>
      rw [← key true, ← value_joinOn hc, ← value_asRef false (sourceTree r)]
      rfl
    | natural =>
      have : c = .none := natural_none hc hw
      subst this
      rw [← key true]
      rfl

theorem value_ref {s : Source} (h : s.Proper) : ((refTree s).value valueOf).tableExpr = some s.text := by
  rw [refTree, value_asRef, value_source s h]

theorem value_refList {a : Source} {as : List Source} (h : ∀ x ∈ a :: as, x.Proper) :
    ((refListTree a as).value valueOf).tableExprs = (a :: as).map fun x => some x.text := by
  refine value_listed (g := SymType.tableExprs) (t := fun x : Source => some x.text) ?_ ?_
  · have e : ((Tree.node 459 [refTree a]).value valueOf).tableExprs = [((refTree a).value valueOf).tableExpr] := rfl
    rw [e, value_ref (h a (by simp))]
  · intro x hx v
    have e : (valueOf (refAdd x).1 (v :: valuesOf valueOf (refAdd x).2)).tableExprs =
      v.tableExprs ++ [((refTree x).value valueOf).tableExpr] := rfl
    rw [e, value_ref (h x (by simp [hx]))]

theorem value_from {f : Option (Source × List Source)} (h : ∀ p, f = some p → ∀ s ∈ p.1 :: p.2, s.Clear) :
    Go.commas ((fromTree f).value valueOf).tableExprs = some ((f.map fun p => shownList Source.text p.1 p.2).getD (lit "dual")) := by
  cases f with
  | none => decide +kernel
  | some p =>
    have e : ((fromTree (some p)).value valueOf).tableExprs = ((refListTree p.1 p.2).value valueOf).tableExprs := rfl
    rw [e, value_refList fun s hs => (h p rfl s hs).1]
    exact sepBy_shown Source.text p.1 p.2

theorem value_exList {a : Ex} {as : List Ex} (h : ∀ x ∈ a :: as, x.Proper) :
    ((exListTree a as).value valueOf).exprs = (a :: as).map fun x => some (exNode x) := by
  refine value_listed (g := SymType.exprs) (t := fun x : Ex => some (exNode x)) ?_ ?_
  · have e : ((Tree.node 552 [exprTree a]).value valueOf).exprs = [exprOf (exprTree a)] := rfl
    rw [e, value_expr (h a (by simp))]
  · intro x hx v
    have e : (valueOf (exAdd x).1 (v :: valuesOf valueOf (exAdd x).2)).exprs = v.exprs ++ [exprOf (exprTree x)] := rfl
    rw [e, value_expr (h x (by simp [hx]))]

theorem value_group {g : Option (Ex × List Ex)} (h : ∀ p, g = some p → ∀ e ∈ p.1 :: p.2, ClearEx e) :
    Go.prefixed (lit " group by ") (((groupTree g).value valueOf).exprs.map Go.Expr.fmt) =
      some ((g.map fun p => lit " group by " ++ shownList Ex.text p.1 p.2).getD []) := by
  cases g with
  | none => rfl
  | some p =>
    have e : ((groupTree (some p)).value valueOf).exprs = ((exListTree p.1 p.2).value valueOf).exprs := rfl
    have h2 := sepBy_shown Ex.text p.1 p.2
    rw [e, value_exList fun s hs => (h p rfl s hs).1, List.map_map,
      show (Go.Expr.fmt ∘ fun x => some (exNode x)) = fun x => some (Ex.text x) from rfl, Go.prefixed, if_neg (by simp), Go.commas, h2]
    simp [Go.cat]

theorem value_whereText {c : Option Ex} (h : ∀ e, c = some e → ClearEx e) :
    Go.formatWhere (lit "where") ((whereTree c).value valueOf).expr = some ((c.map fun e => lit " where " ++ e.text).getD []) := by
  cases c with
  | none => rfl
  | some e =>
    have e1 : ((whereTree (some e)).value valueOf).expr = exprOf (exprTree e) := rfl
    rw [e1, value_expr (h e rfl).1]
    simp [Go.formatWhere, exNode, Go.cat, lit]

theorem value_having {c : Option Ex} (h : ∀ e, c = some e → ClearEx e) :
    Go.formatWhere (lit "having") ((havingTree c).value valueOf).expr = some ((c.map fun e => lit " having " ++ e.text).getD []) := by
  cases c with
  | none => rfl
  | some e =>
    have e1 : ((havingTree (some e)).value valueOf).expr = exprOf (exprTree e) := rfl
    rw [e1, value_expr (h e rfl).1]
    simp [Go.formatWhere, exNode, Go.cat, lit]

theorem direction_text (d : Option Bool) : lit " " ++ (if d = some false then lit "desc" else lit "asc") = directionText d := by
  rcases d with _ | _ | _ <;> rfl

theorem value_key {k : SortKey} (h : ClearEx k.e) : ((keyTree k).value valueOf).order_ = some k.text := by
  have e : ((keyTree k).value valueOf).order_ = Go.Order (exprOf (exprTree k.e)) ((directionTree k.direction).value valueOf).str := rfl
  rw [e, value_expr h.1, value_direction]
  have other : ∀ n : Go.ExprKind, n ≠ .null → n ≠ .rand → Go.Order (some { text := some k.e.text, kind := n })
      (if k.direction = some false then lit "desc" else lit "asc") = some (k.e.text ++ directionText k.direction) := by
    intro n h1 h2
    rw [← direction_text]
    unfold Go.Order
    split
    · rename_i he; cases he; exact absurd rfl h1
    · rename_i he; cases he; exact absurd rfl h2
    · simp [Go.cat, Go.Expr.fmt]
  obtain ⟨x, d⟩ := k
  have key : (exKind x ≠ .null ∧ exKind x ≠ .rand ∧ (SortKey.mk x d).text = x.text ++ directionText d) ∨
      ((exKind x = .null ∨ exKind x = .rand) ∧ (SortKey.mk x d).text = x.text) := by
    cases x with
    | null => exact .inr ⟨.inl rfl, by simp [SortKey.text]⟩
    | call f args =>
      by_cases hf : toLower f = lit "rand"
      · exact .inr ⟨.inr (by rw [exKind, if_pos hf]), by simp [SortKey.text, hf]⟩
      · exact .inl ⟨by rw [exKind, if_neg hf]; simp, by rw [exKind, if_neg hf]; simp, by simp [SortKey.text, hf]⟩
    | tuple a as => cases as <;> exact .inl ⟨by simp [exKind], by simp [exKind], rfl⟩
    | sign op y =>
      refine .inl ⟨?_, ?_, rfl⟩ <;> · rw [exKind]; cases (Ex.sign op y).number <;> simp
    | _ => exact .inl ⟨by simp [exKind], by simp [exKind], rfl⟩
  rcases key with ⟨h1, h2, h3⟩ | ⟨h1, h3⟩
  · rw [h3]; exact other _ h1 h2
  · rw [h3, exNode]
    rcases h1 with h1 | h1 <;> rw [h1] <;> rfl

theorem value_keyList {a : SortKey} {as : List SortKey} (h : ∀ x ∈ a :: as, ClearEx x.e) :
    ((keyListTree a as).value valueOf).orderBy = (a :: as).map fun x => some x.text := by
  refine value_listed (g := SymType.orderBy) (t := fun x : SortKey => some x.text) ?_ ?_
  · have e : ((Tree.node 676 [keyTree a]).value valueOf).orderBy = [((keyTree a).value valueOf).order_] := rfl
    rw [e, value_key (h a (by simp))]
  · intro x hx v
    have e : (valueOf (keyAdd x).1 (v :: valuesOf valueOf (keyAdd x).2)).orderBy = v.orderBy ++ [((keyTree x).value valueOf).order_] := rfl
    rw [e, value_key (h x (by simp [hx]))]

theorem value_order {o : Option (SortKey × List SortKey)} (h : ∀ p, o = some p → ∀ k ∈ p.1 :: p.2, ClearEx k.e) :
    Go.formatOrderBy ((orderTree o).value valueOf).orderBy =
      some ((o.map fun p => lit " order by " ++ shownList SortKey.text p.1 p.2).getD []) := by
  cases o with
  | none => rfl
  | some p =>
    have e : ((orderTree (some p)).value valueOf).orderBy = ((keyListTree p.1 p.2).value valueOf).orderBy := rfl
    have h2 := sepBy_shown SortKey.text p.1 p.2
    rw [e, value_keyList fun s hs => h p rfl s hs, Go.formatOrderBy, Go.prefixed, if_neg (by simp), Go.commas, h2]
    simp [Go.cat]

theorem value_limit {l : Option LimitPart} (h : ∀ p, l = some p → p.Clear) :
    ((limitTree l).value valueOf).limit = some ((l.map LimitPart.text).getD []) := by
  rcases l with _ | n | ⟨o, n⟩ | ⟨n, o⟩
  · rfl
  · have e : ((limitTree (some (.count n))).value valueOf).limit = Go.Limit none (exprOf (exprTree n)) := rfl
    rw [e, value_expr (h _ rfl).1]
    simp [Go.Limit, exNode, Go.cat, Go.Expr.fmt, LimitPart.text]
  · have e : ((limitTree (some (.after o n))).value valueOf).limit = Go.Limit (exprOf (exprTree o)) (exprOf (exprTree n)) := rfl
    rw [e, value_expr (h _ rfl).1.1, value_expr (h _ rfl).2.1]
    simp [Go.Limit, exNode, Go.cat, Go.Expr.fmt, LimitPart.text]
  · have e : ((limitTree (some (.offset n o))).value valueOf).limit = Go.Limit (exprOf (exprTree o)) (exprOf (exprTree n)) := rfl
    rw [e, value_expr (h _ rfl).1.1, value_expr (h _ rfl).2.1]
    simp [Go.Limit, exNode, Go.cat, Go.Expr.fmt, LimitPart.text]

theorem value_query {q : Query} (h : q.Clear) : ((queryTree q).value valueOf).selStmt = some q.text := by
  obtain ⟨h1, h2, h3, h4, h5, h6, h7⟩ := h
  have e : ((queryTree q).value valueOf).selStmt = Go.cat
    [Go.Select [] [] ((distinctTree q.distinct).value valueOf).str [] ((pickedListTree q.first q.rest).value valueOf).selectExprs
      ((fromTree q.sources).value valueOf).tableExprs ((whereTree q.condition).value valueOf).expr
      ((groupTree q.groups).value valueOf).exprs ((havingTree q.having).value valueOf).expr,
     Go.formatOrderBy ((orderTree q.order).value valueOf).orderBy, ((limitTree q.limit).value valueOf).limit, some []] := rfl
  have e2 : ((distinctTree q.distinct).value valueOf).str = if q.distinct then lit "distinct " else [] := by
    cases q.distinct <;> rfl
  rw [e, e2, value_order h6, value_limit h7, Go.Select, value_from h2, value_whereText h3, value_group h4, value_having h5,
    value_pickedList h1, show Go.commas ((q.first :: q.rest).map fun x => some x.text) = some (shownList Picked.text q.first q.rest) from
      sepBy_shown Picked.text q.first q.rest]
  simp [Go.cat, Go.formatComments, Query.text]

theorem value_view {v : NewView} (h : v.query.Clear) : ((viewTree v).value valueOf).statement = .ddl v.meaning := by
  have e : ((viewTree v).value valueOf).statement = .ddl
    { action := lit "create view",
      view := some (Go.View (Go.toViewName ((tableRefTree v.name).value valueOf).tableName) ((queryTree v.query).value valueOf).selStmt) } := rfl
  rw [e, value_query h, value_tableRef]
  rfl

/-! ### What is asked -/

theorem tame_colAlias (a : Option Alias) : tame (colAliasTree a) = true := by rcases a with _ | ⟨n, _ | _⟩ <;> rfl
theorem tame_tableAlias (a : Option Alias) : tame (tableAliasTree a) = true := by rcases a with _ | ⟨n, _ | _⟩ <;> rfl

theorem fine_picked {x : Picked} (h : x.Clear) : fine valueOf asks (pickedTree x) := by
  cases x with
  | all => exact fine_of_tame _ rfl
  | allOf t => exact fine_of_tame _ rfl
  | value e a => exact ⟨asks_of_tame (by decide) _, fine_expr h.1.1, fine_of_tame _ (tame_colAlias a), trivial⟩

/-- Growing keeps what is asked. -/
theorem fine_grow {X : Type} {f : X → Nat × List (Tree SymType)} (d : Tree SymType) (xs : List X) (hd : fine valueOf asks d)
    (h : ∀ x ∈ xs, asking (f x).1 = false ∧ fineAll valueOf asks (f x).2) : fine valueOf asks (grow f d xs) := by
  induction xs generalizing d with
  | nil => exact hd
  | cons x xs ih =>
    have hx := h x List.mem_cons_self
    exact ih _ ⟨asks_of_tame hx.1 _, hd, hx.2⟩ fun y hy => h y (List.mem_cons_of_mem _ hy)

theorem fine_pickedList {a : Picked} {as : List Picked} (h : ∀ x ∈ a :: as, x.Clear) : fine valueOf asks (pickedListTree a as) :=
  fine_grow _ _ ⟨asks_of_tame (by decide) _, fine_picked (h a (by simp)), trivial⟩
    fun x hx => ⟨rfl, trivial, fine_picked (h x (by simp [hx])), trivial⟩

theorem tame_joinWord (w : JoinWord) : tame (joinWordTree w) = true := by cases w <;> rfl

theorem fine_sourceOn {w : JoinWord} {c : JoinOn} (h : c.Fits w) : fine valueOf asks (joinOnTree c) := by
  cases c with
  | none => exact fine_of_tame _ rfl
  | on e => exact ⟨asks_of_tame (by decide) _, trivial, fine_expr h.2, trivial⟩
  | columns a as => exact ⟨asks_of_tame (by decide) _, trivial, trivial, fine_of_tame _ (tame_columnList a as), trivial, trivial⟩

theorem fine_joinOnOpt {w : JoinWord} {c : JoinOn} (h : c.Fits w) : fine valueOf asks (joinOnOptTree c) := by
  cases c with
  | none => exact fine_of_tame _ rfl
  | on e => exact ⟨asks_of_tame (by decide) _, fine_sourceOn h, trivial⟩
  | columns a as => exact ⟨asks_of_tame (by decide) _, fine_sourceOn h, trivial⟩

theorem fine_asRef {b : Bool} {d : Tree SymType} (h : fine valueOf asks d) : fine valueOf asks (asRef b d) :=
  ⟨asks_of_tame (by cases b <;> rfl) _, h, trivial⟩

theorem fine_source : ∀ s : Source, s.Proper → fine valueOf asks (sourceTree s)
  | .table t a, _ => ⟨asks_of_tame (by decide) _, ⟨asks_of_tame (by decide) _, fine_of_tame _ (tame_tableRef t),
      fine_of_tame _ (tame_tableAlias a), fine_of_tame _ rfl, trivial⟩, trivial⟩
  | .group s, h => ⟨asks_of_tame (by decide) _, fine_of_tame _ rfl, ⟨asks_of_tame (by decide) _, fine_asRef (fine_source s h), trivial⟩,
      fine_of_tame _ rfl, trivial⟩
  | .join l w r c, h => by
    obtain ⟨hl, hr, -, hc⟩ := h
    have h1 := fine_asRef (b := l.isJoin) (fine_source l hl)
    have h2 := fine_of_tame _ (tame_joinWord w)
    have h3 := fine_source r hr
    rw [sourceTree]
    cases JoinKind.of w with
    | inner => exact ⟨asks_of_tame (by decide) _, h1, h2, h3, fine_joinOnOpt hc, trivial⟩
    | outer => exact ⟨asks_of_tame (by decide) _, h1, h2, fine_asRef h3, fine_sourceOn hc, trivial⟩
    | natural => exact ⟨asks_of_tame (by decide) _, h1, h2, h3, trivial⟩

theorem fine_from {f : Option (Source × List Source)} (h : ∀ p, f = some p → ∀ s ∈ p.1 :: p.2, s.Clear) :
    fine valueOf asks (fromTree f) := by
  cases f with
  | none => exact fine_of_tame _ rfl
  | some p =>
    have hs : ∀ s ∈ p.1 :: p.2, fine valueOf asks (refTree s) := fun s hs => fine_asRef (fine_source s (h p rfl s hs).1)
    exact ⟨asks_of_tame (by decide) _, trivial, fine_grow _ _ ⟨asks_of_tame (by decide) _, hs p.1 (by simp), trivial⟩
      fun x hx => ⟨rfl, trivial, hs x (by simp [hx]), trivial⟩, trivial⟩

theorem fine_group {g : Option (Ex × List Ex)} (h : ∀ p, g = some p → ∀ e ∈ p.1 :: p.2, ClearEx e) : fine valueOf asks (groupTree g) := by
  cases g with
  | none => exact fine_of_tame _ rfl
  | some p =>
    exact ⟨asks_of_tame (by decide) _, trivial, trivial,
      fine_grow _ _ ⟨asks_of_tame (by decide) _, fine_expr (h p rfl p.1 (by simp)).1, trivial⟩
      fun x hx => ⟨rfl, trivial, fine_expr (h p rfl x (by simp [hx])).1, trivial⟩, trivial⟩

theorem fine_having {c : Option Ex} (h : ∀ e, c = some e → ClearEx e) : fine valueOf asks (havingTree c) := by
  cases c with
  | none => exact fine_of_tame _ rfl
  | some e => exact ⟨asks_of_tame (by decide) _, trivial, fine_expr (h e rfl).1, trivial⟩

theorem tame_someDirection (d : Option Bool) : tame (directionTree d) = true := by rcases d with _ | _ | _ <;> rfl

theorem fine_key {k : SortKey} (h : ClearEx k.e) : fine valueOf asks (keyTree k) :=
  ⟨asks_of_tame (by decide) _, fine_expr h.1, fine_of_tame _ (tame_someDirection k.direction), trivial⟩

theorem fine_sortKeys {o : Option (SortKey × List SortKey)} (h : ∀ p, o = some p → ∀ k ∈ p.1 :: p.2, ClearEx k.e) :
    fine valueOf asks (orderTree o) := by
  cases o with
  | none => exact fine_of_tame _ rfl
  | some p =>
    exact ⟨asks_of_tame (by decide) _, trivial, trivial,
      fine_grow _ _ ⟨asks_of_tame (by decide) _, fine_key (h p rfl p.1 (by simp)), trivial⟩
      fun x hx => ⟨rfl, trivial, fine_key (h p rfl x (by simp [hx])), trivial⟩, trivial⟩

theorem fine_limitPart {l : Option LimitPart} (h : ∀ p, l = some p → p.Clear) : fine valueOf asks (limitTree l) := by
  rcases l with _ | n | ⟨o, n⟩ | ⟨n, o⟩
  · exact fine_of_tame _ rfl
  · exact ⟨asks_of_tame (by decide) _, trivial, fine_expr (h _ rfl).1, trivial⟩
  · exact ⟨asks_of_tame (by decide) _, trivial, fine_expr (h _ rfl).1.1, trivial, fine_expr (h _ rfl).2.1, trivial⟩
  · exact ⟨asks_of_tame (by decide) _, trivial, fine_expr (h _ rfl).1.1, trivial, fine_expr (h _ rfl).2.1, trivial⟩

theorem fine_query {q : Query} (h : q.Clear) : fine valueOf asks (queryTree q) := by
  obtain ⟨h1, h2, h3, h4, h5, h6, h7⟩ := h
  have hd : tame (distinctTree q.distinct) = true := by cases q.distinct <;> rfl
  exact ⟨asks_of_tame (by decide) _, ⟨asks_of_tame (by decide) _, trivial, fine_of_tame _ rfl, fine_of_tame _ rfl, fine_of_tame _ hd,
    fine_of_tame _ rfl, fine_pickedList h1, fine_from h2, fine_whereTree (fun e he => h3 e he), fine_group h4, fine_having h5, trivial⟩,
    fine_sortKeys h6, fine_limitPart h7, fine_of_tame _ rfl, trivial⟩

theorem fine_view {v : NewView} (h : v.query.Clear) : fine valueOf asks (viewTree v) := by
  have ho : tame (orReplaceTree v.orReplace) = true := by cases v.orReplace <;> rfl
  exact ⟨asks_of_tame (by decide) _, ⟨asks_of_tame (by decide) _, trivial, fine_of_tame _ ho, trivial, fine_of_tame _ (tame_tableRef v.name),
    trivial, fine_query h, trivial⟩, trivial⟩

end Sqldef.Sql
