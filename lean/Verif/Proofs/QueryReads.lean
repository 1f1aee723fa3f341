import Verif.Proofs.SourceReads
import Verif.Proofs.ViewSim

/-! The tables read queries and `CREATE VIEW`. -/
namespace Sqldef.Sql
open Spec Yy Written

/-! ### What may follow the parts of a query -/

def afterOrder : List Nat := 17 :: afterTable
def afterHaving : List Nat := 15 :: afterOrder
def afterGroup : List Nat := 14 :: afterHaving
def afterWhere : List Nat := 13 :: afterGroup
def afterFrom : List Nat := 12 :: afterWhere
def afterPicks : List Nat := 11 :: afterFrom

/-- What may follow an expression of a query. -/
def afterPart : List Nat := [22, 55, 24, 25, 18, 53] ++ afterPicks

theorem part_follows : ∀ la ∈ afterPart, Follows 1 la := by
  have h : ∀ la ∈ afterPart, (stops.any fun p => p.1 == la && decide (p.2 ≤ 1)) = true := by decide +kernel
  exact fun la hla => follows_of (h la hla)

theorem part_of_picks {la : Nat} (h : la ∈ afterPicks) : la ∈ afterPart := List.mem_append_right _ h
theorem picks_of_from {la : Nat} (h : la ∈ afterFrom) : la ∈ afterPicks := List.mem_cons_of_mem _ h
theorem picks_of_where {la : Nat} (h : la ∈ afterWhere) : la ∈ afterPicks := picks_of_from (List.mem_cons_of_mem _ h)
theorem picks_of_group {la : Nat} (h : la ∈ afterGroup) : la ∈ afterPicks := picks_of_where (List.mem_cons_of_mem _ h)
theorem picks_of_having {la : Nat} (h : la ∈ afterHaving) : la ∈ afterPicks := picks_of_group (List.mem_cons_of_mem _ h)
theorem picks_of_order {la : Nat} (h : la ∈ afterOrder) : la ∈ afterPicks := picks_of_having (List.mem_cons_of_mem _ h)
theorem picks_of_end {la : Nat} (h : la ∈ afterTable) : la ∈ afterPicks := picks_of_order (List.mem_cons_of_mem _ h)
theorem ref_of_from : ∀ la ∈ 53 :: afterFrom, la ∈ afterRef := by decide +kernel

theorem comma_next (cs : List (Tree SymType)) (la : Nat) : headToken (lf (sym ',') :: cs) la = 53 := by
  have h : first (lf (sym ',')) = some 53 := by decide +kernel
  exact head_some h cs la

/-! ### What is selected -/

def pickedShape : Picked → Picked
  | .all => .all
  | .allOf _ => .allOf []
  | .value _ a => .value .null (aliasShape a)

def pickedShapes : List Picked := .all :: .allOf [] :: aliasShapes.map (Picked.value .null)
theorem pickedShape_mem (x : Picked) : pickedShape x ∈ pickedShapes := by
  cases x with
  | all => simp [pickedShape, pickedShapes]
  | allOf t => simp [pickedShape, pickedShapes]
  | value e a =>
    exact List.mem_cons_of_mem _ (List.mem_cons_of_mem _ (List.mem_map_of_mem (aliasShape_mem a)))

theorem blank_colAlias (a : Option Alias) : blank (colAliasTree a) = blank (colAliasTree (aliasShape a)) := by
  rcases a with _ | ⟨_, _ | _⟩ <;> rfl

theorem first_aliases : first (lf (kw "AS")) = some 22 ∧ ∀ s : Str, first (lf (nm s)) = some 55 := by
  refine ⟨by decide +kernel, fun s => ?_⟩
  have : first (lf (nm [])) = some 55 := by decide +kernel
  exact this

theorem colAlias_heads : ∀ a ∈ aliasShapes, ∀ la ∈ 53 :: afterPicks, headToken [colAliasTree a] la ∈ afterPart := by decide +kernel

theorem colAlias_head (a : Option Alias) {la : Nat} (hla : la ∈ 53 :: afterPicks) : headToken [colAliasTree a] la ∈ afterPart := by
  have := colAlias_heads _ (aliasShape_mem a) la hla
  rw [headToken_cons, first_blank (blank_colAlias a), ← headToken_cons]
  exact this

theorem picked_sites : ∀ p ∈ [(783 : Int), 1037], (p, 1) ∈ sites := by decide +kernel

theorem picked_like {x : Picked} (h : x.Clear) {p : Int} (hp : p ∈ [(783 : Int), 1037]) {la : Nat} (hla : la ∈ 53 :: afterPicks) :
    readsTree nestEff p 0 (pickedTree x) la = readsTree nestEff p 0 (pickedTree (pickedShape x)) la := by
  cases x with
  | all => rfl
  | allOf t => exact reads_alike (by rfl) la
  | value e a =>
    refine Eq.trans (reads_first (expr_like h.1.1 h.1.2 (picked_sites p hp) (part_follows _ (colAlias_head a hla)))) ?_
    refine reads_alike ?_ la
    rw [pickedShape, pickedTree, blank, blankAll, blankAll, blankAll, blank_colAlias]
    rfl

theorem reads_picks : (∀ x ∈ pickedShapes, ∀ la ∈ 53 :: afterPicks, readsTree nestEff 783 0 (.node 446 [pickedTree x]) la = some (1021, 0) ∧
      readsTree nestEff 783 0 (.node 447 [.node 446 [pickedTree .all], lf (sym ','), pickedTree x]) la = some (1021, 0)) ∧
    readsAll nestEff 783 0 ([.node 446 [pickedTree .all]] ++ [lf (sym ',')]) 0 = some (1037, 0) := by decide +kernel

theorem pickedList_reads {a : Picked} {as : List Picked} (h : ∀ x ∈ a :: as, x.Clear) : ∀ la, la ∈ 53 :: afterPicks →
    readsTree nestEff 783 0 (pickedListTree a as) la = some (1021, 0) := by
  obtain ⟨h1, h2⟩ := reads_picks
  refine reads_grow (d₀ := .node 446 [pickedTree .all]) (fun la hla => ?_) (fun la hla => (h1 .all (by simp [pickedShapes]) la hla).1)
    (fun x hx la hla => ⟨by rw [pickedAdd, comma_next]; decide, ?_⟩)
  · exact (reads_first (cs := []) (picked_like (h a List.mem_cons_self) (by decide) hla)).trans (h1 _ (pickedShape_mem a) la hla).1
  · refine Eq.trans ?_ (h1 _ (pickedShape_mem x) la hla).2
    exact reads_part_after (n := 0) (q := (1037, 0)) [.node 446 [pickedTree .all]] [] (sym ',') h2
      (picked_like (h x (List.mem_cons_of_mem _ hx)) (by decide) hla)

/-! ### Sources -/

def anyTable : Source := .table ⟨none, []⟩ none

theorem ref_rules : goRef 1215 = 329 ∧ goRef 630 = 864 ∧ gotoState 1215 (kindOf 459) = some 1354 ∧ (isRule 459 1 (kindOf 459) && quiet 459) = true ∧
    (isRule 460 3 (kindOf 459) && quiet 460) = true ∧
    (∀ la ∈ 53 :: afterFrom, decideAct 329 la = .reduce 459 ∧ decideAct 864 la = .reduce 460 ∧
      readsTree nestEff 1215 0 (.node 459 [refTree anyTable]) la = some (1354, 0)) ∧
    decideAct 1354 (no (sym ',').type) = .shift 630 := by decide +kernel

theorem refList_reads {a : Source} {as : List Source} (h : ∀ x ∈ a :: as, x.Clear) : ∀ la, la ∈ 53 :: afterFrom →
    readsTree nestEff 1215 0 (refListTree a as) la = some (1354, 0) := by
  obtain ⟨r1, r2, r3, r4, r5, r6, r7⟩ := ref_rules
  refine reads_grow (d₀ := .node 459 [refTree anyTable]) (fun la hla => ?_) (fun la hla => (r6 la hla).2.2)
    (fun x hx la hla => ⟨by rw [refAdd, comma_next]; decide, ?_⟩)
  · have ha := h a List.mem_cons_self
    have := (source_reads a ha.1).2 1215 (by decide) la (ref_of_from la hla) 0 (by have := ha.2; omega)
    rw [r1] at this
    exact reads_single this (r6 la hla).1 r4 r3
  · have hx := h x (List.mem_cons_of_mem _ hx)
    have := (source_reads x hx.1).2 630 (by decide) la (ref_of_from la hla) 0 (by have := hx.2; omega)
    rw [r2] at this
    refine reads_many (cs := [.node 459 [refTree anyTable], lf (sym ','), refTree x]) (q := 864) ?_ (r6 la hla).2.1 r5 r3
    rw [readsAll_cons (q := 1354) (m' := 0) (by rw [comma_next]; exact (r6 53 (by decide)).2.2), readsAll_cons (reads_leaf r7),
      readsAll_cons (la := la) (cs := []) this]
    rfl

theorem from_rules : (∀ la ∈ afterFrom, readsTree nestEff 1021 0 (fromTree none) la = some (1214, 0) ∧ decideAct 1354 la = .reduce 458) ∧
    decideAct 1021 (no (kw "FROM").type) = .shift 1215 ∧ gotoState 1021 (kindOf 458) = some 1214 ∧
    (isRule 458 2 (kindOf 458) && quiet 458) = true ∧ first (lf (kw "FROM")) = some 11 := by decide +kernel

theorem from_reads {o : Option (Source × List Source)} (h : ∀ p, o = some p → ∀ s ∈ p.1 :: p.2, s.Clear) : ∀ la ∈ afterFrom,
    readsTree nestEff 1021 0 (fromTree o) la = some (1214, 0) := by
  intro la hla
  obtain ⟨r1, r2, r3, r4, -⟩ := from_rules
  cases o with
  | none => exact (r1 la hla).1
  | some p =>
    refine reads_many (cs := [lf (kw "FROM"), refListTree p.1 p.2]) (q := 1354) ?_ (r1 la hla).2 r4 r3
    rw [readsAll_cons (reads_leaf r2), readsAll_cons (la := la) (cs := []) (refList_reads (h p rfl) la (List.mem_cons_of_mem _ hla))]
    rfl

theorem from_head (o : Option (Source × List Source)) {cs : List (Tree SymType)} {la : Nat} (h : headToken cs la ∈ afterFrom) :
    headToken (fromTree o :: cs) la ∈ 53 :: afterPicks := by
  cases o with
  | none => rw [head_none rfl]; exact List.mem_cons_of_mem _ (picks_of_from h)
  | some p =>
    have := from_rules.2.2.2.2
    rw [head_some (n := 11) (by rw [fromTree, first_node _ _ _ (by rw [this]; exact fun h => nomatch h), this])]
    decide

/-! ### Conditions and groups -/

theorem select_wheres : readsAll nestEff 1214 0 [lf (kw "WHERE")] 0 = some (1069, 0) ∧ (1069, 1) ∈ sites ∧ first (lf (kw "WHERE")) = some 12 ∧
    ∀ la ∈ afterWhere, readsTree nestEff 1214 0 (whereTree none) la = some (1353, 0) ∧
      readsTree nestEff 1214 0 (whereTree (some .null)) la = some (1353, 0) := by decide +kernel

theorem selectWhere_reads {o : Option Ex} (h : ∀ e, o = some e → ClearEx e) : ∀ la ∈ afterWhere,
    readsTree nestEff 1214 0 (whereTree o) la = some (1353, 0) := by
  intro la hla
  obtain ⟨h1, hs, -, h2⟩ := select_wheres
  cases o with
  | none => exact (h2 la hla).1
  | some e =>
    refine Eq.trans ?_ (h2 la hla).2
    exact reads_part_after (n := 0) (q := (1069, 0)) [] [] (kw "WHERE") h1
      (expr_like (h e rfl).1 (h e rfl).2 hs (part_follows _ (part_of_picks (picks_of_where hla))))

theorem selectWhere_head (o : Option Ex) {cs : List (Tree SymType)} {la : Nat} (h : headToken cs la ∈ afterWhere) :
    headToken (whereTree o :: cs) la ∈ afterFrom := by
  cases o with
  | none => rw [head_none rfl]; exact List.mem_cons_of_mem _ h
  | some e =>
    have := select_wheres.2.2.1
    rw [head_some (n := 12) (by rw [whereTree, first_node _ _ _ (by rw [this]; exact fun h => nomatch h), this])]
    decide

theorem reads_exs : (∀ la ∈ 53 :: afterGroup, readsTree nestEff 1529 0 (.node 552 [exprTree .null]) la = some (1584, 0) ∧
      readsTree nestEff 1529 0 (.node 553 [.node 552 [exprTree .null], lf (sym ','), exprTree .null]) la = some (1584, 0)) ∧
    readsAll nestEff 1529 0 ([.node 552 [exprTree .null]] ++ [lf (sym ',')]) 0 = some (835, 0) ∧ (835, 1) ∈ sites ∧ (1529, 1) ∈ sites := by
  decide +kernel

theorem exList_reads {a : Ex} {as : List Ex} (h : ∀ x ∈ a :: as, ClearEx x) : ∀ la, la ∈ 53 :: afterGroup →
    readsTree nestEff 1529 0 (exListTree a as) la = some (1584, 0) := by
  obtain ⟨h1, h2, h3, h4⟩ := reads_exs
  have hf : ∀ la ∈ 53 :: afterGroup, Follows 1 la := by
    intro la hla
    refine part_follows la ?_
    rcases List.mem_cons.mp hla with rfl | hla
    · decide
    · exact part_of_picks (picks_of_group hla)
  refine reads_grow (d₀ := .node 552 [exprTree .null]) (fun la hla => ?_) (fun la hla => (h1 la hla).1)
    (fun x hx la hla => ⟨by rw [exAdd, comma_next]; decide, ?_⟩)
  · have ha := h a List.mem_cons_self
    exact (reads_first (cs := []) (expr_like ha.1 ha.2 h4 (hf la hla))).trans (h1 la hla).1
  · have hx := h x (List.mem_cons_of_mem _ hx)
    refine Eq.trans ?_ (h1 la hla).2
    exact reads_part_after (n := 0) (q := (835, 0)) [.node 552 [exprTree .null]] [] (sym ',') h2 (expr_like hx.1 hx.2 h3 (hf la hla))

theorem group_rules : (∀ la ∈ afterGroup, readsTree nestEff 1353 0 (groupTree none) la = some (1451, 0) ∧ decideAct 1584 la = .reduce 671) ∧
    decideAct 1353 (no (kw "GROUP").type) = .shift ((readsTree nestEff 1353 0 (lf (kw "GROUP")) 0).getD (0, 0)).1 ∧
    decideAct ((readsTree nestEff 1353 0 (lf (kw "GROUP")) 0).getD (0, 0)).1 (no (kw "BY").type) = .shift 1529 ∧
    gotoState 1353 (kindOf 671) = some 1451 ∧
    (isRule 671 3 (kindOf 671) && quiet 671) = true ∧ first (lf (kw "GROUP")) = some 13 := by decide +kernel

theorem group_reads {o : Option (Ex × List Ex)} (h : ∀ p, o = some p → ∀ e ∈ p.1 :: p.2, ClearEx e) : ∀ la ∈ afterGroup,
    readsTree nestEff 1353 0 (groupTree o) la = some (1451, 0) := by
  intro la hla
  obtain ⟨r1, r2, r2', r3, r4, -⟩ := group_rules
  cases o with
  | none => exact (r1 la hla).1
  | some p =>
    refine reads_many (cs := [lf (kw "GROUP"), lf (kw "BY"), exListTree p.1 p.2]) (q := 1584) ?_ (r1 la hla).2 r4 r3
    rw [readsAll_cons (reads_leaf r2), readsAll_cons (reads_leaf r2'),
      readsAll_cons (la := la) (cs := []) (exList_reads (h p rfl) la (List.mem_cons_of_mem _ hla))]
    rfl

theorem group_head (o : Option (Ex × List Ex)) {cs : List (Tree SymType)} {la : Nat} (h : headToken cs la ∈ afterGroup) :
    headToken (groupTree o :: cs) la ∈ afterWhere := by
  cases o with
  | none => rw [head_none rfl]; exact List.mem_cons_of_mem _ h
  | some p =>
    have := group_rules.2.2.2.2.2
    rw [head_some (n := 13) (by rw [groupTree, first_node _ _ _ (by rw [this]; exact fun h => nomatch h), this])]
    decide

theorem select_havings : readsAll nestEff 1451 0 [lf (kw "HAVING")] 0 = some (1528, 0) ∧ (1528, 1) ∈ sites ∧ first (lf (kw "HAVING")) = some 14 ∧
    ∀ la ∈ afterHaving, readsTree nestEff 1451 0 (havingTree none) la = some (1527, 0) ∧
      readsTree nestEff 1451 0 (havingTree (some .null)) la = some (1527, 0) := by decide +kernel

theorem having_reads {o : Option Ex} (h : ∀ e, o = some e → ClearEx e) : ∀ la ∈ afterHaving,
    readsTree nestEff 1451 0 (havingTree o) la = some (1527, 0) := by
  intro la hla
  obtain ⟨h1, hs, -, h2⟩ := select_havings
  cases o with
  | none => exact (h2 la hla).1
  | some e =>
    refine Eq.trans ?_ (h2 la hla).2
    exact reads_part_after (n := 0) (q := (1528, 0)) [] [] (kw "HAVING") h1
      (expr_like (h e rfl).1 (h e rfl).2 hs (part_follows _ (part_of_picks (picks_of_having hla))))

theorem having_head (o : Option Ex) {cs : List (Tree SymType)} {la : Nat} (h : headToken cs la ∈ afterHaving) :
    headToken (havingTree o :: cs) la ∈ afterGroup := by
  cases o with
  | none => rw [head_none rfl]; exact List.mem_cons_of_mem _ h
  | some e =>
    have := select_havings.2.2.1
    rw [head_some (n := 14) (by rw [havingTree, first_node _ _ _ (by rw [this]; exact fun h => nomatch h), this])]
    decide

/-! ### Order and limit -/

def directions : List (Option Bool) := [none, some true, some false]
theorem direction_mem (d : Option Bool) : d ∈ directions := by rcases d with _ | _ | _ <;> simp [directions]

theorem direction_heads : ∀ d ∈ directions, ∀ la ∈ 53 :: afterOrder, headToken [directionTree d] la ∈ afterPart := by decide +kernel

theorem key_sites : ∀ p ∈ [(253 : Int), 772], (p, 1) ∈ sites := by decide +kernel

theorem key_like {k : SortKey} (h : ClearEx k.e) {p : Int} (hp : p ∈ [(253 : Int), 772]) {la : Nat} (hla : la ∈ 53 :: afterOrder) :
    readsTree nestEff p 0 (keyTree k) la = readsTree nestEff p 0 (keyTree ⟨.null, k.direction⟩) la :=
  reads_first (expr_like h.1 h.2 (key_sites p hp) (part_follows _ (direction_heads _ (direction_mem _) la hla)))

theorem reads_keys : (∀ d ∈ directions, ∀ la ∈ 53 :: afterOrder, readsTree nestEff 253 0 (.node 676 [keyTree ⟨.null, d⟩]) la = some (516, 0) ∧
      readsTree nestEff 253 0 (.node 677 [.node 676 [keyTree ⟨.null, none⟩], lf (sym ','), keyTree ⟨.null, d⟩]) la = some (516, 0)) ∧
    readsAll nestEff 253 0 ([.node 676 [keyTree ⟨.null, none⟩]] ++ [lf (sym ',')]) 0 = some (772, 0) := by decide +kernel

theorem keyList_reads {a : SortKey} {as : List SortKey} (h : ∀ x ∈ a :: as, ClearEx x.e) : ∀ la, la ∈ 53 :: afterOrder →
    readsTree nestEff 253 0 (keyListTree a as) la = some (516, 0) := by
  obtain ⟨h1, h2⟩ := reads_keys
  refine reads_grow (d₀ := .node 676 [keyTree ⟨.null, none⟩]) (fun la hla => ?_) (fun la hla => (h1 none (by simp [directions]) la hla).1)
    (fun x hx la hla => ⟨by rw [keyAdd, comma_next]; decide, ?_⟩)
  · exact (reads_first (cs := []) (key_like (h a List.mem_cons_self) (by decide) hla)).trans (h1 _ (direction_mem _) la hla).1
  · refine Eq.trans ?_ (h1 _ (direction_mem x.direction) la hla).2
    exact reads_part_after (n := 0) (q := (772, 0)) [.node 676 [keyTree ⟨.null, none⟩]] [] (sym ',') h2
      (key_like (h x (List.mem_cons_of_mem _ hx)) (by decide) hla)

theorem order_rules : (∀ la ∈ afterOrder, readsTree nestEff 21 0 (orderTree none) la = some (53, 0) ∧ decideAct 516 la = .reduce 675) ∧
    decideAct 21 (no (kw "ORDER").type) = .shift ((readsTree nestEff 21 0 (lf (kw "ORDER")) 0).getD (0, 0)).1 ∧
    decideAct ((readsTree nestEff 21 0 (lf (kw "ORDER")) 0).getD (0, 0)).1 (no (kw "BY").type) = .shift 253 ∧
    gotoState 21 (kindOf 675) = some 53 ∧
    (isRule 675 3 (kindOf 675) && quiet 675) = true ∧ first (lf (kw "ORDER")) = some 15 := by decide +kernel

theorem order_reads {o : Option (SortKey × List SortKey)} (h : ∀ p, o = some p → ∀ k ∈ p.1 :: p.2, ClearEx k.e) : ∀ la ∈ afterOrder,
    readsTree nestEff 21 0 (orderTree o) la = some (53, 0) := by
  intro la hla
  obtain ⟨r1, r2, r2', r3, r4, -⟩ := order_rules
  cases o with
  | none => exact (r1 la hla).1
  | some p =>
    refine reads_many (cs := [lf (kw "ORDER"), lf (kw "BY"), keyListTree p.1 p.2]) (q := 516) ?_ (r1 la hla).2 r4 r3
    rw [readsAll_cons (reads_leaf r2), readsAll_cons (reads_leaf r2'),
      readsAll_cons (la := la) (cs := []) (keyList_reads (h p rfl) la (List.mem_cons_of_mem _ hla))]
    rfl

theorem order_head (o : Option (SortKey × List SortKey)) {cs : List (Tree SymType)} {la : Nat} (h : headToken cs la ∈ afterOrder) :
    headToken (orderTree o :: cs) la ∈ afterHaving := by
  cases o with
  | none => rw [head_none rfl]; exact List.mem_cons_of_mem _ h
  | some p =>
    have := order_rules.2.2.2.2.2
    rw [head_some (n := 15) (by rw [orderTree, first_node _ _ _ (by rw [this]; exact fun h => nomatch h), this])]
    decide

theorem limit_rules : readsAll nestEff 53 0 [lf (kw "LIMIT")] 0 = some (252, 0) ∧ (252, 1) ∈ sites ∧ (769, 1) ∈ sites ∧ (770, 1) ∈ sites ∧
    first (lf (kw "LIMIT")) = some 17 ∧ first (lf (kw "OFFSET")) = some 18 ∧
    readsAll nestEff 53 0 ([lf (kw "LIMIT"), exprTree .null] ++ [lf (sym ',')]) 0 = some (769, 0) ∧
    readsAll nestEff 53 0 ([lf (kw "LIMIT"), exprTree .null] ++ [lf (kw "OFFSET")]) 0 = some (770, 0) ∧
    ∀ la ∈ afterTable, ∀ l ∈ [none, some (LimitPart.count .null), some (.after .null .null), some (.offset .null .null)],
      readsTree nestEff 53 0 (limitTree l) la = some (251, 0) := by decide +kernel

theorem limit_reads {o : Option LimitPart} (h : ∀ l, o = some l → l.Clear) : ∀ la ∈ afterTable,
    readsTree nestEff 53 0 (limitTree o) la = some (251, 0) := by
  intro la hla
  obtain ⟨h1, s1, s2, s3, -, f2, h2, h3, h4⟩ := limit_rules
  have hf := part_follows _ (part_of_picks (picks_of_end hla))
  rcases o with _ | l
  · exact h4 la hla _ (by simp)
  · have hl := h l rfl
    cases l with
    | count n =>
      refine Eq.trans ?_ (h4 la hla (some (.count .null)) (by simp))
      exact reads_part_after (n := 0) (q := (252, 0)) [] [] (kw "LIMIT") h1 (expr_like hl.1 hl.2 s1 hf)
    | after o n =>
      refine Eq.trans ?_ (h4 la hla (some (.after .null .null)) (by simp))
      refine Eq.trans (reads_part_after (n := 0) (q := (252, 0)) [] [lf (sym ','), exprTree n] (kw "LIMIT") h1
        (expr_like (e := o) hl.1.1 hl.1.2 s1 ?_)) ?_
      · rw [comma_next]; exact part_follows _ (by decide)
      · exact reads_part_after (n := 0) (q := (769, 0)) [lf (kw "LIMIT"), exprTree .null] [] (sym ',') h2 (expr_like hl.2.1 hl.2.2 s2 hf)
    | offset n o =>
      refine Eq.trans ?_ (h4 la hla (some (.offset .null .null)) (by simp))
      refine Eq.trans (reads_part_after (n := 0) (q := (252, 0)) [] [lf (kw "OFFSET"), exprTree o] (kw "LIMIT") h1
        (expr_like (e := n) hl.1.1 hl.1.2 s1 ?_)) ?_
      · rw [head_some f2]; exact part_follows _ (by decide)
      · exact reads_part_after (n := 0) (q := (770, 0)) [lf (kw "LIMIT"), exprTree .null] [] (kw "OFFSET") h3 (expr_like hl.2.1 hl.2.2 s3 hf)

theorem limit_head (o : Option LimitPart) {cs : List (Tree SymType)} {la : Nat} (h : headToken cs la ∈ afterTable) :
    headToken (limitTree o :: cs) la ∈ afterOrder := by
  have := limit_rules.2.2.2.2.1
  have hn : first (lf (kw "LIMIT")) ≠ none := by rw [this]; exact fun h => nomatch h
  rcases o with _ | l
  · rw [head_none rfl]; exact List.mem_cons_of_mem _ h
  · have e : first (limitTree (some l)) = some 17 := by
      cases l <;> · rw [limitTree, first_node _ _ _ hn, this]
    rw [head_some e]
    decide

/-! ### How a query starts -/

/-- The tokens with which something that is selected may start. -/
def pickStarters : List Nat := [57, 58, 59, 65, 66, 67, 68, 55, 52, 72, 97, 270, 278, 277, 276, 274, 275, 272, 273] ++
  [no (sym '+').type, no (sym '-').type, no (sym '~').type, no (sym '!').type]

theorem starts_tokens : no TokenType.string ∈ pickStarters ∧ no .integral ∈ pickStarters ∧ no .float ∈ pickStarters ∧ no .bitLiteral ∈ pickStarters ∧
    no (kw "NULL").type ∈ pickStarters ∧ no (kw "TRUE").type ∈ pickStarters ∧ no (kw "FALSE").type ∈ pickStarters ∧ no .id ∈ pickStarters ∧
    no (sym '(').type ∈ pickStarters ∧ no (kw "NOT").type ∈ pickStarters ∧ no (sym '*').type ∈ pickStarters ∧
    (∀ w ∈ nowWords, no (kw w).type ∈ pickStarters) ∧ ∀ op ∈ [Sign.plus, .minus, .tilde, .bang], no (sym op.char).type ∈ pickStarters := by
  decide +kernel

theorem sign_mem (op : Sign) : op ∈ [Sign.plus, .minus, .tilde, .bang] := by cases op <;> simp

/-- What starts as something does, starts with a token. -/
def StartsWell (ts : List Token) : Prop := ∃ t us, ts = t :: us ∧ no t.type ∈ pickStarters

theorem starts_append {ts us : List Token} (h : StartsWell ts) : StartsWell (ts ++ us) := by
  obtain ⟨t, vs, rfl, h⟩ := h
  exact ⟨t, vs ++ us, rfl, h⟩

theorem ex_starts : ∀ e : Ex, e.Proper → StartsWell e.tokens
  | .string s, _ => ⟨_, _, by rw [Ex.tokens], starts_tokens.1⟩
  | .integer n, _ => ⟨_, _, by rw [Ex.tokens], starts_tokens.2.1⟩
  | .float n, _ => ⟨_, _, by rw [Ex.tokens], starts_tokens.2.2.1⟩
  | .bits b, _ => ⟨_, _, by rw [Ex.tokens], starts_tokens.2.2.2.1⟩
  | .null, _ => ⟨_, _, by rw [Ex.tokens], starts_tokens.2.2.2.2.1⟩
  | .bool true, _ => ⟨_, _, by rw [Ex.tokens]; rfl, starts_tokens.2.2.2.2.2.1⟩
  | .bool false, _ => ⟨_, _, by rw [Ex.tokens]; rfl, starts_tokens.2.2.2.2.2.2.1⟩
  | .now w c, h => ⟨_, _, by rw [Ex.tokens], starts_tokens.2.2.2.2.2.2.2.2.2.2.2.1 w h⟩
  | .column n, _ => ⟨_, _, by rw [Ex.tokens], starts_tokens.2.2.2.2.2.2.2.1⟩
  | .qualified t n, _ => ⟨_, _, by rw [Ex.tokens], starts_tokens.2.2.2.2.2.2.2.1⟩
  | .full s t n, _ => ⟨_, _, by rw [Ex.tokens], starts_tokens.2.2.2.2.2.2.2.1⟩
  | .call f [], _ => ⟨_, _, by rw [Ex.tokens], starts_tokens.2.2.2.2.2.2.2.1⟩
  | .call f (a :: as), _ => ⟨_, _, by rw [Ex.tokens], starts_tokens.2.2.2.2.2.2.2.1⟩
  | .tuple a as, _ => ⟨_, _, by rw [Ex.tokens]; rfl, starts_tokens.2.2.2.2.2.2.2.2.1⟩
  | .cast e t, h => by rw [Ex.tokens]; exact starts_append (ex_starts e h.2.2)
  | .collate e n, h => by rw [Ex.tokens]; exact starts_append (ex_starts e h.2)
  | .sign op e, h => ⟨_, _, by rw [Ex.tokens], starts_tokens.2.2.2.2.2.2.2.2.2.2.2.2 op (sign_mem op)⟩
  | .arith op l r, h => by rw [Ex.tokens]; exact starts_append (ex_starts l h.2.1)
  | .compare op l r, h => by rw [Ex.tokens]; exact starts_append (ex_starts l h.2.1)
  | .like neg l r, h => by rw [Ex.tokens]; exact starts_append (ex_starts l h.2.1)
  | .regexp neg l r, h => by rw [Ex.tokens]; exact starts_append (ex_starts l h.2.1)
  | .among neg l a as, h => by rw [Ex.tokens]; exact starts_append (ex_starts l h.2.1)
  | .between neg l a b, h => by rw [Ex.tokens]; exact starts_append (ex_starts l h.2.1)
  | .is e neg w, h => by rw [Ex.tokens]; exact starts_append (ex_starts e h.2)
  | .not e, h => ⟨_, _, by rw [Ex.tokens], starts_tokens.2.2.2.2.2.2.2.2.2.1⟩
  | .and l r, h => by rw [Ex.tokens]; exact starts_append (ex_starts l h.2.1)
  | .or l r, h => by rw [Ex.tokens]; exact starts_append (ex_starts l h.2.1)

theorem picked_starts {x : Picked} (h : x.Clear) : StartsWell x.tokens := by
  cases x with
  | all => exact ⟨_, _, rfl, starts_tokens.2.2.2.2.2.2.2.2.2.2.1⟩
  | allOf t => exact ⟨_, _, rfl, starts_tokens.2.2.2.2.2.2.2.1⟩
  | value e a => exact starts_append (ex_starts e h.1.1)

theorem first_of_said {d : Tree SymType} {t : Token} {ts : List Token} (h : said d = (t :: ts).map seenAs) : first d = some (no t.type) := by
  unfold said noted at h
  unfold first
  cases hd : d.tokens with
  | nil => rw [hd] at h; cases h
  | cons p ps =>
    rw [hd] at h
    simp only [List.map_cons, List.cons.injEq] at h
    have h1 := congrArg Prod.fst h.1
    simp only [seenAs] at h1
    simp only [List.head?_cons, Option.map_some, no]
    rw [← h1]
    simp

theorem pickedList_head {a : Picked} {as : List Picked} (h : a.Clear) (cs : List (Tree SymType)) (la : Nat) :
    headToken (pickedListTree a as :: cs) la ∈ pickStarters := by
  obtain ⟨t, us, h1, h2⟩ := picked_starts h
  have h3 : first (pickedListTree a as) = some (no t.type) := by
    refine first_of_said (ts := us ++ as.flatMap fun x => sym ',' :: x.tokens) ?_
    rw [said_pickedList, listed, h1]
    rfl
  rw [head_some h3]
  exact h2

/-- How the start of a query is read. -/
theorem start_reads : ∀ b, ∀ la ∈ pickStarters, readsAll viewEff 973 0 (selectStart b) la = some (783, 0) := by decide +kernel

/-! ### `CREATE VIEW` -/

theorem readsAll_join {s : Int} {m : Nat} (xs ys : List (Tree SymType)) (la : Nat) :
    readsAll viewEff s m (xs ++ ys) la =
      (readsAll viewEff s m xs (headToken ys la)).bind fun q => readsAll viewEff q.1 q.2 ys la := by
  induction xs generalizing s m with
  | nil => rfl
  | cons x xs ih =>
    have hh : headToken (xs ++ ys) la = headToken xs (headToken ys la) := by
      unfold headToken
      rw [tokensRead_append]
      cases tokensRead xs <;> rfl
    rw [List.cons_append, readsAll, readsAll, hh]
    cases readsTree viewEff s m x (headToken xs (headToken ys la)) with
    | none => rfl
    | some q => exact ih

theorem view_node {s q s' a : Int} {m m' m'' r la : Nat} {cs : List (Tree SymType)}
    (h : readsAll viewEff s m cs la = some (q, m')) (hd : decideAct q la = .reduce r) (hr : isRule r cs.length a = true)
    (hg : gotoState s a = some s') (he : viewEff r m' = some m'') :
    readsTree viewEff s m (.node r cs) la = some (s', m'') := by
  rw [isRule, Bool.and_eq_true, decide_eq_true_eq, decide_eq_true_eq] at hr
  rw [readsTree, h]
  simp only [hd, hr.1, and_self, if_true, hr.2, hg, he]

theorem select_ends : (∀ la ∈ afterHaving, decideAct 1527 la = .reduce 26) ∧ isRule 26 10 (kindOf 26) = true ∧
    gotoState 973 (kindOf 26) = some 21 ∧ viewEff 26 0 = some 0 ∧
    (∀ la ∈ afterTable, readsTree nestEff 251 0 (.node 686 [] : Tree SymType) la = some (511, 0) ∧ decideAct 511 la = .reduce 22 ∧
      decideAct 1165 la = .reduce 64 ∧ decideAct 9 la = .reduce 10) ∧
    isRule 22 4 (kindOf 22) = true ∧ gotoState 973 (kindOf 22) = some 1165 ∧ viewEff 22 0 = some 0 ∧
    isRule 64 6 (kindOf 64) = true ∧ gotoState 0 (kindOf 64) = some 9 ∧ viewEff 64 0 = some 0 ∧
    isRule 10 1 (kindOf 10) = true ∧ gotoState 0 (kindOf 10) = some 2 ∧ viewEff 10 0 = some 0 := by decide +kernel

theorem base_reads {q : Query} (h : q.Clear) : ∀ la ∈ afterHaving, readsTree viewEff 973 0 (baseTree q) la = some (21, 0) := by
  intro la hla
  obtain ⟨h1, h2, h3, h4, h5, -⟩ := h
  obtain ⟨e1, e2, e3, e4, -⟩ := select_ends
  refine view_node (q := 1527) (m' := 0) (a := kindOf 26) ?_ (e1 la hla) e2 e3 e4
  rw [readsAll_join, start_reads _ _ (pickedList_head (h1 _ List.mem_cons_self) _ _), Option.bind_some]
  refine readsAll_view _ ?_
  have t1 := having_head q.having (cs := []) hla
  have t2 := group_head q.groups t1
  have t3 := selectWhere_head q.condition t2
  have t4 := from_head q.sources t3
  rw [selectEnd]
  rw [readsAll_cons (pickedList_reads h1 _ t4), readsAll_cons (from_reads h2 _ t3), readsAll_cons (selectWhere_reads h3 _ t2),
    readsAll_cons (group_reads h4 _ t1), readsAll_cons (la := la) (cs := []) (having_reads h5 la hla)]
  rfl

theorem query_reads {q : Query} (h : q.Clear) : ∀ la ∈ afterTable, readsTree viewEff 973 0 (queryTree q) la = some (1165, 0) := by
  intro la hla
  obtain ⟨-, -, -, -, e5, e6, e7, e8, -⟩ := select_ends
  refine view_node (q := 511) (m' := 0) (a := kindOf 22) ?_ (e5 la hla).2.1 e6 e7 e8
  have t0 : headToken [(.node 686 [] : Tree SymType)] la ∈ afterTable := by rw [head_none rfl]; exact hla
  have t1 := limit_head q.limit t0
  have t2 := order_head q.order t1
  rw [readsAll, base_reads h _ t2]
  refine readsAll_view _ ?_
  obtain ⟨-, -, -, -, -, h6, h7⟩ := h
  rw [readsAll_cons (order_reads h6 _ t1), readsAll_cons (limit_reads h7 _ t0), readsAll_cons (la := la) (cs := []) (e5 la hla).1]
  rfl

theorem view_starts : ∀ b, ∀ t ∈ tableRefShapes,
    readsAll nestEff 0 0 [lf (kw "CREATE"), orReplaceTree b, lf (kw "VIEW"), tableRefTree t, lf (kw "AS")] 0 = some (973, 0) := by
  decide +kernel

theorem view_start (b : Bool) (t : TableRef) (la : Nat) :
    readsAll nestEff 0 0 [lf (kw "CREATE"), orReplaceTree b, lf (kw "VIEW"), tableRefTree t, lf (kw "AS")] la = some (973, 0) := by
  refine Eq.trans (reads_last_leaf [lf (kw "CREATE"), orReplaceTree b, lf (kw "VIEW"), tableRefTree t] (kw "AS") la 0) ?_
  refine Eq.trans ?_ (view_starts b _ (tableRefShape_mem t))
  refine readsAll_alike ?_ 0
  simp only [blankAll, List.cons_append, List.nil_append, blank_tableRef t]

theorem view_reads {v : NewView} (h : v.query.Clear) : ∀ la ∈ afterTable, readsTree viewEff 0 0 (viewTree v) la = some (2, 0) := by
  intro la hla
  obtain ⟨-, -, -, -, e5, -, -, -, e9, e10, e11, e12, e13, e14⟩ := select_ends
  refine view_node (q := 9) (m' := 0) (a := kindOf 10) (cs := [_]) ?_ (e5 la hla).2.2.2 e12 e13 e14
  rw [readsAll, show headToken ([] : List (Tree SymType)) la = la from rfl,
    view_node (cs := [lf (kw "CREATE"), orReplaceTree v.orReplace, lf (kw "VIEW"), tableRefTree v.name, lf (kw "AS"), queryTree v.query]) (q := 1165) (m' := 0)
      (a := kindOf 64) (s' := 9) (m'' := 0) ?_ (e5 la hla).2.2.1 e9 e10 e11]
  · rfl
  · refine Eq.trans (readsAll_join [lf (kw "CREATE"), orReplaceTree v.orReplace, lf (kw "VIEW"), tableRefTree v.name, lf (kw "AS")]
      [queryTree v.query] la) ?_
    rw [readsAll_view _ (view_start _ _ _), Option.bind_some, readsAll, show headToken ([] : List (Tree SymType)) la = la from rfl,
      query_reads h la hla]
    rfl

/-- A `CREATE VIEW`, with or without a semicolon at the end, means what it says. -/
theorem parse_view {mode : Mode} {sql : Str} {v : NewView} (h : v.query.Clear) (b : Bool)
    (ht : Layout mode sql (v.tokens ++ given (b = true) [sym ';'])) : parseStrictDDLWithMode mode sql = .ok (.ddl v.meaning) := by
  have hs := reads_semi b
  have hr : ∃ q m, readsAll viewEff 0 0 [viewTree v, semiTree b] 1 = some (q, m) ∧ decideAct q 1 = .reduce 1 := by
    rw [readsAll, view_reads h _ (semi_head b)]
    cases hq : readsAll nestEff 2 0 [semiTree b] 1 with
    | none => rw [hq] at hs; cases hs
    | some q =>
      rw [hq] at hs
      exact ⟨q.1, q.2, readsAll_view _ hq, of_decide_eq_true hs⟩
  obtain ⟨q, m, hr, hq⟩ := hr
  obtain ⟨-, -, -, hn⟩ := layout_says ht
  have hd : noted (tokensRead [viewTree v, semiTree b]) = (v.tokens ++ given (b = true) [sym ';']).map seenAs := by
    show saidAll [viewTree v, semiTree b] = _
    rw [saidAll_cons, saidAll_cons, saidAll_nil, said_view h, said_semi, List.map_append, List.append_nil]
  have hf : fineAll valueOf asks [viewTree v, semiTree b] := ⟨fine_view h, fine_of_tame _ (by cases b <;> rfl), trivial⟩
  rw [parse_of_viewReads ht (fun t ht => (hn t ht).2) hd hr hq hf, value_view h]
  rfl

end Sqldef.Sql
