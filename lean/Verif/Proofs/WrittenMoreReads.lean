import Verif.Proofs.WrittenMore

/-! The tables read `CREATE INDEX`, `ALTER TABLE ... ADD` and `CREATE POLICY`. -/
namespace Sqldef.Sql
open Spec Yy Written

/-- Reading on after a token. -/
theorem reads_on {s : Int} {m n la : Nat} {q : Int × Nat} (xs ys : List (Tree SymType)) (t : Token)
    (h : readsAll nestEff s m (xs ++ [lf t]) n = some q) :
    readsAll nestEff s m (xs ++ lf t :: ys) la = readsAll nestEff q.1 q.2 ys la := by
  rw [show xs ++ lf t :: ys = (xs ++ [lf t]) ++ ys by simp, readsAll_append, reads_last_leaf xs t _ n, h]
  rfl

/-- Reading a token and going on. -/
theorem reads_token {s n : Int} {m la : Nat} {t : Token} {cs : List (Tree SymType)} (h : decideAct s (no t.type) = .shift n) :
    readsAll nestEff s m (lf t :: cs) la = readsAll nestEff n m cs la := readsAll_cons (reads_leaf h)

/-! ### The end of a statement -/

/-- A statement of one kind, up to its end. -/
def kindOf (r : Nat) : Int := (yyR1.at r).getD 0

/-- The rules of the statements, with their lengths and the rules that make commands of them. -/
def sentenceRules : List (Nat × Nat × Nat) := [(61, 14, 10), (62, 13, 10), (63, 14, 10), (336, 11, 11), (337, 13, 11), (338, 7, 11), (68, 11, 10)]

theorem sentence_ends : ∀ p ∈ sentenceRules, isRule p.1 p.2.1 (kindOf p.1) = true ∧ nestEff p.1 0 = some 0 ∧
    isRule p.2.2 1 (kindOf 10) = true ∧ nestEff p.2.2 0 = some 0 ∧ gotoState 0 (kindOf 10) = some 2 ∧
    (gotoState 0 (kindOf p.1)).any fun s => afterTable.all fun la => decide (decideAct s la = .reduce p.2.2) := by
  decide +kernel

theorem command_reads {r n k : Nat} (hr : (r, n, k) ∈ sentenceRules) {cs : List (Tree SymType)} {q : Int} (hl : cs.length = n)
    (hd : ∀ la ∈ afterTable, decideAct q la = .reduce r) {la : Nat} (hla : la ∈ afterTable)
    (h : readsAll nestEff 0 0 cs la = some (q, 0)) :
    readsTree nestEff 0 0 (.node k [.node r cs]) la = some (2, 0) := by
  obtain ⟨h1, h2, h3, h4, h5, h6⟩ := sentence_ends _ hr
  cases hg : gotoState 0 (kindOf r) with
  | none => rw [hg] at h6; cases h6
  | some s =>
    rw [hg, Option.any_some, List.all_eq_true] at h6
    have h7 := of_decide_eq_true (h6 la hla)
    refine reads_node (q := s) (m' := 0) ?_ h7 h3 h5 h4
    rw [readsAll_cons (q := s) (m' := 0)]
    · rfl
    · exact reads_node h (hd la hla) (by rw [hl]; exact h1) hg h2

theorem reads_semi : ∀ b, (readsAll nestEff 2 0 [semiTree b] 1).any (fun q => decide (decideAct q.1 1 = .reduce 1)) = true := by
  decide +kernel

theorem sentence_reads {d : Tree SymType} (h : ∀ la ∈ afterTable, readsTree nestEff 0 0 d la = some (2, 0)) (b : Bool) :
    ∃ q m, readsAll nestEff 0 0 [d, semiTree b] 1 = some (q, m) ∧ decideAct q 1 = .reduce 1 := by
  have hs := reads_semi b
  rw [readsAll_cons (h _ (semi_head b))]
  cases hq : readsAll nestEff 2 0 [semiTree b] 1 with
  | none => rw [hq] at hs; cases hs
  | some q =>
    rw [hq] at hs
    exact ⟨q.1, q.2, rfl, of_decide_eq_true hs⟩

/-! ### `CREATE INDEX` -/

theorem head_none {d : Tree SymType} (h : first d = none) (cs : List (Tree SymType)) (la : Nat) :
    headToken (d :: cs) la = headToken cs la := by rw [headToken_cons, h]; rfl
theorem head_some {d : Tree SymType} {n : Nat} (h : first d = some n) (cs : List (Tree SymType)) (la : Nat) :
    headToken (d :: cs) la = n := by rw [headToken_cons, h]; rfl

theorem first_with : first (lf (kw "WITH")) = some 291 := by decide +kernel
theorem with_may_follow : 291 ∈ afterIxOpt := by decide +kernel
theorem follow_all {n : Nat} (h : n ∈ afterIxOpts) : n ∈ afterIxOpt := List.mem_append_right _ h

theorem opts_head {o : IndexOpts} (ho : ∀ x ∈ o.all, x.Known) {cs : List (Tree SymType)} {la : Nat}
    (h : headToken cs la ∈ afterIxOpts) : headToken (ixOptsTree o :: cs) la ∈ afterIxOpt := by
  have hk : ∀ x : IndexOpt, x.Known → ∃ n ∈ afterIxOpt, first (ixOptTree x) = some n := by
    intro x hx
    have h1 := head_ixOpt hx 0
    have h2 : (first (ixOptTree x)).isSome = true := by
      rcases x with _ | ⟨_ | _, _⟩ | _ | _ | _ | ⟨w, b⟩ <;> rfl
    obtain ⟨n, hn⟩ := Option.isSome_iff_exists.mp h2
    rw [head_some hn] at h1
    exact ⟨n, h1, hn⟩
  cases o with
  | none => rw [head_none rfl]; exact follow_all h
  | plain o os =>
    obtain ⟨n, hn, hf⟩ := hk o (ho o List.mem_cons_self)
    have e : first (.node 270 [ixOptTree o]) = some n := by
      rw [first_node _ _ _ (by rw [hf]; exact fun h => nomatch h), hf]
    have e2 : first (grow ixOptAdd (.node 270 [ixOptTree o]) os) = some n := by
      rw [first_grow _ _ (by rw [e]; exact fun h => nomatch h), e]
    have e3 : first (ixOptsTree (.plain o os)) = some n := by
      rw [ixOptsTree, first_node _ _ _ (by rw [e2]; exact fun h => nomatch h), e2]
    rw [head_some e3]
    exact hn
  | list o os =>
    have e3 : first (ixOptsTree (.list o os)) = some 291 := by
      rw [ixOptsTree, first_node _ _ _ (by rw [first_with]; exact fun h => nomatch h), first_with]
    rw [head_some e3]
    exact with_may_follow

/-- The tokens that may follow the columns of `INCLUDE`. -/
def afterIncluded : List Nat := 12 :: afterIxOpt

theorem where_head {c : Option Ex} {cs : List (Tree SymType)} {la : Nat} (h : headToken cs la ∈ afterIxOpt) :
    headToken (whereTree c :: cs) la ∈ afterIncluded := by
  cases c with
  | none => rw [head_none rfl]; exact List.mem_cons_of_mem _ h
  | some e =>
    have h1 : first (lf (kw "WHERE")) = some 12 := by decide +kernel
    have h2 : first (whereTree (some e)) = some 12 := by
      rw [whereTree, first_node _ _ _ (by rw [h1]; exact fun h => nomatch h), h1]
    rw [head_some h2]
    exact List.mem_cons_self

/-- The states in which a condition is read, and the states after it. -/
def whereStates : List (Int × Int) := [(1621, 1657), (1659, 1677)]

theorem reads_wheres : ∀ p ∈ whereStates, readsAll nestEff p.1 0 ([] ++ [lf (kw "WHERE")]) 0 = some (1069, 0) ∧ ∀ la ∈ afterIxOpt,
    readsTree nestEff p.1 0 (whereTree none) la = some (p.2, 0) ∧
    readsTree nestEff p.1 0 (whereTree (some .null)) la = some (p.2, 0) := by
  decide +kernel

theorem ixOpt_follows : ∀ la ∈ afterIxOpt, Follows 1 la := by
  have h : ∀ la ∈ afterIxOpt, (stops.any fun p => p.1 == la && decide (p.2 ≤ 1)) = true := by decide +kernel
  intro la hla
  obtain ⟨p, hp, h⟩ := List.any_eq_true.mp (h la hla)
  rw [Bool.and_eq_true, beq_iff_eq, decide_eq_true_eq] at h
  exact ⟨p, hp, h⟩

theorem expr_like {e : Ex} (h : e.Proper) (hd : e.depth < 200) {s : Int} (hs : (s, 1) ∈ sites) {la : Nat} (hf : Follows 1 la) :
    readsTree nestEff s 0 (exprTree e) la = readsTree nestEff s 0 (exprTree .null) la := by
  rw [expr_reads h hs hf (by omega), expr_reads (e := .null) trivial hs hf (by decide)]

theorem where_reads {p : Int × Int} (hp : p ∈ whereStates) {c : Option Ex} (hc : ClearCondition c) : ∀ la ∈ afterIxOpt,
    readsTree nestEff p.1 0 (whereTree c) la = some (p.2, 0) := by
  intro la hla
  obtain ⟨h1, h2⟩ := reads_wheres p hp
  cases c with
  | none => exact (h2 la hla).1
  | some e =>
    refine Eq.trans ?_ (h2 la hla).2
    exact reads_part_after (n := 0) (q := (1069, 0)) [] [] (kw "WHERE") h1
      (expr_like (hc e rfl).1 (hc e rfl).2 (by decide) (ixOpt_follows la hla))

theorem names_1658 : ∃ t, readsNames 1658 t := by
  have h : ∀ la ∈ [53, 54], readsTree nestEff 1658 0 (columnListTree [] []) la =
      readsTree nestEff 1658 0 (columnListTree [] []) 53 ∧
    readsTree nestEff 1658 0 (.node (nameAdd []).1 (columnListTree [] [] :: (nameAdd []).2)) la =
      readsTree nestEff 1658 0 (columnListTree [] []) 53 ∧ (readsTree nestEff 1658 0 (columnListTree [] []) 53).isSome = true := by
    decide +kernel
  obtain ⟨t, ht⟩ := Option.isSome_iff_exists.mp (h 53 (by decide)).2.2
  refine ⟨t, fun la hla => ?_⟩
  obtain ⟨h1, h2, _⟩ := h la hla
  rw [h1, h2, ht]
  exact ⟨rfl, rfl⟩

theorem reads_includes : readsAll nestEff 1569 0 ([lf (kw "INCLUDE")] ++ [lf (sym '(')]) 0 = some (1658, 0) ∧ ∀ la ∈ afterIncluded,
    readsTree nestEff 1569 0 (includedTree none) la = some (1621, 0) ∧
    readsTree nestEff 1569 0 (includedTree (some ([], []))) la = some (1621, 0) := by
  decide +kernel

theorem included_reads (i : Option (Str × List Str)) : ∀ la ∈ afterIncluded,
    readsTree nestEff 1569 0 (includedTree i) la = some (1621, 0) := by
  intro la hla
  obtain ⟨h1, h2⟩ := reads_includes
  obtain ⟨t, ht⟩ := names_1658
  cases i with
  | none => exact (h2 la hla).1
  | some p =>
    refine Eq.trans ?_ (h2 la hla).2
    refine reads_part_after (n := 0) (q := (1658, 0)) [lf (kw "INCLUDE")] [lf (sym ')')] (sym '(') h1 ?_
    rw [close_head, columnList_reads ht _ _ 54 (by decide), columnList_reads ht _ _ 54 (by decide)]

theorem reads_indexStarts : ∀ u, ∀ c ∈ zones, ∀ t ∈ tableRefShapes,
    readsAll nestEff 0 0 ((indexStart u c [] ++ [lf (kw "ON"), tableRefTree t]) ++ [lf (sym '(')]) 0 = some (1434, 0) ∧
    readsAll nestEff 0 0 ((indexStart u c [] ++ [lf (kw "USING"), sqlId [], lf (kw "ON"), tableRefTree t]) ++ [lf (sym '(')]) 0 =
      some (1571, 0) ∧
    readsAll nestEff 0 0 ((indexStart u c [] ++ [lf (kw "ON"), tableRefTree t, lf (kw "USING"), sqlId []]) ++ [lf (sym '(')]) 0 =
      some (1570, 0) := by
  decide +kernel

theorem index_closes : decideAct 1512 (no (sym ')').type) = .shift 1569 ∧ decideAct 1624 (no (sym ')').type) = .shift 1660 ∧
    decideAct 1623 (no (sym ')').type) = .shift 1659 := by decide +kernel

theorem reads_partitions : ∀ p ∈ partitionShapes, ∀ la ∈ afterTable, headToken [partitionTree p] la ∈ afterIxOpts ∧
    readsTree nestEff 1675 0 (partitionTree p) la = some (1687, 0) := by decide +kernel

theorem index_ends : ∀ la ∈ afterTable, decideAct 1687 la = .reduce 61 ∧ decideAct 1678 la = .reduce 62 ∧
    decideAct 1689 la = .reduce 63 := by decide +kernel

theorem partition_head (p : Partition) {la : Nat} (h : la ∈ afterTable) : headToken [partitionTree p] la ∈ afterIxOpts := by
  rw [headToken_cons, first_blank (blank_partition p), ← headToken_cons]
  exact (reads_partitions _ (partitionShape_mem p) la h).1
theorem partition_reads (p : Partition) {la : Nat} (h : la ∈ afterTable) :
    readsTree nestEff 1675 0 (partitionTree p) la = some (1687, 0) := by
  rw [reads_alike (blank_partition p)]
  exact (reads_partitions _ (partitionShape_mem p) la h).2

theorem ends_follow {la : Nat} (h : la ∈ afterTable) : la ∈ afterIxOpts := by
  revert la
  decide

theorem newIndex_reads {i : NewIndex} (h : i.form.Clear) : ∀ la ∈ afterTable,
    readsTree nestEff 0 0 (.node 10 [newIndexTree i]) la = some (2, 0) := by
  intro la hla
  obtain ⟨u, k, name, t, c, cs, form⟩ := i
  obtain ⟨s1, s2, s3⟩ := reads_indexStarts u k (zone_mem k) _ (tableRefShape_mem t)
  obtain ⟨c1, c2, c3⟩ := index_closes
  cases form with
  | plain n e o p =>
    refine command_reads (r := 61) (n := 14) (q := 1687) (by decide) rfl (fun la hla => (index_ends la hla).1) hla ?_
    have hp := partition_head p hla
    have ho := opts_head (cs := [partitionTree p]) h.2 hp
    have hw := where_head (c := e) ho
    have eb : blankAll ((indexStart u k name ++ [lf (kw "ON"), tableRefTree t]) ++ [lf (sym '(')]) =
        blankAll ((indexStart u k [] ++ [lf (kw "ON"), tableRefTree (tableRefShape t)]) ++ [lf (sym '(')]) := by
      simp only [indexStart, List.cons_append, List.nil_append, blankAll, blank_tableRef t]
      rfl
    refine (reads_on (n := 0) (q := (1434, 0)) (indexStart u k name ++ [lf (kw "ON"), tableRefTree t]) _ (sym '(')
      ((readsAll_alike eb _).trans s1)).trans ?_
    refine (readsAll_cons (q := 1512) (m' := 0) ?_).trans ?_
    · rw [close_head]
      exact indexCols_reads (p := (1434, 1512)) (by decide) _ _ 54 (by decide)
    refine (reads_token c1).trans ?_
    refine (readsAll_cons (q := 1621) (m' := 0) (included_reads n _ hw)).trans ?_
    refine (readsAll_cons (q := 1657) (m' := 0) (where_reads (p := (1621, 1657)) (by decide) h.1 _ ho)).trans ?_
    refine (readsAll_cons (q := 1675) (m' := 0) (ixOpts_reads (p := (1657, 1675)) (by decide) h.2 _ hp)).trans ?_
    exact readsAll_cons (q := 1687) (m' := 0) (partition_reads p hla)
  | methodFirst m o =>
    refine command_reads (r := 62) (n := 13) (q := 1678) (by decide) rfl (fun la hla => (index_ends la hla).2.1) hla ?_
    have eb : blankAll ((indexStart u k name ++ [lf (kw "USING"), sqlId m, lf (kw "ON"), tableRefTree t]) ++ [lf (sym '(')]) =
        blankAll ((indexStart u k [] ++ [lf (kw "USING"), sqlId [], lf (kw "ON"), tableRefTree (tableRefShape t)]) ++ [lf (sym '(')]) := by
      simp only [indexStart, List.cons_append, List.nil_append, blankAll, blank_tableRef t]
      rfl
    refine (reads_on (n := 0) (q := (1571, 0)) (indexStart u k name ++ [lf (kw "USING"), sqlId m, lf (kw "ON"), tableRefTree t]) _
      (sym '(') ((readsAll_alike eb _).trans s2)).trans ?_
    refine (readsAll_cons (q := 1624) (m' := 0) ?_).trans ?_
    · rw [close_head]
      exact indexCols_reads (p := (1571, 1624)) (by decide) _ _ 54 (by decide)
    refine (reads_token c2).trans ?_
    exact readsAll_cons (q := 1678) (m' := 0) (ixOpts_reads (p := (1660, 1678)) (by decide) h la (ends_follow hla))
  | methodLast m e o =>
    refine command_reads (r := 63) (n := 14) (q := 1689) (by decide) rfl (fun la hla => (index_ends la hla).2.2) hla ?_
    have hp : headToken ([] : List (Tree SymType)) la ∈ afterIxOpts := ends_follow hla
    have ho := opts_head (cs := []) h.2 hp
    have eb : blankAll ((indexStart u k name ++ [lf (kw "ON"), tableRefTree t, lf (kw "USING"), sqlId m]) ++ [lf (sym '(')]) =
        blankAll ((indexStart u k [] ++ [lf (kw "ON"), tableRefTree (tableRefShape t), lf (kw "USING"), sqlId []]) ++ [lf (sym '(')]) := by
      simp only [indexStart, List.cons_append, List.nil_append, blankAll, blank_tableRef t]
      rfl
    refine (reads_on (n := 0) (q := (1570, 0)) (indexStart u k name ++ [lf (kw "ON"), tableRefTree t, lf (kw "USING"), sqlId m]) _
      (sym '(') ((readsAll_alike eb _).trans s3)).trans ?_
    refine (readsAll_cons (q := 1623) (m' := 0) ?_).trans ?_
    · rw [close_head]
      exact indexCols_reads (p := (1570, 1623)) (by decide) _ _ 54 (by decide)
    refine (reads_token c3).trans ?_
    refine (readsAll_cons (q := 1677) (m' := 0) (where_reads (p := (1659, 1677)) (by decide) h.1 _ ho)).trans ?_
    exact readsAll_cons (q := 1689) (m' := 0) (ixOpts_reads (p := (1677, 1689)) (by decide) h.2 la (ends_follow hla))

/-! ### `ALTER TABLE ... ADD` -/

def alterOnly (g : Bool) (t : TableRef) : List (Tree SymType) :=
  [lf (kw "ALTER"), ignoreTree g, lf (kw "TABLE"), lf (kw "ONLY"), tableRefTree t]

theorem reads_alters : ∀ g, ∀ t ∈ tableRefShapes,
    (∀ u i, readsAll nestEff 0 0 ([lf (kw "ALTER"), ignoreTree g, lf (kw "TABLE"), tableRefTree t, lf (kw "ADD"), uniqueTree u,
      alterWordTree i, sqlId []] ++ [lf (sym '(')]) 0 = some (1523, 0)) ∧
    readsAll nestEff 0 0 (alterOnly g t ++ [lf (kw "ADD")]) 0 = some (1204, 0) ∧
    readsAll nestEff 0 0 ((alterOnly g t ++ [lf (kw "ADD"), lf (kw "CONSTRAINT"), sqlId [], lf (kw "PRIMARY"), lf (kw "KEY")]) ++
      [lf (sym '(')]) 0 = some (1635, 0) := by
  decide +kernel

theorem alter_closes : (∃ n, decideAct 1577 (no (sym ')').type) = .shift n ∧ ∀ la ∈ afterTable, decideAct n la = .reduce 336) ∧
    (∃ n, decideAct 1665 (no (sym ')').type) = .shift n ∧ ∀ la ∈ afterTable, decideAct n la = .reduce 337) ∧
    ∀ la ∈ afterTable, decideAct 1350 la = .reduce 338 := by
  have h : ∀ p ∈ [((1577 : Int), 336), (1665, 337)], (match decideAct p.1 (no (sym ')').type) with
      | .shift n => afterTable.all fun la => decide (decideAct n la = .reduce p.2)
      | _ => false) = true := by decide +kernel
  have key : ∀ p ∈ [((1577 : Int), 336), (1665, 337)], ∃ n, decideAct p.1 (no (sym ')').type) = .shift n ∧
      ∀ la ∈ afterTable, decideAct n la = .reduce p.2 := by
    intro p hp
    have h := h p hp
    cases hd : decideAct p.1 (no (sym ')').type) with
    | shift n =>
      rw [hd] at h
      exact ⟨n, rfl, fun la hla => of_decide_eq_true (List.all_eq_true.mp h la hla)⟩
    | _ => rw [hd] at h; cases h
  exact ⟨key (1577, 336) (by decide), key (1665, 337) (by decide), by decide +kernel⟩

/-- The tokens that may follow the columns of a foreign key that is added: `ON`, `NOT` and the end. -/
def afterAdded : List Nat := [50, 72, 1, 313]

theorem reads_addedBases : ∀ c ∈ lengthShapes, ∀ i ∈ lengthShapes,
    readsAll nestEff 1204 0 ([lf (kw "CONSTRAINT"), sqlIdOpt c, lf (kw "FOREIGN"), lf (kw "KEY"), sqlIdOpt i] ++ [lf (sym '(')]) 0 =
      some (1561, 0) ∧
    ∀ t ∈ tableRefShapes,
      readsAll nestEff 1204 0 ([lf (kw "CONSTRAINT"), sqlIdOpt c, lf (kw "FOREIGN"), lf (kw "KEY"), sqlIdOpt i, lf (sym '('),
        idListTree [] [], lf (sym ')'), lf (kw "REFERENCES"), tableRefTree t] ++ [lf (sym '(')]) 0 = some (1692, 0) ∧
      ∀ la ∈ afterAdded, readsTree nestEff 1204 0 (fkBaseTree (someFk c i t)) la =
        readsTree nestEff 1204 0 (fkBaseTree (someFk none none { name := [] })) la := by
  decide +kernel

theorem addedBase_reads (f : Fk) : ∀ la ∈ afterAdded, readsTree nestEff 1204 0 (fkBaseTree f) la =
    readsTree nestEff 1204 0 (fkBaseTree (someFk none none { name := [] })) la := by
  intro la hla
  obtain ⟨h1, h2⟩ := reads_addedBases _ (lengthShape_mem f.constraint) _ (lengthShape_mem f.index)
  obtain ⟨h2, h3⟩ := h2 _ (tableRefShape_mem f.table)
  have e : blank (fkBaseTree f) = blank (.node 311 [lf (kw "CONSTRAINT"), sqlIdOpt (lengthShape f.constraint), lf (kw "FOREIGN"),
      lf (kw "KEY"), sqlIdOpt (lengthShape f.index), lf (sym '('), idListTree f.first f.rest, lf (sym ')'), lf (kw "REFERENCES"),
      tableRefTree (tableRefShape f.table), lf (sym '('), idListTree f.refFirst f.refRest, lf (sym ')')]) := by
    simp only [fkBaseTree, blank, blankAll, blank_sqlIdOpt f.constraint, blank_sqlIdOpt f.index, blank_tableRef f.table]
  rw [reads_alike e, ← h3 la hla]
  refine Eq.trans (b := readsTree nestEff 1204 0 (.node 311 [lf (kw "CONSTRAINT"), sqlIdOpt (lengthShape f.constraint),
      lf (kw "FOREIGN"), lf (kw "KEY"), sqlIdOpt (lengthShape f.index), lf (sym '('), idListTree [] [], lf (sym ')'),
      lf (kw "REFERENCES"), tableRefTree (tableRefShape f.table), lf (sym '('), idListTree f.refFirst f.refRest,
      lf (sym ')')]) la) ?_ ?_
  · refine reads_part_after (n := 0) (q := (1561, 0)) [lf (kw "CONSTRAINT"), sqlIdOpt (lengthShape f.constraint),
      lf (kw "FOREIGN"), lf (kw "KEY"), sqlIdOpt (lengthShape f.index)] [lf (sym ')'), lf (kw "REFERENCES"),
      tableRefTree (tableRefShape f.table), lf (sym '('), idListTree f.refFirst f.refRest, lf (sym ')')] (sym '(') h1 ?_
    rw [close_head]
    exact (idList_reads (p := (1561, 1608)) (by decide) _ _ 54 (by decide)).trans
      (idList_reads (p := (1561, 1608)) (by decide) _ _ 54 (by decide)).symm
  · refine reads_part_after (n := 0) (q := (1692, 0)) [lf (kw "CONSTRAINT"), sqlIdOpt (lengthShape f.constraint),
      lf (kw "FOREIGN"), lf (kw "KEY"), sqlIdOpt (lengthShape f.index), lf (sym '('), idListTree [] [], lf (sym ')'),
      lf (kw "REFERENCES"), tableRefTree (tableRefShape f.table)] [lf (sym ')')] (sym '(') h2 ?_
    rw [close_head]
    exact (idList_reads (p := (1692, 1696)) (by decide) _ _ 54 (by decide)).trans
      (idList_reads (p := (1692, 1696)) (by decide) _ _ 54 (by decide)).symm

theorem reads_addedShapes : ∀ a ∈ refActionsList, ∀ n, ∀ la ∈ afterTable, headToken (actionsAdd n a).2 la ∈ afterAdded ∧
    readsTree nestEff 1204 0 (.node (actionsAdd n a).1 (fkBaseTree (someFk none none { name := [] }) :: (actionsAdd n a).2)) la =
      some (1350, 0) := by
  decide +kernel

theorem addedFk_reads (f : Fk) : ∀ la ∈ afterTable, readsTree nestEff 1204 0 (fkTree f) la = some (1350, 0) := by
  intro la hla
  obtain ⟨h1, h2⟩ := reads_addedShapes _ (refActions_mem f.actions) f.notForReplication la hla
  exact (reads_first (addedBase_reads f _ h1)).trans h2

theorem alter_reads (a : Alter) : ∀ la ∈ afterTable, readsTree nestEff 0 0 (.node 11 [alterTree a]) la = some (2, 0) := by
  intro la hla
  obtain ⟨g, t, x⟩ := a
  obtain ⟨s1, s2, s3⟩ := reads_alters g _ (tableRefShape_mem t)
  obtain ⟨⟨n1, c1, d1⟩, ⟨n2, c2, d2⟩, d3⟩ := alter_closes
  cases x with
  | index u i n c cs =>
    refine command_reads (r := 336) (n := 11) (q := n1) (by decide) rfl d1 hla ?_
    have eb : blankAll ([lf (kw "ALTER"), ignoreTree g, lf (kw "TABLE"), tableRefTree t, lf (kw "ADD"), uniqueTree u, alterWordTree i,
          sqlId n] ++ [lf (sym '(')]) =
        blankAll ([lf (kw "ALTER"), ignoreTree g, lf (kw "TABLE"), tableRefTree (tableRefShape t), lf (kw "ADD"), uniqueTree u,
          alterWordTree i, sqlId []] ++ [lf (sym '(')]) := by
      simp only [List.cons_append, List.nil_append, blankAll, blank_tableRef t]
      rfl
    refine (reads_on (n := 0) (q := (1523, 0)) [lf (kw "ALTER"), ignoreTree g, lf (kw "TABLE"), tableRefTree t, lf (kw "ADD"),
      uniqueTree u, alterWordTree i, sqlId n] _ (sym '(') ((readsAll_alike eb _).trans (s1 u i))).trans ?_
    refine (readsAll_cons (q := 1577) (m' := 0) ?_).trans ?_
    · rw [close_head]
      exact indexCols_reads (p := (1523, 1577)) (by decide) _ _ 54 (by decide)
    exact reads_token c1
  | primaryKey n c cs =>
    refine command_reads (r := 337) (n := 13) (q := n2) (by decide) rfl d2 hla ?_
    have eb : blankAll ((alterOnly g t ++ [lf (kw "ADD"), lf (kw "CONSTRAINT"), sqlId n, lf (kw "PRIMARY"), lf (kw "KEY")]) ++
          [lf (sym '(')]) =
        blankAll ((alterOnly g (tableRefShape t) ++ [lf (kw "ADD"), lf (kw "CONSTRAINT"), sqlId [], lf (kw "PRIMARY"), lf (kw "KEY")]) ++
          [lf (sym '(')]) := by
      simp only [alterOnly, List.cons_append, List.nil_append, blankAll, blank_tableRef t]
      rfl
    refine (reads_on (n := 0) (q := (1635, 0)) (alterOnly g t ++ [lf (kw "ADD"), lf (kw "CONSTRAINT"), sqlId n, lf (kw "PRIMARY"),
      lf (kw "KEY")]) _ (sym '(') ((readsAll_alike eb _).trans s3)).trans ?_
    refine (readsAll_cons (q := 1665) (m' := 0) ?_).trans ?_
    · rw [close_head]
      exact indexCols_reads (p := (1635, 1665)) (by decide) _ _ 54 (by decide)
    exact reads_token c2
  | foreignKey f =>
    refine command_reads (r := 338) (n := 7) (q := 1350) (by decide) rfl d3 hla ?_
    have eb : blankAll (alterOnly g t ++ [lf (kw "ADD")]) = blankAll (alterOnly g (tableRefShape t) ++ [lf (kw "ADD")]) := by
      simp only [alterOnly, List.cons_append, List.nil_append, blankAll, blank_tableRef t]
    refine (reads_on (n := 0) (q := (1204, 0)) (alterOnly g t) _ (kw "ADD") ((readsAll_alike eb _).trans s2)).trans ?_
    exact readsAll_cons (q := 1350) (m' := 0) (addedFk_reads f la hla)

/-! ### `CREATE POLICY` -/

/-- The tokens that may follow the roles: `,`, `USING`, `WITH` and the end. -/
def afterRoles : List Nat := [53, 51, 291, 1, 313]
def afterUsing : List Nat := [291, 1, 313]

def scopes : List (Option String) := none :: scopeWords.map some
theorem scope_mem {s : Option String} (h : ∀ w, s = some w → w ∈ scopeWords) : s ∈ scopes := by
  cases s with
  | none => exact List.mem_cons_self
  | some w => exact List.mem_cons_of_mem _ (List.mem_map.mpr ⟨w, h w rfl, rfl⟩)

def policyStart (n : Str) (t : TableRef) (p : Option Bool) (s : Option String) : List (Tree SymType) :=
  [lf (kw "CREATE"), lf (kw "POLICY"), sqlId n, lf (kw "ON"), tableRefTree t, permissiveTree p, scopeTree s]

theorem reads_policies : ∀ t ∈ tableRefShapes, ∀ p ∈ zones, ∀ s ∈ scopes,
    readsAll nestEff 0 0 (policyStart [] t p s ++ [lf (kw "TO")]) 0 = some (1439, 0) := by
  decide +kernel

theorem reads_roles : ∀ la ∈ afterRoles, readsTree nestEff 1439 0 (idListTree [] []) la = some (1515, 0) ∧
    readsTree nestEff 1439 0 (.node (idAdd []).1 (idListTree [] [] :: (idAdd []).2)) la = some (1515, 0) := by
  decide +kernel

theorem roles_reads (a : Str) (as : List Str) : ∀ la ∈ afterRoles,
    readsTree nestEff 1439 0 (idListTree a as) la = some (1515, 0) := by
  refine reads_grow (P := fun la => la ∈ afterRoles) (d₀ := idListTree [] []) ?_ (fun la hla => (reads_roles la hla).1) ?_
  · intro la hla
    rw [reads_alike (show blank (.node 324 [sqlId a]) = blank (idListTree [] []) from rfl)]
    exact (reads_roles la hla).1
  · intro x _ la hla
    refine ⟨?_, ?_⟩
    · show headToken [lf (sym ','), sqlId x] la ∈ afterRoles
      rw [comma_head]
      exact List.mem_cons_self
    · rw [reads_alike (show blank (.node (idAdd x).1 (idListTree [] [] :: (idAdd x).2)) =
        blank (.node (idAdd []).1 (idListTree [] [] :: (idAdd []).2)) from rfl)]
      exact (reads_roles la hla).2

theorem reads_usings : readsAll nestEff 1515 0 ([] ++ [lf (kw "USING")]) 0 = some (1574, 0) ∧ (∀ la ∈ afterUsing,
    readsTree nestEff 1515 0 (usingTree none) la = some (1572, 0) ∧
    readsTree nestEff 1515 0 (usingTree (some .null)) la = some (1572, 0)) ∧
    readsAll nestEff 1572 0 ([lf (kw "WITH")] ++ [lf (kw "CHECK")]) 0 = some (1661, 0) ∧ (∀ la ∈ afterTable,
    readsTree nestEff 1572 0 (withCheckTree none) la = some (1625, 0) ∧
    readsTree nestEff 1572 0 (withCheckTree (some .null)) la = some (1625, 0)) ∧
    (∀ la ∈ afterTable, decideAct 1625 la = .reduce 68) ∧
    first (lf (kw "USING")) = some 51 := by
  decide +kernel

theorem using_follows : ∀ la ∈ afterUsing, Follows 1 la := by
  have h : ∀ la ∈ afterUsing, la ∈ afterIxOpt := by decide +kernel
  exact fun la hla => ixOpt_follows la (h la hla)

theorem using_reads {c : Option Ex} (hc : ClearCondition c) : ∀ la ∈ afterUsing,
    readsTree nestEff 1515 0 (usingTree c) la = some (1572, 0) := by
  intro la hla
  obtain ⟨h1, h2, _⟩ := reads_usings
  cases c with
  | none => exact (h2 la hla).1
  | some e =>
    refine Eq.trans ?_ (h2 la hla).2
    exact reads_part_after (n := 0) (q := (1574, 0)) [] [] (kw "USING") h1
      (expr_like (hc e rfl).1 (hc e rfl).2 (by decide) (using_follows la hla))

theorem end_using {la : Nat} (h : la ∈ afterTable) : la ∈ afterUsing := List.mem_cons_of_mem _ h

theorem withCheck_reads {c : Option Ex} (hc : ClearCondition c) : ∀ la ∈ afterTable,
    readsTree nestEff 1572 0 (withCheckTree c) la = some (1625, 0) := by
  intro la hla
  obtain ⟨_, _, h1, h2, _⟩ := reads_usings
  cases c with
  | none => exact (h2 la hla).1
  | some e =>
    refine Eq.trans ?_ (h2 la hla).2
    exact reads_part_after (n := 0) (q := (1661, 0)) [lf (kw "WITH")] [] (kw "CHECK") h1
      (expr_like (hc e rfl).1 (hc e rfl).2 (by decide) (using_follows la (end_using hla)))

theorem withCheck_head (c : Option Ex) {la : Nat} (h : la ∈ afterTable) : headToken [withCheckTree c] la ∈ afterUsing := by
  cases c with
  | none => rw [head_none rfl]; exact end_using h
  | some e =>
    have h2 : first (withCheckTree (some e)) = some 291 := by
      rw [withCheckTree, first_node _ _ _ (by rw [first_with]; exact fun h => nomatch h), first_with]
    rw [head_some h2]
    exact List.mem_cons_self

theorem using_head (c : Option Ex) {cs : List (Tree SymType)} {la : Nat} (h : headToken cs la ∈ afterUsing) :
    headToken (usingTree c :: cs) la ∈ afterRoles := by
  cases c with
  | none => rw [head_none rfl]; exact List.mem_cons_of_mem _ (List.mem_cons_of_mem _ h)
  | some e =>
    obtain ⟨_, _, _, _, _, h1⟩ := reads_usings
    have h2 : first (usingTree (some e)) = some 51 := by
      rw [usingTree, first_node _ _ _ (by rw [h1]; exact fun h => nomatch h), h1]
    rw [head_some h2]
    exact List.mem_cons_of_mem _ List.mem_cons_self

theorem policy_reads {p : NewPolicy} (h : p.Clear) : ∀ la ∈ afterTable,
    readsTree nestEff 0 0 (.node 10 [policyTree p]) la = some (2, 0) := by
  intro la hla
  obtain ⟨_, _, _, _, hd, _⟩ := reads_usings
  refine command_reads (r := 68) (n := 11) (q := 1625) (by decide) rfl hd hla ?_
  have hw := withCheck_head p.check hla
  have hu := using_head p.condition hw
  have eb : blankAll (policyStart p.name p.table p.permissive p.scope ++ [lf (kw "TO")]) =
      blankAll (policyStart [] (tableRefShape p.table) p.permissive p.scope ++ [lf (kw "TO")]) := by
    simp only [policyStart, List.cons_append, List.nil_append, blankAll, blank_tableRef p.table]
    rfl
  refine (reads_on (n := 0) (q := (1439, 0)) (policyStart p.name p.table p.permissive p.scope) _ (kw "TO")
    ((readsAll_alike eb _).trans (reads_policies _ (tableRefShape_mem p.table) _ (zone_mem p.permissive) _ (scope_mem h.1)))).trans ?_
  refine (readsAll_cons (q := 1515) (m' := 0) (roles_reads _ _ _ hu)).trans ?_
  refine (readsAll_cons (q := 1572) (m' := 0) (using_reads h.2.1 _ hw)).trans ?_
  exact readsAll_cons (q := 1625) (m' := 0) (withCheck_reads h.2.2 la hla)

/-! ### All statements -/

theorem stmt_reads {s : Sentence} (h : s.Clear) (b : Bool) : ∃ q m,
    readsAll nestEff 0 0 [stmtTree s, semiTree b] 1 = some (q, m) ∧ decideAct q 1 = .reduce 1 := by
  cases s with
  | table t => exact table_reads h b
  | index i => exact sentence_reads (newIndex_reads h) b
  | alter a => exact sentence_reads (alter_reads a) b
  | policy p => exact sentence_reads (policy_reads h) b

/-- A statement, with or without a semicolon at the end, means what it says. -/
theorem parse_sentence {mode : Mode} {sql : Str} {s : Sentence} (h : s.Clear) (b : Bool)
    (ht : tokenize mode sql = .ok (s.tokens ++ given (b = true) [sym ';'])) :
    parseStrictDDLWithMode mode sql = .ok (.ddl s.meaning) := by
  obtain ⟨q, m, hr, hq⟩ := stmt_reads h b
  have hd : noted (tokensRead [stmtTree s, semiTree b]) = (s.tokens ++ given (b = true) [sym ';']).map seenAs := by
    show saidAll [stmtTree s, semiTree b] = _
    rw [saidAll_cons, saidAll_cons, saidAll_nil, said_stmt, said_semi, List.map_append, List.append_nil]
  have hf : fineAll valueOf asks [stmtTree s, semiTree b] := ⟨fine_stmt h, fine_of_tame _ (by cases b <;> rfl), trivial⟩
  rw [parse_of_reads ht hd hr hq hf, value_stmt h]
  rfl

end Sqldef.Sql
