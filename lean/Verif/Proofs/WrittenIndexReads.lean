import Verif.Proofs.WrittenIndex

/-! What the tables do with indexes and foreign keys. -/
namespace Sqldef.Sql
open Spec Yy Written

/-! ### Columns of indexes -/

def colShape (c : IndexCol) : IndexCol := { name := [], length := lengthShape c.length, direction := c.direction }
def colShapes : List IndexCol := lengthShapes.flatMap fun l => zones.map fun d => { name := [], length := l, direction := d }
theorem colShape_mem (c : IndexCol) : colShape c ∈ colShapes :=
  List.mem_flatMap.mpr ⟨_, lengthShape_mem c.length, List.mem_map.mpr ⟨_, zone_mem c.direction, rfl⟩⟩
theorem blank_indexCol (c : IndexCol) : blank (indexColTree c) = blank (indexColTree (colShape c)) := by
  simp only [indexColTree, colShape, blank, blankAll, blank_length c.length]
  rfl

/-- The columns that stand for all others. -/
def someCols : Tree SymType := indexColsTree { name := [] } []

/-- The states in which the columns of an index are read, and the states after them. -/
def colStates : List (Int × Int) :=
  [(1097, 1279), (1434, 1512), (1523, 1577), (1562, 1609), (1570, 1623), (1571, 1624), (1635, 1665)]

theorem reads_colShapes : ∀ p ∈ colStates, ∀ c ∈ colShapes, ∀ la ∈ [53, 54],
    readsTree nestEff p.1 0 (.node 302 [indexColTree c]) la = some (p.2, 0) ∧
    readsTree nestEff p.1 0 (.node (indexColAdd c).1 (someCols :: (indexColAdd c).2)) la = some (p.2, 0) := by
  decide +kernel

theorem comma_head (cs : List (Tree SymType)) (la : Nat) : headToken (lf (sym ',') :: cs) la = 53 := by
  rw [headToken_cons, show first (lf (sym ',')) = some 53 by decide +kernel]
  rfl
theorem close_head (cs : List (Tree SymType)) (la : Nat) : headToken (lf (sym ')') :: cs) la = 54 := by
  rw [headToken_cons, show first (lf (sym ')')) = some 54 by decide +kernel]
  rfl

theorem indexCols_reads {p : Int × Int} (hp : p ∈ colStates) (c : IndexCol) (cs : List IndexCol) : ∀ la ∈ [53, 54],
    readsTree nestEff p.1 0 (indexColsTree c cs) la = some (p.2, 0) := by
  refine reads_grow (P := fun la => la ∈ [53, 54]) (d₀ := someCols) ?_ ?_ ?_
  · intro la hla
    rw [reads_alike (blank_first_child (blank_indexCol c) [])]
    exact (reads_colShapes p hp _ (colShape_mem c) la hla).1
  · intro la hla
    exact (reads_colShapes p hp _ (colShape_mem { name := [] }) la hla).1
  · intro x _ la hla
    refine ⟨?_, ?_⟩
    · show headToken [lf (sym ','), indexColTree x] la ∈ [53, 54]
      rw [comma_head]
      exact List.mem_cons_self
    · have e : blank (.node (indexColAdd x).1 (someCols :: (indexColAdd x).2)) =
          blank (.node (indexColAdd (colShape x)).1 (someCols :: (indexColAdd (colShape x)).2)) := by
        simp only [indexColAdd, blank, blankAll, blank_indexCol x]
      rw [reads_alike e]
      exact (reads_colShapes p hp _ (colShape_mem x) la hla).2

/-! ### Options of indexes -/

def ixOptShape : IndexOpt → IndexOpt
  | .using _ => .using []
  | .keyBlockSize e _ => .keyBlockSize e []
  | .comment _ => .comment []
  | .parser _ => .parser []
  | .fillfactor _ => .fillfactor []
  | .switch w b => .switch w b
def ixOptShapes : List IndexOpt :=
  [.using [], .keyBlockSize true [], .keyBlockSize false [], .comment [], .parser [], .fillfactor []] ++
    switchWords.flatMap fun w => [.switch w true, .switch w false]
theorem ixOptShape_mem {o : IndexOpt} (h : o.Known) : ixOptShape o ∈ ixOptShapes := by
  rcases o with _ | ⟨_ | _, _⟩ | _ | _ | _ | ⟨w, b⟩
  · simp [ixOptShape, ixOptShapes]
  · simp [ixOptShape, ixOptShapes]
  · simp [ixOptShape, ixOptShapes]
  · simp [ixOptShape, ixOptShapes]
  · simp [ixOptShape, ixOptShapes]
  · simp [ixOptShape, ixOptShapes]
  · exact List.mem_append_right _ (List.mem_flatMap.mpr ⟨w, h, by cases b <;> simp [ixOptShape]⟩)
theorem blank_ixOpt (o : IndexOpt) : blank (ixOptTree o) = blank (ixOptTree (ixOptShape o)) := by
  rcases o with _ | ⟨_ | _, _⟩ | _ | _ | _ | ⟨w, b⟩ <;> rfl

/-- The tokens that may follow the options of an index: `ON`, `,`, `)`, the end and `;`. -/
def afterIxOpts : List Nat := [50, 53, 54, 1, 313]
/-- The tokens that may follow an option of an index. -/
def afterIxOpt : List Nat := ixOptShapes.map (fun o => headToken [ixOptTree o] 0) ++ afterIxOpts

/-- The states in which the options of an index are read, and the states after them. -/
def optStates : List (Int × Int) := [(1397, 1475), (1645, 1670), (1657, 1675), (1660, 1678), (1677, 1689)]

/-- Where the options in `WITH ( )` are read. -/
def withStates : List (Int × Int × Int) :=
  optStates.filterMap fun p => (readsAll nestEff p.1 0 [lf (kw "WITH"), lf (sym '(')] 0).bind fun q =>
    (readsTree nestEff q.1 0 (.node 272 [ixOptTree (.using [])]) 54).map fun t => (p.1, q.1, t.1)

/-- After the first option: the state. -/
def afterFirst (s : Int) : Int := ((readsTree nestEff s 0 (.node 270 [ixOptTree (.using [])]) 54).getD (0, 0)).1

theorem reads_ixOptShapes : ∀ p ∈ optStates, ∀ o ∈ ixOptShapes, ∀ la ∈ afterIxOpt,
    readsTree nestEff p.1 0 (.node 270 [ixOptTree o]) la = some (afterFirst p.1, 0) ∧
    readsTree nestEff p.1 0 (.node 271 [.node 270 [ixOptTree (.using [])], ixOptTree o]) la = some (afterFirst p.1, 0) := by
  decide +kernel

theorem reads_withShapes : ∀ p ∈ withStates, ∀ o ∈ ixOptShapes, ∀ la ∈ [53, 54],
    readsTree nestEff p.2.1 0 (.node 272 [ixOptTree o]) la = some (p.2.2, 0) ∧
    readsTree nestEff p.2.1 0 (.node 273 [.node 272 [ixOptTree (.using [])], lf (sym ','), ixOptTree o]) la = some (p.2.2, 0) := by
  decide +kernel

theorem withState : ∀ p ∈ optStates, ∃ w ∈ withStates, w.1 = p.1 ∧
    readsAll nestEff p.1 0 [lf (kw "WITH"), lf (sym '(')] 0 = some (w.2.1, 0) := by
  decide +kernel

theorem reads_someOpts : ∀ p ∈ optStates, ∀ la ∈ afterIxOpts,
    readsTree nestEff p.1 0 (ixOptsTree .none) la = some (p.2, 0) ∧
    readsTree nestEff p.1 0 (ixOptsTree (.plain (.using []) [])) la = some (p.2, 0) ∧
    readsTree nestEff p.1 0 (ixOptsTree (.list (.using []) [])) la = some (p.2, 0) := by
  decide +kernel

theorem ixOpt_head : ∀ o ∈ ixOptShapes, headToken [ixOptTree o] 0 ∈ afterIxOpt := by decide +kernel

theorem head_ixOpt {o : IndexOpt} (h : o.Known) (la : Nat) : headToken [ixOptTree o] la ∈ afterIxOpt := by
  have e : headToken [ixOptTree o] la = headToken [ixOptTree (ixOptShape o)] 0 := by
    rcases o with _ | ⟨_ | _, _⟩ | _ | _ | _ | ⟨w, b⟩ <;> rfl
  rw [e]
  exact ixOpt_head _ (ixOptShape_mem h)

theorem usingKnown (n : Str) : (IndexOpt.using n).Known := trivial

theorem ixOpts_reads {p : Int × Int} (hp : p ∈ optStates) {o : IndexOpts} (ho : ∀ x ∈ o.all, x.Known) :
    ∀ la ∈ afterIxOpts, readsTree nestEff p.1 0 (ixOptsTree o) la = some (p.2, 0) := by
  intro la hla
  cases o with
  | none => exact (reads_someOpts p hp la hla).1
  | plain o os =>
    refine Eq.trans ?_ (reads_someOpts p hp la hla).2.1
    refine reads_first ?_
    show readsTree nestEff p.1 0 (grow ixOptAdd (.node 270 [ixOptTree o]) os) la = _
    have hla' : la ∈ afterIxOpt := List.mem_append_right _ hla
    refine Eq.trans (b := some (afterFirst p.1, 0)) ?_
      (reads_ixOptShapes p hp _ (ixOptShape_mem (usingKnown [])) la hla').1.symm
    refine reads_grow (P := fun la => la ∈ afterIxOpt) (d₀ := .node 270 [ixOptTree (.using [])]) ?_ ?_ ?_ la hla'
    · intro la hla
      rw [reads_alike (blank_first_child (blank_ixOpt o) [])]
      exact (reads_ixOptShapes p hp _ (ixOptShape_mem (ho o List.mem_cons_self)) la hla).1
    · intro la hla
      exact (reads_ixOptShapes p hp _ (ixOptShape_mem (usingKnown [])) la hla).1
    · intro x hx la hla
      have hk := ho x (List.mem_cons_of_mem _ hx)
      refine ⟨head_ixOpt hk la, ?_⟩
      have e : blank (.node (ixOptAdd x).1 (.node 270 [ixOptTree (.using [])] :: (ixOptAdd x).2)) =
          blank (.node 271 [.node 270 [ixOptTree (.using [])], ixOptTree (ixOptShape x)]) := by
        simp only [ixOptAdd, blank, blankAll, blank_ixOpt x]
      rw [reads_alike e]
      exact (reads_ixOptShapes p hp _ (ixOptShape_mem hk) la hla).2
  | list o os =>
    refine Eq.trans ?_ (reads_someOpts p hp la hla).2.2
    obtain ⟨w, hw, _, hq⟩ := withState p hp
    refine reads_part_after (n := 0) (q := (w.2.1, 0)) [lf (kw "WITH")] [lf (sym ')')] (sym '(') hq ?_
    rw [close_head]
    have h54 : 54 ∈ [53, 54] := by decide
    refine Eq.trans (b := some (w.2.2, 0)) ?_ (reads_withShapes w hw _ (ixOptShape_mem (usingKnown [])) 54 h54).1.symm
    refine reads_grow (P := fun la => la ∈ [53, 54]) (d₀ := .node 272 [ixOptTree (.using [])]) ?_ ?_ ?_ 54 h54
    · intro la hla
      rw [reads_alike (blank_first_child (blank_ixOpt o) [])]
      exact (reads_withShapes w hw _ (ixOptShape_mem (ho o List.mem_cons_self)) la hla).1
    · intro la hla
      exact (reads_withShapes w hw _ (ixOptShape_mem (usingKnown [])) la hla).1
    · intro x hx la hla
      have hk := ho x (List.mem_cons_of_mem _ hx)
      refine ⟨?_, ?_⟩
      · show headToken [lf (sym ','), ixOptTree x] la ∈ [53, 54]
        rw [comma_head]
        exact List.mem_cons_self
      · have e : blank (.node (ixOptAddComma x).1 (.node 272 [ixOptTree (.using [])] :: (ixOptAddComma x).2)) =
            blank (.node 273 [.node 272 [ixOptTree (.using [])], lf (sym ','), ixOptTree (ixOptShape x)]) := by
          simp only [ixOptAddComma, blank, blankAll, blank_ixOpt x]
        rw [reads_alike e]
        exact (reads_withShapes w hw _ (ixOptShape_mem hk) la hla).2

/-! ### Lists of names -/

/-- The states in which a list of names is read, and the states after it. -/
def idStates : List (Int × Int) := [(1439, 1515), (1561, 1608), (1692, 1696)]

theorem reads_ids : ∀ p ∈ idStates, ∀ la ∈ [53, 54], readsTree nestEff p.1 0 (idListTree [] []) la = some (p.2, 0) ∧
    readsTree nestEff p.1 0 (.node (idAdd []).1 (idListTree [] [] :: (idAdd []).2)) la = some (p.2, 0) := by
  decide +kernel

theorem idList_reads {p : Int × Int} (hp : p ∈ idStates) (a : Str) (as : List Str) : ∀ la ∈ [53, 54],
    readsTree nestEff p.1 0 (idListTree a as) la = some (p.2, 0) := by
  refine reads_grow (P := fun la => la ∈ [53, 54]) (d₀ := idListTree [] []) ?_ (fun la hla => (reads_ids p hp la hla).1) ?_
  · intro la hla
    have e : blank (.node 324 [sqlId a]) = blank (idListTree [] []) := rfl
    rw [reads_alike e]
    exact (reads_ids p hp la hla).1
  · intro x _ la hla
    refine ⟨?_, ?_⟩
    · show headToken [lf (sym ','), sqlId x] la ∈ [53, 54]
      rw [comma_head]
      exact List.mem_cons_self
    · have e : blank (.node (idAdd x).1 (idListTree [] [] :: (idAdd x).2)) =
          blank (.node (idAdd []).1 (idListTree [] [] :: (idAdd []).2)) := rfl
      rw [reads_alike e]
      exact (reads_ids p hp la hla).2

/-! ### Indexes -/

def partitionShape : Partition → Partition
  | .none => .none
  | .name _ => .name []
  | .scheme _ _ => .scheme [] []
def partitionShapes : List Partition := [.none, .name [], .scheme [] []]
theorem partitionShape_mem (p : Partition) : partitionShape p ∈ partitionShapes := by
  cases p <;> simp [partitionShape, partitionShapes]
theorem blank_partition (p : Partition) : blank (partitionTree p) = blank (partitionTree (partitionShape p)) := by
  cases p <;> rfl

def headShape : IndexHead → IndexHead
  | .primary => .primary
  | .spatial i _ => .spatial i []
  | .fulltext i _ => .fulltext i []
  | .unique i _ => .unique i []
  | .plain i _ c => .plain i [] c
  | .uniqueAfter i _ c => .uniqueAfter i [] c
def headShapes : List IndexHead :=
  [.primary, .spatial true [], .spatial false []] ++ zones.map (.fulltext · []) ++ zones.map (.unique · []) ++
    [true, false].flatMap fun i => zones.flatMap fun c => [.plain i [] c, .uniqueAfter i [] c]
theorem headShape_mem (h : IndexHead) : headShape h ∈ headShapes := by
  rcases h with _ | ⟨_ | _, _⟩ | ⟨_ | _ | _, _⟩ | ⟨_ | _ | _, _⟩ | ⟨_ | _, _, _ | _ | _⟩ | ⟨_ | _, _, _ | _ | _⟩ <;>
    simp [headShape, headShapes, zones]
theorem blank_head (h : IndexHead) : blank (headTree h) = blank (headTree (headShape h)) := by
  rcases h with _ | ⟨_ | _, _⟩ | ⟨_ | _ | _, _⟩ | ⟨_ | _ | _, _⟩ | ⟨_ | _, _, _ | _ | _⟩ | ⟨_ | _, _, _ | _ | _⟩ <;> rfl

theorem reads_ixShapes : ∀ h ∈ headShapes, readsAll nestEff 672 0 ([headTree h] ++ [lf (sym '(')]) 0 = some (1097, 0) ∧
    readsAll nestEff 672 0 ([headTree h, lf (sym '('), someCols] ++ [lf (sym ')')]) 0 = some (1397, 0) ∧
    ∀ p ∈ partitionShapes, ∀ la ∈ [53, 54],
      headToken [partitionTree p] la ∈ afterIxOpts ∧
      readsTree nestEff 672 0 (.node 266 [headTree h, lf (sym '('), someCols, lf (sym ')'), ixOptsTree .none, partitionTree p]) la =
        some (908, 0) := by
  decide +kernel

theorem ix_reads {i : Ix} (ho : ∀ o ∈ i.options.all, o.Known) : ∀ la ∈ [53, 54],
    readsTree nestEff 672 0 (ixTree i) la = some (908, 0) := by
  intro la hla
  obtain ⟨h1, h2, h3⟩ := reads_ixShapes _ (headShape_mem i.head)
  have hp := h3 _ (partitionShape_mem i.partition) la hla
  have e : blank (ixTree i) = blank (.node 266 [headTree (headShape i.head), lf (sym '('), indexColsTree i.first i.rest,
      lf (sym ')'), ixOptsTree i.options, partitionTree (partitionShape i.partition)]) := by
    simp only [ixTree, blank, blankAll, blank_head i.head, blank_partition i.partition]
  rw [reads_alike e]
  refine Eq.trans ?_ hp.2
  refine Eq.trans (b := readsTree nestEff 672 0 (.node 266 [headTree (headShape i.head), lf (sym '('), someCols, lf (sym ')'),
    ixOptsTree i.options, partitionTree (partitionShape i.partition)]) la) ?_ ?_
  · refine reads_part_after (n := 0) (q := (1097, 0)) [headTree (headShape i.head)] [lf (sym ')'), ixOptsTree i.options,
      partitionTree (partitionShape i.partition)] (sym '(') h1 ?_
    rw [close_head]
    exact (indexCols_reads (p := (1097, 1279)) (by decide) _ _ 54 (by decide)).trans
      (indexCols_reads (p := (1097, 1279)) (by decide) _ _ 54 (by decide)).symm
  · refine reads_part_after (n := 0) (q := (1397, 0)) [headTree (headShape i.head), lf (sym '('), someCols]
      [partitionTree (partitionShape i.partition)] (sym ')') h2 ?_
    exact (ixOpts_reads (p := (1397, 1475)) (by decide) ho _ hp.1).trans
      (ixOpts_reads (p := (1397, 1475)) (o := .none) (by decide) (fun _ h => nomatch h) _ hp.1).symm

theorem reads_pkShapes : ∀ c ∈ zones,
    readsAll nestEff 672 0 ([lf (kw "CONSTRAINT"), sqlId [], lf (kw "PRIMARY"), lf (kw "KEY"), clusteredTree c] ++ [lf (sym '(')]) 0 =
      some (1562, 0) ∧
    readsAll nestEff 672 0 ([lf (kw "CONSTRAINT"), sqlId [], lf (kw "PRIMARY"), lf (kw "KEY"), clusteredTree c, lf (sym '('),
      someCols] ++ [lf (sym ')')]) 0 = some (1645, 0) ∧
    ∀ p ∈ partitionShapes, ∀ la ∈ [53, 54], readsTree nestEff 672 0 (.node 316 [lf (kw "CONSTRAINT"), sqlId [],
      lf (kw "PRIMARY"), lf (kw "KEY"), clusteredTree c, lf (sym '('), someCols, lf (sym ')'), ixOptsTree .none, partitionTree p]) la =
        some (910, 0) := by
  decide +kernel

theorem pk_reads {k : Pk} (ho : ∀ o ∈ k.options.all, o.Known) : ∀ la ∈ [53, 54],
    readsTree nestEff 672 0 (pkTree k) la = some (910, 0) := by
  intro la hla
  obtain ⟨h1, h2, h3⟩ := reads_pkShapes _ (zone_mem k.clustered)
  have hp := h3 _ (partitionShape_mem k.partition) la hla
  have hh := ((reads_ixShapes _ (headShape_mem .primary)).2.2 _ (partitionShape_mem k.partition) la hla).1
  have e : blank (pkTree k) = blank (.node 316 [lf (kw "CONSTRAINT"), sqlId [], lf (kw "PRIMARY"), lf (kw "KEY"),
      clusteredTree k.clustered, lf (sym '('), indexColsTree k.first k.rest, lf (sym ')'), ixOptsTree k.options,
      partitionTree (partitionShape k.partition)]) := by
    simp only [pkTree, blank, blankAll, blank_partition k.partition]
    rfl
  rw [reads_alike e]
  refine Eq.trans ?_ hp
  refine Eq.trans (b := readsTree nestEff 672 0 (.node 316 [lf (kw "CONSTRAINT"), sqlId [], lf (kw "PRIMARY"), lf (kw "KEY"),
      clusteredTree k.clustered, lf (sym '('), someCols, lf (sym ')'), ixOptsTree k.options,
      partitionTree (partitionShape k.partition)]) la) ?_ ?_
  · refine reads_part_after (n := 0) (q := (1562, 0)) [lf (kw "CONSTRAINT"), sqlId [], lf (kw "PRIMARY"), lf (kw "KEY"),
      clusteredTree k.clustered] [lf (sym ')'), ixOptsTree k.options, partitionTree (partitionShape k.partition)] (sym '(') h1 ?_
    rw [close_head]
    exact (indexCols_reads (p := (1562, 1609)) (by decide) _ _ 54 (by decide)).trans
      (indexCols_reads (p := (1562, 1609)) (by decide) _ _ 54 (by decide)).symm
  · refine reads_part_after (n := 0) (q := (1645, 0)) [lf (kw "CONSTRAINT"), sqlId [], lf (kw "PRIMARY"), lf (kw "KEY"),
      clusteredTree k.clustered, lf (sym '('), someCols] [partitionTree (partitionShape k.partition)] (sym ')') h2 ?_
    exact (ixOpts_reads (p := (1645, 1670)) (by decide) ho _ hh).trans
      (ixOpts_reads (p := (1645, 1670)) (o := .none) (by decide) (fun _ h => nomatch h) _ hh).symm

/-! ### Foreign keys -/

def tableRefShape (t : TableRef) : TableRef := { schema := t.schema.map fun _ => [], name := [] }
def tableRefShapes : List TableRef := [{ name := [] }, { schema := some [], name := [] }]
theorem tableRefShape_mem (t : TableRef) : tableRefShape t ∈ tableRefShapes := by
  rcases t with ⟨_ | _, _⟩ <;> simp [tableRefShape, tableRefShapes]
theorem blank_tableRef (t : TableRef) : blank (tableRefTree t) = blank (tableRefTree (tableRefShape t)) := by
  rcases t with ⟨_ | _, _⟩ <;> rfl
theorem blank_sqlIdOpt (n : Option Str) : blank (sqlIdOpt n) = blank (sqlIdOpt (lengthShape n)) := by cases n <;> rfl

/-- Some foreign key. -/
def someFk (c i : Option Str) (t : TableRef) : Fk := { constraint := c, index := i, first := [], table := t, refFirst := [] }

/-- The tokens that may follow the columns of a foreign key: `ON`, `NOT`, `,` and `)`. -/
def afterFk : List Nat := [50, 72, 53, 54]

theorem reads_fkBases : ∀ c ∈ lengthShapes, ∀ i ∈ lengthShapes,
    readsAll nestEff 672 0 ([lf (kw "CONSTRAINT"), sqlIdOpt c, lf (kw "FOREIGN"), lf (kw "KEY"), sqlIdOpt i] ++ [lf (sym '(')]) 0 =
      some (1561, 0) ∧
    ∀ t ∈ tableRefShapes,
      readsAll nestEff 672 0 ([lf (kw "CONSTRAINT"), sqlIdOpt c, lf (kw "FOREIGN"), lf (kw "KEY"), sqlIdOpt i, lf (sym '('),
        idListTree [] [], lf (sym ')'), lf (kw "REFERENCES"), tableRefTree t] ++ [lf (sym '(')]) 0 = some (1692, 0) ∧
      ∀ la ∈ afterFk, readsTree nestEff 672 0 (fkBaseTree (someFk c i t)) la =
        readsTree nestEff 672 0 (fkBaseTree (someFk none none { name := [] })) la := by
  decide +kernel

theorem fkBase_reads (f : Fk) : ∀ la ∈ afterFk, readsTree nestEff 672 0 (fkBaseTree f) la =
    readsTree nestEff 672 0 (fkBaseTree (someFk none none { name := [] })) la := by
  intro la hla
  obtain ⟨h1, h2⟩ := reads_fkBases _ (lengthShape_mem f.constraint) _ (lengthShape_mem f.index)
  obtain ⟨h2, h3⟩ := h2 _ (tableRefShape_mem f.table)
  have e : blank (fkBaseTree f) = blank (.node 311 [lf (kw "CONSTRAINT"), sqlIdOpt (lengthShape f.constraint), lf (kw "FOREIGN"),
      lf (kw "KEY"), sqlIdOpt (lengthShape f.index), lf (sym '('), idListTree f.first f.rest, lf (sym ')'), lf (kw "REFERENCES"),
      tableRefTree (tableRefShape f.table), lf (sym '('), idListTree f.refFirst f.refRest, lf (sym ')')]) := by
    simp only [fkBaseTree, blank, blankAll, blank_sqlIdOpt f.constraint, blank_sqlIdOpt f.index, blank_tableRef f.table]
  rw [reads_alike e, ← h3 la hla]
  refine Eq.trans (b := readsTree nestEff 672 0 (.node 311 [lf (kw "CONSTRAINT"), sqlIdOpt (lengthShape f.constraint),
      lf (kw "FOREIGN"), lf (kw "KEY"), sqlIdOpt (lengthShape f.index), lf (sym '('), idListTree [] [], lf (sym ')'),
      lf (kw "REFERENCES"), tableRefTree (tableRefShape f.table), lf (sym '('), idListTree f.refFirst f.refRest,
      lf (sym ')')]) la) ?_ ?_
  · refine reads_part_after (n := 0) (q := (1561, 0)) [lf (kw "CONSTRAINT"), sqlIdOpt (lengthShape f.constraint),
      lf (kw "FOREIGN"), lf (kw "KEY"), sqlIdOpt (lengthShape f.index)] [lf (sym ')'), lf (kw "REFERENCES"),
      tableRefTree (tableRefShape f.table), lf (sym '('), idListTree f.refFirst f.refRest, lf (sym ')')] (sym '(') h1 ?_
    rw [close_head]
    exact (idList_reads (p := (1561, 1608)) (by decide) _ _ 54 (by decide)).trans
      (idList_reads (p := (1561, 1608)) (by decide) _ _ 54 (by decide)).symm
  · refine reads_part_after (n := 0) (q := (1692, 0)) [lf (kw "CONSTRAINT"), sqlIdOpt (lengthShape f.constraint),
      lf (kw "FOREIGN"), lf (kw "KEY"), sqlIdOpt (lengthShape f.index), lf (sym '('), idListTree [] [], lf (sym ')'),
      lf (kw "REFERENCES"), tableRefTree (tableRefShape f.table)] [lf (sym ')')] (sym '(') h2 ?_
    rw [close_head]
    exact (idList_reads (p := (1692, 1696)) (by decide) _ _ 54 (by decide)).trans
      (idList_reads (p := (1692, 1696)) (by decide) _ _ 54 (by decide)).symm

def refActionList : List RefAction := [.restrict, .cascade, .setNull, .noAction]
theorem refAction_mem (a : RefAction) : a ∈ refActionList := by cases a <;> simp [refActionList]
def refActionsList : List RefActions :=
  .none :: (refActionList.map .delete ++ refActionList.map .update ++
    refActionList.flatMap fun a => refActionList.flatMap fun b => [.deleteUpdate a b, .updateDelete a b])
theorem refActions_mem (a : RefActions) : a ∈ refActionsList := by
  rcases a with _ | a | a | ⟨a, b⟩ | ⟨a, b⟩
  · exact List.mem_cons_self
  · exact List.mem_cons_of_mem _ (List.mem_append_left _ (List.mem_append_left _ (List.mem_map.mpr ⟨a, refAction_mem a, rfl⟩)))
  · exact List.mem_cons_of_mem _ (List.mem_append_left _ (List.mem_append_right _ (List.mem_map.mpr ⟨a, refAction_mem a, rfl⟩)))
  · exact List.mem_cons_of_mem _ (List.mem_append_right _ (List.mem_flatMap.mpr ⟨a, refAction_mem a, List.mem_flatMap.mpr
      ⟨b, refAction_mem b, by simp⟩⟩))
  · exact List.mem_cons_of_mem _ (List.mem_append_right _ (List.mem_flatMap.mpr ⟨a, refAction_mem a, List.mem_flatMap.mpr
      ⟨b, refAction_mem b, by simp⟩⟩))

theorem reads_fkShapes : ∀ a ∈ refActionsList, ∀ n, ∀ la ∈ [53, 54], headToken (actionsAdd n a).2 la ∈ afterFk ∧
    readsTree nestEff 672 0 (.node (actionsAdd n a).1 (fkBaseTree (someFk none none { name := [] }) :: (actionsAdd n a).2)) la =
      some (909, 0) := by
  decide +kernel

theorem fk_reads (f : Fk) : ∀ la ∈ [53, 54], readsTree nestEff 672 0 (fkTree f) la = some (909, 0) := by
  intro la hla
  obtain ⟨h1, h2⟩ := reads_fkShapes _ (refActions_mem f.actions) f.notForReplication la hla
  exact (reads_first (fkBase_reads f _ h1)).trans h2

/-! ### Nothing is asked -/

theorem tame_indexCols (c : IndexCol) (cs : List IndexCol) : tame (indexColsTree c cs) = true := by
  have h : ∀ c, tame (indexColTree c) = true := by
    intro c
    rcases c with ⟨_, _ | _, _ | _ | _⟩ <;> rfl
  refine tame_grow _ _ ?_ fun x _ => ⟨rfl, ?_⟩
  · simp only [tame, tameAll, h]; rfl
  · simp only [indexColAdd, tameAll, h]; rfl

theorem switch_quiet : ∀ w ∈ switchWords, asking (switchRule w) = false := by decide +kernel

theorem tame_ixOpt {o : IndexOpt} (h : o.Known) : tame (ixOptTree o) = true := by
  rcases o with _ | ⟨_ | _, _⟩ | _ | _ | _ | ⟨w, b⟩
  · rfl
  · rfl
  · rfl
  · rfl
  · rfl
  · rfl
  · rw [ixOptTree, tame, switch_quiet w h]
    cases b <;> rfl

theorem tame_ixOpts {o : IndexOpts} (h : ∀ x ∈ o.all, x.Known) : tame (ixOptsTree o) = true := by
  cases o with
  | none => rfl
  | plain o os =>
    have hg : tame (grow ixOptAdd (.node 270 [ixOptTree o]) os) = true := by
      refine tame_grow _ _ ?_ fun x hx => ⟨rfl, ?_⟩
      · simp only [tame, tameAll, tame_ixOpt (h o List.mem_cons_self)]; rfl
      · simp only [ixOptAdd, tameAll, tame_ixOpt (h x (List.mem_cons_of_mem _ hx))]; rfl
    simp only [ixOptsTree, tame, tameAll, hg]
    rfl
  | list o os =>
    have hg : tame (grow ixOptAddComma (.node 272 [ixOptTree o]) os) = true := by
      refine tame_grow _ _ ?_ fun x hx => ⟨rfl, ?_⟩
      · simp only [tame, tameAll, tame_ixOpt (h o List.mem_cons_self)]; rfl
      · simp only [ixOptAddComma, tameAll, tame_ixOpt (h x (List.mem_cons_of_mem _ hx))]; rfl
    simp only [ixOptsTree, tame, tameAll, hg, tame_lf]
    rfl

theorem tame_partition (p : Partition) : tame (partitionTree p) = true := by cases p <;> rfl
theorem tame_clustered (c : Option Bool) : tame (clusteredTree c) = true := by rcases c with _ | _ | _ <;> rfl
theorem tame_head (h : IndexHead) : tame (headTree h) = true := by
  rcases h with _ | ⟨_ | _, _⟩ | ⟨_ | _ | _, _⟩ | ⟨_ | _ | _, _⟩ | ⟨_ | _, _, _ | _ | _⟩ | ⟨_ | _, _, _ | _ | _⟩ <;> rfl

theorem tame_ix {i : Ix} (h : ∀ o ∈ i.options.all, o.Known) : tame (ixTree i) = true := by
  simp only [ixTree, tame, tameAll, tame_head, tame_indexCols, tame_ixOpts h, tame_partition, tame_lf]
  rfl

theorem tame_sqlId (n : Str) : tame (sqlId n) = true := rfl

theorem tame_pk {p : Pk} (h : ∀ o ∈ p.options.all, o.Known) : tame (pkTree p) = true := by
  simp only [pkTree, tame, tameAll, tame_sqlId, tame_clustered, tame_indexCols, tame_ixOpts h, tame_partition, tame_lf]
  rfl

theorem tame_idList (a : Str) (as : List Str) : tame (idListTree a as) = true := tame_grow _ _ rfl fun _ _ => ⟨rfl, rfl⟩
theorem tame_tableRef (t : TableRef) : tame (tableRefTree t) = true := by rcases t with ⟨_ | _, _⟩ <;> rfl
theorem tame_sqlIdOpt (n : Option Str) : tame (sqlIdOpt n) = true := by cases n <;> rfl

theorem tame_fk (f : Fk) : tame (fkTree f) = true := by
  have h1 : tame (fkBaseTree f) = true := by
    simp only [fkBaseTree, tame, tameAll, tame_lf, tame_sqlIdOpt, tame_idList, tame_tableRef]
    rfl
  have h2 : ∀ (n : Bool) (a : RefActions), asking (actionsAdd n a).1 = false ∧ tameAll (actionsAdd n a).2 = true := by
    intro n a
    rcases a with _ | (_ | _ | _ | _) | (_ | _ | _ | _) | ⟨_ | _ | _ | _, _ | _ | _ | _⟩ | ⟨_ | _ | _ | _, _ | _ | _ | _⟩ <;>
      cases n <;> exact ⟨rfl, rfl⟩
  rw [fkTree, tame, tameAll, h1, (h2 _ _).1, (h2 _ _).2]
  rfl

end Sqldef.Sql
