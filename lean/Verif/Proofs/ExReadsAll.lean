import Verif.Proofs.ExReads

/-! The tables agree with the derivation of every proper expression. -/
namespace Sqldef.Sql
open Spec Yy Written

/-! ### Where expressions are read, and what may follow them -/

/-- What the tables call the three sorts. -/
def sortNo : Sort3 → Int
  | .value => 61
  | .condition => 56
  | .expression => 37

/-- The state after an expression. -/
def go (k : Sort3) (s : Int) : Int := (gotoState s (sortNo k)).getD 0

/-- The states in which an expression may start, and how tightly it has to bind there. -/
def sites : List (Int × Nat) :=
  [(1297, 1), (1500, 1), (1069, 1), (1574, 1), (1661, 1), (1255, 1), (1070, 1), (303, 1), (581, 1), (835, 1), (577, 1), (1037, 1),
   (783, 1), (1073, 1), (1529, 1), (1528, 1), (253, 1), (772, 1), (252, 1), (769, 1), (770, 1), (269, 3), (528, 3), (529, 2),
   (537, 6), (540, 6), (804, 6), (541, 6), (805, 6), (542, 6), (1033, 6), (806, 6), (1220, 6),
   (543, 8), (544, 7), (545, 12), (546, 10), (547, 10), (548, 11), (549, 11), (550, 11), (551, 11), (552, 11),
   (553, 9), (554, 9), (282, 12), (283, 12), (284, 12), (285, 12)]

/-- The tokens that may follow an expression, and how tightly it has to bind before them: first those that end it, then
`OR`, `AND` and `IS`, the comparisons, `IN`, `NOT`, `LIKE`, `REGEXP` and `BETWEEN`, the operations, `COLLATE` and `::`. -/
def stops : List (Nat × Nat) :=
  [(54, 1), (53, 1), (1, 1), (313, 1), (291, 1), (50, 1), (51, 1), (132, 1), (64, 1), (164, 1), (165, 1), (166, 1), (167, 1),
   (168, 1), (169, 1), (170, 1), (11, 1), (12, 1), (13, 1), (14, 1), (15, 1), (17, 1), (18, 1), (22, 1), (24, 1), (25, 1), (55, 1),
   (8, 1), (9, 1), (10, 1), (279, 1), (40, 1), (41, 1), (42, 1), (43, 1), (44, 1), (46, 1), (47, 1), (70, 1), (71, 2), (87, 5), (80, 6), (81, 6), (82, 6), (83, 6), (84, 6), (85, 6), (86, 6),
   (90, 6), (72, 6), (88, 6), (89, 6), (74, 6), (91, 6), (92, 7), (93, 8), (94, 8), (95, 9), (96, 9), (97, 10), (98, 10),
   (99, 10), (100, 10), (101, 10), (102, 11), (105, 13), (311, 17)]

/-- The token may follow an expression that binds so tightly. -/
def Follows (n la : Nat) : Prop := ∃ p ∈ stops, p.1 = la ∧ p.2 ≤ n

theorem Follows.mono {n k la : Nat} (h : Follows n la) (hk : n ≤ k) : Follows k la := by
  obtain ⟨p, hp, h1, h2⟩ := h
  exact ⟨p, hp, h1, Nat.le_trans h2 hk⟩

theorem Follows.use {n la : Nat} {P : Nat → Prop} (h : Follows n la) (hp : ∀ p ∈ stops, p.2 ≤ n → P p.1) : P la := by
  obtain ⟨p, hm, rfl, h2⟩ := h
  exact hp p hm h2

/-- A word that may follow. -/
theorem follows_of {n la : Nat} (h : stops.any (fun p => p.1 == la && decide (p.2 ≤ n)) = true) : Follows n la := by
  obtain ⟨p, hm, h1⟩ := List.any_eq_true.mp h
  rw [Bool.and_eq_true, beq_iff_eq, decide_eq_true_eq] at h1
  exact ⟨p, hm, h1⟩

theorem go_value : ∀ p ∈ sites, gotoState p.1 61 = some (go .value p.1) := by decide +kernel
theorem go_condition : ∀ p ∈ sites, p.2 ≤ 5 → gotoState p.1 56 = some (go .condition p.1) := by decide +kernel
theorem go_expression : ∀ p ∈ sites, p.2 ≤ 3 → gotoState p.1 37 = some (go .expression p.1) := by decide +kernel

theorem site_value : ∀ p ∈ sites, p.2 ≤ 5 → p.2 ≤ 3 ∧ go .value p.1 = 270 ∧ go .condition p.1 = 268 := by decide +kernel

theorem value_of_level {e : Ex} (h : 6 ≤ e.level) : sortOf e = .value := by
  cases e <;> first | rfl | exact absurd h (by simp [Ex.level])

/-! ### Expressions of one token, and names -/

/-- The expressions that need no next token. -/
def simpleEx : List Ex := [.string [], .integer [], .float [], .bits [], .null, .bool true, .bool false]

theorem reads_simple : ∀ p ∈ sites, ∀ e ∈ simpleEx, still p.1 (core e) = some (go .value p.1) := by decide +kernel

/-- A rule with one child. -/
theorem reads_single {s q s' a : Int} {m m' r la : Nat} {c : Tree SymType} (h : readsTree nestEff s m c la = some (q, m'))
    (hd : decideAct q la = .reduce r) (hr : (isRule r 1 a && quiet r) = true) (hg : gotoState s a = some s') :
    readsTree nestEff s m (.node r [c]) la = some (s', m') := by
  rw [Bool.and_eq_true] at hr
  refine reads_node (cs := [c]) ?_ hd hr.1 hg (nestEff_quiet hr.2 m')
  rw [readsAll_cons h]
  rfl

/-- A rule whose children are known. -/
theorem reads_many {s q s' a : Int} {m m' r la : Nat} {cs : List (Tree SymType)}
    (h : readsAll nestEff s m cs la = some (q, m')) (hd : decideAct q la = .reduce r)
    (hr : (isRule r cs.length a && quiet r) = true) (hg : gotoState s a = some s') :
    readsTree nestEff s m (.node r cs) la = some (s', m') := by
  rw [Bool.and_eq_true] at hr
  exact reads_node h hd hr.1 hg (nestEff_quiet hr.2 m')

theorem site_names : ∀ p ∈ sites, decideAct p.1 (no (named []).type) = .shift 272 ∧ gotoState p.1 117 = some 301 ∧
    gotoState p.1 75 = some 277 := by decide +kernel

theorem stop_names : ∀ q ∈ stops, decideAct 272 q.1 = .reduce 745 ∧ decideAct 301 q.1 = .reduce 656 ∧
    decideAct 277 q.1 = .reduce 556 ∧ decideAct 796 q.1 = .reduce 657 ∧ decideAct 1217 q.1 = .reduce 658 := by decide +kernel

theorem follows_names {n la : Nat} (h : Follows n la) : decideAct 272 la = .reduce 745 ∧ decideAct 301 la = .reduce 656 ∧
    decideAct 277 la = .reduce 556 ∧ decideAct 796 la = .reduce 657 ∧ decideAct 1217 la = .reduce 658 := by
  refine h.use (P := fun la => decideAct 272 la = .reduce 745 ∧ decideAct 301 la = .reduce 656 ∧
    decideAct 277 la = .reduce 556 ∧ decideAct 796 la = .reduce 657 ∧ decideAct 1217 la = .reduce 658) ?_
  exact fun p hp _ => stop_names p hp

theorem rules_names : (isRule 745 1 117 && quiet 745) = true ∧ (isRule 656 1 75 && quiet 656) = true ∧
    (isRule 556 1 61 && quiet 556) = true ∧ (isRule 657 3 75 && quiet 657) = true ∧
    (isRule 658 5 75 && quiet 658) = true ∧ (isRule 747 1 118 && quiet 747) = true := by decide +kernel

/-- The state after the qualifier of a name and the dot. -/
def dotted (s : Int) : Int := if s = 577 ∨ s = 1037 ∨ s = 783 then 535 else 771

theorem reads_dotted : ∀ p ∈ sites, readsAll nestEff p.1 0 [tableId [], lf (sym '.')] 0 = some (dotted p.1, 0) := by
  decide +kernel

theorem reads_dotted2 : readsAll nestEff 535 0 [.node 751 [tableId []], lf (sym '.')] 0 = some (1025, 0) ∧
    readsAll nestEff 771 0 [.node 751 [tableId []], lf (sym '.')] 0 = some (1212, 0) := by decide +kernel

theorem reads_lastName : ∀ p ∈ [((535, 796) : Int × Int), (771, 796), (1025, 1217), (1212, 1217)], ∀ q ∈ stops,
    readsTree nestEff p.1 0 (.node 747 [sqlId []]) q.1 = some (p.2, 0) := by decide +kernel

theorem lastName_reads {s o : Int} {la n : Nat} (hs : (s, o) ∈ [((535, 796) : Int × Int), (771, 796), (1025, 1217), (1212, 1217)])
    (h : Follows n la) (m : Nat) (x : Str) : readsTree nestEff s m (.node 747 [sqlId x]) la = some (o, m) := by
  have e : blank (.node 747 [sqlId x]) = blank (.node 747 [sqlId []]) := rfl
  rw [reads_alike e]
  refine reads_level _ (m' := 0) rfl ?_ m
  exact h.use (P := fun la => readsTree nestEff s 0 (.node 747 [sqlId []]) la = some (o, 0))
    fun q hq _ => reads_lastName (s, o) hs q hq

theorem readsAll_alike {s : Int} {m : Nat} {cs cs' : List (Tree SymType)} (h : blankAll cs = blankAll cs') (la : Nat) :
    readsAll nestEff s m cs la = readsAll nestEff s m cs' la := by
  rw [readsAll_blank nestEff cs, readsAll_blank nestEff cs', h]

theorem readsAll_leafEnd {s : Int} {m : Nat} (cs : List (Tree SymType)) (t : Token) (la la' : Nat) :
    readsAll nestEff s m (cs ++ [lf t]) la = readsAll nestEff s m (cs ++ [lf t]) la' := by
  rw [readsAll_append, readsAll_append]
  rfl

theorem name_column {s : Int} {n k la : Nat} (hs : (s, k) ∈ sites) (h : Follows n la) (m : Nat) (x : Str) :
    readsTree nestEff s m (core (.column x)) la = some (go .value s, m) := by
  have h1 := site_names _ hs
  have h2 := follows_names h
  have h3 := rules_names
  rw [core]
  exact reads_single (reads_single (reads_single (reads_leaf h1.1) h2.1 h3.1 h1.2.1) h2.2.1 h3.2.1 h1.2.2) h2.2.2.1 h3.2.2.1
    (go_value _ hs)

theorem name_qualified {s : Int} {n k la : Nat} (hs : (s, k) ∈ sites) (h : Follows n la) (m : Nat) (t x : Str) :
    readsTree nestEff s m (core (.qualified t x)) la = some (go .value s, m) := by
  have h1 := site_names _ hs
  have h2 := follows_names h
  have h3 := rules_names
  rw [core]
  have e1 : readsAll nestEff s m [tableId t, lf (sym '.')] (headToken [.node 747 [sqlId x]] la) = some (dotted s, m) := by
    have e : readsAll nestEff s m [tableId t, lf (sym '.')] (headToken [.node 747 [sqlId x]] la) =
        readsAll nestEff s m [tableId [], lf (sym '.')] 0 :=
      (readsAll_alike (cs' := [tableId [], lf (sym '.')]) rfl _).trans (readsAll_leafEnd [tableId []] _ _ _)
    exact e.trans (readsAll_level _ rfl (reads_dotted _ hs) m)
  refine reads_single (reads_many (cs := [tableId t, lf (sym '.'), .node 747 [sqlId x]]) (q := 796) (m' := m) ?_
    h2.2.2.2.1 h3.2.2.2.1 h1.2.2) h2.2.2.1 h3.2.2.1 (go_value _ hs)
  rw [show [tableId t, lf (sym '.'), .node 747 [sqlId x]] = [tableId t, lf (sym '.')] ++ [.node 747 [sqlId x]] from rfl,
    readsAll_append, e1]
  show readsAll nestEff (dotted s) m [.node 747 [sqlId x]] la = _
  rw [readsAll_cons (lastName_reads (o := 796) (by unfold dotted; split <;> simp) h m x)]
  rfl

theorem name_full {s : Int} {n k la : Nat} (hs : (s, k) ∈ sites) (h : Follows n la) (m : Nat) (u t x : Str) :
    readsTree nestEff s m (core (.full u t x)) la = some (go .value s, m) := by
  have h1 := site_names _ hs
  have h2 := follows_names h
  have h3 := rules_names
  rw [core]
  have e1 : ∀ la, readsAll nestEff s m [tableId u, lf (sym '.')] la = some (dotted s, m) := fun la =>
    ((readsAll_alike (cs' := [tableId [], lf (sym '.')]) rfl _).trans (readsAll_leafEnd [tableId []] _ _ _)).trans
      (readsAll_level _ rfl (reads_dotted _ hs) m)
  have e2 : ∀ la, readsAll nestEff (dotted s) m [.node 751 [tableId t], lf (sym '.')] la =
      some (if dotted s = 535 then 1025 else 1212, m) := fun la => by
    refine ((readsAll_alike (cs' := [.node 751 [tableId []], lf (sym '.')]) rfl _).trans
      (readsAll_leafEnd [.node 751 [tableId []]] _ _ 0)).trans (readsAll_level _ rfl (m' := 0) ?_ m)
    unfold dotted
    split
    · exact reads_dotted2.1
    · exact reads_dotted2.2
  refine reads_single (reads_many (cs := [tableId u, lf (sym '.'), .node 751 [tableId t], lf (sym '.'), .node 747 [sqlId x]])
    (q := 1217) (m' := m) ?_ h2.2.2.2.2 h3.2.2.2.2.1 h1.2.2) h2.2.2.1 h3.2.2.1 (go_value _ hs)
  rw [show [tableId u, lf (sym '.'), .node 751 [tableId t], lf (sym '.'), .node 747 [sqlId x]] =
    [tableId u, lf (sym '.')] ++ ([.node 751 [tableId t], lf (sym '.')] ++ [.node 747 [sqlId x]]) from rfl,
    readsAll_append, e1]
  show readsAll nestEff (dotted s) m ([.node 751 [tableId t], lf (sym '.')] ++ [.node 747 [sqlId x]]) la = _
  rw [readsAll_append, e2]
  show readsAll nestEff _ m [.node 747 [sqlId x]] la = _
  rw [readsAll_cons (lastName_reads (o := 1217) (by split <;> simp) h m x)]
  rfl

/-! ### Parentheses -/

theorem steady_parens : steady 50 993 = true ∧ (isRule 993 1 207) = true ∧ (isRule 994 1 208) = true := by decide +kernel

theorem reads_open {s o : Int} {m : Nat} (hs : decideAct s (no (sym '(').type) = .shift 50) (hg : gotoState s 207 = some o)
    (hm : m + 1 < 200) (la : Nat) : readsTree nestEff s m openTree la = some (o, m + 1) := by
  have h := steady_parens
  refine reads_node (cs := [lf (sym '(')]) (q := 50) (m' := m) ?_ (steady_reduces h.1 _) h.2.1 hg ?_
  · rw [readsAll_cons (reads_leaf hs)]
    rfl
  · unfold nestEff
    rw [if_pos rfl, if_neg (by omega)]

theorem reads_close {s c o : Int} {m : Nat} (hs : decideAct s (no (sym ')').type) = .shift c) (hc : steady c 994 = true)
    (hg : gotoState s 208 = some o) (la : Nat) : readsTree nestEff s (m + 1) closeTree la = some (o, m) := by
  have h := steady_parens
  refine reads_node (cs := [lf (sym ')')]) (q := c) (m' := m + 1) ?_ (steady_reduces hc _) h.2.2 hg rfl
  rw [readsAll_cons (reads_leaf hs)]
  rfl

/-! ### The present time -/

/-- The states after a word for the present time: without and with what may follow. -/
def nowStates : List (String × Int × Int) :=
  [("current_timestamp", 314, 593), ("utc_timestamp", 315, 595), ("utc_time", 316, 596), ("utc_date", 317, 597),
   ("localtime", 318, 598), ("localtimestamp", 319, 599), ("current_date", 320, 600), ("current_time", 321, 601)]

theorem now_state : ∀ w ∈ nowWords, ∃ p ∈ nowStates, p.1 = w := by decide +kernel

theorem site_now : ∀ p ∈ sites, ∀ w ∈ nowStates, decideAct p.1 (no (kw w.1).type) = .shift w.2.1 ∧
    gotoState p.1 64 = some 289 := by decide +kernel

theorem stop_now : ∀ w ∈ nowStates, ∀ q ∈ stops, readsTree nestEff w.2.1 0 (precisionTree false) q.1 = some (w.2.2, 0) := by
  decide +kernel

theorem rule_now : ∀ w ∈ nowStates, steady w.2.2 (nowRule w.1) = true ∧ (isRule (nowRule w.1) 2 64 && quiet (nowRule w.1)) = true ∧
    steady 289 584 = true ∧ (isRule 584 1 61 && quiet 584) = true ∧
    decideAct w.2.1 (no (sym '(').type) = .shift 50 ∧ gotoState w.2.1 207 = some 594 ∧
    decideAct 594 (no (sym ')').type) = .shift 510 ∧ steady 510 994 = true ∧
    gotoState 594 208 = some 852 ∧ steady 852 614 = true ∧ (isRule 614 2 213 && quiet 614) = true ∧
    gotoState w.2.1 213 = some w.2.2 := by decide +kernel

theorem now_reads {s : Int} {n k la m : Nat} (hs : (s, k) ∈ sites) (h : Follows n la) {w : String} (hw : w ∈ nowWords) (c : Bool)
    (hm : m + (if c then 1 else 0) < 200) : readsTree nestEff s m (core (.now w c)) la = some (go .value s, m) := by
  obtain ⟨p, hp, rfl⟩ := now_state w hw
  obtain ⟨h1, h2⟩ := site_now _ hs p hp
  obtain ⟨r1, r2, r3, r4, r5, r6, r7, r8, r9, r10, r11, r12⟩ := rule_now p hp
  rw [core]
  refine reads_single (reads_many (cs := [lf (kw p.1), precisionTree c]) (q := p.2.2) (m' := m) ?_ (steady_reduces r1 _) r2 h2)
    (steady_reduces r3 _) r4 (go_value _ hs)
  rw [readsAll_cons (reads_leaf h1)]
  have e : readsTree nestEff p.2.1 m (precisionTree c) la = some (p.2.2, m) := by
    cases c with
    | false =>
      refine reads_level _ (m' := 0) rfl ?_ m
      exact h.use (P := fun la => readsTree nestEff p.2.1 0 (precisionTree false) la = some (p.2.2, 0))
        fun q hq _ => stop_now p hp q hq
    | true =>
      refine reads_many (cs := [openTree, closeTree]) (q := 852) (m' := m) ?_ (steady_reduces r10 _) r11 r12
      rw [readsAll_cons (reads_open r5 r6 (by simpa using hm) _), readsAll_cons (reads_close r7 r8 r9 _)]
      rfl
  rw [readsAll_cons e]
  rfl

/-! ### An expression of any sort -/

theorem stop_asExpr : ∀ q ∈ stops, q.2 ≤ 5 → decideAct 270 q.1 = .reduce 517 ∧ decideAct 268 q.1 = .reduce 512 := by
  decide +kernel

theorem rule_asExpr : (isRule 517 1 37 && quiet 517) = true ∧ (isRule 512 1 37 && quiet 512) = true := by decide +kernel

theorem asExpr_reads {e : Ex} {s : Int} {k m la : Nat} (hs : (s, k) ∈ sites) (hk : k ≤ 3) (h : Follows 5 la)
    (hc : readsTree nestEff s m (core e) la = some (go (sortOf e) s, m)) :
    readsTree nestEff s m (asExpr (sortOf e) (core e)) la = some (go .expression s, m) := by
  have h1 := site_value _ hs (Nat.le_trans hk (by decide))
  have h2 := go_expression _ hs hk
  have h3 := h.use (P := fun la => decideAct 270 la = .reduce 517 ∧ decideAct 268 la = .reduce 512)
    fun q hq hl => stop_asExpr q hq hl
  cases hk : sortOf e with
  | value =>
    rw [hk, h1.2.1] at hc
    exact reads_single hc h3.1 rule_asExpr.1 h2
  | condition =>
    rw [hk, h1.2.2] at hc
    exact reads_single hc h3.2 rule_asExpr.2 h2
  | expression =>
    rw [hk] at hc
    exact hc

/-! ### Lists -/

/-- What ends an element of a list. -/
def listEnds : List Nat := [no (sym ')').type, no (sym ',').type]

theorem listEnds_follow {la : Nat} (h : la ∈ listEnds) : Follows 1 la := by
  rcases List.mem_cons.mp h with rfl | h
  · exact follows_of (by decide +kernel)
  · rw [List.mem_singleton] at h
    subst h
    exact follows_of (by decide +kernel)

theorem facts_list : (∀ la ∈ listEnds, decideAct 580 la = .reduce 552 ∧ decideAct 1038 la = .reduce 553) ∧
    (isRule 552 1 69 && quiet 552) = true ∧ (isRule 553 3 69 && quiet 553) = true ∧
    decideAct 579 (no (sym ',').type) = .shift 835 ∧ go .expression 835 = 1038 ∧
    (∀ o ∈ ([303, 581, 1255] : List Int), go .expression o = 580 ∧ gotoState o 69 = some 579 ∧ (o, 1) ∈ sites) ∧
    (835, 1) ∈ sites ∧ decideAct 579 (no (sym ')').type) = .shift 510 ∧ steady 510 994 = true ∧ gotoState 579 208 = some 836 := by
  decide +kernel

theorem facts_args : (∀ la ∈ listEnds, decideAct 266 la = .reduce 452 ∧ decideAct 833 la = .reduce 446 ∧
      decideAct 1224 la = .reduce 447) ∧ (isRule 452 0 120 && quiet 452) = true ∧ gotoState 266 120 = some 527 ∧
    steady 527 449 = true ∧ (isRule 449 2 36 && quiet 449) = true ∧ gotoState 577 36 = some 833 ∧ gotoState 1037 36 = some 1224 ∧
    (isRule 446 1 34 && quiet 446) = true ∧ (isRule 447 3 34 && quiet 447) = true ∧ gotoState 577 34 = some 832 ∧
    decideAct 832 (no (sym ',').type) = .shift 1037 ∧ go .expression 577 = 266 ∧ go .expression 1037 = 266 ∧
    (577, 1) ∈ sites ∧ (1037, 1) ∈ sites := by
  decide +kernel

theorem arg_reads {e : Ex} {s o : Int} {m la : Nat} (hs : (s, 1) ∈ sites) (hg : go .expression s = 266)
    (ho : gotoState s 36 = some o) (h : la ∈ listEnds)
    (hc : readsTree nestEff s m (core e) la = some (go (sortOf e) s, m)) :
    readsTree nestEff s m (argTree (asExpr (sortOf e) (core e))) la = some (o, m) := by
  have f := facts_args
  have h1 := asExpr_reads hs (by decide) ((listEnds_follow h).mono (by decide)) hc
  rw [hg] at h1
  refine reads_many (cs := [asExpr (sortOf e) (core e), .node 452 []]) (q := 527) (m' := m) ?_ (steady_reduces f.2.2.2.1 _)
    f.2.2.2.2.1 ho
  rw [readsAll_cons h1, readsAll_cons (q := 527) (m' := m)]
  · rfl
  · exact reads_many (cs := []) rfl (f.1 la h).1 f.2.1 f.2.2.1

/-! ### Facts about operators -/

/-- The state after an operator. -/
def afterArith : Arith → Int
  | .bitAnd => 543
  | .bitOr => 544
  | .xor => 545
  | .add => 546
  | .sub => 547
  | .mul => 548
  | .div => 549
  | .intDiv => 550
  | .percent => 551
  | .mod => 552
  | .shiftLeft => 553
  | .shiftRight => 554

@[inherit_doc afterArith]
def afterSign : Sign → Int
  | .plus => 282
  | .minus => 283
  | .tilde => 284
  | .bang => 285

theorem shift_arith (op : Arith) : ∀ p ∈ sites, p.2 ≤ op.level →
    decideAct (go .value p.1) (no op.token.type) = .shift (afterArith op) := by
  cases op <;> decide +kernel

theorem end_arith (op : Arith) : (∀ q ∈ stops, q.2 ≤ op.level → decideAct (go .value (afterArith op)) q.1 = .reduce (arithRule op)) ∧
    (isRule (arithRule op) 3 61 && quiet (arithRule op)) = true ∧ (afterArith op, op.level + 1) ∈ sites ∧
    stops.any (fun p => p.1 == no op.token.type && decide (p.2 ≤ op.level)) = true ∧ 6 ≤ op.level := by
  cases op <;> decide +kernel

theorem shift_sign (op : Sign) : ∀ p ∈ sites, decideAct p.1 (no (sym op.char).type) = .shift (afterSign op) := by
  cases op <;> decide +kernel

theorem end_sign (op : Sign) : (∀ q ∈ stops, q.2 ≤ 12 → decideAct (go .value (afterSign op)) q.1 = .reduce (signRule op)) ∧
    (isRule (signRule op) 2 61 && quiet (signRule op)) = true ∧ (afterSign op, 12) ∈ sites := by
  cases op <;> decide +kernel

theorem shift_collate : ∀ p ∈ sites, p.2 ≤ 13 → decideAct (go .value p.1) (no (kw "COLLATE").type) = .shift 555 ∧
    decideAct (go .value p.1) (no castMark.type) = .shift 556 := by decide +kernel

theorem end_collate : (∀ q ∈ stops, q.2 ≤ 13 → decideAct 822 q.1 = .reduce 573) ∧
    (∀ q ∈ stops, decideAct 825 q.1 = .reduce 581) ∧
    (isRule 573 3 61 && quiet 573) = true ∧ (isRule 581 3 61 && quiet 581) = true ∧
    still 555 (.node 624 [lf (named [])]) = some 822 ∧ (∀ w ∈ castWords, still 556 (castToTree (.word w)) = some 825) ∧
    still 556 (castToTree .varying) = some 825 := by decide +kernel

theorem follows_words : Follows 13 (no (kw "COLLATE").type) ∧ Follows 17 (no castMark.type) ∧ Follows 6 (no (kw "IN").type) ∧
    Follows 6 (no (kw "NOT").type) ∧ Follows 6 (no (kw "LIKE").type) ∧ Follows 6 (no (kw "REGEXP").type) ∧
    Follows 6 (no (kw "BETWEEN").type) ∧ Follows 2 (no (kw "AND").type) ∧ Follows 1 (no (kw "OR").type) ∧
    Follows 5 (no (kw "IS").type) :=
  ⟨follows_of (by decide +kernel), follows_of (by decide +kernel), follows_of (by decide +kernel),
   follows_of (by decide +kernel), follows_of (by decide +kernel), follows_of (by decide +kernel),
   follows_of (by decide +kernel), follows_of (by decide +kernel), follows_of (by decide +kernel),
   follows_of (by decide +kernel)⟩

theorem follows_cmp (op : Cmp) : Follows 6 (no op.token.type) := by
  cases op <;> exact follows_of (by decide +kernel)

/-- Comparisons start after a value in the state 270. -/
theorem facts_cmp (op : Cmp) : still 270 (.node (cmpRule op) [lf op.token]) = some 537 := by
  cases op <;> decide +kernel

theorem facts_condition : decideAct 270 (no (kw "IN").type) = .shift 538 ∧ decideAct 270 (no (kw "NOT").type) = .shift 539 ∧
    decideAct 539 (no (kw "IN").type) = .shift 803 ∧ decideAct 270 (no (kw "LIKE").type) = .shift 540 ∧
    decideAct 539 (no (kw "LIKE").type) = .shift 804 ∧ decideAct 270 (no (kw "REGEXP").type) = .shift 541 ∧
    decideAct 539 (no (kw "REGEXP").type) = .shift 805 ∧ decideAct 270 (no (kw "BETWEEN").type) = .shift 542 ∧
    decideAct 809 (no (kw "AND").type) = .shift 1033 ∧ decideAct 539 (no (kw "BETWEEN").type) = .shift 806 ∧
    decideAct 1030 (no (kw "AND").type) = .shift 1220 := by decide +kernel

theorem goes_condition : go .value 537 = 798 ∧ go .value 540 = 807 ∧ go .value 804 = 1028 ∧ go .value 541 = 808 ∧
    go .value 805 = 1029 ∧ go .value 542 = 809 ∧ go .value 1033 = 1222 ∧ go .value 806 = 1030 ∧ go .value 1220 = 1356 := by
  decide +kernel

theorem sites_condition : (537, 6) ∈ sites ∧ (540, 6) ∈ sites ∧ (804, 6) ∈ sites ∧ (541, 6) ∈ sites ∧ (805, 6) ∈ sites ∧
    (542, 6) ∈ sites ∧ (1033, 6) ∈ sites ∧ (806, 6) ∈ sites ∧ (1220, 6) ∈ sites := by decide +kernel

theorem ends_condition : ∀ q ∈ stops, q.2 ≤ 5 → decideAct 798 q.1 = .reduce 523 ∧ decideAct 807 q.1 = .reduce 546 ∧
    decideAct 1028 q.1 = .reduce 546 ∧ decideAct 808 q.1 = .reduce 528 ∧ decideAct 1029 q.1 = .reduce 529 ∧
    decideAct 1222 q.1 = .reduce 530 ∧ decideAct 1356 q.1 = .reduce 531 := by decide +kernel

theorem rules_condition : (isRule 523 3 56 && quiet 523) = true ∧ (isRule 526 4 56 && quiet 526) = true ∧
    (isRule 527 5 56 && quiet 527) = true ∧ (isRule 528 3 56 && quiet 528) = true ∧ (isRule 529 4 56 && quiet 529) = true ∧
    (isRule 530 5 56 && quiet 530) = true ∧ (isRule 531 6 56 && quiet 531) = true ∧ (isRule 524 3 56 && quiet 524) = true ∧
    (isRule 525 4 56 && quiet 525) = true ∧ (isRule 546 0 33 && quiet 546) = true := by decide +kernel

/-- The ends of `LIKE`, and the tuple of `IN`. -/
theorem facts_like : gotoState 807 33 = some 1031 ∧ steady 1031 526 = true ∧ gotoState 1028 33 = some 1219 ∧
    steady 1219 527 = true := by decide +kernel

theorem facts_in : ∀ o ∈ [((538, 800, 799) : Int × Int × Int), (803, 800, 1027)],
    decideAct o.1 (no (sym '(').type) = .shift 50 ∧ gotoState o.1 207 = some 303 ∧ gotoState o.1 71 = some o.2.1 ∧
    steady o.2.1 548 = true ∧ gotoState o.1 68 = some o.2.2 := by decide +kernel

theorem facts_in2 : steady 799 524 = true ∧ steady 1027 525 = true ∧ steady 836 705 = true ∧
    (isRule 705 3 71 && quiet 705) = true ∧ (isRule 548 1 68 && quiet 548) = true ∧ steady 302 706 = true ∧
    (isRule 706 1 73 && quiet 706) = true ∧ steady 278 557 = true ∧ (isRule 557 1 61 && quiet 557) = true := by decide +kernel

/-- The state after a parenthesis. -/
def opened (s : Int) : Int := if s = 303 ∨ s = 581 then 581 else 303

theorem facts_tuple : ∀ p ∈ sites, decideAct p.1 (no (sym '(').type) = .shift 50 ∧ gotoState p.1 207 = some (opened p.1) ∧
    gotoState p.1 71 = some 302 ∧ gotoState p.1 73 = some 278 ∧ gotoState p.1 65 = some 287 := by decide +kernel

theorem facts_call : decideAct 272 (no (sym '(').type) = .reduce 745 ∧ decideAct 301 (no (sym '(').type) = .shift 50 ∧
    gotoState 301 207 = some 577 ∧ readsTree (V := SymType) nestEff 577 0 (.node 444 []) (no (sym ')').type) = some (830, 0) ∧
    decideAct 832 (no (sym ')').type) = .reduce 445 ∧ (isRule 445 1 35 && quiet 445) = true ∧ gotoState 577 35 = some 830 ∧
    decideAct 830 (no (sym ')').type) = .shift 510 ∧ steady 510 994 = true ∧ gotoState 830 208 = some 1035 ∧
    steady 1035 586 = true ∧ (isRule 586 4 65 && quiet 586) = true ∧ steady 287 582 = true ∧
    (isRule 582 1 61 && quiet 582) = true := by decide +kernel

theorem facts_expr : ∀ p ∈ sites, p.2 ≤ 3 →
    decideAct (go .expression p.1) (no (kw "IS").type) = .shift 530 ∧
    (p.2 ≤ 2 → decideAct (go .expression p.1) (no (kw "AND").type) = .shift 528) ∧
    (p.2 ≤ 1 → decideAct (go .expression p.1) (no (kw "OR").type) = .shift 529) ∧
    decideAct p.1 (no (kw "NOT").type) = .shift 269 := by decide +kernel

theorem ends_expr : (∀ q ∈ stops, q.2 ≤ 1 → decideAct (go .expression 529) q.1 = .reduce 514) ∧
    (∀ q ∈ stops, q.2 ≤ 2 → decideAct (go .expression 528) q.1 = .reduce 513) ∧
    (∀ q ∈ stops, q.2 ≤ 3 → decideAct (go .expression 269) q.1 = .reduce 515) ∧ steady 788 516 = true ∧
    (isRule 514 3 37 && quiet 514) = true ∧ (isRule 513 3 37 && quiet 513) = true ∧ (isRule 515 2 37 && quiet 515) = true ∧
    (isRule 516 3 37 && quiet 516) = true ∧ (529, 2) ∈ sites ∧ (528, 3) ∈ sites ∧ (269, 3) ∈ sites := by decide +kernel

theorem facts_is (neg : Bool) (w : IsWhat) : still 530 (isTree neg w) = some 788 := by
  cases neg <;> cases w <;> decide +kernel

end Sqldef.Sql
