import Verif.Proofs.ExReadsAll

/-! The induction over expressions. -/
namespace Sqldef.Sql
open Spec Yy Written

theorem headToken_lf (t : Token) (cs : List (Tree SymType)) (la : Nat) : headToken (lf t :: cs) la = no t.type := rfl

theorem headToken_close (cs : List (Tree SymType)) (la : Nat) : headToken (closeTree :: cs) la = no (sym ')').type := rfl

theorem listEnd_close : no (sym ')').type ∈ listEnds := List.mem_cons_self
theorem listEnd_comma : no (sym ',').type ∈ listEnds := List.mem_cons_of_mem _ List.mem_cons_self

theorem all_cons {s q : Int} {m m' la x : Nat} {c : Tree SymType} {cs : List (Tree SymType)} {r : Option (Int × Nat)}
    (h : readsTree nestEff s m c x = some (q, m')) (hx : headToken cs la = x) (hr : readsAll nestEff q m' cs la = r) :
    readsAll nestEff s m (c :: cs) la = r := by
  subst hx
  rw [readsAll_cons h, hr]

/-- The claim about one expression. -/
def ReadsAt (e : Ex) (s : Int) (m la : Nat) : Prop :=
  readsTree nestEff s m (core e) la = some (go (sortOf e) s, m)

/-- The claim about all expressions. -/
def Reads (e : Ex) : Prop :=
  ∀ (s : Int) (k m la : Nat), (s, k) ∈ sites → k ≤ e.level → Follows e.level la → m + e.depth < 200 → ReadsAt e s m la

theorem level_pos (e : Ex) : 1 ≤ e.level := by
  cases e with
  | arith op l r => cases op <;> simp [Ex.level, Arith.level]
  | _ => simp [Ex.level]

theorem Reads.value {e : Ex} (h : Reads e) (hl : 6 ≤ e.level) {s : Int} {k m la : Nat} (hs : (s, k) ∈ sites) (hk : k ≤ e.level)
    (hf : Follows e.level la) (hm : m + e.depth < 200) : readsTree nestEff s m (core e) la = some (go .value s, m) := by
  have := h _ _ _ _ hs hk hf hm
  rw [ReadsAt, value_of_level hl] at this
  exact this

/-- An expression where one may start. -/
theorem Reads.expr {e : Ex} (h : Reads e) {s : Int} {k m la : Nat} (hs : (s, k) ∈ sites) (h3 : k ≤ 3) (hk : k ≤ e.level)
    (hf : Follows 5 la) (hf' : Follows e.level la) (hm : m + e.depth < 200) :
    readsTree nestEff s m (asExpr (sortOf e) (core e)) la = some (go .expression s, m) :=
  asExpr_reads hs h3 hf (h _ _ _ _ hs hk hf' hm)

theorem Reads.element {e : Ex} (h : Reads e) {s : Int} {m la : Nat} (hs : (s, 1) ∈ sites) (hf : la ∈ listEnds)
    (hm : m + e.depth < 200) : readsTree nestEff s m (asExpr (sortOf e) (core e)) la = some (go .expression s, m) :=
  h.expr hs (by decide) (level_pos e) ((listEnds_follow hf).mono (by decide)) ((listEnds_follow hf).mono (level_pos e)) hm

theorem list_step {e : Ex} (h : Reads e) {o : Int} (ho : o ∈ ([303, 581, 1255] : List Int)) {d : Tree SymType} {m la : Nat}
    (hd : ∀ la ∈ listEnds, readsTree nestEff o m d la = some (579, m)) (hla : la ∈ listEnds) (hm : m + e.depth < 200) :
    readsTree nestEff o m (.node 553 [d, lf (sym ','), asExpr (sortOf e) (core e)]) la = some (579, m) := by
  obtain ⟨f1, f2, f3, f4, f5, f6, f7, _⟩ := facts_list
  refine reads_many (cs := [d, lf (sym ','), asExpr (sortOf e) (core e)]) (q := 1038) (m' := m) ?_ (f1 la hla).2 f3 (f6 o ho).2.1
  have := h.element f7 hla hm
  rw [f5] at this
  exact all_cons (hd _ listEnd_comma) rfl <|
    all_cons (reads_leaf f4) rfl <|
    all_cons this rfl rfl

theorem list_first {e : Ex} (h : Reads e) {o : Int} (ho : o ∈ ([303, 581, 1255] : List Int)) {m la : Nat} (hla : la ∈ listEnds)
    (hm : m + e.depth < 200) : readsTree nestEff o m (.node 552 [asExpr (sortOf e) (core e)]) la = some (579, m) := by
  obtain ⟨f1, f2, f3, f4, f5, f6, f7, _⟩ := facts_list
  have := h.element (f6 o ho).2.2 hla hm
  rw [(f6 o ho).1] at this
  exact reads_single this (f1 la hla).1 f2 (f6 o ho).2.1

theorem args_step {e : Ex} (h : Reads e) {d : Tree SymType} {m la : Nat}
    (hd : ∀ la ∈ listEnds, readsTree nestEff 577 m d la = some (832, m)) (hla : la ∈ listEnds) (hm : m + e.depth < 200) :
    readsTree nestEff 577 m (.node 447 [d, lf (sym ','), argTree (asExpr (sortOf e) (core e))]) la = some (832, m) := by
  obtain ⟨f1, f2, f3, f4, f5, f6, f7, f8, f9, f10, f11, f12, f13, f14, f15⟩ := facts_args
  refine reads_many (cs := [d, lf (sym ','), argTree (asExpr (sortOf e) (core e))]) (q := 1224) (m' := m) ?_ (f1 la hla).2.2 f9 f10
  have hf := listEnds_follow hla
  exact all_cons (hd _ listEnd_comma) rfl <|
    all_cons (reads_leaf f11) rfl <|
    all_cons (arg_reads f15 f13 f7 hla (h _ _ _ _ f15 (level_pos e) (hf.mono (level_pos e)) hm)) rfl rfl

theorem args_first {e : Ex} (h : Reads e) {m la : Nat} (hla : la ∈ listEnds) (hm : m + e.depth < 200) :
    readsTree nestEff 577 m (.node 446 [argTree (asExpr (sortOf e) (core e))]) la = some (832, m) := by
  obtain ⟨f1, f2, f3, f4, f5, f6, f7, f8, f9, f10, f11, f12, f13, f14, f15⟩ := facts_args
  have hf := listEnds_follow hla
  exact reads_single (arg_reads f14 f12 f6 hla (h _ _ _ _ f14 (level_pos e) (hf.mono (level_pos e)) hm)) (f1 la hla).2.1 f8 f10

/-- A list in parentheses. -/
theorem parens_reads {s o r : Int} {d : Tree SymType} {m la : Nat} (hs : decideAct s (no (sym '(').type) = .shift 50)
    (hg : gotoState s 207 = some o) (hr : gotoState s 71 = some r) (hm : m + 1 < 200)
    (hd : readsTree nestEff o (m + 1) d (no (sym ')').type) = some (579, m + 1)) :
    readsTree nestEff s m (.node 705 [openTree, d, closeTree]) la = some (r, m) := by
  obtain ⟨_, _, _, _, _, _, _, f8, f9, f10⟩ := facts_list
  obtain ⟨_, _, g3, g4, _⟩ := facts_in2
  refine reads_many (cs := [openTree, d, closeTree]) (q := 836) (m' := m) ?_ (steady_reduces g3 _) g4 hr
  exact all_cons (reads_open hs hg hm _) rfl <|
    all_cons hd rfl <|
    all_cons (reads_close f8 f9 f10 _) rfl rfl

theorem opened_mem (s : Int) : opened s ∈ ([303, 581, 1255] : List Int) := by
  unfold opened
  split <;> simp

theorem tuple_reads {s : Int} {k m la : Nat} {d : Tree SymType} (hs : (s, k) ∈ sites) (hm : m + 1 < 200)
    (hd : readsTree nestEff (opened s) (m + 1) d (no (sym ')').type) = some (579, m + 1)) :
    readsTree nestEff s m (.node 557 [.node 706 [.node 705 [openTree, d, closeTree]]]) la = some (go .value s, m) := by
  obtain ⟨_, _, _, _, _, g6, g7, g8, g9⟩ := facts_in2
  obtain ⟨h1, h2, h3, h4, _⟩ := facts_tuple _ hs
  exact reads_single (reads_single (parens_reads h1 h2 h3 hm hd) (steady_reduces g6 _) g7 h4) (steady_reduces g8 _) g9
    (go_value _ hs)

theorem in_reads {o : Int × Int × Int} (ho : o ∈ [((538, 800, 799) : Int × Int × Int), (803, 800, 1027)]) {m la : Nat}
    {d : Tree SymType} (hm : m + 1 < 200)
    (hd : readsTree nestEff 303 (m + 1) d (no (sym ')').type) = some (579, m + 1)) :
    readsTree nestEff o.1 m (.node 548 [.node 705 [openTree, d, closeTree]]) la = some (o.2.2, m) := by
  obtain ⟨_, _, _, _, g5, _⟩ := facts_in2
  obtain ⟨h1, h2, h3, h4, h5⟩ := facts_in o ho
  exact reads_single (parens_reads h1 h2 h3 hm hd) (steady_reduces h4 _) g5 h5

theorem call_reads {s : Int} {k m la : Nat} {f : Str} {d : Tree SymType} (hs : (s, k) ∈ sites) (hm : m + 1 < 200)
    (hd : readsTree nestEff 577 (m + 1) d (no (sym ')').type) = some (830, m + 1)) :
    readsTree nestEff s m (.node 582 [.node 586 [sqlId f, openTree, d, closeTree]]) la = some (go .value s, m) := by
  obtain ⟨c1, c2, c3, c4, c5, c6, c7, c8, c9, c10, c11, c12, c13, c14⟩ := facts_call
  obtain ⟨h1, h2, h3, h4, h5⟩ := facts_tuple _ hs
  have n1 := site_names _ hs
  refine reads_single (reads_many (cs := [sqlId f, openTree, d, closeTree]) (q := 1035) (m' := m) ?_ (steady_reduces c11 _) c12 h5)
    (steady_reduces c13 _) c14 (go_value _ hs)
  exact all_cons (reads_single (reads_leaf n1.1) c1 rules_names.1 n1.2.1) rfl <|
    all_cons (reads_open c2 c3 hm _) rfl <|
    all_cons hd rfl <|
    all_cons (reads_close c8 c9 c10 _) rfl rfl

/-- A condition with one more value after the operator. -/
theorem condition_reads {s : Int} {k m la r : Nat} {cs : List (Tree SymType)} {q : Int} (hs : (s, k) ∈ sites) (hk : k ≤ 5)
    (h : readsAll nestEff s m cs la = some (q, m)) (hd : decideAct q la = .reduce r)
    (hr : (isRule r cs.length 56 && quiet r) = true) :
    readsTree nestEff s m (.node r cs) la = some (go .condition s, m) :=
  reads_many h hd hr (go_condition _ hs hk)

theorem Reads.left {e : Ex} (h : Reads e) (hl : 6 ≤ e.level) {s : Int} {k m la : Nat} (hs : (s, k) ∈ sites) (hk : k ≤ 5)
    (hf : Follows 6 la) (hm : m + e.depth < 200) : readsTree nestEff s m (core e) la = some (270, m) := by
  have := h.value hl hs (by omega) (hf.mono hl) hm
  rw [(site_value _ hs hk).2.1] at this
  exact this

theorem Reads.right {e : Ex} (h : Reads e) (hl : 6 ≤ e.level) {s q : Int} {m la : Nat} (hs : (s, 6) ∈ sites)
    (hq : go .value s = q) (hf : Follows 6 la) (hm : m + e.depth < 200) :
    readsTree nestEff s m (core e) la = some (q, m) := by
  rw [← hq]
  exact h.value hl hs hl (hf.mono hl) hm

theorem like_end {q o : Int} {m la : Nat} (h : decideAct q la = .reduce 546) (hg : gotoState q 33 = some o) :
    readsTree (V := SymType) nestEff q m (.node 546 []) la = some (o, m) :=
  reads_many (cs := []) rfl h rules_condition.2.2.2.2.2.2.2.2.2 hg

theorem stop5 {la : Nat} (h : Follows 5 la) : decideAct 798 la = .reduce 523 ∧ decideAct 807 la = .reduce 546 ∧
    decideAct 1028 la = .reduce 546 ∧ decideAct 808 la = .reduce 528 ∧ decideAct 1029 la = .reduce 529 ∧
    decideAct 1222 la = .reduce 530 ∧ decideAct 1356 la = .reduce 531 :=
  h.use (P := fun la => decideAct 798 la = .reduce 523 ∧ decideAct 807 la = .reduce 546 ∧
    decideAct 1028 la = .reduce 546 ∧ decideAct 808 la = .reduce 528 ∧ decideAct 1029 la = .reduce 529 ∧
    decideAct 1222 la = .reduce 530 ∧ decideAct 1356 la = .reduce 531) ends_condition

theorem simple_reads {e e' : Ex} (he : e' ∈ simpleEx) (hb : blank (core e) = blank (core e')) {s : Int} {k : Nat}
    (hs : (s, k) ∈ sites) (m la : Nat) : readsTree nestEff s m (core e) la = some (go .value s, m) := by
  rw [reads_alike hb]
  exact reads_still _ (reads_simple _ hs e' he) m la

theorem arith_reads (op : Arith) {l r : Ex} (hl : Reads l) (hr : Reads r) (h1 : op.level ≤ l.level) (h2 : op.level < r.level)
    {s : Int} {k m la : Nat} (hs : (s, k) ∈ sites) (hk : k ≤ op.level) (hf : Follows op.level la)
    (hml : m + l.depth < 200) (hmr : m + r.depth < 200) : ReadsAt (.arith op l r) s m la := by
  obtain ⟨e1, e2, e3, e4, e5⟩ := end_arith op
  have l6 : 6 ≤ l.level := Nat.le_trans e5 h1
  have r6 : 6 ≤ r.level := Nat.le_trans e5 (Nat.le_of_lt h2)
  have c1 := hl.value l6 hs (Nat.le_trans hk h1) ((follows_of e4).mono h1) hml
  have c2 := hr.value r6 e3 h2 (hf.mono (Nat.le_of_lt h2)) hmr
  rw [ReadsAt, core]
  refine reads_many (cs := [core l, lf op.token, core r]) (q := go .value (afterArith op)) (m' := m) ?_
    (hf.use (P := fun la => decideAct (go .value (afterArith op)) la = .reduce (arithRule op)) e1) e2 (go_value _ hs)
  exact all_cons c1 rfl <| all_cons (reads_leaf (shift_arith op (s, k) hs hk)) rfl <| all_cons c2 rfl rfl

mutual
theorem core_reads : ∀ e : Ex, e.Proper → Reads e
  | .string x, _ => fun _ _ _ _ hs _ _ _ => simple_reads (e' := .string []) (by simp [simpleEx]) (by rw [core, core]; rfl) hs _ _
  | .integer x, _ => fun _ _ _ _ hs _ _ _ => simple_reads (e' := .integer []) (by simp [simpleEx]) (by rw [core, core]; rfl) hs _ _
  | .float x, _ => fun _ _ _ _ hs _ _ _ => simple_reads (e' := .float []) (by simp [simpleEx]) (by rw [core, core]; rfl) hs _ _
  | .bits x, _ => fun _ _ _ _ hs _ _ _ => simple_reads (e' := .bits []) (by simp [simpleEx]) (by rw [core, core]; rfl) hs _ _
  | .null, _ => fun _ _ _ _ hs _ _ _ => simple_reads (e' := .null) (by simp [simpleEx]) rfl hs _ _
  | .bool true, _ => fun _ _ _ _ hs _ _ _ => simple_reads (e' := .bool true) (by simp [simpleEx]) rfl hs _ _
  | .bool false, _ => fun _ _ _ _ hs _ _ _ => simple_reads (e' := .bool false) (by simp [simpleEx]) rfl hs _ _
  | .now w c, h => fun _ _ _ _ hs _ hf hm => by
    rw [Ex.Proper] at h
    rw [Ex.depth] at hm
    exact now_reads hs hf h c hm
  | .column n, _ => fun _ _ _ _ hs _ hf _ => name_column hs hf _ n
  | .qualified t n, _ => fun _ _ _ _ hs _ hf _ => name_qualified hs hf _ t n
  | .full u t n, _ => fun _ _ _ _ hs _ hf _ => name_full hs hf _ u t n
  | .call f [], _ => fun _ _ _ _ hs _ _ hm => by
    rw [Ex.depth] at hm
    rw [ReadsAt, core]
    exact call_reads hs (by omega) (reads_level _ rfl facts_call.2.2.2.1 _)
  | .call f (a :: as), h => fun s k m la hs _ _ hm => by
    rw [Ex.Proper, Ex.AllProper] at h
    rw [Ex.depth, Ex.depths] at hm
    obtain ⟨_, _, _, _, c5, c6, c7, _⟩ := facts_call
    rw [ReadsAt, core]
    refine call_reads hs (by omega) ?_
    exact reads_single (args_reads _ as h.2 (m := m + 1)
      (fun la hla => args_first (core_reads a h.1) hla (by omega)) (by omega) _ listEnd_close) c5 c6 c7
  | .tuple a as, h => fun s k m la hs _ _ hm => by
    rw [Ex.Proper] at h
    rw [Ex.depth] at hm
    rw [ReadsAt, core]
    refine tuple_reads hs (by omega) ?_
    exact list_reads _ as h.2 (opened_mem s)
      (fun la hla => list_first (core_reads a h.1) (opened_mem s) hla (by omega)) (by omega) _ listEnd_close
  | .cast e t, h => fun s k m la hs hk hf hm => by
    rw [Ex.Proper] at h
    rw [Ex.level] at hk hf
    rw [Ex.depth] at hm
    obtain ⟨e1, e2, e3, e4, e5, e6, e7⟩ := end_collate
    have hsite : k ≤ 13 := by
      have : ∀ p ∈ sites, p.2 ≤ 13 := by decide
      exact this _ hs
    have ht : still 556 (castToTree t) = some 825 := by
      cases t with
      | word w => exact e6 w (h.2.1 w rfl)
      | varying => exact e7
    rw [ReadsAt, core]
    refine reads_many (cs := [core e, lf castMark, castToTree t]) (q := 825) (m' := m) ?_
      (hf.use (P := fun la => decideAct 825 la = .reduce 581) fun q hq _ => e2 q hq) e4 (go_value _ hs)
    exact all_cons ((core_reads e h.2.2).value (by omega) hs (by omega) (follows_words.2.1.mono h.1) hm) rfl <|
      all_cons (reads_leaf (shift_collate (s, k) hs hsite).2) rfl <|
      all_cons (reads_still _ ht m _) rfl rfl
  | .collate e n, h => fun s k m la hs hk hf hm => by
    rw [Ex.Proper] at h
    rw [Ex.level] at hk hf
    rw [Ex.depth] at hm
    obtain ⟨e1, e2, e3, e4, e5, e6, e7⟩ := end_collate
    rw [ReadsAt, core]
    refine reads_many (cs := [core e, lf (kw "COLLATE"), .node 624 [lf (named n)]]) (q := 822) (m' := m) ?_
      (hf.use (P := fun la => decideAct 822 la = .reduce 573) e1) e3 (go_value _ hs)
    exact all_cons ((core_reads e h.2).value (by omega) hs (by omega) (follows_words.1.mono h.1) hm) rfl <|
      all_cons (reads_leaf (shift_collate (s, k) hs hk).1) rfl <|
      all_cons ((reads_alike (d' := .node 624 [lf (named [])]) rfl _).trans (reads_still _ e5 m _)) rfl rfl
  | .sign op e, h => fun s k m la hs hk hf hm => by
    rw [Ex.Proper] at h
    rw [Ex.level] at hk hf
    rw [Ex.depth] at hm
    obtain ⟨e1, e2, e3⟩ := end_sign op
    rw [ReadsAt, core]
    refine reads_many (cs := [lf (sym op.char), core e]) (q := go .value (afterSign op)) (m' := m) ?_
      (hf.use (P := fun la => decideAct (go .value (afterSign op)) la = .reduce (signRule op)) e1) e2 (go_value _ hs)
    exact all_cons (reads_leaf (shift_sign op _ hs)) rfl <|
      all_cons ((core_reads e h.2).value (by omega) e3 h.1 (hf.mono h.1) hm) rfl rfl
  | .arith op l r, h => fun s k m la hs hk hf hm => by
    rw [Ex.Proper] at h
    rw [Ex.level] at hk hf
    rw [Ex.depth] at hm
    exact arith_reads op (core_reads l h.2.1) (core_reads r h.2.2) h.1.1 h.1.2 hs hk hf
      (Nat.lt_of_le_of_lt (Nat.add_le_add_left (Nat.le_max_left _ _) _) hm)
      (Nat.lt_of_le_of_lt (Nat.add_le_add_left (Nat.le_max_right _ _) _) hm)
  | .compare op l r, h => fun s k m la hs hk hf hm => by
    rw [Ex.Proper] at h
    rw [Ex.level] at hk hf
    rw [Ex.depth] at hm
    rw [ReadsAt, core]
    refine condition_reads hs hk ?_ (stop5 hf).1 rules_condition.1
    exact all_cons ((core_reads l h.2.1).left h.1.1 hs hk (follows_cmp op) (by omega)) rfl <|
      all_cons (reads_still _ (facts_cmp op) m _) rfl <|
      all_cons ((core_reads r h.2.2).right h.1.2 sites_condition.1 goes_condition.1 (hf.mono (by decide)) (by omega)) rfl rfl
  | .like false l r, h => fun s k m la hs hk hf hm => by
    rw [Ex.Proper] at h
    rw [Ex.level] at hk hf
    rw [Ex.depth] at hm
    obtain ⟨c1, c2, c3, c4, c5, c6, c7, c8, c9, c10, c11⟩ := facts_condition
    obtain ⟨s1, s2, s3, s4, s5, s6, s7, s8, s9⟩ := sites_condition
    obtain ⟨g1, g2, g3, g4, g5, g6, g7, g8, g9⟩ := goes_condition
    obtain ⟨_, _, w3, w4, w5, w6, w7, w8, _⟩ := follows_words
    rw [ReadsAt, core]
    refine condition_reads hs hk ?_ (steady_reduces facts_like.2.1 _) rules_condition.2.1
    exact all_cons ((core_reads l h.2.1).left h.1.1 hs hk w5 (by omega)) rfl <|
      all_cons (reads_leaf c4) rfl <|
      all_cons ((core_reads r h.2.2).right h.1.2 s2 g2 (hf.mono (by decide)) (by omega)) rfl <|
      all_cons (like_end (stop5 hf).2.1 facts_like.1) rfl rfl
  | .like true l r, h => fun s k m la hs hk hf hm => by
    rw [Ex.Proper] at h
    rw [Ex.level] at hk hf
    rw [Ex.depth] at hm
    obtain ⟨c1, c2, c3, c4, c5, c6, c7, c8, c9, c10, c11⟩ := facts_condition
    obtain ⟨s1, s2, s3, s4, s5, s6, s7, s8, s9⟩ := sites_condition
    obtain ⟨g1, g2, g3, g4, g5, g6, g7, g8, g9⟩ := goes_condition
    obtain ⟨_, _, w3, w4, w5, w6, w7, w8, _⟩ := follows_words
    rw [ReadsAt, core]
    refine condition_reads hs hk ?_ (steady_reduces facts_like.2.2.2 _) rules_condition.2.2.1
    exact all_cons ((core_reads l h.2.1).left h.1.1 hs hk w4 (by omega)) rfl <|
      all_cons (reads_leaf c2) rfl <|
      all_cons (reads_leaf c5) rfl <|
      all_cons ((core_reads r h.2.2).right h.1.2 s3 g3 (hf.mono (by decide)) (by omega)) rfl <|
      all_cons (like_end (stop5 hf).2.2.1 facts_like.2.2.1) rfl rfl
  | .regexp false l r, h => fun s k m la hs hk hf hm => by
    rw [Ex.Proper] at h
    rw [Ex.level] at hk hf
    rw [Ex.depth] at hm
    obtain ⟨c1, c2, c3, c4, c5, c6, c7, c8, c9, c10, c11⟩ := facts_condition
    obtain ⟨s1, s2, s3, s4, s5, s6, s7, s8, s9⟩ := sites_condition
    obtain ⟨g1, g2, g3, g4, g5, g6, g7, g8, g9⟩ := goes_condition
    obtain ⟨_, _, w3, w4, w5, w6, w7, w8, _⟩ := follows_words
    rw [ReadsAt, core]
    refine condition_reads hs hk ?_ (stop5 hf).2.2.2.1 rules_condition.2.2.2.1
    exact all_cons ((core_reads l h.2.1).left h.1.1 hs hk w6 (by omega)) rfl <|
      all_cons (reads_leaf c6) rfl <|
      all_cons ((core_reads r h.2.2).right h.1.2 s4 g4 (hf.mono (by decide)) (by omega)) rfl rfl
  | .regexp true l r, h => fun s k m la hs hk hf hm => by
    rw [Ex.Proper] at h
    rw [Ex.level] at hk hf
    rw [Ex.depth] at hm
    obtain ⟨c1, c2, c3, c4, c5, c6, c7, c8, c9, c10, c11⟩ := facts_condition
    obtain ⟨s1, s2, s3, s4, s5, s6, s7, s8, s9⟩ := sites_condition
    obtain ⟨g1, g2, g3, g4, g5, g6, g7, g8, g9⟩ := goes_condition
    obtain ⟨_, _, w3, w4, w5, w6, w7, w8, _⟩ := follows_words
    rw [ReadsAt, core]
    refine condition_reads hs hk ?_ (stop5 hf).2.2.2.2.1 rules_condition.2.2.2.2.1
    exact all_cons ((core_reads l h.2.1).left h.1.1 hs hk w4 (by omega)) rfl <|
      all_cons (reads_leaf c2) rfl <|
      all_cons (reads_leaf c7) rfl <|
      all_cons ((core_reads r h.2.2).right h.1.2 s5 g5 (hf.mono (by decide)) (by omega)) rfl rfl
  | .among false l a as, h => fun s k m la hs hk hf hm => by
    rw [Ex.Proper] at h
    rw [Ex.level] at hk hf
    rw [Ex.depth] at hm
    obtain ⟨c1, c2, c3, c4, c5, c6, c7, c8, c9, c10, c11⟩ := facts_condition
    obtain ⟨_, _, w3, w4, w5, w6, w7, w8, _⟩ := follows_words
    rw [ReadsAt, core]
    refine condition_reads hs hk ?_ (steady_reduces facts_in2.1 _) rules_condition.2.2.2.2.2.2.2.1
    have := list_reads _ as h.2.2.2 (o := 303) (m := m + 1) (by simp)
      (fun la hla => list_first (core_reads a h.2.2.1) (by simp) hla (by omega)) (by omega) _ listEnd_close
    exact all_cons ((core_reads l h.2.1).left h.1 hs hk w3 (by omega)) rfl <|
      all_cons (reads_leaf c1) rfl <|
      all_cons (in_reads (o := (538, 800, 799)) (by simp) (by omega) this) rfl rfl
  | .among true l a as, h => fun s k m la hs hk hf hm => by
    rw [Ex.Proper] at h
    rw [Ex.level] at hk hf
    rw [Ex.depth] at hm
    obtain ⟨c1, c2, c3, c4, c5, c6, c7, c8, c9, c10, c11⟩ := facts_condition
    obtain ⟨_, _, w3, w4, w5, w6, w7, w8, _⟩ := follows_words
    rw [ReadsAt, core]
    refine condition_reads hs hk ?_ (steady_reduces facts_in2.2.1 _) rules_condition.2.2.2.2.2.2.2.2.1
    have := list_reads _ as h.2.2.2 (o := 303) (m := m + 1) (by simp)
      (fun la hla => list_first (core_reads a h.2.2.1) (by simp) hla (by omega)) (by omega) _ listEnd_close
    exact all_cons ((core_reads l h.2.1).left h.1 hs hk w4 (by omega)) rfl <|
      all_cons (reads_leaf c2) rfl <|
      all_cons (reads_leaf c3) rfl <|
      all_cons (in_reads (o := (803, 800, 1027)) (by simp) (by omega) this) rfl rfl
  | .between false l a b, h => fun s k m la hs hk hf hm => by
    rw [Ex.Proper] at h
    rw [Ex.level] at hk hf
    rw [Ex.depth] at hm
    obtain ⟨c1, c2, c3, c4, c5, c6, c7, c8, c9, c10, c11⟩ := facts_condition
    obtain ⟨s1, s2, s3, s4, s5, s6, s7, s8, s9⟩ := sites_condition
    obtain ⟨g1, g2, g3, g4, g5, g6, g7, g8, g9⟩ := goes_condition
    obtain ⟨_, _, w3, w4, w5, w6, w7, w8, _⟩ := follows_words
    rw [ReadsAt, core]
    refine condition_reads hs hk ?_ (stop5 hf).2.2.2.2.2.1 rules_condition.2.2.2.2.2.1
    exact all_cons ((core_reads l h.2.1).left h.1.1 hs hk w7 (by omega)) rfl <|
      all_cons (reads_leaf c8) rfl <|
      all_cons ((core_reads a h.2.2.1).right h.1.2.1 s6 g6 (w8.mono (by decide)) (by omega)) rfl <|
      all_cons (reads_leaf c9) rfl <|
      all_cons ((core_reads b h.2.2.2).right h.1.2.2 s7 g7 (hf.mono (by decide)) (by omega)) rfl rfl
  | .between true l a b, h => fun s k m la hs hk hf hm => by
    rw [Ex.Proper] at h
    rw [Ex.level] at hk hf
    rw [Ex.depth] at hm
    obtain ⟨c1, c2, c3, c4, c5, c6, c7, c8, c9, c10, c11⟩ := facts_condition
    obtain ⟨s1, s2, s3, s4, s5, s6, s7, s8, s9⟩ := sites_condition
    obtain ⟨g1, g2, g3, g4, g5, g6, g7, g8, g9⟩ := goes_condition
    obtain ⟨_, _, w3, w4, w5, w6, w7, w8, _⟩ := follows_words
    rw [ReadsAt, core]
    refine condition_reads hs hk ?_ (stop5 hf).2.2.2.2.2.2 rules_condition.2.2.2.2.2.2.1
    exact all_cons ((core_reads l h.2.1).left h.1.1 hs hk w4 (by omega)) rfl <|
      all_cons (reads_leaf c2) rfl <|
      all_cons (reads_leaf c10) rfl <|
      all_cons ((core_reads a h.2.2.1).right h.1.2.1 s8 g8 (w8.mono (by decide)) (by omega)) rfl <|
      all_cons (reads_leaf c11) rfl <|
      all_cons ((core_reads b h.2.2.2).right h.1.2.2 s9 g9 (hf.mono (by decide)) (by omega)) rfl rfl
  | .is e neg w, h => fun s k m la hs hk hf hm => by
    rw [Ex.Proper] at h
    rw [Ex.level] at hk hf
    rw [Ex.depth] at hm
    have h3 := (site_value _ hs hk).1
    obtain ⟨f1, f2, f3, f4⟩ := facts_expr _ hs h3
    obtain ⟨e1, e2, e3, e4, e5, e6, e7, e8, _⟩ := ends_expr
    have w10 := follows_words.2.2.2.2.2.2.2.2.2
    rw [ReadsAt, core]
    refine reads_many (cs := [asExpr (sortOf e) (core e), lf (kw "IS"), isTree neg w]) (q := 788) (m' := m) ?_
      (steady_reduces e4 _) e8 (go_expression _ hs h3)
    exact all_cons ((core_reads e h.2).expr hs h3 (by omega) w10 (w10.mono h.1) hm) rfl <|
      all_cons (reads_leaf f1) rfl <|
      all_cons (reads_still _ (facts_is neg w) m _) rfl rfl
  | .not e, h => fun s k m la hs hk hf hm => by
    rw [Ex.Proper] at h
    rw [Ex.level] at hk hf
    rw [Ex.depth] at hm
    obtain ⟨f1, f2, f3, f4⟩ := facts_expr _ hs hk
    obtain ⟨e1, e2, e3, e4, e5, e6, e7, e8, t1, t2, t3⟩ := ends_expr
    rw [ReadsAt, core]
    refine reads_many (cs := [lf (kw "NOT"), asExpr (sortOf e) (core e)]) (q := go .expression 269) (m' := m) ?_
      (hf.use (P := fun la => decideAct (go .expression 269) la = .reduce 515) e3) e7 (go_expression _ hs hk)
    exact all_cons (reads_leaf f4) rfl <|
      all_cons ((core_reads e h.2).expr t3 (by decide) h.1 (hf.mono (by decide)) (hf.mono h.1) hm) rfl rfl
  | .and l r, h => fun s k m la hs hk hf hm => by
    rw [Ex.Proper] at h
    rw [Ex.level] at hk hf
    rw [Ex.depth] at hm
    have h3 : k ≤ 3 := by omega
    obtain ⟨f1, f2, f3, f4⟩ := facts_expr _ hs h3
    obtain ⟨e1, e2, e3, e4, e5, e6, e7, e8, t1, t2, t3⟩ := ends_expr
    have w8 := follows_words.2.2.2.2.2.2.2.1
    rw [ReadsAt, core]
    refine reads_many (cs := [asExpr (sortOf l) (core l), lf (kw "AND"), asExpr (sortOf r) (core r)])
      (q := go .expression 528) (m' := m) ?_
      (hf.use (P := fun la => decideAct (go .expression 528) la = .reduce 513) e2) e6 (go_expression _ hs h3)
    exact all_cons ((core_reads l h.2.1).expr hs h3 (by omega) (w8.mono (by decide)) (w8.mono h.1.1) (by omega)) rfl <|
      all_cons (reads_leaf (f2 hk)) rfl <|
      all_cons ((core_reads r h.2.2).expr t2 (by decide) h.1.2 (hf.mono (by decide)) (hf.mono (by omega)) (by omega)) rfl rfl
  | .or l r, h => fun s k m la hs hk hf hm => by
    rw [Ex.Proper] at h
    rw [Ex.level] at hk hf
    rw [Ex.depth] at hm
    have h3 : k ≤ 3 := by omega
    obtain ⟨f1, f2, f3, f4⟩ := facts_expr _ hs h3
    obtain ⟨e1, e2, e3, e4, e5, e6, e7, e8, t1, t2, t3⟩ := ends_expr
    have w9 := follows_words.2.2.2.2.2.2.2.2.1
    rw [ReadsAt, core]
    refine reads_many (cs := [asExpr (sortOf l) (core l), lf (kw "OR"), asExpr (sortOf r) (core r)])
      (q := go .expression 529) (m' := m) ?_
      (hf.use (P := fun la => decideAct (go .expression 529) la = .reduce 514) e1) e5 (go_expression _ hs h3)
    exact all_cons ((core_reads l h.2.1).expr hs h3 (by omega) (w9.mono (by decide)) (w9.mono h.1.1) (by omega)) rfl <|
      all_cons (reads_leaf (f3 hk)) rfl <|
      all_cons ((core_reads r h.2.2).expr t1 (by decide) h.1.2 (hf.mono (by decide)) (hf.mono (by omega)) (by omega)) rfl rfl
theorem args_reads : ∀ (d : Tree SymType) (es : List Ex), Ex.AllProper es → ∀ {m : Nat},
    (∀ la ∈ listEnds, readsTree nestEff 577 m d la = some (832, m)) → m + Ex.depths es < 200 →
    ∀ la ∈ listEnds, readsTree nestEff 577 m (argsTree d es) la = some (832, m)
  | d, [], _, m, hd, _, la, hla => by
    rw [argsTree]
    exact hd la hla
  | d, e :: es, h, m, hd, hm, la, hla => by
    rw [Ex.AllProper] at h
    rw [Ex.depths] at hm
    rw [argsTree]
    exact args_reads _ es h.2 (fun la hla => args_step (core_reads e h.1) hd hla (by omega)) (by omega) la hla
theorem list_reads : ∀ (d : Tree SymType) (es : List Ex), Ex.AllProper es → ∀ {o : Int} {m : Nat},
    o ∈ ([303, 581, 1255] : List Int) → (∀ la ∈ listEnds, readsTree nestEff o m d la = some (579, m)) → m + Ex.depths es < 200 →
    ∀ la ∈ listEnds, readsTree nestEff o m (listTree d es) la = some (579, m)
  | d, [], _, o, m, _, hd, _, la, hla => by
    rw [listTree]
    exact hd la hla
  | d, e :: es, h, o, m, ho, hd, hm, la, hla => by
    rw [Ex.AllProper] at h
    rw [Ex.depths] at hm
    rw [listTree]
    exact list_reads _ es h.2 ho (fun la hla => list_step (core_reads e h.1) ho hd hla (by omega)) (by omega) la hla
end

/-- Every proper expression is read where one may start. -/
theorem expr_reads {e : Ex} (h : e.Proper) {s : Int} {m la : Nat} (hs : (s, 1) ∈ sites) (hf : Follows 1 la)
    (hm : m + e.depth < 200) : readsTree nestEff s m (exprTree e) la = some (go .expression s, m) :=
  (core_reads e h).expr hs (by decide) (level_pos e) (hf.mono (by decide)) (hf.mono (level_pos e)) hm

end Sqldef.Sql
