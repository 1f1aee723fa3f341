import Verif.Proofs.QueryTree
import Verif.Proofs.WrittenMoreReads

/-! The tables read the sources of a query. -/
namespace Sqldef.Sql
open Spec Yy Written

/-- The tokens that may follow the sources between two commas, and those that may follow one source. -/
def afterRef : List Nat := [53, 54, 40, 42, 43, 44, 46, 47, 12, 13, 14, 15, 17, 1, 313]
@[inherit_doc afterRef] def afterFactor : List Nat := 50 :: 51 :: afterRef

/-- The states in which the sources between two commas, and those in which one source may start. -/
def refSites : List Int := [1215, 630, 334, 645]
@[inherit_doc refSites] def factorSites : List Int := 631 :: 633 :: 634 :: refSites

/-- The state after one source. -/
def goFactor (p : Int) : Int := (gotoState p (kindOf 463)).getD 0

/-- The state after sources between two commas. -/
def goRef (p : Int) : Int := (gotoState p (kindOf 461)).getD 0

theorem goFactors : ∀ p ∈ factorSites, gotoState p (kindOf 463) = some (goFactor p) := by decide +kernel
theorem goRefs : ∀ p ∈ refSites, goFactor p = 330 ∧ gotoState p (kindOf 461) = some (goRef p) ∧ (gotoState p (kindOf 473)).isSome = true ∧
    (isRule 461 1 (kindOf 461) && quiet 461) = true ∧ (isRule 462 1 (kindOf 461) && quiet 462) = true ∧
    ∀ la ∈ afterFactor, decideAct 330 la = .reduce 461 := by decide +kernel

/-! ### Tables -/

def aliasShape : Option Alias → Option Alias
  | none => none
  | some ⟨_, b⟩ => some ⟨[], b⟩
def aliasShapes : List (Option Alias) := [none, some ⟨[], false⟩, some ⟨[], true⟩]
theorem aliasShape_mem (a : Option Alias) : aliasShape a ∈ aliasShapes := by
  rcases a with _ | ⟨_, _ | _⟩ <;> simp [aliasShape, aliasShapes]

theorem blank_source_table (t : TableRef) (a : Option Alias) :
    blank (sourceTree (.table t a)) = blank (sourceTree (.table (tableRefShape t) (aliasShape a))) := by
  rcases t with ⟨_ | _, _⟩ <;> rcases a with _ | ⟨_, _ | _⟩ <;> rfl

theorem level_source_table (t : TableRef) (a : Option Alias) : level (sourceTree (.table t a)) = true := by
  rcases t with ⟨_ | _, _⟩ <;> rcases a with _ | ⟨_, _ | _⟩ <;> rfl

theorem reads_tables : ∀ t ∈ tableRefShapes, ∀ a ∈ aliasShapes, ∀ p ∈ factorSites, ∀ la ∈ afterFactor,
    readsTree nestEff p 0 (sourceTree (.table t a)) la = some (goFactor p, 0) := by decide +kernel

theorem table_reads_any (t : TableRef) (a : Option Alias) {p : Int} (hp : p ∈ factorSites) {la : Nat} (hla : la ∈ afterFactor) (m : Nat) :
    readsTree nestEff p m (sourceTree (.table t a)) la = some (goFactor p, m) := by
  refine reads_level _ (m' := 0) (level_source_table t a) ?_ m
  rw [reads_alike (blank_source_table t a)]
  exact reads_tables _ (tableRefShape_mem t) _ (aliasShape_mem a) p hp la hla

/-! ### Conditions -/

theorem level_grow {X : Type} {f : X → Nat × List (Tree SymType)} (d : Tree SymType) (xs : List X) (hd : level d = true)
    (h : ∀ x ∈ xs, quiet (f x).1 = true ∧ levelAll (f x).2 = true) : level (grow f d xs) = true := by
  induction xs generalizing d with
  | nil => exact hd
  | cons x xs ih =>
    refine ih _ ?_ fun y hy => h y (List.mem_cons_of_mem _ hy)
    have hx := h x List.mem_cons_self
    rw [level, levelAll, hx.1, hd, hx.2]
    rfl

theorem level_columnList (a : Str) (as : List Str) : level (columnListTree a as) = true :=
  level_grow _ _ rfl fun _ _ => ⟨rfl, rfl⟩

/-- The states in which a condition of a join may start, and the states after it. -/
def onStates : List (Int × Int) := [(865, (gotoState 865 (kindOf 477)).getD 0), (867, (gotoState 867 (kindOf 477)).getD 0)]

theorem ref_follows : ∀ la ∈ afterFactor, Follows 1 la := by
  have h : ∀ la ∈ afterFactor, (stops.any fun p => p.1 == la && decide (p.2 ≤ 1)) = true := by decide +kernel
  exact fun la hla => follows_of (h la hla)

theorem reads_ons : ∀ p ∈ onStates, gotoState p.1 (kindOf 477) = some p.2 ∧ decideAct p.1 (no (kw "ON").type) = .shift 1073 ∧
    (1073, 1) ∈ sites ∧ (isRule 477 2 (kindOf 477) && quiet 477) = true ∧
    (∀ la ∈ afterFactor, decideAct (go .expression 1073) la = .reduce 477) ∧
    readsAll nestEff p.1 0 ([lf (kw "USING")] ++ [lf (sym '(')]) 0 = some (1265, 0) ∧
    ∀ la ∈ afterRef, readsTree nestEff p.1 0 (joinOnTree (.columns [] [])) la = some (p.2, 0) := by decide +kernel

theorem names_1265 : ∃ t, readsNames 1265 t := by
  have h : ∀ la ∈ [53, 54], readsTree nestEff 1265 0 (columnListTree [] []) la =
      readsTree nestEff 1265 0 (columnListTree [] []) 53 ∧
    readsTree nestEff 1265 0 (.node (nameAdd []).1 (columnListTree [] [] :: (nameAdd []).2)) la =
      readsTree nestEff 1265 0 (columnListTree [] []) 53 ∧ (readsTree nestEff 1265 0 (columnListTree [] []) 53).isSome = true := by
    decide +kernel
  obtain ⟨t, ht⟩ := Option.isSome_iff_exists.mp (h 53 (by decide)).2.2
  refine ⟨t, fun la hla => ?_⟩
  obtain ⟨h1, h2, _⟩ := h la hla
  rw [h1, h2, ht]
  exact ⟨rfl, rfl⟩

theorem joinOn_reads {p : Int × Int} (hp : p ∈ onStates) {w : JoinWord} {c : JoinOn} (hc : c.Fits w) (hn : c ≠ .none) {la m : Nat}
    (hla : la ∈ afterRef) (hm : m + c.depth < 200) : readsTree nestEff p.1 m (joinOnTree c) la = some (p.2, m) := by
  obtain ⟨h1, h2, h3, h4, h5, h6, h7⟩ := reads_ons p hp
  have hla' : la ∈ afterFactor := List.mem_cons_of_mem _ (List.mem_cons_of_mem _ hla)
  cases c with
  | none => exact absurd rfl hn
  | on e =>
    refine reads_many (cs := [lf (kw "ON"), exprTree e]) (q := go .expression 1073) ?_ (h5 la hla') h4 h1
    rw [readsAll_cons (reads_leaf h2), readsAll_cons (la := la) (cs := []) (expr_reads hc.2 h3 (ref_follows la hla') hm)]
    rfl
  | columns a as =>
    refine reads_level _ (m' := 0) ?_ ?_ m
    · rw [joinOnTree, level, levelAll, levelAll, levelAll, levelAll, level_columnList]
      rfl
    · obtain ⟨t, ht⟩ := names_1265
      refine Eq.trans ?_ (h7 la hla)
      refine reads_part_after (n := 0) (q := (1265, 0)) [lf (kw "USING")] [lf (sym ')')] (sym '(') h6 ?_
      rw [close_head, columnList_reads ht _ _ 54 (by decide), columnList_reads ht _ _ 54 (by decide)]

theorem reads_onOpts : (∀ la ∈ afterRef, readsTree nestEff 865 0 (joinOnOptTree .none) la = some ((gotoState 865 (kindOf 479)).getD 0, 0)) ∧
    gotoState 865 (kindOf 479) = some ((gotoState 865 (kindOf 479)).getD 0) ∧ (isRule 480 1 (kindOf 479) && quiet 480) = true ∧
    ∀ la ∈ afterRef, decideAct ((gotoState 865 (kindOf 477)).getD 0) la = .reduce 480 := by decide +kernel

theorem joinOnOpt_reads {w : JoinWord} {c : JoinOn} (hc : c.Fits w) {la m : Nat} (hla : la ∈ afterRef) (hm : m + c.depth < 200) :
    readsTree nestEff 865 m (joinOnOptTree c) la = some ((gotoState 865 (kindOf 479)).getD 0, m) := by
  obtain ⟨h1, h2, h3, h4⟩ := reads_onOpts
  by_cases hn : c = .none
  · subst hn
    exact reads_level _ (m' := 0) rfl (h1 la hla) m
  · have := joinOn_reads (p := (865, (gotoState 865 (kindOf 477)).getD 0)) (List.mem_cons_self ..) hc hn hla hm
    cases c with
    | none => exact absurd rfl hn
    | on e => exact reads_single this (h4 la hla) h3 h2
    | columns a as => exact reads_single this (h4 la hla) h3 h2

/-! ### Joins -/

/-- The state after the words of a join. -/
def afterJoinWords : JoinKind → Int
  | .inner => 631
  | .outer => 633
  | .natural => 634

def joinWords : List JoinWord :=
  [.join, .innerJoin, .crossJoin, .leftJoin, .leftOuterJoin, .rightJoin, .rightOuterJoin, .naturalJoin, .naturalLeftJoin, .naturalRightJoin]
theorem joinWord_mem (w : JoinWord) : w ∈ joinWords := by cases w <;> simp [joinWords]

theorem reads_words : ∀ w ∈ joinWords, (∀ p ∈ refSites, still (goRef p) (joinWordTree w) = some (afterJoinWords (JoinKind.of w))) ∧
    afterJoinWords (JoinKind.of w) ∈ factorSites ∧ headToken [joinWordTree w] 0 ∈ afterRef := by decide +kernel

theorem first_joinWord (w : JoinWord) : first (joinWordTree w) ≠ none := by cases w <;> exact fun h => nomatch h

theorem word_head (w : JoinWord) (cs : List (Tree SymType)) (la : Nat) : headToken (joinWordTree w :: cs) la ∈ afterRef := by
  have h := (reads_words w (joinWord_mem w)).2.2
  rw [headToken_cons] at h ⊢
  cases hf : first (joinWordTree w) with
  | none => exact absurd hf (first_joinWord w)
  | some n => rw [hf] at h; exact h

theorem first_on : first (lf (kw "ON")) = some 50 ∧ first (lf (kw "USING")) = some 51 := by decide +kernel

theorem on_head (c : JoinOn) : c ≠ .none → first (joinOnTree c) = some 50 ∨ first (joinOnTree c) = some 51 := by
  intro h
  obtain ⟨h1, h2⟩ := first_on
  cases c with
  | none => exact absurd rfl h
  | on e => left; rw [joinOnTree, first_node _ _ _ (by rw [h1]; exact fun h => nomatch h), h1]
  | columns a as => right; rw [joinOnTree, first_node _ _ _ (by rw [h2]; exact fun h => nomatch h), h2]

theorem join_head {c : JoinOn} (h : c ≠ .none) (la : Nat) : headToken [joinOnTree c] la ∈ afterFactor := by
  rcases on_head c h with h | h <;> · rw [head_some h]; decide

theorem joinOpt_head (c : JoinOn) {la : Nat} (hla : la ∈ afterRef) : headToken [joinOnOptTree c] la ∈ afterFactor := by
  by_cases h : c = .none
  · subst h
    exact List.mem_cons_of_mem _ (List.mem_cons_of_mem _ hla)
  · have e : first (joinOnOptTree c) = first (joinOnTree c) := by
      have hf : first (joinOnTree c) ≠ none := by rcases on_head c h with h | h <;> · rw [h]; exact fun h => nomatch h
      cases c with
      | none => exact absurd rfl h
      | on e => exact first_node _ _ _ hf
      | columns a as => exact first_node _ _ _ hf
    rcases on_head c h with h | h <;> · rw [head_some (e.trans h)]; decide

theorem join_rules : (isRule 473 4 (kindOf 473) && quiet 473) = true ∧ (isRule 475 4 (kindOf 473) && quiet 475) = true ∧
    (isRule 476 3 (kindOf 473) && quiet 476) = true ∧
    (∀ la ∈ afterRef, decideAct ((gotoState 865 (kindOf 479)).getD 0) la = .reduce 473) ∧
    (∀ la ∈ afterRef, decideAct ((gotoState 867 (kindOf 477)).getD 0) la = .reduce 475) ∧
    (∀ la ∈ afterRef, decideAct (goFactor 634) la = .reduce 476) ∧
    (∀ p ∈ refSites, ∀ la ∈ afterRef, decideAct ((gotoState p (kindOf 473)).getD 0) la = .reduce 462) ∧
    goFactor 631 = 865 ∧ goFactor 633 = 330 ∧ gotoState 633 (kindOf 461) = some 867 := by decide +kernel

/-! ### Parentheses -/

/-- The state after an opening parenthesis. -/
def goOpen (p : Int) : Int := (gotoState p 207).getD 0

theorem group_opens : ∀ p ∈ factorSites, decideAct p (no (sym '(').type) = .shift 50 ∧
    gotoState p 207 = some (goOpen p) ∧ goOpen p ∈ refSites ∧ gotoState (goOpen p) (kindOf 459) = some 644 ∧ decideAct (goOpen p |> goRef) 54 = .reduce 459 := by
  rw [show no (sym '(').type = 52 by decide +kernel]; decide +kernel

theorem group_facts : (∃ c, decideAct 644 (no (sym ')').type) = .shift c ∧ steady c 994 = true) ∧
    (isRule 459 1 (kindOf 459) && quiet 459) = true ∧
    (isRule 465 3 (kindOf 463) && quiet 465) = true := by
  have h : (match decideAct 644 (no (sym ')').type) with
    | .shift c => steady c 994
    | _ => false) = true := by decide +kernel
  refine ⟨?_, by decide +kernel⟩
  split at h
  · rename_i c hc; exact ⟨c, hc, h⟩
  · cases h

theorem group_ends : gotoState 644 208 = some ((gotoState 644 208).getD 0) ∧
    ∀ la ∈ afterFactor, decideAct ((gotoState 644 208).getD 0) la = .reduce 465 := by decide +kernel



/-! ### Sources -/

theorem ref_of_factor {s : Source} (hj : s.isJoin = false) {p : Int} (hp : p ∈ refSites) {la m : Nat} (hla : la ∈ afterFactor)
    (h : readsTree nestEff p m (sourceTree s) la = some (goFactor p, m)) : readsTree nestEff p m (refTree s) la = some (goRef p, m) := by
  obtain ⟨h1, h2, -, h5, -, h7⟩ := goRefs p hp
  rw [refTree, hj]
  rw [h1] at h
  exact reads_single h (h7 la hla) h5 h2

theorem site_of_ref {p : Int} (h : p ∈ refSites) : p ∈ factorSites :=
  List.mem_cons_of_mem _ (List.mem_cons_of_mem _ (List.mem_cons_of_mem _ h))

theorem source_reads : ∀ s : Source, s.Proper →
    (s.isJoin = false → ∀ p ∈ factorSites, ∀ la ∈ afterFactor, ∀ m, m + s.depth < 200 →
      readsTree nestEff p m (sourceTree s) la = some (goFactor p, m)) ∧
    (∀ p ∈ refSites, ∀ la ∈ afterRef, ∀ m, m + s.depth < 200 → readsTree nestEff p m (refTree s) la = some (goRef p, m))
  | .table t a, _ => by
    refine ⟨fun _ p hp la hla m _ => table_reads_any t a hp hla m, fun p hp la hla m _ => ?_⟩
    have hla' : la ∈ afterFactor := List.mem_cons_of_mem _ (List.mem_cons_of_mem _ hla)
    exact ref_of_factor rfl hp hla' (table_reads_any t a (site_of_ref hp) hla' m)
  | .group s, h => by
    have key : ∀ p ∈ factorSites, ∀ la ∈ afterFactor, ∀ m, m + (s.depth + 1) < 200 →
        readsTree nestEff p m (sourceTree (.group s)) la = some (goFactor p, m) := by
      intro p hp la hla m hm
      obtain ⟨o1, o2, o3, o4, o5⟩ := group_opens p hp
      obtain ⟨⟨c, g1, g2⟩, g4, g6⟩ := group_facts
      obtain ⟨e1, e2⟩ := group_ends
      refine reads_many (cs := [openTree, .node 459 [asRef s.isJoin (sourceTree s)], closeTree]) ?_ (e2 la hla) g6 (goFactors p hp)
      rw [readsAll_cons (reads_open o1 o2 (by omega) _)]
      have hh : headToken [closeTree] la = 54 := by
        have : first (lf (sym ')')) = some 54 := by decide +kernel
        rw [head_some (n := 54)]
        rw [closeTree, first_node _ _ _ (by rw [this]; exact fun h => nomatch h), this]
      have hs := (source_reads s h).2 (goOpen p) o3 54 (by decide) (m + 1) (by omega)
      rw [readsAll_cons (q := 644) (m' := m + 1) (by rw [hh]; exact reads_single hs o5 g4 o4), readsAll_cons (reads_close g1 g2 e1 _)]
      rfl
    refine ⟨fun _ => key, fun p hp la hla m hm => ?_⟩
    have hla' : la ∈ afterFactor := List.mem_cons_of_mem _ (List.mem_cons_of_mem _ hla)
    exact ref_of_factor rfl hp hla' (key p (site_of_ref hp) la hla' m hm)
  | .join l w r c, h => by
    refine ⟨(fun hj => nomatch hj), fun p hp la hla m hm => ?_⟩
    obtain ⟨hl, hr, hj, hc⟩ := h
    have hd : m + l.depth < 200 ∧ m + r.depth < 200 ∧ m + c.depth < 200 := by
      rw [Source.depth] at hm
      omega
    have il := (source_reads l hl).2
    have ir := (source_reads r hr).1 hj
    obtain ⟨-, g2, g3, -, g6, -⟩ := goRefs p hp
    obtain ⟨j1, j2, j3, j4, j5, j6, j7, j8, j9, j10⟩ := join_rules
    obtain ⟨t, ht⟩ := Option.isSome_iff_exists.mp g3
    have j7' := j7 p hp la hla
    rw [ht, Option.getD_some] at j7'
    obtain ⟨w1, w2, -⟩ := reads_words w (joinWord_mem w)
    have w3 : ∀ m la, readsTree nestEff (goRef p) m (joinWordTree w) la = some (afterJoinWords (JoinKind.of w), m) :=
      fun m la => reads_still _ (w1 p hp) m la
    rw [refTree]
    refine reads_single (q := t) ?_ j7' g6 g2
    rw [sourceTree]
    cases hw : JoinKind.of w with
    | inner =>
      rw [hw] at w2 w3
      refine reads_many (cs := [refTree l, joinWordTree w, sourceTree r, joinOnOptTree c]) ?_ (j4 la hla) j1 ht
      rw [readsAll_cons (il p hp _ (word_head w _ la) m hd.1), readsAll_cons (w3 m _),
        readsAll_cons (q := 865) (m' := m) (j8 ▸ ir _ w2 _ (joinOpt_head c hla) m hd.2.1),
        readsAll_cons (la := la) (cs := []) (joinOnOpt_reads hc hla hd.2.2)]
      rfl
    | outer =>
      rw [hw] at w2 w3
      have hn : c ≠ .none := by
        rintro rfl
        cases w <;> simp [JoinKind.of] at hw <;> simp [JoinOn.Fits] at hc
      refine reads_many (cs := [refTree l, joinWordTree w, .node 461 [sourceTree r], joinOnTree c]) ?_ (j5 la hla) j2 ht
      obtain ⟨-, -, -, f5, -, f7⟩ := goRefs 334 (by decide)
      have hh := join_head hn la
      have hr1 := ir _ w2 _ hh m hd.2.1
      rw [show goFactor (afterJoinWords .outer) = 330 from j9] at hr1
      rw [readsAll_cons (il p hp _ (word_head w _ la) m hd.1), readsAll_cons (w3 m _),
        readsAll_cons (q := 867) (m' := m) (reads_single hr1 (f7 _ hh) f5 j10),
        readsAll_cons (la := la) (cs := []) (joinOn_reads (p := (867, (gotoState 867 (kindOf 477)).getD 0)) (by simp [onStates]) hc hn hla hd.2.2)]
      rfl
    | natural =>
      rw [hw] at w2 w3
      refine reads_many (cs := [refTree l, joinWordTree w, sourceTree r]) ?_ (j6 la hla) j3 ht
      rw [readsAll_cons (il p hp _ (word_head w _ la) m hd.1), readsAll_cons (w3 m _),
        readsAll_cons (la := la) (cs := []) (ir _ w2 _ (List.mem_cons_of_mem _ (List.mem_cons_of_mem _ hla)) m hd.2.1)]
      rfl

end Sqldef.Sql
