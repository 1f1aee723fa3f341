import Verif.Props.Statements
import Verif.Proofs.Shapes

/-! The generator never looks at the texts of the statements: other texts lead to the same statements, up to the texts of
those that are passed on. -/
namespace Sqldef
open Spec

/-- With another text of the statement. -/
def View.retext (f : Str → Str) (v : View) : View := { v with statement := f v.statement }

/-- With another text of the statement. -/
def Trigger.retext (f : Str → Str) (t : Trigger) : Trigger := { t with statement := f t.statement }

/-- With another text of the statement. -/
def DDL.retext (f : Str → Str) (d : DDL) : DDL := d.withText (f d.statement)

/-- With another text of the statement. -/
def Stmt.retext (f : Str → Str) : Stmt → Stmt
  | .user d => .user (d.retext f)
  | .createTrigger o t => .createTrigger o (t.retext f)
  | s => s

/-- The state with other texts of the desired and of the current statements. -/
def Gen.retext (f h : Str → Str) (g : Gen) : Gen :=
  { g with
    desiredViews := g.desiredViews.map (View.retext f), desiredTriggers := g.desiredTriggers.map (Trigger.retext f),
    currentViews := g.currentViews.map (View.retext h), currentTriggers := g.currentTriggers.map (Trigger.retext h) }

theorem ddl_retext_id (d : DDL) : d.retext id = d := by cases d <;> rfl

theorem stmt_retext_id (s : Stmt) : s.retext id = s := by
  cases s <;> first | rfl | (simp only [Stmt.retext, ddl_retext_id])

theorem viewNames_retext (u : Str → Str) (l : List View) : viewNames (l.map (View.retext u)) = viewNames l := by
  simp [viewNames, View.retext]

theorem findView_retext (u : Str → Str) (l : List View) (n : Str) :
    findViewByName (l.map (View.retext u)) n = (findViewByName l n).map (View.retext u) := by
  unfold findViewByName
  rw [List.find?_map]
  rfl

theorem findTrigger_retext (u : Str → Str) (l : List Trigger) (n : Str) :
    findTriggerByName (l.map (Trigger.retext u)) n = (findTriggerByName l n).map (Trigger.retext u) := by
  unfold findTriggerByName
  rw [List.find?_map]
  rfl

/-- The result of a step with other texts. -/
def retextStep (u w : Str → Str) (p : Gen × List Stmt) : Gen × List Stmt := (p.1.retext u w, p.2.map (Stmt.retext u))

theorem createTable_retext {mode : Mode} {x d : Table} {l : List Stmt} (u : Str → Str) (h : generateDDLsForCreateTable mode x d = .ok l) :
    l.map (Stmt.retext u) = l := by
  conv => rhs; rw [← List.map_id l]
  refine List.map_congr_left fun s hs => ?_
  cases createTable_shape h s hs with
  | column prev c s _ hc =>
    cases hc with
    | alter cur s _ _ h => rcases h with rfl | rfl | rfl | ⟨_, _, rfl⟩ | rfl | ⟨_, _, rfl⟩ | rfl | ⟨_, rfl⟩ <;> rfl
    | _ => rfl
  | _ => rfl

theorem cleanup_retext {mode : Mode} {x d : Table} {l : List Stmt} (u : Str → Str) (h : cleanupTable mode x d = .ok l) :
    l.map (Stmt.retext u) = l := by
  conv => rhs; rw [← List.map_id l]
  refine List.map_congr_left fun s hs => ?_
  cases cleanup_shape h s hs <;> rfl

theorem stepCreateTable_retext (u w : Str → Str) (g : Gen) (s : Str) (t : Table) (s' : Str) (hs : s' = u s) :
    stepCreateTable (g.retext u w) s' t = (stepCreateTable g s t).map (retextStep u w) := by
  unfold stepCreateTable
  rw [show (g.retext u w).currentTables = g.currentTables from rfl]
  cases findTableByName g.currentTables t.name with
  | none =>
    subst hs
    rfl
  | some x =>
    simp only
    change (generateDDLsForCreateTable g.mode x t >>= _) = _
    cases h : generateDDLsForCreateTable g.mode x t with
    | error e => rfl
    | ok l =>
      change Except.ok (_, l) = Except.ok (_, l.map (Stmt.retext u))
      rw [createTable_retext u h]
      rfl

theorem stepCreateIndex_retext (u w : Str → Str) (g : Gen) (d : DDL) (n : Str) (i : Index) :
    stepCreateIndex (g.retext u w) (d.retext u) n i = (stepCreateIndex g d n i).map (retextStep u w) := by
  unfold stepCreateIndex
  rw [show (g.retext u w).currentTables = g.currentTables from rfl]
  cases findTableByName g.currentTables n with
  | none => rfl
  | some x =>
    simp only
    rw [show (g.retext u w).desiredTables = g.desiredTables from rfl]
    cases findTableByName g.desiredTables n with
    | none => rfl
    | some y =>
      simp only
      by_cases hc : containsString (indexNames y.indexes) i.name = true
      · rw [if_pos hc, if_pos hc]; rfl
      · rw [if_neg hc, if_neg hc]
        cases findIndexByName x.indexes i.name with
        | none => rfl
        | some cur =>
          simp only
          by_cases hd : (!areSameIndexes cur i) = true
          · simp only [if_pos hd]; rfl
          · simp only [if_neg hd]; rfl

theorem stepCreatePolicy_retext (u w : Str → Str) (g : Gen) (d : DDL) (n : Str) (i : Policy) :
    stepCreatePolicy (g.retext u w) (d.retext u) n i = (stepCreatePolicy g d n i).map (retextStep u w) := by
  unfold stepCreatePolicy
  rw [show (g.retext u w).currentTables = g.currentTables from rfl]
  cases findTableByName g.currentTables n with
  | none => rfl
  | some x =>
    simp only
    rw [show (g.retext u w).desiredTables = g.desiredTables from rfl]
    cases findTableByName g.desiredTables n with
    | none => rfl
    | some y =>
      simp only
      by_cases hc : containsString (policyNames y.policies) i.name = true
      · rw [if_pos hc, if_pos hc]; rfl
      · rw [if_neg hc, if_neg hc]
        cases findPolicyByName x.policies i.name with
        | none => rfl
        | some cur =>
          simp only
          by_cases hd : (!areSamePolicies cur i) = true
          · simp only [if_pos hd]; rfl
          · simp only [if_neg hd]; rfl

theorem stepAddForeignKey_retext (u w : Str → Str) (g : Gen) (n : Str) (f : ForeignKey) :
    stepAddForeignKey (g.retext u w) n f = (stepAddForeignKey g n f).map (retextStep u w) := by
  unfold stepAddForeignKey
  rw [show (g.retext u w).desiredTables = g.desiredTables from rfl]
  cases findTableByName g.desiredTables n with
  | none => rfl
  | some y =>
    simp only
    by_cases hc : containsString (fkConstraintNames y.foreignKeys) f.constraintName = true
    · rw [if_pos hc, if_pos hc]; rfl
    · rw [if_neg hc, if_neg hc]; rfl

theorem stepCreateView_retext (u w : Str → Str) (g : Gen) (v : View) :
    stepCreateView (g.retext u w) (v.retext u) = (stepCreateView g v).map (retextStep u w) := by
  unfold stepCreateView
  simp only [Gen.retext, findView_retext, viewNames_retext]
  rw [show (v.retext u).name = v.name from rfl, show (v.retext u).definition = v.definition from rfl]
  by_cases hc : containsString (viewNames g.desiredViews) v.name = true
  · rw [if_pos hc, if_pos hc]; rfl
  · rw [if_neg hc, if_neg hc]
    have e : ∀ l l' : List Stmt, l' = l.map (Stmt.retext u) →
        Except.ok (ε := Err) (({ g with
          desiredViews := g.desiredViews.map (View.retext u) ++ [v.retext u], desiredTriggers := g.desiredTriggers.map (Trigger.retext u),
          currentViews := g.currentViews.map (View.retext w),
          currentTriggers := g.currentTriggers.map (Trigger.retext w) } : Gen), l') =
        (Except.ok (ε := Err) (({ g with desiredViews := g.desiredViews ++ [v] } : Gen), l)).map (retextStep u w) := by
      rintro l l' rfl
      simp [Except.map, retextStep, Gen.retext]
    refine e _ _ ?_
    cases findViewByName g.currentViews v.name with
    | none => rfl
    | some cur =>
      simp only [Option.map_some]
      rw [show (cur.retext w).definition = cur.definition from rfl]
      by_cases h1 : toLower cur.definition ≠ toLower v.definition
      · rw [if_pos h1, if_pos h1]
        by_cases h2 : (decide (g.mode = .sqlite3) || decide (g.mode = .mssql)) = true
        · exact (if_pos h2).trans (by rw [if_pos h2]; rfl)
        · exact (if_neg h2).trans (by rw [if_neg h2]; rfl)
      · rw [if_neg h1, if_neg h1]; rfl

theorem stepCreateTrigger_retext (u w : Str → Str) (g : Gen) (t : Trigger) :
    stepCreateTrigger (g.retext u w) (t.retext u) = (stepCreateTrigger g t).map (retextStep u w) := by
  unfold stepCreateTrigger
  have e : ∀ l l' : List Stmt, l' = l.map (Stmt.retext u) →
      Except.ok (ε := Err) (({ g with
        desiredViews := g.desiredViews.map (View.retext u), desiredTriggers := g.desiredTriggers.map (Trigger.retext u) ++ [t.retext u],
        currentViews := g.currentViews.map (View.retext w),
        currentTriggers := g.currentTriggers.map (Trigger.retext w) } : Gen), l') =
      (Except.ok (ε := Err) (({ g with desiredTriggers := g.desiredTriggers ++ [t] } : Gen), l)).map (retextStep u w) := by
    rintro l l' rfl
    simp [Except.map, retextStep, Gen.retext]
  have ht : ∀ cur : Trigger, areSameTriggerDefinition (cur.retext w) (t.retext u) = areSameTriggerDefinition cur t := fun _ => rfl
  simp only [Gen.retext, findTrigger_retext, show (t.retext u).name = t.name from rfl]
  cases hm : g.mode with
  | mssql =>
    simp only
    rw [hm] at e
    refine e _ _ ?_
    cases findTriggerByName g.currentTriggers t.name with
    | none => rfl
    | some cur =>
      simp only [Option.map_some, ht]
      by_cases h1 : (!areSameTriggerDefinition cur t) = true
      · rw [if_pos h1, if_pos h1]; rfl
      · rw [if_neg h1, if_neg h1]; rfl
  | mysql =>
    simp only
    rw [hm] at e
    refine e _ _ ?_
    cases findTriggerByName g.currentTriggers t.name with
    | none => rfl
    | some cur =>
      simp only [Option.map_some, ht]
      by_cases h1 : (!areSameTriggerDefinition cur t) = true
      · rw [if_pos h1, if_pos h1]; rfl
      · rw [if_neg h1, if_neg h1]; rfl
  | postgres => simp [Except.map, retextStep, Gen.retext, hm]
  | sqlite3 => simp [Except.map, retextStep, Gen.retext, hm]

theorem step_retext (u w : Str → Str) (g : Gen) (d : DDL) : step (g.retext u w) (d.retext u) = (step g d).map (retextStep u w) := by
  cases d with
  | createTable s t => exact stepCreateTable_retext u w g s t _ rfl
  | createIndex s n i => exact stepCreateIndex_retext u w g (.createIndex s n i) n i
  | addIndex s n i => exact stepCreateIndex_retext u w g (.addIndex s n i) n i
  | addPrimaryKey s n i => rfl
  | addForeignKey s n f => exact stepAddForeignKey_retext u w g n f
  | addPolicy s n p => exact stepCreatePolicy_retext u w g (.addPolicy s n p) n p
  | view v => exact stepCreateView_retext u w g v
  | trigger t => exact stepCreateTrigger_retext u w g t

theorem steps_retext (u w : Str → Str) (ds : List DDL) : ∀ g : Gen, steps (g.retext u w) (ds.map (DDL.retext u)) = (steps g ds).map (retextStep u w) := by
  induction ds with
  | nil => intro g; rfl
  | cons d ds ih =>
    intro g
    simp only [List.map_cons, steps]
    rw [step_retext]
    cases step g d with
    | error e => rfl
    | ok p =>
      obtain ⟨g1, l1⟩ := p
      change (steps (g1.retext u w) (ds.map (DDL.retext u)) >>= _) = _
      rw [ih g1]
      change ((steps g1 ds).map (retextStep u w) >>= _) = Except.map (retextStep u w) (steps g1 ds >>= _)
      cases steps g1 ds with
      | error e => rfl
      | ok p =>
        obtain ⟨g2, l2⟩ := p
        change Except.ok (_, _) = Except.ok (_, _)
        simp only [retextStep, List.map_append]

theorem cleanupTables_retext (u : Str → Str) (mode : Mode) (D : List Table) : ∀ (ts R : List Table) {l : List Stmt},
    cleanupTables mode D R ts = .ok l → l.map (Stmt.retext u) = l := by
  intro ts
  induction ts with
  | nil => intro R l h; cases h; rfl
  | cons t ts ih =>
    intro R l h
    unfold cleanupTables at h
    cases hf : findTableByName D t.name with
    | none =>
      rw [hf] at h
      obtain ⟨r, -, h⟩ := bind_ok.1 h
      obtain ⟨x, hx, h⟩ := bind_ok.1 h
      cases h
      simp only [List.map_cons, ih _ hx]
      rfl
    | some d =>
      rw [hf] at h
      obtain ⟨r, hr, h⟩ := bind_ok.1 h
      obtain ⟨x, hx, h⟩ := bind_ok.1 h
      cases h
      rw [List.map_append, ih _ hx, cleanup_retext u hr]

theorem cleanupViews_retext (u w : Str → Str) (D C : List View) :
    cleanupViews (D.map (View.retext u)) (C.map (View.retext w)) = (cleanupViews D C).map (Stmt.retext u) := by
  unfold cleanupViews
  rw [viewNames_retext, List.filter_map, List.map_map, List.map_map]
  rfl

theorem generate_retext (u w : Str → Str) (g : Gen) (ds : List DDL) :
    generateDDLs (g.retext u w) (ds.map (DDL.retext u)) = (generateDDLs g ds).map (·.map (Stmt.retext u)) := by
  unfold generateDDLs
  rw [steps_retext]
  cases steps g ds with
  | error e => rfl
  | ok p =>
    obtain ⟨g1, l1⟩ := p
    change (cleanupTables g1.mode g1.desiredTables g1.currentTables g1.currentTables >>= _) =
      Except.map _ (cleanupTables g1.mode g1.desiredTables g1.currentTables g1.currentTables >>= _)
    cases h : cleanupTables g1.mode g1.desiredTables g1.currentTables g1.currentTables with
    | error e => rfl
    | ok l =>
      change Except.ok _ = Except.ok _
      simp only [List.map_append, cleanupTables_retext u _ _ _ _ h, Gen.retext, cleanupViews_retext]

theorem convertStep_retext (w : Str → Str) (ts : List Table) (d : DDL) : convertStep ts (d.retext w) = convertStep ts d := by
  cases d <;> rfl

theorem convertFrom_retext (w : Str → Str) (ds : List DDL) : ∀ ts, convertFrom ts (ds.map (DDL.retext w)) = convertFrom ts ds := by
  induction ds with
  | nil => intro ts; rfl
  | cons d ds ih =>
    intro ts
    simp only [List.map_cons, convertFrom, convertStep_retext, ih]

/-- The generator with other texts. -/
theorem diff_retext (u w : Str → Str) (mode : Mode) (want cur : List DDL) :
    diff mode (want.map (DDL.retext u)) (cur.map (DDL.retext w)) = (diff mode want cur).map (·.map (Stmt.retext u)) := by
  unfold diff convertDDLsToTables
  rw [convertFrom_retext]
  have hv : convertDDLsToViews (cur.map (DDL.retext w)) = (convertDDLsToViews cur).map (View.retext w) := by
    unfold convertDDLsToViews
    rw [List.filterMap_map, List.map_filterMap]
    refine List.filterMap_congr fun d _ => ?_
    cases d <;> rfl
  have ht : convertDDLsToTriggers (cur.map (DDL.retext w)) = (convertDDLsToTriggers cur).map (Trigger.retext w) := by
    unfold convertDDLsToTriggers
    rw [List.filterMap_map, List.map_filterMap]
    refine List.filterMap_congr fun d _ => ?_
    cases d <;> rfl
  rw [hv, ht]
  cases convertFrom [] cur with
  | error e => rfl
  | ok ts => exact generate_retext u w ⟨mode, [], ts, [], convertDDLsToViews cur, [], convertDDLsToTriggers cur⟩ want

end Sqldef
