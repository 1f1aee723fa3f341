import Verif.Proofs.TableScript
import Verif.Props.Objects
/-!
What one table contributes to the script depends only on this table, and the order of definitions about
different tables does not matter: C29 (first part), C30.
-/
namespace Sqldef
open Spec

variable {mode : Mode} {desired current desired' current' : List DDL} {out out' : List Stmt}

/-! ### The described table depends on the definitions about it -/

theorem created_about (n : Str) (ds : List DDL) :
    created (about n ds) = (created ds).filter fun t => decide (t.name = n) := by
  induction ds with
  | nil => rfl
  | cons d ds ih =>
    unfold about at ih ⊢
    by_cases h : DDL.table d = some n
    · rw [List.filter_cons_of_pos (by simpa using h)]
      cases d <;> simp_all [created, DDL.table]
    · rw [List.filter_cons_of_neg (by simpa using h)]
      cases d <;> simp_all [created, DDL.table]

theorem indexesFor_about (n : Str) (ds : List DDL) : indexesFor n (about n ds) = indexesFor n ds := by
  induction ds with
  | nil => rfl
  | cons d ds ih =>
    unfold about at ih ⊢
    by_cases h : DDL.table d = some n
    · rw [List.filter_cons_of_pos (by simpa using h)]
      cases d <;> simp_all [indexesFor, DDL.table]
    · rw [List.filter_cons_of_neg (by simpa using h)]
      cases d <;> simp_all [indexesFor, DDL.table]

theorem foreignKeysFor_about (n : Str) (ds : List DDL) : foreignKeysFor n (about n ds) = foreignKeysFor n ds := by
  induction ds with
  | nil => rfl
  | cons d ds ih =>
    unfold about at ih ⊢
    by_cases h : DDL.table d = some n
    · rw [List.filter_cons_of_pos (by simpa using h)]
      cases d <;> simp_all [foreignKeysFor, DDL.table]
    · rw [List.filter_cons_of_neg (by simpa using h)]
      cases d <;> simp_all [foreignKeysFor, DDL.table]

theorem policiesFor_about (n : Str) (ds : List DDL) : policiesFor n (about n ds) = policiesFor n ds := by
  induction ds with
  | nil => rfl
  | cons d ds ih =>
    unfold about at ih ⊢
    by_cases h : DDL.table d = some n
    · rw [List.filter_cons_of_pos (by simpa using h)]
      cases d <;> simp_all [policiesFor, DDL.table]
    · rw [List.filter_cons_of_neg (by simpa using h)]
      cases d <;> simp_all [policiesFor, DDL.table]

theorem markedPrimary_about (n c : Str) (ds : List DDL) : markedPrimary n c (about n ds) = markedPrimary n c ds := by
  induction ds with
  | nil => rfl
  | cons d ds ih =>
    unfold about at ih ⊢
    by_cases h : DDL.table d = some n
    · rw [List.filter_cons_of_pos (by simpa using h)]
      cases d <;> simp_all [markedPrimary, DDL.table]
    · rw [List.filter_cons_of_neg (by simpa using h)]
      cases d <;> simp_all [markedPrimary, DDL.table]

theorem complete_about (ds : List DDL) (t : Table) : complete (about t.name ds) t = complete ds t := by
  simp only [complete, indexesFor_about, foreignKeysFor_about, policiesFor_about, markedPrimary_about]

theorem complete_congr {ds ds' : List DDL} {t : Table} (h : about t.name ds = about t.name ds') :
    complete ds t = complete ds' t := by
  rw [← complete_about ds, ← complete_about ds', h]

theorem tablesOf_name (ds : List DDL) (n : Str) :
    ((tablesOf ds).filter fun t => decide (t.name = n)) = ((created ds).filter fun t => decide (t.name = n)).map (complete ds) := by
  unfold tablesOf
  rw [List.filter_map]; rfl

theorem tablesOf_name_congr {ds ds' : List DDL} {n : Str} (h : about n ds = about n ds') :
    ((tablesOf ds).filter fun t => decide (t.name = n)) = (tablesOf ds').filter fun t => decide (t.name = n) := by
  rw [tablesOf_name, tablesOf_name, ← created_about, ← created_about, h]
  apply List.map_congr_left
  intro t ht
  rw [created_about] at ht
  have : t.name = n := by simpa using (List.mem_filter.1 ht).2
  subst this
  exact complete_congr h

theorem tableIn_congr {ds ds' : List DDL} {n : Str} (h : about n ds = about n ds') : tableIn ds n = tableIn ds' n :=
  filter_find _ _ _ (tablesOf_name_congr h)

theorem defStmts_congr {C C' : List Table} {cv cv' : List View} {ct ct' : List Trigger} {d : DDL}
    (h : ∀ n, DDL.table d = some n → findTableByName C n = findTableByName C' n)
    (hv : DDL.table d = none → cv = cv' ∧ ct = ct') : defStmts mode C cv ct d = defStmts mode C' cv' ct' d := by
  cases d with
  | createTable s t => simp only [defStmts, h t.name rfl]
  | createIndex s n i => simp only [defStmts, indexStmts, h n rfl]
  | addIndex s n i => simp only [defStmts, indexStmts, h n rfl]
  | addForeignKey s n i => rfl
  | addPolicy s n i => simp only [defStmts, policyStmts, h n rfl]
  | view v => obtain ⟨rfl, rfl⟩ := hv rfl; rfl
  | trigger v => obtain ⟨rfl, rfl⟩ := hv rfl; rfl
  | addPrimaryKey s n i => rfl

/-! ### C29 -/

/-- C29: what is generated about a table depends only on the definitions about this table in the desired and
in the current schema, not on other tables, views or triggers. -/
theorem C29_only_own_definitions_matter (hd : UniqueTables desired) (hc : UniqueTables current)
    (hd' : UniqueTables desired') (hc' : UniqueTables current')
    (h : diff mode desired current = .ok out) (h' : diff mode desired' current' = .ok out')
    {n : Str} (hdn : about n desired = about n desired') (hcn : about n current = about n current') :
    out.filter (fun s => decide (Stmt.table s = some n)) = out'.filter fun s => decide (Stmt.table s = some n) := by
  obtain ⟨_, _, sc⟩ := script hd hc h
  obtain ⟨_, _, sc'⟩ := script hd' hc' h'
  obtain ⟨u, v, hu, hv, ho⟩ := sc.about n
  obtain ⟨u', v', hu', hv', ho'⟩ := sc'.about n
  rw [ho, ho']
  have e1 : u = u' := by
    have hf : (desired.filter fun d => decide (DDL.table d = some n)) = desired'.filter fun d => decide (DDL.table d = some n) := hdn
    rw [hf, concatMapM_congr _ (defStmts mode (tablesOf current') (viewsOf current') (triggersOf current')) _ (by
      intro d hd
      have hdt : DDL.table d = some n := by simpa using (List.mem_filter.1 hd).2
      apply defStmts_congr
      · intro m hm
        rw [hdt] at hm; cases hm
        exact tableIn_congr hcn
      · intro hm; rw [hdt] at hm; cases hm), hu'] at hu
    cases hu; rfl
  have e2 : v = v' := by
    have hf : ((tablesOf current).filter fun t => decide (some t.name = some n)) =
        (tablesOf current').filter fun t => decide (some t.name = some n) := by
      simpa using tablesOf_name_congr hcn
    rw [hf, concatMapM_congr _ (tableCleanup mode (tablesOf desired')) _ (by
      intro x hx
      have hxn : x.name = n := by simpa using (List.mem_filter.1 hx).2
      unfold tableCleanup
      have : findTableByName (tablesOf desired) x.name = findTableByName (tablesOf desired') x.name := by
        rw [hxn]; exact tableIn_congr hdn
      rw [this]), hv'] at hv
    cases hv; rfl
  rw [e1, e2]

/-- The statements about `users` are the same when other tables and a view are there. -/
example : about (lit "users") exDesired = about (lit "users") [exCreate exLogs, exCreate exUsers'] ∧
    about (lit "users") exCurrent = about (lit "users") [.view ⟨[], lit "v", lit "select 1"⟩, exCreate exUsers] ∧
    (∃ o, diff .mysql [exCreate exLogs, exCreate exUsers'] [.view ⟨[], lit "v", lit "select 1"⟩, exCreate exUsers] = .ok o) ∧
    exOut.filter (fun s => decide (Stmt.table s = some (lit "users"))) =
      [.addColumn (lit "users") (exInt "name" 1) (.after (lit "id")), .dropColumn (lit "users") (lit "age")] :=
  ⟨by decide, by decide, ⟨_, rfl⟩, by decide⟩

/-! ### C30 -/

theorem Spec.Rearranged.perm {ds ds' : List DDL} (h : Rearranged ds ds') : ds.Perm ds' := by
  rw [List.perm_iff_count]
  intro a
  have := congrArg (List.count a) (h (DDL.table a))
  rwa [List.count_filter (by simp), List.count_filter (by simp)] at this

theorem Spec.Rearranged.symm {ds ds' : List DDL} (h : Rearranged ds ds') : Rearranged ds' ds := fun k => (h k).symm

theorem Spec.Rearranged.about {ds ds' : List DDL} (h : Rearranged ds ds') (n : Str) : Spec.about n ds = Spec.about n ds' := h (some n)

theorem created_perm {ds ds' : List DDL} (h : ds.Perm ds') : (created ds).Perm (created ds') := by
  have e : ∀ ds, created ds = ds.filterMap fun d => match d with | .createTable _ t => some t | _ => none := by
    intro ds
    induction ds with
    | nil => rfl
    | cons d ds ih => cases d <;> simp [created, ih]
  rw [e, e]
  exact h.filterMap _

theorem unique_of_rearranged {ds ds' : List DDL} (h : Rearranged ds ds') (hu : UniqueTables ds) : UniqueTables ds' :=
  ((created_perm h.perm).map _).nodup hu

theorem viewsOf_filter (ds : List DDL) : viewsOf (ds.filter fun d => decide (DDL.table d = none)) = viewsOf ds := by
  induction ds with
  | nil => rfl
  | cons d ds ih => cases d <;> simp_all [viewsOf, DDL.table]

theorem triggersOf_filter (ds : List DDL) : triggersOf (ds.filter fun d => decide (DDL.table d = none)) = triggersOf ds := by
  induction ds with
  | nil => rfl
  | cons d ds ih => cases d <;> simp_all [triggersOf, DDL.table]

theorem viewsOf_congr {ds ds' : List DDL}
    (h : (ds.filter fun d => decide (DDL.table d = none)) = ds'.filter fun d => decide (DDL.table d = none)) :
    viewsOf ds = viewsOf ds' := by
  rw [← viewsOf_filter, h, viewsOf_filter]

theorem triggersOf_congr {ds ds' : List DDL}
    (h : (ds.filter fun d => decide (DDL.table d = none)) = ds'.filter fun d => decide (DDL.table d = none)) :
    triggersOf ds = triggersOf ds' := by
  rw [← triggersOf_filter, h, triggersOf_filter]

/-- A place in the rearranged list corresponds to a place in the original list. -/
theorem Spec.Rearranged.place {ds pre' post' : List DDL} {d : DDL} (h : Rearranged ds (pre' ++ d :: post')) :
    ∃ pre post, ds = pre ++ d :: post ∧
      (pre.filter fun e => decide (DDL.table e = DDL.table d)) = pre'.filter fun e => decide (DDL.table e = DDL.table d) := by
  have := h (DDL.table d)
  rw [List.filter_append, List.filter_cons_of_pos (by simp)] at this
  obtain ⟨a, b, rfl, ha, hb⟩ := List.filter_eq_append_iff.1 this
  obtain ⟨l1, l2, rfl, h1, h2, h3⟩ := List.filter_eq_cons_iff.1 hb
  refine ⟨a ++ l1, l2, by simp, ?_⟩
  have h0 : l1.filter (fun e => decide (DDL.table e = DDL.table d)) = [] := List.filter_eq_nil_iff.2 h1
  rw [List.filter_append, ha, h0, List.append_nil]

theorem follows_congr {pre pre' : List DDL} {d : DDL}
    (h : (pre.filter fun e => decide (DDL.table e = DDL.table d)) = pre'.filter fun e => decide (DDL.table e = DDL.table d))
    (hf : Follows pre d) : Follows pre' d := by
  cases d with
  | createTable s t => trivial
  | createIndex s n i => obtain ⟨t, ht, hn⟩ := hf; exact ⟨t, (tableIn_congr (n := n) h) ▸ ht, hn⟩
  | addIndex s n i => obtain ⟨t, ht, hn⟩ := hf; exact ⟨t, (tableIn_congr (n := n) h) ▸ ht, hn⟩
  | addForeignKey s n i => obtain ⟨t, ht, hn⟩ := hf; exact ⟨t, (tableIn_congr (n := n) h) ▸ ht, hn⟩
  | addPolicy s n i => obtain ⟨t, ht, hn⟩ := hf; exact ⟨t, (tableIn_congr (n := n) h) ▸ ht, hn⟩
  | view v =>
    simp only [Follows] at hf ⊢
    rwa [← viewsOf_congr h]
  | trigger v => trivial
  | addPrimaryKey s n i => exact hf

theorem followsCurrent_congr {pre pre' : List DDL} {d : DDL}
    (h : (pre.filter fun e => decide (DDL.table e = DDL.table d)) = pre'.filter fun e => decide (DDL.table e = DDL.table d))
    (hf : FollowsCurrent pre d) : FollowsCurrent pre' d := by
  have key : ∀ n, DDL.table d = some n → n ∈ createdNames pre → n ∈ createdNames pre' := by
    intro n hn hm
    rw [hn] at h
    obtain ⟨t, ht⟩ := tableIn_some_iff.2 hm
    exact tableIn_some_iff.1 ⟨t, (tableIn_congr (n := n) h) ▸ ht⟩
  cases d with
  | createTable s t => trivial
  | createIndex s n i => exact key n rfl hf
  | addIndex s n i => exact hf
  | addForeignKey s n i => exact key n rfl hf
  | addPolicy s n i => exact key n rfl hf
  | view v => trivial
  | trigger v => trivial
  | addPrimaryKey s n i => obtain ⟨t, ht, hn⟩ := hf; exact ⟨t, (tableIn_congr (n := n) h) ▸ ht, hn⟩

theorem wellFormed_of_rearranged {ds ds' : List DDL} (h : Rearranged ds ds') (hw : WellFormed ds) : WellFormed ds' := by
  rintro pre' d post' rfl
  obtain ⟨pre, post, rfl, hp⟩ := h.place
  exact follows_congr hp (hw pre d post rfl)

theorem wellFormedCurrent_of_rearranged {ds ds' : List DDL} (h : Rearranged ds ds') (hw : WellFormedCurrent ds) :
    WellFormedCurrent ds' := by
  rintro pre' d post' rfl
  obtain ⟨pre, post, rfl, hp⟩ := h.place
  exact followsCurrent_congr hp (hw pre d post rfl)

theorem concatMapM_perm {α β : Type} {f : α → Except Err (List β)} {l l' : List α} (h : l.Perm l') :
    ∀ r, concatMapM f l = .ok r → ∃ r', concatMapM f l' = .ok r' ∧ r.Perm r' := by
  induction h with
  | nil => exact fun r hr => ⟨r, hr, .refl _⟩
  | cons a _ ih =>
    intro r hr
    obtain ⟨x, y, hx, hy, rfl⟩ := concatMapM_cons_ok.1 hr
    obtain ⟨y', hy', hp⟩ := ih y hy
    exact ⟨x ++ y', concatMapM_cons_ok.2 ⟨x, y', hx, hy', rfl⟩, hp.append_left x⟩
  | swap a b l =>
    intro r hr
    obtain ⟨x, y, hx, hy, rfl⟩ := concatMapM_cons_ok.1 hr
    obtain ⟨z, w, hz, hw, rfl⟩ := concatMapM_cons_ok.1 hy
    refine ⟨z ++ (x ++ w), concatMapM_cons_ok.2 ⟨z, _, hz, concatMapM_cons_ok.2 ⟨x, w, hx, hw, rfl⟩, rfl⟩, ?_⟩
    rw [← List.append_assoc, ← List.append_assoc]
    exact List.perm_append_comm.append_right w
  | trans _ _ ih1 ih2 =>
    intro r hr
    obtain ⟨r1, h1, p1⟩ := ih1 r hr
    obtain ⟨r2, h2, p2⟩ := ih2 r1 h1
    exact ⟨r2, h2, p1.trans p2⟩

theorem tablesOf_perm {ds ds' : List DDL} (h : Rearranged ds ds') : (tablesOf ds).Perm (tablesOf ds') := by
  have e : tablesOf ds = (created ds).map (complete ds') := by
    unfold tablesOf
    exact List.map_congr_left fun t _ => complete_congr (h.about t.name)
  rw [e]
  exact (created_perm h.perm).map _

/-- C30: if the definitions of the two schemas are listed in another order, in which those about the same table
(and those about no table) keep their order, the same statements are generated, in some order. -/
theorem C30_order_of_definitions (hd : UniqueTables desired) (hc : UniqueTables current)
    (hrd : Rearranged desired desired') (hrc : Rearranged current current')
    (h : diff mode desired current = .ok out) :
    ∃ out', diff mode desired' current' = .ok out' ∧ out.Perm out' := by
  obtain ⟨x, y, sc⟩ := script hd hc h
  have hd' := unique_of_rearranged hrd hd
  have hc' := unique_of_rearranged hrc hc
  have ev : viewsOf current = viewsOf current' := viewsOf_congr (hrc none)
  have et : triggersOf current = triggersOf current' := triggersOf_congr (hrc none)
  have ed : viewsOf desired = viewsOf desired' := viewsOf_congr (hrd none)
  have e1 : concatMapM (defStmts mode (tablesOf current') (viewsOf current') (triggersOf current')) desired = .ok x := by
    rw [← sc.defs]
    refine concatMapM_congr _ _ _ fun d _ => ?_
    apply defStmts_congr
    · intro n _; exact (tableIn_congr (hrc.about n)).symm
    · intro _; exact ⟨ev.symm, et.symm⟩
  have e2 : concatMapM (tableCleanup mode (tablesOf desired')) (tablesOf current) = .ok y := by
    rw [← sc.clean]
    refine concatMapM_congr _ _ _ fun t _ => ?_
    unfold tableCleanup
    have : findTableByName (tablesOf desired') t.name = findTableByName (tablesOf desired) t.name :=
      (tableIn_congr (hrd.about t.name)).symm
    rw [this]
  obtain ⟨x', hx', px⟩ := concatMapM_perm hrd.perm x e1
  obtain ⟨y', hy', py⟩ := concatMapM_perm (tablesOf_perm hrc) y e2
  refine ⟨x' ++ y' ++ cleanupViews (viewsOf desired') (viewsOf current'), ?_, ?_⟩
  · exact (diff_stateless mode desired' current' hd' hc' _).2
      ⟨wellFormed_of_rearranged hrd sc.wd, wellFormedCurrent_of_rearranged hrc sc.wc, x', y', hx', hy', rfl⟩
  · rw [sc.out_eq, ev, ed]
    exact (px.append py).append_right _

/-- C30: and the statements about any one table come in the same order. -/
theorem C30_order_within_a_table (hd : UniqueTables desired) (hc : UniqueTables current)
    (hrd : Rearranged desired desired') (hrc : Rearranged current current')
    (h : diff mode desired current = .ok out) (h' : diff mode desired' current' = .ok out') (n : Str) :
    out.filter (fun s => decide (Stmt.table s = some n)) = out'.filter fun s => decide (Stmt.table s = some n) :=
  C29_only_own_definitions_matter hd hc (unique_of_rearranged hrd hd) (unique_of_rearranged hrc hc) h h'
    (hrd.about n) (hrc.about n)

theorem rearranged_swap {a b : DDL} (pre post : List DDL) (h : DDL.table a ≠ DDL.table b) :
    Rearranged (pre ++ a :: b :: post) (pre ++ b :: a :: post) := by
  intro k
  rw [List.filter_append, List.filter_append]
  congr 1
  by_cases ha : DDL.table a = k
  · have hb : DDL.table b ≠ k := fun e => h (ha.trans e.symm)
    simp [ha, hb]
  · by_cases hb : DDL.table b = k <;> simp [ha, hb]

/-- C30: two neighbouring definitions about different tables (or one about a table and one not) can be swapped. -/
theorem C30_swap {a b : DDL} {pre post : List DDL} (hd : UniqueTables (pre ++ a :: b :: post)) (hc : UniqueTables current)
    (hab : DDL.table a ≠ DDL.table b) (h : diff mode (pre ++ a :: b :: post) current = .ok out) :
    ∃ out', diff mode (pre ++ b :: a :: post) current = .ok out' ∧ out.Perm out' :=
  C30_order_of_definitions hd hc (rearranged_swap pre post hab) (fun _ => rfl) h

example : DDL.table (exCreate exUsers') ≠ DDL.table (exCreate exBooks) ∧
    diff .mysql ([] ++ exCreate exUsers' :: exCreate exBooks :: []) exCurrent = .ok exOut ∧
    diff .mysql ([] ++ exCreate exBooks :: exCreate exUsers' :: []) exCurrent.reverse =
      .ok [.user (exCreate exBooks), .addColumn (lit "users") (exInt "name" 1) (.after (lit "id")),
        .dropTable (lit "logs"), .dropColumn (lit "users") (lit "age")] := by
  refine ⟨by decide, by decide +kernel, by decide +kernel⟩

end Sqldef
