import Verif.Spec.Listed
import Verif.Proofs.Reorder
import Verif.Proofs.Rearranged
/-
The order in which schemas are listed decides the order of the statements only.
-/
namespace Sqldef
open Spec

theorem markedPrimary_perm (n c : Str) {as bs : List DDL} (h : as.Perm bs) : markedPrimary n c as = markedPrimary n c bs := by
  have key : ∀ ds, markedPrimary n c ds = ds.any fun d => markedPrimary n c [d] := by
    intro ds
    induction ds with
    | nil => rfl
    | cons d ds ih => cases d <;> simp [markedPrimary, ih]
  rw [key as, key bs]
  exact h.any_eq

theorem same_parts {α : Type} {f : List DDL → List α} (h1 : ∀ d ds, f (d :: ds) = f [d] ++ f ds)
    (h2 : ∀ s t u, f [.createTable s t] = f [.createTable s u]) {as bs : List DDL} (h : List.Forall₂ SameListed as bs) : f bs = f as := by
  induction h with
  | nil => rfl
  | @cons a b as bs hab _ ih =>
    rw [h1 a, h1 b, ih]
    cases hab with
    | same => rfl
    | table s same => rw [h2]

theorem markedPrimary_same (n c : Str) {as bs : List DDL} (h : List.Forall₂ SameListed as bs) : markedPrimary n c bs = markedPrimary n c as := by
  induction h with
  | nil => rfl
  | @cons a b as bs hab _ ih =>
    cases hab with
    | same => cases a <;> simp [markedPrimary, ih]
    | table s same => simp [markedPrimary, ih]

theorem created_listed {as bs : List DDL} (h : List.Forall₂ SameListed as bs) : List.Forall₂ TableListed (created as) (created bs) := by
  induction h with
  | nil => exact .nil
  | @cons a b as bs hab _ ih =>
    cases hab with
    | same => cases a <;> first | exact ih | exact .cons ⟨rfl, rfl, .refl _, .refl _, .refl _, rfl⟩ ih
    | table s same => exact .cons same ih

theorem complete_listed {ds es ds' : List DDL} (h : List.Forall₂ SameListed ds es) (hp : es.Perm ds')
    (hs : ∀ n, ∀ i ∈ indexesFor n ds, i.primary = false) {t u : Table} (htu : TableListed t u) :
    TableListed (Spec.complete ds t) (Spec.complete ds' u) where
  name := htu.name
  columns := by
    show u.columns.map _ = t.columns.map _
    rw [htu.columns, htu.name]
    simp only [← markedPrimary_perm _ _ hp, markedPrimary_same _ _ h]
  indexes := by
    show (t.indexes ++ indexesFor t.name ds).Perm (u.indexes ++ indexesFor u.name ds')
    have := same_parts (f := indexesFor t.name) (fun d ds => by cases d <;> simp only [indexesFor] <;> (try split) <;> rfl) (fun _ _ _ => rfl) h
    rw [htu.name, ← this]
    exact htu.indexes.append (indexesFor_perm _ hp)
  foreignKeys := by
    show (t.foreignKeys ++ foreignKeysFor t.name ds).Perm (u.foreignKeys ++ foreignKeysFor u.name ds')
    have := same_parts (f := foreignKeysFor t.name) (fun d ds => by cases d <;> simp only [foreignKeysFor] <;> (try split) <;> rfl)
      (fun _ _ _ => rfl) h
    rw [htu.name, ← this]
    exact htu.foreignKeys.append (foreignKeysFor_perm _ hp)
  policies := by
    show (t.policies ++ policiesFor t.name ds).Perm (u.policies ++ policiesFor u.name ds')
    have := same_parts (f := policiesFor t.name) (fun d ds => by cases d <;> simp only [policiesFor] <;> (try split) <;> rfl) (fun _ _ _ => rfl) h
    rw [htu.name, ← this]
    exact htu.policies.append (policiesFor_perm _ hp)
  keys := by
    show (u.indexes ++ indexesFor u.name ds').filter _ = (t.indexes ++ indexesFor t.name ds).filter _
    have := same_parts (f := indexesFor t.name) (fun d ds => by cases d <;> simp only [indexesFor] <;> (try split) <;> rfl) (fun _ _ _ => rfl) h
    have h1 : (indexesFor t.name ds).filter (·.primary) = [] := List.filter_eq_nil_iff.mpr fun i hi => by simp [hs _ i hi]
    have h2 : (indexesFor t.name ds').filter (·.primary) = [] :=
      List.filter_eq_nil_iff.mpr fun i hi => by
        have : i ∈ indexesFor t.name ds := by
          rw [← this]
          exact (indexesFor_perm _ hp).mem_iff.mpr hi
        simp [hs _ i this]
    rw [htu.name, List.filter_append, List.filter_append, h1, h2, htu.keys]

theorem tablesOf_listed {ds ds' : List DDL} (h : ListedAgain ds ds') (hs : ∀ n, ∀ i ∈ indexesFor n ds, i.primary = false) :
    ∃ ts, List.Forall₂ TableListed (tablesOf ds) ts ∧ ts.Perm (tablesOf ds') := by
  obtain ⟨es, h1, h2⟩ := h
  refine ⟨(created es).map (Spec.complete ds'), ?_, (created_perm h2).map _⟩
  have := created_listed h1
  unfold tablesOf
  rw [List.forall₂_map_left_iff, List.forall₂_map_right_iff]
  exact this.imp fun _ _ => complete_listed h1 h2 hs

theorem viewsOf_listed {ds ds' : List DDL} (h : ListedAgain ds ds') : (viewsOf ds).Perm (viewsOf ds') := by
  obtain ⟨es, h1, h2⟩ := h
  rw [← same_parts (f := viewsOf) (fun d ds => by cases d <;> rfl) (fun _ _ _ => rfl) h1]
  exact viewsOf_perm h2

theorem triggersOf_listed {ds ds' : List DDL} (h : ListedAgain ds ds') : (triggersOf ds).Perm (triggersOf ds') := by
  obtain ⟨es, h1, h2⟩ := h
  rw [← same_parts (f := triggersOf) (fun d ds => by cases d <;> rfl) (fun _ _ _ => rfl) h1]
  exact triggersOf_perm h2

theorem names_same {ts us : List Table} (h : List.Forall₂ TableListed ts us) : us.map (·.name) = ts.map (·.name) := by
  induction h with
  | nil => rfl
  | cons hx _ ih => rw [List.map_cons, List.map_cons, hx.name, ih]

theorem unique_listed {ds ds' : List DDL} (h : ListedAgain ds ds') (hn : UniqueTables ds) : UniqueTables ds' := by
  obtain ⟨es, h1, h2⟩ := h
  have := names_same (created_listed h1)
  refine ((created_perm h2).map _).nodup_iff.mp ?_
  rw [this]
  exact hn

/-- A table is found under its name, wherever it is listed. -/
theorem findTable_listed {ds ds' : List DDL} (h : ListedAgain ds ds') (hn : NamesDiffer ds) (n : Str) :
    Option.Rel (fun x y => x ∈ tablesOf ds ∧ TableListed x y) (findTableByName (tablesOf ds) n) (findTableByName (tablesOf ds') n) := by
  obtain ⟨ts, h1, h2⟩ := tablesOf_listed h hn.secondary
  have hu : (ts.map (·.name)).Nodup := by
    rw [names_same h1, names_tablesOf]
    exact hn.tables
  have e : findTableByName (tablesOf ds') n = findTableByName ts n := find_perm (key := Table.name) h2 hu n
  rw [e]
  have key : ∀ as bs : List Table, List.Forall₂ TableListed as bs →
      Option.Rel (fun x y => x ∈ as ∧ TableListed x y) (findTableByName as n) (findTableByName bs n) := by
    intro as bs hab
    induction hab with
    | nil => exact .none
    | @cons a b as bs h _ ih =>
      unfold findTableByName at *
      by_cases he : a.name = n
      · rw [List.find?_cons_of_pos (by simpa using he), List.find?_cons_of_pos (by simpa [h.name] using he)]
        exact .some ⟨List.mem_cons_self, h⟩
      · rw [List.find?_cons_of_neg (by simpa using he), List.find?_cons_of_neg (by simpa [h.name] using he)]
        revert ih
        generalize as.find? _ = p
        generalize bs.find? _ = q
        rintro (h | h)
        · exact .some ⟨List.mem_cons_of_mem _ h.1, h.2⟩
        · exact .none
  exact key _ _ h1

theorem primaryKey_listed {x y : Table} (h : TableListed x y) : y.primaryKey = x.primaryKey := by
  have h1 : y.indexes.find? (·.primary) = x.indexes.find? (·.primary) := by
    rw [← List.head?_filter, ← List.head?_filter, h.keys]
  unfold Table.primaryKey
  rw [h1, h.columns]

theorem createTable_same {mode : Mode} {x y : Table} (h : TableListed x y) (hp : PartsDiffer x) (d : Table) :
    generateDDLsForCreateTable mode y d = generateDDLsForCreateTable mode x d := by
  have h1 : ∀ n, findIndexByName y.indexes n = findIndexByName x.indexes n := find_perm (key := Index.name) h.indexes hp.indexes
  have h2 : ∀ n, findForeignKeyByName y.foreignKeys n = findForeignKeyByName x.foreignKeys n :=
    find_perm (key := ForeignKey.constraintName) h.foreignKeys hp.foreignKeys
  have h3 := primaryKey_listed h
  have h4 : ∀ c, isPrimaryKey c y = isPrimaryKey c x := by
    intro c
    unfold isPrimaryKey
    rw [h.indexes.any_eq]
  have e1 : columnDDLs mode y d = columnDDLs mode x d := by
    funext p c
    simp only [columnDDLs, mysqlColumn, mysqlChange, changeOrder, mysqlUnique, postgresColumn, pgNotNull, pgIdentity, pgDefault, mssqlColumn,
      mssqlIdentity, mssqlIdentityDrop, mssqlDefault, mssqlDefaultDrop, mssqlDefaultAdd, h.name, h.columns, h1, h4]
    rfl
  have e2 : removeAutoIncrement mode y d = removeAutoIncrement mode x d := by
    simp only [removeAutoIncrement, h.name, h.columns]
  have e3 : primaryKeyDDLs mode y d = primaryKeyDDLs mode x d := by
    simp only [primaryKeyDDLs, dropPrimaryKeyDDLs, h.name, h3]
  have e4 : tableIndexDDLs mode y d = tableIndexDDLs mode x d := by
    funext i
    simp only [tableIndexDDLs, h.name, h1]
  have e5 : addAutoIncrement mode y d = addAutoIncrement mode x d := by
    simp only [addAutoIncrement, gainsAutoIncrement, h.name, h.columns]
    rfl
  have e6 : tableForeignKeyDDLs mode y d = tableForeignKeyDDLs mode x d := by
    funext i
    simp only [tableForeignKeyDDLs, h.name, h2]
  simp only [generateDDLsForCreateTable, e1, e2, e3, e4, e5, e6]

theorem defStmts_listed {mode : Mode} {cur cur' : List DDL} (h : ListedAgain cur cur') (hn : NamesDiffer cur) :
    defStmts mode (tablesOf cur') (viewsOf cur') (triggersOf cur') = defStmts mode (tablesOf cur) (viewsOf cur) (triggersOf cur) := by
  have h2 : ∀ n, findViewByName (viewsOf cur') n = findViewByName (viewsOf cur) n := find_perm (key := View.name) (viewsOf_listed h) hn.views
  have h3 : ∀ n, findTriggerByName (triggersOf cur') n = findTriggerByName (triggersOf cur) n :=
    find_perm (key := Trigger.name) (triggersOf_listed h) hn.triggers
  have hi : ∀ n m, ((findTableByName (tablesOf cur') n).bind fun x => findIndexByName x.indexes m) =
      (findTableByName (tablesOf cur) n).bind fun x => findIndexByName x.indexes m := by
    intro n m
    have := findTable_listed h hn n
    revert this
    generalize findTableByName (tablesOf cur) n = p
    generalize findTableByName (tablesOf cur') n = q
    rintro (h | h)
    · exact find_perm (key := Index.name) h.2.indexes (hn.parts _ h.1).indexes m
    · rfl
  have hp : ∀ n m, ((findTableByName (tablesOf cur') n).bind fun x => findPolicyByName x.policies m) =
      (findTableByName (tablesOf cur) n).bind fun x => findPolicyByName x.policies m := by
    intro n m
    have := findTable_listed h hn n
    revert this
    generalize findTableByName (tablesOf cur) n = p
    generalize findTableByName (tablesOf cur') n = q
    rintro (h | h)
    · exact find_perm (key := Policy.name) h.2.policies (hn.parts _ h.1).policies m
    · rfl
  funext d
  cases d with
  | createTable s t =>
    have := findTable_listed h hn t.name
    simp only [defStmts]
    revert this
    generalize findTableByName (tablesOf cur) t.name = p
    generalize findTableByName (tablesOf cur') t.name = q
    rintro (h | h)
    · exact createTable_same h.2 (hn.parts _ h.1) t
    · rfl
  | _ => simp only [defStmts, indexStmts, policyStmts, viewStmts, triggerStmts, hi, hp, h2, h3]

theorem concatMapM_reordered {α β : Type} {f : α → Except Err (List β)} {l m : List α} (h : l.Perm m) {r : List β} (hr : concatMapM f l = .ok r) :
    ∃ r', concatMapM f m = .ok r' ∧ r.Perm r' := by
  have key : ∀ (l : List α) (r : List β), concatMapM f l = .ok r ↔ ∃ xs : List (List β), List.Forall₂ (fun a x => f a = .ok x) l xs ∧ xs.flatten = r := by
    intro l
    induction l with
    | nil =>
      intro r
      simp [concatMapM]
    | cons a l ih =>
      intro r
      unfold concatMapM
      cases ha : f a with
      | error e =>
        refine ⟨fun h => (by cases h), ?_⟩
        rintro ⟨xs, hx, -⟩
        cases hx with
        | cons h _ => rw [ha] at h; cases h
      | ok x =>
        constructor
        · intro h
          change (concatMapM f l >>= fun y => pure (x ++ y)) = _ at h
          cases hl : concatMapM f l with
          | error e => rw [hl] at h; cases h
          | ok y =>
            rw [hl] at h
            cases h
            obtain ⟨xs, h1, h2⟩ := (ih y).mp hl
            exact ⟨x :: xs, .cons ha h1, by rw [List.flatten_cons, h2]⟩
        · rintro ⟨xs, hx, rfl⟩
          cases hx with
          | cons h1 h2 =>
            rw [ha] at h1
            cases h1
            change (concatMapM f l >>= fun y => pure (x ++ y)) = _
            rw [(ih _).mpr ⟨_, h2, rfl⟩]
            rfl
  obtain ⟨xs, h1, rfl⟩ := (key _ _).mp hr
  obtain ⟨ys, h2, h3⟩ := List.perm_comp_forall₂ h.symm h1
  exact ⟨_, (key _ _).mpr ⟨ys, h2, rfl⟩, h3.symm.flatten⟩

theorem cleanup_removes {mode : Mode} {x d : Table} {out : List Stmt} (h : cleanupTable mode x d = .ok out) : ∀ s ∈ out, TakesAway s := by
  have hi : ∀ (l : List Index) (r : List Stmt), concatMapM (fun i => absentIndex mode i x d) l = .ok r → ∀ s ∈ r, TakesAway s := by
    intro l
    induction l with
    | nil => intro r hr; cases hr; simp
    | cons i l ih =>
      intro r hr
      unfold concatMapM at hr
      cases hx : absentIndex mode i x d with
      | error e => rw [hx] at hr; cases hr
      | ok a =>
        rw [hx] at hr
        change (concatMapM _ l >>= fun y => pure (a ++ y)) = _ at hr
        cases hy : concatMapM (fun i => absentIndex mode i x d) l with
        | error e => rw [hy] at hr; cases hr
        | ok y =>
          rw [hy] at hr
          cases hr
          intro s hs
          rcases List.mem_append.mp hs with hs | hs
          · unfold absentIndex at hx
            repeat' split at hx
            all_goals first | (cases hx; done) | (cases hx; simp at hs; try (subst hs; trivial))
          · exact ih _ hy s hs
  unfold cleanupTable at h
  simp only [bind, Except.bind] at h
  split at h
  · cases h
  · rename_i idx he
    cases h
    intro s hs
    simp only [List.mem_append] at hs
    rcases hs with ((hs | hs) | hs) | hs
    · obtain ⟨f, -, hs⟩ := List.mem_flatMap.mp hs
      unfold absentForeignKey at hs
      repeat' split at hs
      all_goals first | (simp at hs; done) | (simp at hs; subst hs; trivial)
    · exact hi _ _ he s hs
    · obtain ⟨c, -, hs⟩ := List.mem_flatMap.mp hs
      unfold absentColumn at hs
      rcases List.mem_append.mp hs with hs | hs
      · split at hs
        · obtain ⟨c, -, hs⟩ := List.mem_filterMap.mp hs
          repeat' split at hs
          all_goals first | (cases hs; done) | (cases hs; trivial)
        · simp at hs
      · simp at hs; subst hs; trivial
    · obtain ⟨p, -, rfl⟩ := List.mem_map.mp hs
      trivial

theorem cleanups_remove {mode : Mode} {D : List Table} : ∀ {l : List Table} {out : List Stmt}, concatMapM (tableCleanup mode D) l = .ok out →
    ∀ s ∈ out, TakesAway s := by
  intro l
  induction l with
  | nil => intro r hr; cases hr; simp
  | cons x l ih =>
    intro r hr
    unfold concatMapM at hr
    cases hx : tableCleanup mode D x with
    | error e => rw [hx] at hr; cases hr
    | ok a =>
      rw [hx] at hr
      change (concatMapM _ l >>= fun y => pure (a ++ y)) = _ at hr
      cases hy : concatMapM (tableCleanup mode D) l with
      | error e => rw [hy] at hr; cases hr
      | ok y =>
        rw [hy] at hr
        cases hr
        intro s hs
        rcases List.mem_append.mp hs with hs | hs
        · unfold tableCleanup at hx
          split at hx
          · cases hx
            simp at hs
            subst hs
            trivial
          · exact cleanup_removes hx s hs
        · exact ih hy s hs

theorem cleanupTable_listed {mode : Mode} {x y : Table} (h : TableListed x y) (d : Table) {out : List Stmt} (ho : cleanupTable mode x d = .ok out) :
    ∃ out', cleanupTable mode y d = .ok out' ∧ out.Perm out' := by
  have e1 : ∀ i, absentIndex mode i y d = absentIndex mode i x d := fun i => by simp only [absentIndex, h.name]
  have e2 : ∀ f, absentForeignKey mode f y d = absentForeignKey mode f x d := fun i => by simp only [absentForeignKey, h.name]
  have e3 : ∀ c, absentColumn mode y c = absentColumn mode x c := fun i => by simp only [absentColumn, h.name, h.columns]
  unfold cleanupTable at ho ⊢
  simp only [e1, e2, e3, h.columns, h.name]
  simp only [bind, Except.bind] at ho ⊢
  split at ho
  · cases ho
  · rename_i idx he
    cases ho
    obtain ⟨idx', h1, h2⟩ := concatMapM_reordered (h.indexes.filter _) he
    rw [h1]
    exact ⟨_, rfl, ((((h.foreignKeys.filter _).flatMap_right _).append h2).append (.refl _)).append ((h.policies.filter _).map _)⟩

theorem tableCleanup_listed {mode : Mode} {D : List Table} {x y : Table} (h : TableListed x y) {out : List Stmt} (ho : tableCleanup mode D x = .ok out) :
    ∃ out', tableCleanup mode D y = .ok out' ∧ out.Perm out' := by
  unfold tableCleanup at ho ⊢
  rw [h.name]
  split at ho
  · cases ho
    exact ⟨_, rfl, .refl _⟩
  · exact cleanupTable_listed h _ ho

theorem cleanups_same {mode : Mode} {D : List Table} {xs ys : List Table} (h : List.Forall₂ TableListed xs ys) :
    ∀ {out : List Stmt}, concatMapM (tableCleanup mode D) xs = .ok out → ∃ out', concatMapM (tableCleanup mode D) ys = .ok out' ∧ out.Perm out' := by
  induction h with
  | nil => exact fun ho => ⟨_, ho, .refl _⟩
  | @cons x y xs ys hxy _ ih =>
    intro out ho
    obtain ⟨a, b, h1, h2, rfl⟩ := concatMapM_cons_ok.1 ho
    obtain ⟨a', h3, h4⟩ := tableCleanup_listed hxy h1
    obtain ⟨b', h5, h6⟩ := ih h2
    exact ⟨_, concatMapM_cons_ok.2 ⟨a', b', h3, h5, rfl⟩, h4.append h6⟩

/-- The current schema in another order. -/
theorem diff_current_listed {mode : Mode} {des cur cur' : List DDL} (hd : UniqueTables des) (hn : NamesDiffer cur) (h : ListedAgain cur cur')
    (hw : WellFormedCurrent cur') {out : List Stmt} (ho : diff mode des cur = .ok out) :
    ∃ same rest rest', out = same ++ rest ∧ diff mode des cur' = .ok (same ++ rest') ∧ rest.Perm rest' ∧ ∀ s ∈ rest, TakesAway s := by
  have hc' := unique_listed h hn.tables
  obtain ⟨h1, h2, x, y, h3, h4, rfl⟩ := (diff_stateless mode des cur hd hn.tables out).1 ho
  obtain ⟨ts, t1, t2⟩ := tablesOf_listed h hn.secondary
  obtain ⟨z, h5, h6⟩ := cleanups_same t1 h4
  obtain ⟨y', h7, h8⟩ := concatMapM_reordered t2 h5
  refine ⟨x, y ++ cleanupViews (viewsOf des) (viewsOf cur), y' ++ cleanupViews (viewsOf des) (viewsOf cur'), by rw [List.append_assoc], ?_, ?_, ?_⟩
  · refine (diff_stateless mode des cur' hd hc' _).2 ⟨h1, hw, x, y', ?_, h7, by rw [List.append_assoc]⟩
    rw [defStmts_listed h hn]
    exact h3
  · exact (h6.trans h8).append (((viewsOf_listed h).filter _).map _)
  · intro s hs
    rcases List.mem_append.mp hs with hs | hs
    · exact cleanups_remove h4 s hs
    · obtain ⟨v, -, rfl⟩ := List.mem_map.mp hs
      trivial

theorem viewNames_of_wellFormed {ds : List DDL} (h : WellFormed ds) : ((viewsOf ds).map (·.name)).Nodup := by
  induction ds using List.reverseRecOn with
  | nil => exact List.nodup_nil
  | append_singleton ds d ih =>
    have hp : WellFormed ds := fun pre e post he => h pre e (post ++ [d]) (by rw [he]; simp)
    have hd := h ds d [] rfl
    have e : viewsOf (ds ++ [d]) = viewsOf ds ++ viewsOf [d] := by
      clear h ih hp hd
      induction ds with
      | nil => rfl
      | cons a ds ih => cases a <;> simp [viewsOf] at ih ⊢ <;> exact ih
    rw [e, List.map_append]
    cases d with
    | view v =>
      have hd' : v.name ∉ (viewsOf ds).map (·.name) := hd
      exact List.nodup_append.mpr ⟨ih hp, List.nodup_singleton _, fun a ha b hb he => hd' (by simp [viewsOf] at hb; rw [← hb, ← he]; exact ha)⟩
    | _ => simpa [viewsOf] using ih hp

theorem indexFor_made {n : Str} {ds : List DDL} {i : Index} (h : i ∈ indexesFor n ds) : ∃ s, .createIndex s n i ∈ ds ∨ .addIndex s n i ∈ ds := by
  induction ds with
  | nil => cases h
  | cons d ds ih =>
    have rest : i ∈ indexesFor n ds → ∃ s, .createIndex s n i ∈ d :: ds ∨ .addIndex s n i ∈ d :: ds := fun h => by
      obtain ⟨s, h | h⟩ := ih h
      · exact ⟨s, .inl (List.mem_cons_of_mem _ h)⟩
      · exact ⟨s, .inr (List.mem_cons_of_mem _ h)⟩
    cases d with
    | createIndex s t j =>
      simp only [indexesFor] at h
      split at h
      · rename_i e
        subst e
        rcases List.mem_cons.mp h with rfl | h
        · exact ⟨s, .inl List.mem_cons_self⟩
        · exact rest h
      · exact rest h
    | addIndex s t j =>
      simp only [indexesFor] at h
      split at h
      · rename_i e
        subst e
        rcases List.mem_cons.mp h with rfl | h
        · exact ⟨s, .inr List.mem_cons_self⟩
        · exact rest h
      · exact rest h
    | _ => exact rest h

theorem namesDiffer_of_normal {mode : Mode} {ds : List DDL} (h : Normal mode ds) : NamesDiffer ds where
  tables := h.unique
  parts t ht := by
    obtain ⟨u, hu, rfl⟩ := List.mem_map.mp ht
    obtain ⟨s, hs⟩ := mem_created.1 hu
    have := h.tables s u hs
    exact ⟨this.indexes, this.foreignKeys, this.policies⟩
  secondary n i hi := by
    obtain ⟨s, hm⟩ := indexFor_made hi
    have : ∃ pre post d, ds = pre ++ d :: post ∧ ∃ t, tableIn pre n = some t := by
      rcases hm with hm | hm <;> obtain ⟨pre, post, e⟩ := List.append_of_mem hm <;> have := h.wellFormed pre _ post e <;>
        obtain ⟨t, ht, -⟩ := this <;> exact ⟨pre, post, _, e, t, ht⟩
    obtain ⟨pre, post, d, e, ht⟩ := this
    obtain ⟨t, h1, rfl⟩ := List.mem_map.mp (tableIn_some_iff.1 ht)
    obtain ⟨x, hx⟩ := mem_created.1 h1
    exact (h.tables x t (by rw [e]; exact List.mem_append_left _ hx)).secondary i hi
  views := viewNames_of_wellFormed h.wellFormed
  triggers := h.triggers

end Sqldef
