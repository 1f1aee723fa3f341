import Verif.Proofs.Listed
/-
The order of the columns of the current schema, except for MySQL.
-/
namespace Sqldef
open Spec

theorem column_moved {a b : Column} (h : unplaced b = unplaced a) : ∃ p, b = { a with position := p } := by
  refine ⟨b.position, ?_⟩
  have : { unplaced b with position := b.position } = { unplaced a with position := b.position } := by rw [h]
  exact this

theorem findColumn_moved {x y : Table} (h : SameUpToOrder x y) (hc : (x.columns.map (·.name)).Nodup) (n : Str) :
    (findColumnByName y.columns n).map unplaced = (findColumnByName x.columns n).map unplaced := by
  have := find_perm (key := (·.name)) h.columns (by rw [unplaced_names]; exact hc) n
  rw [find_unplaced, find_unplaced] at this
  exact this

theorem createTable_moved {mode : Mode} (hm : mode ≠ .mysql) {x y : Table} (h : SameUpToOrder x y) (hk : OneKey x)
    (hc : (x.columns.map (·.name)).Nodup) (hp : PartsDiffer x) (d : Table) :
    generateDDLsForCreateTable mode y d = generateDDLsForCreateTable mode x d := by
  have h1 : ∀ n, findIndexByName y.indexes n = findIndexByName x.indexes n := find_perm (key := Index.name) h.indexes hp.indexes
  have h2 : ∀ n, findForeignKeyByName y.foreignKeys n = findForeignKeyByName x.foreignKeys n :=
    find_perm (key := ForeignKey.constraintName) h.foreignKeys hp.foreignKeys
  have h3 := primaryKey_rearranged h hk
  have h4 : ∀ c, isPrimaryKey c y = isPrimaryKey c x := by
    intro c
    unfold isPrimaryKey
    rw [h.indexes.any_eq]
  have e1 : columnDDLs mode y d = columnDDLs mode x d := by
    funext p c
    have := findColumn_moved h hc c.name
    unfold columnDDLs
    revert this
    generalize findColumnByName x.columns c.name = u
    generalize findColumnByName y.columns c.name = v
    intro huv
    cases u with
    | none => cases v with
      | none => rfl
      | some b => cases huv
    | some a => cases v with
      | none => cases huv
      | some b =>
        obtain ⟨q, rfl⟩ := column_moved (Option.some.inj huv)
        cases mode with
        | mysql => exact absurd rfl hm
        | postgres =>
          simp only [postgresColumn, pgNotNull, pgIdentity, pgDefault, h.name, h4]
          rfl
        | mssql =>
          simp only [mssqlColumn, mssqlIdentity, mssqlIdentityDrop, mssqlDefault, mssqlDefaultDrop, mssqlDefaultAdd, h.name]
          rfl
        | sqlite3 => rfl
  have e2 : removeAutoIncrement mode y d = removeAutoIncrement mode x d := by
    simp only [removeAutoIncrement, if_neg hm]
  have e3 : primaryKeyDDLs mode y d = primaryKeyDDLs mode x d := by
    simp only [primaryKeyDDLs, dropPrimaryKeyDDLs, h.name, h3]
  have e4 : tableIndexDDLs mode y d = tableIndexDDLs mode x d := by
    funext i
    simp only [tableIndexDDLs, h1]
  have e5 : addAutoIncrement mode y d = addAutoIncrement mode x d := by
    simp only [addAutoIncrement, if_neg hm]
  have e6 : tableForeignKeyDDLs mode y d = tableForeignKeyDDLs mode x d := by
    funext i
    simp only [tableForeignKeyDDLs, h2]
  simp only [generateDDLsForCreateTable, e1, e2, e3, e4, e5, e6]

theorem filterMap_unplaced {α : Type} {f : Column → Option α} (hf : ∀ c, f (unplaced c) = f c) (l : List Column) :
    l.filterMap f = (l.map unplaced).filterMap f := by
  rw [List.filterMap_map]
  congr 1
  funext c
  exact (hf c).symm

theorem absentColumn_moved {mode : Mode} {x y : Table} (h : SameUpToOrder x y) (n : Str) : (absentColumn mode x n).Perm (absentColumn mode y n) := by
  unfold absentColumn
  rw [h.name]
  refine List.Perm.append ?_ (.refl _)
  split
  · rw [filterMap_unplaced (l := x.columns) fun c => rfl, filterMap_unplaced (l := y.columns) fun c => rfl]
    exact h.columns.filterMap _
  · exact .refl _

theorem cleanupTable_moved {mode : Mode} {x y : Table} (h : SameUpToOrder x y) (d : Table) {out : List Stmt} (ho : cleanupTable mode x d = .ok out) :
    ∃ out', cleanupTable mode y d = .ok out' ∧ out.Perm out' := by
  have e1 : ∀ i, absentIndex mode i y d = absentIndex mode i x d := fun i => by simp only [absentIndex, h.name]
  have e2 : ∀ f, absentForeignKey mode f y d = absentForeignKey mode f x d := fun i => by simp only [absentForeignKey, h.name]
  have e3 : ((x.columns.filter fun c => !containsString (columnNames d.columns) c.name).flatMap fun c => absentColumn mode x c.name).Perm
      ((y.columns.filter fun c => !containsString (columnNames d.columns) c.name).flatMap fun c => absentColumn mode y c.name) := by
    have key : ∀ (l : List Column) (f : Str → List Stmt), ((l.filter fun c => !containsString (columnNames d.columns) c.name).flatMap fun c => f c.name) =
        (((l.map unplaced).filter fun c => !containsString (columnNames d.columns) c.name).flatMap fun c => f c.name) := by
      intro l f
      rw [List.filter_map, List.flatMap_map]
      rfl
    rw [key x.columns, key y.columns]
    refine ((h.columns.filter _).flatMap_right _).trans ?_
    exact List.Perm.flatMap_left _ fun c _ => absentColumn_moved h c.name
  unfold cleanupTable at ho ⊢
  simp only [e1, e2, h.name]
  simp only [bind, Except.bind] at ho ⊢
  split at ho
  · cases ho
  · rename_i idx he
    cases ho
    obtain ⟨idx', h1, h2⟩ := concatMapM_reordered (h.indexes.filter _) he
    rw [h1]
    exact ⟨_, rfl, ((((h.foreignKeys.filter _).flatMap_right _).append h2).append e3).append ((h.policies.filter _).map _)⟩

theorem find_partner {α γ : Type} {R : α → α → Prop} {key : α → Str} {g : α → γ} (hk : ∀ a b, R a b → key b = key a)
    (hg : ∀ a b, R a b → g b = g a) {as bs : List α} (h : List.Forall₂ R as bs) (n : Str) :
    (bs.find? fun a => key a = n).map g = (as.find? fun a => key a = n).map g := by
  induction h with
  | nil => rfl
  | @cons a b as bs h _ ih =>
    by_cases he : key a = n
    · rw [List.find?_cons_of_pos (by simpa [hk a b h] using he), List.find?_cons_of_pos (by simpa using he)]
      exact congrArg some (hg a b h)
    · rw [List.find?_cons_of_neg (by simpa [hk a b h] using he), List.find?_cons_of_neg (by simpa using he)]
      exact ih

/-- Tables that stand for each other. -/
structure Twin (mode : Mode) (x y : Table) : Prop where
  name : y.name = x.name
  create : ∀ d, generateDDLsForCreateTable mode y d = generateDDLsForCreateTable mode x d
  clean : ∀ d out, cleanupTable mode x d = .ok out → ∃ out', cleanupTable mode y d = .ok out' ∧ out.Perm out'
  indexes : ∀ n, findIndexByName y.indexes n = findIndexByName x.indexes n
  policies : ∀ n, findPolicyByName y.policies n = findPolicyByName x.policies n

theorem twins_moved {mode : Mode} (hm : mode ≠ .mysql) {cur es cur' : List DDL} (hn : Normal mode cur)
    (hk : ∀ s t, .createTable s t ∈ cur → OneKey t) (hr : List.Forall₂ SameButOrder cur es) (hc : es.Perm cur') :
    ∃ ts, List.Forall₂ (Twin mode) (tablesOf cur) ts ∧ ts.Perm (tablesOf cur') := by
  refine ⟨(created es).map (Spec.complete cur'), ?_, (created_perm hc).map _⟩
  have hp := wellFormed_noMarks hn.wellFormed
  have key : ∀ t u, t ∈ created cur → SameUpToOrder t u → Twin mode (Spec.complete cur t) (Spec.complete cur' u) := by
    intro t u ht htu
    obtain ⟨s, hs⟩ := mem_created.1 ht
    have h1 := complete_rearranged hp hr hc htu
    have h2 := hn.tables s t hs
    have h3 := (namesDiffer_of_normal hn).parts _ (List.mem_map_of_mem ht)
    have h4 : OneKey (Spec.complete cur t) := by
      have hk := hk s t hs
      refine ⟨?_, ?_⟩
      · show ((t.indexes ++ indexesFor t.name cur).filter _).length ≤ 1
        rw [List.filter_append, show (indexesFor t.name cur).filter (·.primary) = [] from
          List.filter_eq_nil_iff.mpr fun i hi => by simp [h2.secondary i hi], List.append_nil]
        exact hk.indexes
      · rw [complete_noMarks hp]
        exact hk.columns
    refine ⟨h1.name, createTable_moved hm h1 h4 ?_ h3, fun d out ho => cleanupTable_moved h1 d ho,
      find_perm (key := Index.name) h1.indexes h3.indexes, find_perm (key := Policy.name) h1.policies h3.policies⟩
    rw [complete_noMarks hp]
    exact h2.columns
  have h := rearranged_created hr
  unfold tablesOf
  rw [List.forall₂_map_left_iff, List.forall₂_map_right_iff]
  have : ∀ as bs : List Table, (∀ t ∈ as, t ∈ created cur) → List.Forall₂ SameUpToOrder as bs →
      List.Forall₂ (fun t u => Twin mode (Spec.complete cur t) (Spec.complete cur' u)) as bs := by
    intro as bs hm h
    induction h with
    | nil => exact .nil
    | cons hx _ ih => exact .cons (key _ _ (hm _ (by simp)) hx) (ih fun t ht => hm t (by simp [ht]))
  exact this _ _ (fun _ h => h) h

theorem twin_names {mode : Mode} {ts us : List Table} (h : List.Forall₂ (Twin mode) ts us) : us.map (·.name) = ts.map (·.name) := by
  induction h with
  | nil => rfl
  | cons hx _ ih => rw [List.map_cons, List.map_cons, hx.name, ih]

theorem twin_found {mode : Mode} {ts us vs : List Table} (h : List.Forall₂ (Twin mode) ts us) (hp : us.Perm vs) (hu : (ts.map (·.name)).Nodup) (n : Str) :
    Option.Rel (Twin mode) (findTableByName ts n) (findTableByName vs n) := by
  have e : findTableByName vs n = findTableByName us n := find_perm (key := Table.name) hp (by rw [twin_names h]; exact hu) n
  rw [e]
  clear e hp hu
  induction h with
  | nil => exact .none
  | @cons a b as bs h _ ih =>
    unfold findTableByName at *
    by_cases he : a.name = n
    · rw [List.find?_cons_of_pos (by simpa using he), List.find?_cons_of_pos (by simpa [h.name] using he)]
      exact .some h
    · rw [List.find?_cons_of_neg (by simpa using he), List.find?_cons_of_neg (by simpa [h.name] using he)]
      exact ih

theorem twin_cleanups {mode : Mode} {D : List Table} {xs ys : List Table} (h : List.Forall₂ (Twin mode) xs ys) :
    ∀ {out : List Stmt}, concatMapM (tableCleanup mode D) xs = .ok out → ∃ out', concatMapM (tableCleanup mode D) ys = .ok out' ∧ out.Perm out' := by
  induction h with
  | nil => exact fun ho => ⟨_, ho, .refl _⟩
  | @cons x y xs ys hxy _ ih =>
    intro out ho
    obtain ⟨a, b, h1, h2, rfl⟩ := concatMapM_cons_ok.1 ho
    have : ∃ a', tableCleanup mode D y = .ok a' ∧ a.Perm a' := by
      unfold tableCleanup at h1 ⊢
      rw [hxy.name]
      split at h1
      · cases h1
        exact ⟨_, rfl, .refl _⟩
      · exact hxy.clean _ _ h1
    obtain ⟨a', h3, h4⟩ := this
    obtain ⟨b', h5, h6⟩ := ih h2
    exact ⟨_, concatMapM_cons_ok.2 ⟨a', b', h3, h5, rfl⟩, h4.append h6⟩

/-- The current schema in another order, also within the tables. -/
theorem diff_current_moved {mode : Mode} (hm : mode ≠ .mysql) {des cur es cur' : List DDL} (hd : UniqueTables des) (hn : Normal mode cur)
    (hk : ∀ s t, .createTable s t ∈ cur → OneKey t) (hr : List.Forall₂ SameButOrder cur es) (hc : es.Perm cur')
    (hw : WellFormedCurrent cur') {out : List Stmt} (ho : diff mode des cur = .ok out) :
    ∃ same rest rest', out = same ++ rest ∧ diff mode des cur' = .ok (same ++ rest') ∧ rest.Perm rest' ∧ ∀ s ∈ rest, TakesAway s := by
  have hc' : UniqueTables cur' := by
    unfold UniqueTables
    have := hn.unique
    unfold UniqueTables at this
    rw [rearranged_names hr] at this
    exact ((created_perm hc).map _).nodup_iff.mp this
  obtain ⟨h1, h2, x, y, h3, h4, rfl⟩ := (diff_stateless mode des cur hd hn.unique out).1 ho
  obtain ⟨ts, t1, t2⟩ := twins_moved hm hn hk hr hc
  obtain ⟨z, h5, h6⟩ := twin_cleanups t1 h4
  obtain ⟨y', h7, h8⟩ := concatMapM_reordered t2 h5
  have hfind := twin_found t1 t2 (by rw [names_tablesOf]; exact hn.unique)
  have hv := rearranged_viewsOf hr
  have hg := rearranged_triggersOf hr
  have hvn : ((viewsOf es).map (·.name)).Nodup := by
    rw [map_forall₂ (f := View.name) (g := View.name) (fun a b h => by rw [h]) hv]
    exact viewNames_of_wellFormed hn.wellFormed
  have hgn : ((triggersOf es).map (·.name)).Nodup := by
    rw [map_forall₂ (f := Trigger.name) (g := Trigger.name) (fun a b h => by rw [h]) hg]
    exact hn.triggers
  have hview : ∀ n, (findViewByName (viewsOf cur') n).map (·.definition) = (findViewByName (viewsOf cur) n).map (·.definition) := by
    intro n
    rw [show findViewByName (viewsOf cur') n = findViewByName (viewsOf es) n from find_perm (key := View.name) (viewsOf_perm hc) hvn n]
    exact find_partner (fun a b h => by rw [h]) (fun a b h => by rw [h]) hv n
  have htrig : ∀ n, (findTriggerByName (triggersOf cur') n).map (fun t => { t with statement := [] }) =
      (findTriggerByName (triggersOf cur) n).map (fun t => { t with statement := [] }) := by
    intro n
    rw [show findTriggerByName (triggersOf cur') n = findTriggerByName (triggersOf es) n from find_perm (key := Trigger.name) (triggersOf_perm hc) hgn n]
    exact find_partner (fun a b h => by rw [h]) (fun a b h => by rw [h]) hg n
  have hdef : defStmts mode (tablesOf cur') (viewsOf cur') (triggersOf cur') = defStmts mode (tablesOf cur) (viewsOf cur) (triggersOf cur) := by
    have hi : ∀ n m, ((findTableByName (tablesOf cur') n).bind fun x => findIndexByName x.indexes m) =
        (findTableByName (tablesOf cur) n).bind fun x => findIndexByName x.indexes m := by
      intro n m
      have := hfind n
      revert this
      generalize findTableByName (tablesOf cur) n = p
      generalize findTableByName (tablesOf cur') n = q
      rintro (h | h)
      · exact h.indexes m
      · rfl
    have hp : ∀ n m, ((findTableByName (tablesOf cur') n).bind fun x => findPolicyByName x.policies m) =
        (findTableByName (tablesOf cur) n).bind fun x => findPolicyByName x.policies m := by
      intro n m
      have := hfind n
      revert this
      generalize findTableByName (tablesOf cur) n = p
      generalize findTableByName (tablesOf cur') n = q
      rintro (h | h)
      · exact h.policies m
      · rfl
    funext d
    cases d with
    | createTable s t =>
      have := hfind t.name
      simp only [defStmts]
      revert this
      generalize findTableByName (tablesOf cur) t.name = p
      generalize findTableByName (tablesOf cur') t.name = q
      rintro (h | h)
      · exact h.create t
      · rfl
    | view v =>
      have := hview v.name
      simp only [defStmts, viewStmts]
      revert this
      generalize findViewByName (viewsOf cur) v.name = p
      generalize findViewByName (viewsOf cur') v.name = q
      intro h
      cases p <;> cases q <;> simp at h
      · rfl
      · simp only [h]
    | trigger t =>
      have := htrig t.name
      simp only [defStmts, triggerStmts]
      revert this
      generalize findTriggerByName (triggersOf cur) t.name = p
      generalize findTriggerByName (triggersOf cur') t.name = q
      intro h
      cases p with
      | none => cases q with
        | none => rfl
        | some b => cases h
      | some a => cases q with
        | none => cases h
        | some b =>
          have h' : { b with statement := [] } = { a with statement := [] } := Option.some.inj h
          have e : areSameTriggerDefinition b t = areSameTriggerDefinition a t := by
            change areSameTriggerDefinition { b with statement := [] } t = areSameTriggerDefinition { a with statement := [] } t
            rw [h']
          simp only [e]
    | _ => simp only [defStmts, indexStmts, policyStmts, hi, hp]
  have hclean : cleanupViews (viewsOf des) (viewsOf cur) = cleanupViews (viewsOf des) (viewsOf es) := by
    have key : ∀ D vs, cleanupViews D vs = ((vs.map (·.name)).filter fun n => !containsString (viewNames D) n).map Stmt.dropView := by
      intro D vs
      unfold cleanupViews
      rw [List.filter_map, List.map_map]
      rfl
    rw [key, key, map_forall₂ (f := View.name) (g := View.name) (fun a b h => by rw [h]) hv]
  refine ⟨x, y ++ cleanupViews (viewsOf des) (viewsOf cur), y' ++ cleanupViews (viewsOf des) (viewsOf cur'), by rw [List.append_assoc], ?_, ?_, ?_⟩
  · refine (diff_stateless mode des cur' hd hc' _).2 ⟨h1, hw, x, y', ?_, h7, by rw [List.append_assoc]⟩
    rw [hdef]
    exact h3
  · rw [hclean]
    exact (h6.trans h8).append (((viewsOf_perm hc).filter _).map _)
  · intro s hs
    rcases List.mem_append.mp hs with hs | hs
    · exact cleanups_remove h4 s hs
    · obtain ⟨v, -, rfl⟩ := List.mem_map.mp hs
      trivial

end Sqldef
