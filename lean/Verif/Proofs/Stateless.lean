import Mathlib.Data.List.Induction
import Verif.Proofs.SchemaLemmas
/-!
The generator keeps a simulated copy of the current schema and updates it while it goes through the
desired definitions. This file shows that the output does not depend on that simulation: it is
determined, definition by definition and table by table, by the two schemas as given.
-/
namespace Sqldef
open Spec

/-- The statements for a desired CREATE INDEX / ADD INDEX, in terms of the original current tables. -/
def indexStmts (cur : List Table) (d : DDL) (n : Str) (i : Index) : List Stmt :=
  match (findTableByName cur n).bind fun x => findIndexByName x.indexes i.name with
  | none => [.user d]
  | some c => if areSameIndexes c i then [] else [.dropIndex n i.name, .user d]

/-- The statements for a desired policy, in terms of the original current tables. -/
def policyStmts (cur : List Table) (d : DDL) (n : Str) (p : Policy) : List Stmt :=
  match (findTableByName cur n).bind fun x => findPolicyByName x.policies p.name with
  | none => [.user d]
  | some c => if areSamePolicies c p then [] else [.dropPolicy n p.name, .user d]

/-- The statements for a desired view. -/
def viewStmts (mode : Mode) (cv : List View) (v : View) : List Stmt :=
  match findViewByName cv v.name with
  | none => [.user (.view v)]
  | some c =>
    if toLower c.definition ≠ toLower v.definition then
      if mode = .sqlite3 || mode = .mssql then [.dropView v.name, .createView v.name v.definition]
      else [.replaceView v.name v.definition]
    else []

/-- The statements for a desired trigger. -/
def triggerStmts (mode : Mode) (ct : List Trigger) (t : Trigger) : List Stmt :=
  match mode with
  | .mssql =>
    match findTriggerByName ct t.name with
    | none => [.createTrigger false t]
    | some c => if areSameTriggerDefinition c t then [] else [.createTrigger true t]
  | .mysql =>
    match findTriggerByName ct t.name with
    | none => [.createTrigger false t]
    | some c => if areSameTriggerDefinition c t then [] else [.dropTrigger t.name, .createTrigger false t]
  | _ => []

/-- The statements for one desired definition, in terms of the original current schema. -/
def defStmts (mode : Mode) (cur : List Table) (cv : List View) (ct : List Trigger) (d : DDL) :
    Except Err (List Stmt) :=
  match d with
  | .createTable s t =>
    match findTableByName cur t.name with
    | none => .ok [.user (.createTable s t)]
    | some x => generateDDLsForCreateTable mode x t
  | .createIndex _ n i => .ok (indexStmts cur d n i)
  | .addIndex _ n i => .ok (indexStmts cur d n i)
  | .addForeignKey _ _ _ => .ok []
  | .addPolicy _ n p => .ok (policyStmts cur d n p)
  | .view v => .ok (viewStmts mode cv v)
  | .trigger t => .ok (triggerStmts mode ct t)
  | .addPrimaryKey _ _ _ => .error .unexpectedDDL

/-- The clean-up of one table of the current schema. -/
def tableCleanup (mode : Mode) (D : List Table) (x : Table) : Except Err (List Stmt) :=
  match findTableByName D x.name with
  | none => .ok [.dropTable x.name]
  | some d => cleanupTable mode x d

/-! ### The invariant -/

/-- `y` is the simulated state of the current table `x` and differs from it only in what the desired
table `d` defines. -/
structure Same (d x y : Table) : Prop where
  name : y.name = x.name
  fks : y.foreignKeys = x.foreignKeys
  cols : ∀ p : Str → Bool, (∀ c ∈ d.columns, p c.name = false) →
    (y.columns.filter fun c => p c.name) = x.columns.filter fun c => p c.name
  idxs : ∀ p : Str → Bool, (∀ i ∈ d.indexes, p i.name = false) →
    (y.indexes.filter fun c => p c.name) = x.indexes.filter fun c => p c.name
  pols : ∀ p : Str → Bool, (∀ i ∈ d.policies, p i.name = false) →
    (y.policies.filter fun c => p c.name) = x.policies.filter fun c => p c.name

/-- Simulated state of a table of the current schema after the definitions `pre`. -/
def SimOld (pre : List DDL) (x y : Table) : Prop :=
  match tableIn pre x.name with
  | none => y = x
  | some d => Same d x y

/-- Simulated state of a table that was absent from the current schema. -/
structure SimNew (pre : List DDL) (t y : Table) : Prop where
  name : y.name = t.name
  fks : y.foreignKeys = t.foreignKeys
  cols : y.columns.map (·.name) = t.columns.map (·.name)
  idxs : y.indexes.map (·.name) = (complete pre t).indexes.map (·.name)
  pols : y.policies.map (·.name) = (complete pre t).policies.map (·.name)

/-- The tables created by `pre` that are absent from `cur`. -/
def newTables (cur : List Table) (pre : List DDL) : List Table :=
  (created pre).filter fun t => decide (t.name ∉ cur.map (·.name))

/-- State of the generator after the definitions `pre`. -/
structure Inv (mode : Mode) (cur : List Table) (cv : List View) (ct : List Trigger) (pre : List DDL) (g : Gen) :
    Prop where
  mode : g.mode = mode
  desired : g.desiredTables = tablesOf pre
  dviews : g.desiredViews = viewsOf pre
  views : g.currentViews = cv
  triggers : g.currentTriggers = ct
  current : ∃ as bs, g.currentTables = as ++ bs ∧ List.Forall₂ (SimOld pre) cur as ∧
    List.Forall₂ (SimNew pre) (newTables cur pre) bs

theorem SimOld.name {pre : List DDL} (x y : Table) (h : SimOld pre x y) : y.name = x.name := by
  unfold SimOld at h
  split at h
  · rw [h]
  · exact h.name

theorem SimNew.name' {pre : List DDL} (x y : Table) (h : SimNew pre x y) : y.name = x.name := h.name

theorem filter_find {α : Type} (l m : List α) (q : α → Bool) (h : l.filter q = m.filter q) : l.find? q = m.find? q := by
  rw [← List.head?_filter, ← List.head?_filter, h]

theorem tableIn_eq (ds : List DDL) (n : Str) : tableIn ds n = findTableByName (tablesOf ds) n := rfl

theorem tableIn_none {ds : List DDL} {n : Str} : tableIn ds n = none ↔ n ∉ createdNames ds := by
  rw [tableIn_eq, find_none, names_tablesOf]

theorem tableIn_some_iff {ds : List DDL} {n : Str} : (∃ t, tableIn ds n = some t) ↔ n ∈ createdNames ds := by
  simp only [tableIn_eq]; rw [find_isSome, names_tablesOf]

theorem tableIn_mem {ds : List DDL} {n : Str} {d : Table} (h : tableIn ds n = some d) :
    ∃ t ∈ created ds, t.name = n ∧ d = complete ds t := by
  have h1 := find_mem (by simpa [tableIn_eq] using h)
  have h2 := find_name (by simpa [tableIn_eq] using h)
  obtain ⟨t, ht, rfl⟩ := List.mem_map.1 h1
  exact ⟨t, ht, h2, rfl⟩

/-- The table with a given name, if no table is created twice. -/
theorem tableIn_of_created {ds : List DDL} (hu : UniqueTables ds) {t : Table} (h : t ∈ created ds) :
    tableIn ds t.name = some (complete ds t) := by
  have : complete ds t ∈ tablesOf ds := List.mem_map_of_mem h
  have := find_of_mem (by rw [names_tablesOf]; exact hu) this
  simpa [tableIn_eq] using this

theorem newTables_nodup {cur : List Table} {pre : List DDL} (hu : UniqueTables pre) :
    ((newTables cur pre).map (·.name)).Nodup := by
  have : ((newTables cur pre).map (·.name)).Sublist (createdNames pre) :=
    (List.filter_sublist).map _
  exact this.nodup hu

/-- What the generator finds for a table created by the preceding definitions. -/
theorem Inv.lookup {mode : Mode} {cur : List Table} {cv : List View} {ct : List Trigger} {pre : List DDL} {g : Gen}
    (h : Inv mode cur cv ct pre g) (hup : UniqueTables pre)
    {n : Str} {d : Table} (hd : tableIn pre n = some d) :
    ∃ y, findTableByName g.currentTables n = some y ∧
      (∀ m ∉ d.indexes.map (·.name), findIndexByName y.indexes m =
        (findTableByName cur n).bind fun x => findIndexByName x.indexes m) ∧
      (∀ m ∉ d.policies.map (·.name), findPolicyByName y.policies m =
        (findTableByName cur n).bind fun x => findPolicyByName x.policies m) := by
  obtain ⟨as, bs, hc, hold, hnew⟩ := h.current
  have has : as.map (·.name) = cur.map (·.name) := forall₂_names SimOld.name hold
  by_cases hn : n ∈ cur.map (·.name)
  · obtain ⟨x, hx⟩ := find_isSome.2 hn
    obtain ⟨y, hy, hxy⟩ := forall₂_find SimOld.name hold hx
    refine ⟨y, by rw [hc, find_append_left (by rw [has]; exact hn), hy], ?_⟩
    rw [hx]
    unfold SimOld at hxy
    rw [find_name hx, hd] at hxy
    refine ⟨fun m hm => ?_, fun m hm => ?_⟩
    · refine filter_find _ _ _ (hxy.idxs (fun s => decide (s = m)) fun i hi => ?_)
      have : i.name ≠ m := fun e => hm (e ▸ List.mem_map_of_mem hi)
      simpa using this
    · refine filter_find _ _ _ (hxy.pols (fun s => decide (s = m)) fun i hi => ?_)
      have : i.name ≠ m := fun e => hm (e ▸ List.mem_map_of_mem hi)
      simpa using this
  · obtain ⟨t, ht, htn, rfl⟩ := tableIn_mem hd
    have hx : t ∈ newTables cur pre := by
      simp only [newTables, List.mem_filter, decide_eq_true_eq]
      exact ⟨ht, by rw [htn]; exact hn⟩
    have hx := find_of_mem (newTables_nodup hup) hx
    rw [htn] at hx
    obtain ⟨y, hy, hty⟩ := forall₂_find SimNew.name' hnew hx
    refine ⟨y, by rw [hc, find_append_right (by rw [has]; exact hn), hy], ?_⟩
    rw [find_none.2 hn]
    refine ⟨fun m hm => ?_, fun m hm => ?_⟩
    · rw [← hty.idxs] at hm
      simp only [Option.bind_none, findIndexByName, List.find?_eq_none, decide_eq_true_eq]
      exact fun i hi e => hm (e ▸ List.mem_map_of_mem hi)
    · rw [← hty.pols] at hm
      simp only [Option.bind_none, findPolicyByName, List.find?_eq_none, decide_eq_true_eq]
      exact fun i hi e => hm (e ▸ List.mem_map_of_mem hi)

theorem updateTable_congr (ts : List Table) (n : Str) (f f' : Table → Table) (t : Table)
    (h : findTableByName ts n = some t) (hf : f t = f' t) : updateTable ts n f = updateTable ts n f' := by
  induction ts with
  | nil => rfl
  | cons x ts ih =>
    simp only [updateTable]
    by_cases hx : x.name = n
    · simp [findTableByName, hx] at h
      subst h
      simp [hx, hf]
    · simp [findTableByName, hx] at h
      rw [if_neg hx, if_neg hx, ih]
      simpa [findTableByName] using h

/-- The described tables after one more definition on table `n`. -/
theorem tableIn_snoc_update {pre : List DDL} {d : DDL} {n : Str} {f : Table → Table} (hf : ∀ t, (f t).name = t.name)
    (h : tablesOf (pre ++ [d]) = (tablesOf pre).map fun t => if t.name = n then f t else t) (m : Str) :
    tableIn (pre ++ [d]) m = (tableIn pre m).map fun t => if m = n then f t else t := by
  simp only [tableIn, h, List.find?_map]
  have : ((fun x : Table => decide (x.name = m)) ∘ fun t : Table => if t.name = n then f t else t) =
      fun x : Table => decide (x.name = m) := by
    funext t
    simp only [Function.comp]
    split <;> simp [hf]
  rw [this]
  cases hx : List.find? (fun x : Table => decide (x.name = m)) (tablesOf pre) with
  | none => rfl
  | some t =>
    have : t.name = m := by simpa using List.find?_some hx
    simp [this]

theorem Inv.update {mode : Mode} {cur : List Table} {cv : List View} {ct : List Trigger} {pre : List DDL} {g : Gen}
    (h : Inv mode cur cv ct pre g) (huc : (cur.map (·.name)).Nodup) (hup : UniqueTables pre)
    {n : Str} {d : Table} (hd : tableIn pre n = some d) {df : DDL} {fd fc : Table → Table}
    (hcr : created [df] = []) (hv : viewsOf [df] = [])
    (hfd : ∀ t, (fd t).name = t.name)
    (ht : tablesOf (pre ++ [df]) = (tablesOf pre).map fun t => if t.name = n then fd t else t)
    (hold : ∀ x y, Same d x y → Same (fd d) x (fc y))
    (hnew : ∀ t y, t.name = n → complete pre t = d → SimNew pre t y → SimNew (pre ++ [df]) t (fc y))
    (hother : ∀ t y, t.name ≠ n → SimNew pre t y → SimNew (pre ++ [df]) t y)
    : Inv mode cur cv ct (pre ++ [df])
        { g with currentTables := updateTable g.currentTables n fc,
                 desiredTables := updateTable g.desiredTables n fd } := by
  obtain ⟨as, bs, hc, hO, hN⟩ := h.current
  have has : as.map (·.name) = cur.map (·.name) := forall₂_names SimOld.name hO
  have htin := tableIn_snoc_update hfd ht
  have hnt : newTables cur (pre ++ [df]) = newTables cur pre := by
    simp [newTables, created_append, hcr]
  refine ⟨h.mode, ?_, by simp [h.dviews, viewsOf_append, hv], h.views, h.triggers, ?_⟩
  · rw [h.desired, updateTable_eq_map _ _ _ (by rw [names_tablesOf]; exact hup), ht]
  · by_cases hn : n ∈ cur.map (·.name)
    · refine ⟨updateTable as n fc, bs, by rw [hc, updateTable_append_left _ _ _ _ (by rw [has]; exact hn)], ?_, ?_⟩
      · refine forall₂_update SimOld.name hO huc ?_ ?_
        · intro x y _ hxy hxn
          unfold SimOld at hxy ⊢
          rw [htin, hxn, hd]
          rw [hxn, hd] at hxy
          simpa using hold x y hxy
        · intro x y _ hxy hxn
          unfold SimOld at hxy ⊢
          rw [htin]
          cases hx : tableIn pre x.name with
          | none => rw [hx] at hxy; exact hxy
          | some e => rw [hx] at hxy; simpa [hxn] using hxy
      · rw [hnt]
        refine forall₂_mono hN fun t y hmem hty => hother t y ?_ hty
        simp only [newTables, List.mem_filter, decide_eq_true_eq] at hmem
        exact fun e => hmem.2 (e ▸ hn)
    · refine ⟨as, updateTable bs n fc, by rw [hc, updateTable_append_right _ _ _ _ (by rw [has]; exact hn)], ?_, ?_⟩
      · refine forall₂_mono hO fun x y hmem hxy => ?_
        have hxn : x.name ≠ n := fun e => hn (e ▸ List.mem_map_of_mem hmem)
        unfold SimOld at hxy ⊢
        rw [htin]
        cases hx : tableIn pre x.name with
        | none => rw [hx] at hxy; exact hxy
        | some e => rw [hx] at hxy; simpa [hxn] using hxy
      · rw [hnt]
        refine forall₂_update SimNew.name' hN (newTables_nodup hup) ?_ ?_
        · intro t y hmem hty htn
          refine hnew t y htn ?_ hty
          simp only [newTables, List.mem_filter] at hmem
          have := tableIn_of_created hup hmem.1
          rw [htn, hd] at this
          exact (Option.some.inj this).symm
        · intro t y _ hty htn
          exact hother t y htn hty

/-! ### Effect of each definition on the described tables -/

theorem complete_snoc (pre : List DDL) (d : DDL) (t : Table) :
    complete (pre ++ [d]) t =
      { t with
        columns := t.columns.map fun c =>
          if markedPrimary t.name c.name pre || markedPrimary t.name c.name [d] then { c with keyOption := .primary } else c
        indexes := t.indexes ++ (indexesFor t.name pre ++ indexesFor t.name [d])
        foreignKeys := t.foreignKeys ++ (foreignKeysFor t.name pre ++ foreignKeysFor t.name [d])
        policies := t.policies ++ (policiesFor t.name pre ++ policiesFor t.name [d]) } := by
  simp only [complete, indexesFor_append, foreignKeysFor_append, policiesFor_append, markedPrimary_append]

/-- A definition that concerns no table leaves the described tables alone. -/
theorem complete_snoc_id (pre : List DDL) (d : DDL) (t : Table) (h1 : indexesFor t.name [d] = [])
    (h2 : foreignKeysFor t.name [d] = []) (h3 : policiesFor t.name [d] = [])
    (h4 : ∀ c, markedPrimary t.name c [d] = false) : complete (pre ++ [d]) t = complete pre t := by
  rw [complete_snoc]
  simp only [h1, h2, h3, h4, List.append_nil, Bool.or_false]
  rfl

theorem tablesOf_index (pre : List DDL) (d : DDL) (n : Str) (i : Index)
    (hd : (∃ s, d = .createIndex s n i) ∨ (∃ s, d = .addIndex s n i)) :
    tablesOf (pre ++ [d]) =
      (tablesOf pre).map fun t => if t.name = n then { t with indexes := t.indexes ++ [i] } else t := by
  refine tablesOf_snoc_update pre d n (fun t => { t with indexes := t.indexes ++ [i] }) ?_ fun t => ?_
  · rcases hd with ⟨s, rfl⟩ | ⟨s, rfl⟩ <;> rfl
  · by_cases hn : t.name = n
    · rw [complete_snoc]
      rcases hd with ⟨s, rfl⟩ | ⟨s, rfl⟩ <;>
      simp [complete, hn, indexesFor, foreignKeysFor, policiesFor, markedPrimary]
    · rw [if_neg hn]
      have hn' : n ≠ t.name := fun e => hn e.symm
      apply complete_snoc_id <;>
      rcases hd with ⟨s, rfl⟩ | ⟨s, rfl⟩ <;>
      simp [hn', indexesFor, foreignKeysFor, policiesFor, markedPrimary]

theorem tablesOf_fk (pre : List DDL) (s n : Str) (f : ForeignKey) :
    tablesOf (pre ++ [.addForeignKey s n f]) =
      (tablesOf pre).map fun t => if t.name = n then { t with foreignKeys := t.foreignKeys ++ [f] } else t := by
  refine tablesOf_snoc_update pre _ n (fun t => { t with foreignKeys := t.foreignKeys ++ [f] }) rfl fun t => ?_
  by_cases hn : t.name = n
  · rw [complete_snoc]
    simp [complete, hn, indexesFor, foreignKeysFor, policiesFor, markedPrimary]
  · rw [if_neg hn]
    have hn' : n ≠ t.name := fun e => hn e.symm
    apply complete_snoc_id <;> simp [hn', indexesFor, foreignKeysFor, policiesFor, markedPrimary]

theorem tablesOf_policy (pre : List DDL) (s n : Str) (p : Policy) :
    tablesOf (pre ++ [.addPolicy s n p]) =
      (tablesOf pre).map fun t => if t.name = n then { t with policies := t.policies ++ [p] } else t := by
  refine tablesOf_snoc_update pre _ n (fun t => { t with policies := t.policies ++ [p] }) rfl fun t => ?_
  by_cases hn : t.name = n
  · rw [complete_snoc]
    simp [complete, hn, indexesFor, foreignKeysFor, policiesFor, markedPrimary]
  · rw [if_neg hn]
    have hn' : n ≠ t.name := fun e => hn e.symm
    apply complete_snoc_id <;> simp [hn', indexesFor, foreignKeysFor, policiesFor, markedPrimary]

theorem tablesOf_other (pre : List DDL) (d : DDL) (h : (∃ v, d = .view v) ∨ (∃ t, d = .trigger t)) :
    tablesOf (pre ++ [d]) = tablesOf pre := by
  have hc : created [d] = [] := by rcases h with ⟨v, rfl⟩ | ⟨v, rfl⟩ <;> rfl
  simp only [tablesOf, created_append, hc, List.append_nil]
  apply List.map_congr_left
  intro t _
  apply complete_snoc_id <;> rcases h with ⟨v, rfl⟩ | ⟨v, rfl⟩ <;>
    simp [indexesFor, foreignKeysFor, policiesFor, markedPrimary]

/-! ### Well-formed prefixes -/

theorem wellFormed_snoc {pre : List DDL} {d : DDL} : WellFormed (pre ++ [d]) ↔ WellFormed pre ∧ Follows pre d := by
  constructor
  · intro h
    refine ⟨fun a x b e => h a x (b ++ [d]) (by simp [e]), h pre d [] rfl⟩
  · rintro ⟨h1, h2⟩ a x b e
    rcases List.eq_nil_or_concat b with rfl | ⟨b', y, rfl⟩
    · obtain ⟨rfl, hx⟩ := List.append_inj' e rfl
      obtain ⟨rfl, -⟩ := List.cons.inj hx
      exact h2
    · rw [List.concat_eq_append, ← List.cons_append, ← List.append_assoc] at e
      obtain ⟨rfl, hx⟩ := List.append_inj' e rfl
      exact h1 a x b' rfl

theorem wellFormed_nil : WellFormed [] := by
  intro a x b e
  simp at e

theorem wellFormed_prefix {a b : List DDL} (h : WellFormed (a ++ b)) : WellFormed a := by
  intro p x q e
  exact h p x (q ++ b) (by simp [e])

/-- Nothing is defined on a table that is not created. -/
theorem fresh_of_wellFormed {pre : List DDL} (h : WellFormed pre) {n : Str} (hn : n ∉ createdNames pre) :
    indexesFor n pre = [] ∧ foreignKeysFor n pre = [] ∧ policiesFor n pre = [] ∧ ∀ c, markedPrimary n c pre = false := by
  induction pre using List.reverseRecOn with
  | nil => simp [indexesFor, foreignKeysFor, policiesFor, markedPrimary]
  | append_singleton pre d ih =>
    obtain ⟨h1, h2⟩ := wellFormed_snoc.1 h
    rw [createdNames_append, List.mem_append, not_or] at hn
    obtain ⟨a, b, c, e⟩ := ih h1 hn.1
    have key : ∀ m, (∃ t, tableIn pre m = some t) → m ≠ n := fun m hm e => hn.1 (e ▸ tableIn_some_iff.1 hm)
    rw [indexesFor_append, foreignKeysFor_append, policiesFor_append]
    simp only [markedPrimary_append, a, b, c, e, List.nil_append, Bool.false_or]
    cases d with
    | createTable s t => simp [indexesFor, foreignKeysFor, policiesFor, markedPrimary]
    | createIndex s m i =>
      obtain ⟨t, ht, -⟩ := h2
      simp [indexesFor, foreignKeysFor, policiesFor, markedPrimary, key m ⟨t, ht⟩]
    | addIndex s m i =>
      obtain ⟨t, ht, -⟩ := h2
      simp [indexesFor, foreignKeysFor, policiesFor, markedPrimary, key m ⟨t, ht⟩]
    | addForeignKey s m i =>
      obtain ⟨t, ht, -⟩ := h2
      simp [indexesFor, foreignKeysFor, policiesFor, markedPrimary, key m ⟨t, ht⟩]
    | addPolicy s m i =>
      obtain ⟨t, ht, -⟩ := h2
      simp [indexesFor, foreignKeysFor, policiesFor, markedPrimary, key m ⟨t, ht⟩]
    | view v => simp [indexesFor, foreignKeysFor, policiesFor, markedPrimary]
    | trigger v => simp [indexesFor, foreignKeysFor, policiesFor, markedPrimary]
    | addPrimaryKey _ _ _ => exact h2.elim

theorem markedPrimary_of_wellFormed {pre : List DDL} (h : WellFormed pre) (n c : Str) : markedPrimary n c pre = false := by
  induction pre using List.reverseRecOn with
  | nil => rfl
  | append_singleton pre d ih =>
    obtain ⟨h1, h2⟩ := wellFormed_snoc.1 h
    rw [markedPrimary_append, ih h1]
    cases d <;> simp [markedPrimary]
    exact h2.elim

/-- The columns of a desired table are those of its CREATE TABLE. -/
theorem complete_columns {pre : List DDL} (h : WellFormed pre) (t : Table) : (complete pre t).columns = t.columns := by
  simp only [complete]
  exact map_primary_id _ _ fun c _ => markedPrimary_of_wellFormed h _ _

theorem complete_fresh {pre : List DDL} (h : WellFormed pre) {t : Table} (hn : t.name ∉ createdNames pre) :
    complete pre t = t := by
  obtain ⟨a, b, c, -⟩ := fresh_of_wellFormed h hn
  have e := complete_columns h t
  simp only [complete] at e
  simp only [complete, a, b, c, e, List.append_nil]

theorem tablesOf_create (pre : List DDL) (h : WellFormed pre) (s : Str) (t : Table) (hn : t.name ∉ createdNames pre) :
    tablesOf (pre ++ [.createTable s t]) = tablesOf pre ++ [t] := by
  have hid : ∀ x : Table, complete (pre ++ [.createTable s t]) x = complete pre x := fun x => by
    apply complete_snoc_id <;> simp [indexesFor, foreignKeysFor, policiesFor, markedPrimary]
  have : created [DDL.createTable s t] = [t] := rfl
  have hid' : complete (pre ++ [.createTable s t]) = complete pre := funext hid
  simp only [tablesOf, created_append, this, List.map_append, List.map_cons, List.map_nil, hid', complete_fresh h hn]

/-! ### One definition -/

theorem mergeColumns_filter (cols cs : List Column) (p : Str → Bool) (h : ∀ c ∈ cs, p c.name = false) :
    ((mergeColumns cols cs).filter fun c => p c.name) = cols.filter fun c => p c.name := by
  induction cs generalizing cols with
  | nil => rfl
  | cons c cs ih =>
    simp only [mergeColumns]
    split
    · rw [ih _ fun x hx => h x (by simp [hx])]
      simp [h c (by simp)]
    · exact ih _ fun x hx => h x (by simp [hx])

theorem mergeIndexes_filter (is js : List Index) (p : Str → Bool) (h : ∀ c ∈ js, p c.name = false) :
    ((mergeIndexes is js).filter fun c => p c.name) = is.filter fun c => p c.name := by
  induction js generalizing is with
  | nil => rfl
  | cons c cs ih =>
    simp only [mergeIndexes]
    split
    · rw [ih _ fun x hx => h x (by simp [hx])]
      simp [h c (by simp)]
    · exact ih _ fun x hx => h x (by simp [hx])

theorem containsString_iff {l : List Str} {s : Str} : containsString l s = true ↔ s ∈ l := by
  simp only [containsString, List.any_eq_true, decide_eq_true_eq]
  exact ⟨fun ⟨x, hx, e⟩ => e ▸ hx, fun h => ⟨s, h, rfl⟩⟩

theorem not_containsString {l : List Str} {s : Str} : containsString l s = false ↔ s ∉ l := by
  rw [← containsString_iff]; simp

section Step
variable {mode : Mode} {cur : List Table} {cv : List View} {ct : List Trigger} {pre : List DDL} {g : Gen}

theorem Inv.find_desired (h : Inv mode cur cv ct pre g) (n : Str) :
    findTableByName g.desiredTables n = tableIn pre n := by rw [h.desired]; rfl

theorem Inv.find_current_fresh (h : Inv mode cur cv ct pre g) {n : Str} (hn : n ∉ createdNames pre) :
    findTableByName g.currentTables n = findTableByName cur n := by
  obtain ⟨as, bs, hc, hO, hN⟩ := h.current
  have has : as.map (·.name) = cur.map (·.name) := forall₂_names SimOld.name hO
  by_cases hm : n ∈ cur.map (·.name)
  · rw [hc, find_append_left (by rw [has]; exact hm)]
    obtain ⟨x, hx⟩ := find_isSome.2 hm
    obtain ⟨y, hy, hxy⟩ := forall₂_find SimOld.name hO hx
    unfold SimOld at hxy
    rw [find_name hx, tableIn_none.2 hn] at hxy
    rw [hx, hy, hxy]
  · rw [hc, find_append_right (by rw [has]; exact hm), find_none.2 hm, find_none]
    rw [forall₂_names SimNew.name' hN]
    simp only [newTables, List.mem_map, List.mem_filter, not_exists, not_and]
    rintro t ⟨ht, -⟩ rfl
    exact hn (List.mem_map_of_mem ht)

theorem step_createTable (h : Inv mode cur cv ct pre g) (huc : (cur.map (·.name)).Nodup) (hw : WellFormed pre)
    (s : Str) (t : Table) (hn : t.name ∉ createdNames pre) :
    (∀ x, defStmts mode cur cv ct (.createTable s t) = .ok x → ∃ g', step g (.createTable s t) = .ok (g', x)) ∧
    (∀ x g', step g (.createTable s t) = .ok (g', x) →
      defStmts mode cur cv ct (.createTable s t) = .ok x ∧ Inv mode cur cv ct (pre ++ [.createTable s t]) g') := by
  have htab := tablesOf_create pre hw s t hn
  have htin : ∀ m, tableIn (pre ++ [.createTable s t]) m = if m = t.name then some t else tableIn pre m := by
    intro m
    have e : tableIn (pre ++ [.createTable s t]) m = findTableByName (tablesOf pre ++ [t]) m := by
      rw [tableIn_eq, htab]
    rw [e]
    split
    · next hm =>
      rw [find_append_right (by rw [names_tablesOf, hm]; exact hn), hm]
      simp [findTableByName]
    · next hm =>
      by_cases hmem : m ∈ (tablesOf pre).map (·.name)
      · rw [find_append_left hmem]; rfl
      · rw [find_append_right hmem, tableIn_eq, find_none.2 hmem, find_none]
        simpa using hm
  have hcid : ∀ x : Table, complete (pre ++ [.createTable s t]) x = complete pre x := fun x => by
    apply complete_snoc_id <;> simp [indexesFor, foreignKeysFor, policiesFor, markedPrimary]
  have hsimNew : ∀ u y, SimNew pre u y → SimNew (pre ++ [.createTable s t]) u y := fun u y huy =>
    ⟨huy.name, huy.fks, huy.cols, by rw [hcid]; exact huy.idxs, by rw [hcid]; exact huy.pols⟩
  have hsimOld : ∀ x y, x.name ≠ t.name → SimOld pre x y → SimOld (pre ++ [.createTable s t]) x y := by
    intro x y hx hxy
    unfold SimOld at hxy ⊢
    rw [htin, if_neg hx]
    exact hxy
  obtain ⟨as, bs, hc, hO, hN⟩ := h.current
  have has : as.map (·.name) = cur.map (·.name) := forall₂_names SimOld.name hO
  have hv : viewsOf [DDL.createTable s t] = [] := rfl
  have hcreated : created [DDL.createTable s t] = [t] := rfl
  simp only [defStmts, step, stepCreateTable, h.find_current_fresh hn, h.mode]
  cases hf : findTableByName cur t.name with
  | some x0 =>
    have hmem : t.name ∈ cur.map (·.name) := find_isSome.1 ⟨x0, hf⟩
    simp only [bind, Except.bind]
    cases hgen : generateDDLsForCreateTable mode x0 t with
    | error e => simp
    | ok out =>
      simp only [pure, Except.pure, Except.ok.injEq, Prod.mk.injEq]
      refine ⟨?_, ?_⟩
      · rintro x rfl; exact ⟨_, rfl, rfl⟩
      · rintro x g' ⟨rfl, rfl⟩
        refine ⟨rfl, ⟨rfl, by simp [h.desired, htab], by simp [h.dviews, viewsOf_append, hv], h.views, h.triggers, ?_⟩⟩
        refine ⟨updateTable as t.name (mergeTable · t), bs, ?_, ?_, ?_⟩
        · simp only [hc]
          rw [updateTable_append_left _ _ _ _ (by rw [has]; exact hmem)]
        · refine forall₂_update SimOld.name hO huc ?_ ?_
          · intro x y _ hxy hxn
            unfold SimOld at hxy ⊢
            rw [htin, if_pos hxn]
            rw [hxn, tableIn_none.2 hn] at hxy
            subst hxy
            refine ⟨rfl, rfl, fun p hp => mergeColumns_filter _ _ _ hp, fun p hp => mergeIndexes_filter _ _ _ hp,
              fun p _ => rfl⟩
          · intro x y _ hxy hxn; exact hsimOld x y hxn hxy
        · have : newTables cur (pre ++ [.createTable s t]) = newTables cur pre := by
            simp only [newTables, created_append, hcreated, List.filter_append]
            simp only [List.filter_cons, hmem, not_true_eq_false, decide_false, Bool.false_eq_true, if_false,
              List.filter_nil, List.append_nil]
          rw [this]
          exact forall₂_mono hN fun u y _ => hsimNew u y
  | none =>
    have hmem : t.name ∉ cur.map (·.name) := find_none.1 hf
    simp only [Except.ok.injEq, Prod.mk.injEq]
    refine ⟨?_, ?_⟩
    · rintro x rfl; exact ⟨_, rfl, rfl⟩
    · rintro x g' ⟨rfl, rfl⟩
      refine ⟨rfl, ⟨rfl, by simp [h.desired, htab], by simp [h.dviews, viewsOf_append, hv], h.views, h.triggers, ?_⟩⟩
      refine ⟨as, bs ++ [t], ?_, ?_, ?_⟩
      · simp [hc]
      · refine forall₂_mono hO fun x y hx hxy => hsimOld x y (fun e => hmem (e ▸ List.mem_map_of_mem hx)) hxy
      · have : newTables cur (pre ++ [.createTable s t]) = newTables cur pre ++ [t] := by
          simp only [newTables, created_append, hcreated, List.filter_append]
          simp only [List.filter_cons, hmem, not_false_eq_true, decide_true, if_true, List.filter_nil]
        rw [this]
        refine List.rel_append (forall₂_mono hN fun u y _ => hsimNew u y) (.cons ?_ .nil)
        refine ⟨rfl, rfl, rfl, ?_, ?_⟩
        · rw [hcid, complete_fresh hw hn]
        · rw [hcid, complete_fresh hw hn]

/-- The new index list computed by `stepCreateIndex`. -/
def newIndexes (is : List Index) (des : Index) : List Index :=
  match findIndexByName is des.name with
  | none => is ++ [des]
  | some cur => if !areSameIndexes cur des then is.map fun i => if i.name = des.name then des else i else is

theorem replace_filter (is : List Index) (des : Index) (p : Str → Bool) (h : p des.name = false) :
    ((is.map fun i => if i.name = des.name then des else i).filter fun i => p i.name) =
      is.filter fun i => p i.name := by
  induction is with
  | nil => rfl
  | cons i is ih =>
    simp only [List.map_cons, List.filter_cons, ih]
    by_cases hi : i.name = des.name
    · simp [hi, h]
    · simp [hi]

theorem newIndexes_filter (is : List Index) (des : Index) (p : Str → Bool) (h : p des.name = false) :
    ((newIndexes is des).filter fun i => p i.name) = is.filter fun i => p i.name := by
  unfold newIndexes
  split
  · simp [h]
  · split
    · exact replace_filter is des p h
    · rfl

theorem newIndexes_names (is : List Index) (des : Index) (h : des.name ∉ is.map (·.name)) :
    (newIndexes is des).map (·.name) = is.map (·.name) ++ [des.name] := by
  have : findIndexByName is des.name = none := by
    simp only [findIndexByName, List.find?_eq_none, decide_eq_true_eq]
    exact fun i hi e => h (e ▸ List.mem_map_of_mem hi)
  simp [newIndexes, this]

theorem step_createIndex (h : Inv mode cur cv ct pre g) (huc : (cur.map (·.name)).Nodup) (hup : UniqueTables pre)
    (d : DDL) (n : Str) (i : Index) (hd : (∃ s, d = .createIndex s n i) ∨ (∃ s, d = .addIndex s n i)) :
    ((∃ t, tableIn pre n = some t ∧ i.name ∉ t.indexes.map (·.name)) →
      ∃ g', stepCreateIndex g d n i = .ok (g', indexStmts cur d n i)) ∧
    (∀ x g', stepCreateIndex g d n i = .ok (g', x) →
      (∃ t, tableIn pre n = some t ∧ i.name ∉ t.indexes.map (·.name)) ∧ indexStmts cur d n i = x ∧
      Inv mode cur cv ct (pre ++ [d]) g') := by
  have hcreated : created [d] = [] := by rcases hd with ⟨s, rfl⟩ | ⟨s, rfl⟩ <;> rfl
  have hviews : viewsOf [d] = [] := by rcases hd with ⟨s, rfl⟩ | ⟨s, rfl⟩ <;> rfl
  have hidx : ∀ t : Table, indexesFor t.name [d] = if n = t.name then [i] else [] := fun t => by
    rcases hd with ⟨s, rfl⟩ | ⟨s, rfl⟩ <;> simp [indexesFor]
  have hfk : ∀ t : Table, foreignKeysFor t.name [d] = [] := fun t => by
    rcases hd with ⟨s, rfl⟩ | ⟨s, rfl⟩ <;> rfl
  have hpol : ∀ t : Table, policiesFor t.name [d] = [] := fun t => by
    rcases hd with ⟨s, rfl⟩ | ⟨s, rfl⟩ <;> rfl
  have hpk : ∀ (t : Table) c, markedPrimary t.name c [d] = false := fun t c => by
    rcases hd with ⟨s, rfl⟩ | ⟨s, rfl⟩ <;> rfl
  cases htin : tableIn pre n with
  | none =>
    refine ⟨by simp, fun x g' hg => ?_⟩
    simp only [stepCreateIndex, h.find_desired, htin] at hg
    split at hg <;> cases hg
  | some dt =>
    obtain ⟨y, hy, hyi, -⟩ := h.lookup hup htin
    have hyn := find_name hy
    have e0 : stepCreateIndex g d n i =
        if containsString (indexNames dt.indexes) i.name then .error (.doublyCreated i.name)
        else .ok ({ g with
          currentTables := updateTable g.currentTables n fun t => { t with indexes := newIndexes t.indexes i },
          desiredTables := updateTable g.desiredTables n fun t => { t with indexes := t.indexes ++ [i] } },
          match findIndexByName y.indexes i.name with
          | none => [Stmt.user d]
          | some cur => if !areSameIndexes cur i then [Stmt.dropIndex y.name cur.name, Stmt.user d] else []) := by
      have hupd : updateTable g.currentTables n (fun t => { t with indexes := newIndexes t.indexes i }) =
          updateTable g.currentTables n (fun t => { t with indexes := newIndexes y.indexes i }) :=
        updateTable_congr _ _ _ _ y hy rfl
      rw [hupd]
      simp only [stepCreateIndex, hy, h.find_desired, htin, newIndexes]
      cases findIndexByName y.indexes i.name with
      | none => rfl
      | some c => by_cases hc : areSameIndexes c i <;> simp [hc]
    rw [e0]
    by_cases hmem : i.name ∈ dt.indexes.map (·.name)
    · have : containsString (indexNames dt.indexes) i.name = true := containsString_iff.2 hmem
      simp only [this, if_true]
      exact ⟨fun ⟨t, ht, hnot⟩ => absurd (Option.some.inj ht ▸ hmem) hnot, fun x g' hx => by cases hx⟩
    · have hcont : containsString (indexNames dt.indexes) i.name = false := not_containsString.2 hmem
      have hout : (match findIndexByName y.indexes i.name with
          | none => [Stmt.user d]
          | some cur => if !areSameIndexes cur i then [Stmt.dropIndex y.name cur.name, Stmt.user d] else []) =
          indexStmts cur d n i := by
        rw [hyi _ hmem]
        unfold indexStmts
        cases hb : (findTableByName cur n).bind fun x => findIndexByName x.indexes i.name with
        | none => rfl
        | some c =>
          have hcn : c.name = i.name := by
            obtain ⟨x, -, hx⟩ := Option.bind_eq_some_iff.1 hb
            simpa using List.find?_some hx
          by_cases hc : areSameIndexes c i <;> simp [hc, hyn, hcn]
      rw [hout]
      simp only [hcont, Bool.false_eq_true, if_false, Except.ok.injEq, Prod.mk.injEq]
      refine ⟨fun _ => ⟨_, rfl, trivial⟩, ?_⟩
      rintro x g' ⟨rfl, rfl⟩
      refine ⟨⟨dt, rfl, hmem⟩, rfl, ?_⟩
      refine h.update huc hup htin hcreated hviews (fun _ => rfl) (tablesOf_index pre d n i hd) ?_ ?_ ?_
      · intro x y hxy
        refine ⟨hxy.name, hxy.fks, hxy.cols, ?_, hxy.pols⟩
        intro p hp
        have h1 : p i.name = false := hp i (by simp)
        show ((newIndexes y.indexes i).filter fun c => p c.name) = _
        rw [newIndexes_filter _ _ _ h1]
        exact hxy.idxs p fun j hj => hp j (by simp [hj])
      · intro t y' htn htc hty
        refine ⟨hty.name, hty.fks, hty.cols, ?_, ?_⟩
        · show (newIndexes y'.indexes i).map (·.name) = _
          rw [newIndexes_names, hty.idxs, complete_snoc, hidx]
          · simp [htn, complete]
          · rw [hty.idxs, htc]; exact hmem
        · show y'.policies.map (·.name) = _
          rw [hty.pols, complete_snoc, hpol]; simp [complete]
      · intro t y' htn hty
        have hnt : ¬ n = t.name := fun e => htn e.symm
        rw [show SimNew (pre ++ [d]) t y' ↔ SimNew pre t y' from by
          have := complete_snoc_id pre d t (by rw [hidx, if_neg hnt]) (hfk t) (hpol t) (hpk t)
          constructor <;> intro hs <;> refine ⟨hs.name, hs.fks, hs.cols, ?_, ?_⟩
          · rw [← this]; exact hs.idxs
          · rw [← this]; exact hs.pols
          · rw [this]; exact hs.idxs
          · rw [this]; exact hs.pols]
        exact hty

/-- The new policy list computed by `stepCreatePolicy`. -/
def newPolicies (ps : List Policy) (des : Policy) : List Policy :=
  match findPolicyByName ps des.name with
  | none => ps ++ [des]
  | some _ => ps

theorem newPolicies_filter (ps : List Policy) (des : Policy) (p : Str → Bool) (h : p des.name = false) :
    ((newPolicies ps des).filter fun i => p i.name) = ps.filter fun i => p i.name := by
  unfold newPolicies
  split
  · simp [h]
  · rfl

theorem newPolicies_names (ps : List Policy) (des : Policy) (h : des.name ∉ ps.map (·.name)) :
    (newPolicies ps des).map (·.name) = ps.map (·.name) ++ [des.name] := by
  have : findPolicyByName ps des.name = none := by
    simp only [findPolicyByName, List.find?_eq_none, decide_eq_true_eq]
    exact fun i hi e => h (e ▸ List.mem_map_of_mem hi)
  simp [newPolicies, this]

theorem step_createPolicy (h : Inv mode cur cv ct pre g) (huc : (cur.map (·.name)).Nodup) (hup : UniqueTables pre)
    (s : Str) (n : Str) (i : Policy) :
    ((∃ t, tableIn pre n = some t ∧ i.name ∉ t.policies.map (·.name)) →
      ∃ g', stepCreatePolicy g (.addPolicy s n i) n i = .ok (g', policyStmts cur (.addPolicy s n i) n i)) ∧
    (∀ x g', stepCreatePolicy g (.addPolicy s n i) n i = .ok (g', x) →
      (∃ t, tableIn pre n = some t ∧ i.name ∉ t.policies.map (·.name)) ∧ policyStmts cur (.addPolicy s n i) n i = x ∧
      Inv mode cur cv ct (pre ++ [.addPolicy s n i]) g') := by
  cases htin : tableIn pre n with
  | none =>
    refine ⟨by simp, fun x g' hg => ?_⟩
    simp only [stepCreatePolicy, h.find_desired, htin] at hg
    split at hg <;> cases hg
  | some dt =>
    obtain ⟨y, hy, -, hyp⟩ := h.lookup hup htin
    have hyn := find_name hy
    have e0 : stepCreatePolicy g (.addPolicy s n i) n i =
        if containsString (policyNames dt.policies) i.name then .error (.doublyCreated i.name)
        else .ok ({ g with
          currentTables := updateTable g.currentTables n fun t => { t with policies := newPolicies t.policies i },
          desiredTables := updateTable g.desiredTables n fun t => { t with policies := t.policies ++ [i] } },
          match findPolicyByName y.policies i.name with
          | none => [Stmt.user (.addPolicy s n i)]
          | some cur =>
            if !areSamePolicies cur i then [Stmt.dropPolicy y.name cur.name, Stmt.user (.addPolicy s n i)] else []) := by
      have hupd : updateTable g.currentTables n (fun t => { t with policies := newPolicies t.policies i }) =
          updateTable g.currentTables n (fun t => { t with policies := newPolicies y.policies i }) :=
        updateTable_congr _ _ _ _ y hy rfl
      rw [hupd]
      simp only [stepCreatePolicy, hy, h.find_desired, htin, newPolicies]
      cases findPolicyByName y.policies i.name with
      | none => rfl
      | some c => by_cases hc : areSamePolicies c i <;> simp [hc]
    rw [e0]
    by_cases hmem : i.name ∈ dt.policies.map (·.name)
    · have : containsString (policyNames dt.policies) i.name = true := containsString_iff.2 hmem
      simp only [this, if_true]
      exact ⟨fun ⟨t, ht, hnot⟩ => absurd (Option.some.inj ht ▸ hmem) hnot, fun x g' hx => by cases hx⟩
    · have hcont : containsString (policyNames dt.policies) i.name = false := not_containsString.2 hmem
      have hout : (match findPolicyByName y.policies i.name with
          | none => [Stmt.user (.addPolicy s n i)]
          | some cur =>
            if !areSamePolicies cur i then [Stmt.dropPolicy y.name cur.name, Stmt.user (.addPolicy s n i)] else []) =
          policyStmts cur (.addPolicy s n i) n i := by
        rw [hyp _ hmem]
        unfold policyStmts
        cases hb : (findTableByName cur n).bind fun x => findPolicyByName x.policies i.name with
        | none => rfl
        | some c =>
          have hcn : c.name = i.name := by
            obtain ⟨x, -, hx⟩ := Option.bind_eq_some_iff.1 hb
            simpa using List.find?_some hx
          by_cases hc : areSamePolicies c i <;> simp [hc, hyn, hcn]
      rw [hout]
      simp only [hcont, Bool.false_eq_true, if_false, Except.ok.injEq, Prod.mk.injEq]
      refine ⟨fun _ => ⟨_, rfl, trivial⟩, ?_⟩
      rintro x g' ⟨rfl, rfl⟩
      refine ⟨⟨dt, rfl, hmem⟩, rfl, ?_⟩
      refine h.update huc hup htin rfl rfl (fun _ => rfl) (tablesOf_policy pre s n i) ?_ ?_ ?_
      · intro x y hxy
        refine ⟨hxy.name, hxy.fks, hxy.cols, hxy.idxs, ?_⟩
        intro p hp
        have h1 : p i.name = false := hp i (by simp)
        show ((newPolicies y.policies i).filter fun c => p c.name) = _
        rw [newPolicies_filter _ _ _ h1]
        exact hxy.pols p fun j hj => hp j (by simp [hj])
      · intro t y' htn htc hty
        refine ⟨hty.name, hty.fks, hty.cols, ?_, ?_⟩
        · show y'.indexes.map (·.name) = _
          rw [hty.idxs, complete_snoc]; simp [complete, indexesFor]
        · show (newPolicies y'.policies i).map (·.name) = _
          rw [newPolicies_names, hty.pols, complete_snoc]
          · simp [htn, complete, policiesFor]
          · rw [hty.pols, htc]; exact hmem
      · intro t y' htn hty
        have hnt : ¬ n = t.name := fun e => htn e.symm
        have := complete_snoc_id pre (.addPolicy s n i) t rfl rfl (by simp [policiesFor, hnt]) (fun _ => rfl)
        refine ⟨hty.name, hty.fks, hty.cols, ?_, ?_⟩
        · rw [this]; exact hty.idxs
        · rw [this]; exact hty.pols

theorem step_addForeignKey (h : Inv mode cur cv ct pre g) (huc : (cur.map (·.name)).Nodup) (hup : UniqueTables pre)
    (s : Str) (n : Str) (f : ForeignKey) :
    ((∃ t, tableIn pre n = some t ∧ f.constraintName ∉ t.foreignKeys.map (·.constraintName)) →
      ∃ g', stepAddForeignKey g n f = .ok (g', [])) ∧
    (∀ x g', stepAddForeignKey g n f = .ok (g', x) →
      (∃ t, tableIn pre n = some t ∧ f.constraintName ∉ t.foreignKeys.map (·.constraintName)) ∧ x = [] ∧
      Inv mode cur cv ct (pre ++ [.addForeignKey s n f]) g') := by
  simp only [stepAddForeignKey, h.find_desired]
  cases htin : tableIn pre n with
  | none => simp
  | some dt =>
    by_cases hmem : f.constraintName ∈ dt.foreignKeys.map (·.constraintName)
    · have : containsString (fkConstraintNames dt.foreignKeys) f.constraintName = true := containsString_iff.2 hmem
      simp only [this, if_true]
      exact ⟨fun ⟨t, ht, hnot⟩ => absurd (Option.some.inj ht ▸ hmem) hnot, fun x g' hx => by cases hx⟩
    · have hcont : containsString (fkConstraintNames dt.foreignKeys) f.constraintName = false :=
        not_containsString.2 hmem
      simp only [hcont, Bool.false_eq_true, if_false, Except.ok.injEq, Prod.mk.injEq]
      refine ⟨fun _ => ⟨_, rfl, trivial⟩, ?_⟩
      rintro x g' ⟨rfl, rfl⟩
      refine ⟨⟨dt, rfl, hmem⟩, rfl, ?_⟩
      have hid : ∀ (ts : List Table), updateTable ts n (fun t => t) = ts := by
        intro ts
        induction ts with
        | nil => rfl
        | cons t ts ih => simp only [updateTable, ih, ite_self]
      have := h.update huc hup htin (df := .addForeignKey s n f)
        (fd := fun t => { t with foreignKeys := t.foreignKeys ++ [f] }) (fc := fun t => t) rfl rfl (fun _ => rfl)
        (tablesOf_fk pre s n f)
        (fun x y hxy => ⟨hxy.name, hxy.fks, hxy.cols, hxy.idxs, hxy.pols⟩)
        (fun t y htn htc hty => ⟨hty.name, hty.fks, hty.cols,
          by rw [hty.idxs, complete_snoc]; simp [complete, indexesFor],
          by rw [hty.pols, complete_snoc]; simp [complete, policiesFor]⟩)
        (fun t y htn hty => ⟨hty.name, hty.fks, hty.cols,
          by rw [hty.idxs, complete_snoc]; simp [complete, indexesFor],
          by rw [hty.pols, complete_snoc]; simp [complete, policiesFor]⟩)
      rw [hid] at this
      exact this

theorem Inv.other (h : Inv mode cur cv ct pre g) (d : DDL) (hd : (∃ v, d = .view v) ∨ (∃ t, d = .trigger t))
    {g' : Gen} (h1 : g'.mode = g.mode) (h2 : g'.desiredTables = g.desiredTables)
    (h3 : g'.desiredViews = viewsOf (pre ++ [d])) (h4 : g'.currentViews = g.currentViews)
    (h5 : g'.currentTriggers = g.currentTriggers) (h6 : g'.currentTables = g.currentTables) :
    Inv mode cur cv ct (pre ++ [d]) g' := by
  have ht := tablesOf_other pre d hd
  have hc : created [d] = [] := by rcases hd with ⟨v, rfl⟩ | ⟨v, rfl⟩ <;> rfl
  have htin : ∀ m, tableIn (pre ++ [d]) m = tableIn pre m := fun m => by simp only [tableIn_eq, ht]
  have hcomp : ∀ t, complete (pre ++ [d]) t = complete pre t := fun t => by
    apply complete_snoc_id <;> rcases hd with ⟨v, rfl⟩ | ⟨v, rfl⟩ <;>
      simp [indexesFor, foreignKeysFor, policiesFor, markedPrimary]
  obtain ⟨as, bs, hcur, hO, hN⟩ := h.current
  refine ⟨h1.trans h.mode, by rw [h2, h.desired, ht], h3, h4.trans h.views, h5.trans h.triggers, as, bs,
    h6.trans hcur, ?_, ?_⟩
  · refine forall₂_mono hO fun x y _ hxy => ?_
    unfold SimOld at hxy ⊢
    rw [htin]; exact hxy
  · have : newTables cur (pre ++ [d]) = newTables cur pre := by simp [newTables, created_append, hc]
    rw [this]
    refine forall₂_mono hN fun t y _ hty => ⟨hty.name, hty.fks, hty.cols, ?_, ?_⟩
    · rw [hcomp]; exact hty.idxs
    · rw [hcomp]; exact hty.pols

theorem step_createView (h : Inv mode cur cv ct pre g) (v : View) :
    (v.name ∉ (viewsOf pre).map (·.name) → ∃ g', stepCreateView g v = .ok (g', viewStmts mode cv v)) ∧
    (∀ x g', stepCreateView g v = .ok (g', x) →
      v.name ∉ (viewsOf pre).map (·.name) ∧ x = viewStmts mode cv v ∧ Inv mode cur cv ct (pre ++ [.view v]) g') := by
  simp only [stepCreateView, h.views, h.dviews, h.mode]
  by_cases hmem : v.name ∈ (viewsOf pre).map (·.name)
  · have : containsString (viewNames (viewsOf pre)) v.name = true := containsString_iff.2 hmem
    simp [this, hmem]
  · have hcont : containsString (viewNames (viewsOf pre)) v.name = false := not_containsString.2 hmem
    simp only [hcont, Bool.false_eq_true, if_false, Except.ok.injEq, Prod.mk.injEq]
    refine ⟨fun _ => ⟨_, rfl, rfl⟩, ?_⟩
    rintro x g' ⟨rfl, rfl⟩
    refine ⟨hmem, rfl, h.other _ (.inl ⟨v, rfl⟩) h.mode.symm rfl ?_ h.views.symm rfl rfl⟩
    simp [viewsOf_append, viewsOf]

theorem step_createTrigger (h : Inv mode cur cv ct pre g) (t : Trigger) :
    ∃ g', stepCreateTrigger g t = .ok (g', triggerStmts mode ct t) ∧ Inv mode cur cv ct (pre ++ [.trigger t]) g' := by
  have hv : g.desiredViews = viewsOf (pre ++ [.trigger t]) := by simp [h.dviews, viewsOf_append, viewsOf]
  have e : stepCreateTrigger g t =
      .ok (if mode = .mssql ∨ mode = .mysql then { g with desiredTriggers := g.desiredTriggers ++ [t] } else g,
        triggerStmts mode ct t) := by
    obtain rfl := h.mode
    obtain rfl := h.triggers
    unfold stepCreateTrigger triggerStmts
    cases hm : g.mode with
    | mssql =>
      cases findTriggerByName g.currentTriggers t.name with
      | none => simp
      | some c => by_cases hc : areSameTriggerDefinition c t <;> simp [hc]
    | mysql =>
      cases findTriggerByName g.currentTriggers t.name with
      | none => simp
      | some c => by_cases hc : areSameTriggerDefinition c t <;> simp [hc]
    | postgres => simp
    | sqlite3 => simp
  refine ⟨_, e, h.other _ (.inr ⟨t, rfl⟩) ?_ ?_ ?_ ?_ ?_ ?_⟩ <;> split <;> first | rfl | exact hv

/-- One iteration of the generator, without the simulated state. -/
theorem step_stateless (h : Inv mode cur cv ct pre g) (huc : (cur.map (·.name)).Nodup) (hw : WellFormed pre)
    (d : DDL) (hup : UniqueTables (pre ++ [d])) :
    (∀ x, Follows pre d → defStmts mode cur cv ct d = .ok x → ∃ g', step g d = .ok (g', x)) ∧
    (∀ x g', step g d = .ok (g', x) →
      Follows pre d ∧ defStmts mode cur cv ct d = .ok x ∧ Inv mode cur cv ct (pre ++ [d]) g') := by
  have hup' : UniqueTables pre := by
    unfold UniqueTables at *
    rw [createdNames_append] at hup
    exact hup.of_append_left
  cases d with
  | createTable s t =>
    have hn : t.name ∉ createdNames pre := by
      unfold UniqueTables at hup
      rw [createdNames_append, List.nodup_append] at hup
      intro hm
      exact hup.2.2 _ hm t.name (by simp [createdNames, created]) rfl
    obtain ⟨a, b⟩ := step_createTable h huc hw s t hn
    exact ⟨fun x _ hx => a x hx, fun x g' hx => ⟨trivial, b x g' hx⟩⟩
  | createIndex s n i =>
    obtain ⟨a, b⟩ := step_createIndex h huc hup' (.createIndex s n i) n i (.inl ⟨s, rfl⟩)
    refine ⟨fun x hf hx => ?_, fun x g' hx => ?_⟩
    · cases hx; exact a hf
    · obtain ⟨h1, h2, h3⟩ := b x g' hx
      exact ⟨h1, congrArg Except.ok h2, h3⟩
  | addIndex s n i =>
    obtain ⟨a, b⟩ := step_createIndex h huc hup' (.addIndex s n i) n i (.inr ⟨s, rfl⟩)
    refine ⟨fun x hf hx => ?_, fun x g' hx => ?_⟩
    · cases hx; exact a hf
    · obtain ⟨h1, h2, h3⟩ := b x g' hx
      exact ⟨h1, congrArg Except.ok h2, h3⟩
  | addForeignKey s n f =>
    obtain ⟨a, b⟩ := step_addForeignKey h huc hup' s n f
    refine ⟨fun x hf hx => ?_, fun x g' hx => ?_⟩
    · cases hx; exact a hf
    · obtain ⟨h1, rfl, h3⟩ := b x g' hx
      exact ⟨h1, rfl, h3⟩
  | addPolicy s n p =>
    obtain ⟨a, b⟩ := step_createPolicy h huc hup' s n p
    refine ⟨fun x hf hx => ?_, fun x g' hx => ?_⟩
    · cases hx; exact a hf
    · obtain ⟨h1, h2, h3⟩ := b x g' hx
      exact ⟨h1, congrArg Except.ok h2, h3⟩
  | view v =>
    obtain ⟨a, b⟩ := step_createView h v
    refine ⟨fun x hf hx => ?_, fun x g' hx => ?_⟩
    · cases hx; exact a hf
    · obtain ⟨h1, rfl, h3⟩ := b x g' hx
      exact ⟨h1, rfl, h3⟩
  | trigger t =>
    obtain ⟨g₁, a, b⟩ := step_createTrigger h t
    refine ⟨fun x hf hx => ?_, fun x g' hx => ?_⟩
    · cases hx; exact ⟨g₁, a⟩
    · simp only [step] at hx
      rw [a] at hx
      cases hx
      exact ⟨trivial, rfl, b⟩
  | addPrimaryKey s n i =>
    exact ⟨fun x hf => hf.elim, fun x g' hx => by cases hx⟩

/-- The first loop of the generator, without the simulated state. -/
theorem steps_stateless (ds : List DDL) {pre : List DDL} {g : Gen} (h : Inv mode cur cv ct pre g)
    (huc : (cur.map (·.name)).Nodup) (hw : WellFormed pre) (hup : UniqueTables (pre ++ ds)) :
    (∀ x, WellFormed (pre ++ ds) → concatMapM (defStmts mode cur cv ct) ds = .ok x → ∃ g', steps g ds = .ok (g', x)) ∧
    (∀ x g', steps g ds = .ok (g', x) →
      WellFormed (pre ++ ds) ∧ concatMapM (defStmts mode cur cv ct) ds = .ok x ∧ Inv mode cur cv ct (pre ++ ds) g') := by
  induction ds generalizing pre g with
  | nil =>
    refine ⟨fun x _ hx => ?_, fun x g' hx => ?_⟩
    · cases hx; exact ⟨g, rfl⟩
    · cases hx; simpa using ⟨hw, rfl, h⟩
  | cons d ds ih =>
    have e : pre ++ d :: ds = (pre ++ [d]) ++ ds := by simp
    rw [e] at hup ⊢
    have hup1 : UniqueTables (pre ++ [d]) := by
      unfold UniqueTables at *
      rw [createdNames_append] at hup
      exact hup.of_append_left
    obtain ⟨a, b⟩ := step_stateless h huc hw d hup1
    refine ⟨fun x hwf hx => ?_, fun x g' hx => ?_⟩
    · have hw1 : WellFormed (pre ++ [d]) := wellFormed_prefix hwf
      simp only [concatMapM, bind, Except.bind] at hx
      cases hd : defStmts mode cur cv ct d with
      | error er => rw [hd] at hx; cases hx
      | ok x1 =>
        rw [hd] at hx
        cases hr : concatMapM (defStmts mode cur cv ct) ds with
        | error er => rw [hr] at hx; cases hx
        | ok x2 =>
          rw [hr] at hx; cases hx
          obtain ⟨g1, hg1⟩ := a x1 (wellFormed_snoc.1 hw1).2 hd
          obtain ⟨-, -, hinv⟩ := b x1 g1 hg1
          obtain ⟨g2, hg2⟩ := (ih hinv hw1 hup).1 x2 hwf hr
          exact ⟨g2, by simp only [steps, hg1, bind, Except.bind, hg2]; rfl⟩
    · simp only [steps, bind, Except.bind] at hx
      cases hd : step g d with
      | error er => rw [hd] at hx; cases hx
      | ok r =>
        obtain ⟨g1, x1⟩ := r
        rw [hd] at hx
        simp only at hx
        cases hr : steps g1 ds with
        | error er => rw [hr] at hx; cases hx
        | ok r2 =>
          obtain ⟨g2, x2⟩ := r2
          rw [hr] at hx; cases hx
          obtain ⟨hf, hds, hinv⟩ := b x1 g1 hd
          have hw1 : WellFormed (pre ++ [d]) := wellFormed_snoc.2 ⟨hw, hf⟩
          obtain ⟨hwf, hrest, hinv2⟩ := (ih hinv hw1 hup).2 x2 g2 hr
          refine ⟨hwf, ?_, hinv2⟩
          simp only [concatMapM, hds, hrest, bind, Except.bind]
          rfl

end Step

/-! ### Clean-up -/

theorem cleanupTables_eq (mode : Mode) (D remaining ts : List Table)
    (hu : (ts.map (·.name)).Nodup) (hr : ∀ t ∈ ts, ∃ r ∈ remaining, r.name = t.name) :
    cleanupTables mode D remaining ts = concatMapM (tableCleanup mode D) ts := by
  induction ts generalizing remaining with
  | nil => rfl
  | cons t ts ih =>
    simp only [List.map_cons, List.nodup_cons] at hu
    simp only [cleanupTables, concatMapM, tableCleanup]
    cases hf : findTableByName D t.name with
    | none =>
      have hany : remaining.any (fun x => decide (x.name = t.name)) = true := by
        obtain ⟨r, hr1, hr2⟩ := hr t (by simp)
        exact List.any_eq_true.2 ⟨r, hr1, by simpa using hr2⟩
      simp only [removeTableByName, hany, if_true, bind, Except.bind]
      rw [ih _ hu.2]
      · rfl
      · intro x hx
        obtain ⟨r, hr1, hr2⟩ := hr x (by simp [hx])
        refine ⟨r, ?_, hr2⟩
        simp only [List.mem_filter, decide_eq_true_eq, hr1, true_and, ne_eq]
        rw [hr2]
        exact fun e => hu.1 (e ▸ List.mem_map_of_mem hx)
    | some d =>
      simp only [bind, Except.bind]
      rw [ih _ hu.2 fun x hx => hr x (by simp [hx])]

theorem filter_and {α : Type} (l : List α) (p q : α → Bool) (h : ∀ a, p a = true → q a = true) :
    (l.filter q).filter p = l.filter p := by
  rw [List.filter_filter]
  congr 1
  funext a
  cases hp : p a
  · simp
  · simp [h a hp]

theorem cleanupTable_same (mode : Mode) (d x y : Table) (h : Same d x y) : cleanupTable mode y d = cleanupTable mode x d := by
  have hi : (y.indexes.filter fun i => !(containsString (indexNames d.indexes) i.name ||
        containsString (fkIndexNames d.foreignKeys) i.name)) =
      x.indexes.filter fun i => !(containsString (indexNames d.indexes) i.name ||
        containsString (fkIndexNames d.foreignKeys) i.name) :=
    h.idxs (fun s => !(containsString (indexNames d.indexes) s || containsString (fkIndexNames d.foreignKeys) s))
      fun i hi => by
        have : containsString (indexNames d.indexes) i.name = true := containsString_iff.2 (List.mem_map_of_mem hi)
        simp [this]
  have hc : (y.columns.filter fun c => !containsString (columnNames d.columns) c.name) =
      x.columns.filter fun c => !containsString (columnNames d.columns) c.name :=
    h.cols (fun s => !containsString (columnNames d.columns) s) fun c hc => by
      have : containsString (columnNames d.columns) c.name = true := containsString_iff.2 (List.mem_map_of_mem hc)
      simp [this]
  have hp : (y.policies.filter fun p => !containsString (policyNames d.policies) p.name) =
      x.policies.filter fun p => !containsString (policyNames d.policies) p.name :=
    h.pols (fun s => !containsString (policyNames d.policies) s) fun c hc => by
      have : containsString (policyNames d.policies) c.name = true := containsString_iff.2 (List.mem_map_of_mem hc)
      simp [this]
  have hai : ∀ i, absentIndex mode i y d = absentIndex mode i x d := fun i => by
    simp only [absentIndex, h.name]
  have haf : ∀ f, absentForeignKey mode f y d = absentForeignKey mode f x d := fun f => by
    simp only [absentForeignKey, h.name]
  have hac : ∀ c ∈ (x.columns.filter fun c => !containsString (columnNames d.columns) c.name),
      absentColumn mode y c.name = absentColumn mode x c.name := by
    intro c hcm
    have hnot : ∀ e ∈ d.columns, decide (e.name = c.name) = false := by
      intro e he
      have := (List.mem_filter.1 hcm).2
      simp only [Bool.not_eq_true', not_containsString] at this
      simp only [decide_eq_false_iff_not]
      exact fun hh => this (hh ▸ List.mem_map_of_mem he)
    have hfil := h.cols (fun s => decide (s = c.name)) hnot
    have key : ∀ t : Table, (t.columns.filterMap fun c' : Column =>
          match c'.defaultDef with
          | none => none
          | some d => if c'.name = c.name ∧ d.constraintName ≠ [] then
              some (Stmt.dropDefaultConstraint x.name c'.name d.constraintName) else none) =
        ((t.columns.filter fun c' => decide (c'.name = c.name)).filterMap fun c' : Column =>
          match c'.defaultDef with
          | none => none
          | some d => if c'.name = c.name ∧ d.constraintName ≠ [] then
              some (Stmt.dropDefaultConstraint x.name c'.name d.constraintName) else none) := by
      intro t
      rw [List.filterMap_filter]
      apply List.filterMap_congr
      intro c' _
      by_cases hn : c'.name = c.name
      · simp [hn]
      · cases c'.defaultDef <;> simp [hn]
    have e := (key y).trans ((congrArg _ hfil).trans (key x).symm)
    unfold absentColumn
    rw [h.name]
    congr 1
    by_cases hm : mode = .mssql
    · rw [if_pos hm, if_pos hm]; exact e
    · rw [if_neg hm, if_neg hm]
  unfold cleanupTable
  rw [hi, hc, hp, h.fks, h.name]
  have e1 : (fun i => absentIndex mode i y d) = fun i => absentIndex mode i x d := funext hai
  have e2 : (fun f => absentForeignKey mode f y d) = fun f => absentForeignKey mode f x d := funext haf
  rw [e1, e2]
  have e3 : ((x.columns.filter fun c => !containsString (columnNames d.columns) c.name).flatMap
      fun c => absentColumn mode y c.name) =
      (x.columns.filter fun c => !containsString (columnNames d.columns) c.name).flatMap
      fun c => absentColumn mode x c.name := by
    simp only [List.flatMap]
    rw [List.map_congr_left hac]
  rw [e3]

theorem cleanupTable_new (mode : Mode) (ds : List DDL) (t y : Table) (h : SimNew ds t y) :
    cleanupTable mode y (complete ds t) = .ok [] := by
  have hf : (y.foreignKeys.filter fun fk =>
      !containsString (fkConstraintNames (complete ds t).foreignKeys) fk.constraintName) = [] := by
    rw [List.filter_eq_nil_iff, h.fks]
    intro f hf
    have : containsString (fkConstraintNames (complete ds t).foreignKeys) f.constraintName = true :=
      containsString_iff.2 (List.mem_map_of_mem (by simp [complete, hf]))
    simp [this]
  have hi : (y.indexes.filter fun i => !(containsString (indexNames (complete ds t).indexes) i.name ||
        containsString (fkIndexNames (complete ds t).foreignKeys) i.name)) = [] := by
    rw [List.filter_eq_nil_iff]
    intro i hi
    have : containsString (indexNames (complete ds t).indexes) i.name = true := by
      rw [containsString_iff]
      show i.name ∈ (complete ds t).indexes.map (·.name)
      rw [← h.idxs]; exact List.mem_map_of_mem hi
    simp [this]
  have hc : (y.columns.filter fun c => !containsString (columnNames (complete ds t).columns) c.name) = [] := by
    rw [List.filter_eq_nil_iff]
    intro c hc
    have : containsString (columnNames (complete ds t).columns) c.name = true := by
      rw [containsString_iff]
      show c.name ∈ (complete ds t).columns.map (·.name)
      have e : (complete ds t).columns.map (·.name) = t.columns.map (·.name) := by
        simp only [complete, List.map_map]
        apply List.map_congr_left
        intro c _
        simp only [Function.comp]
        split <;> rfl
      rw [e, ← h.cols]; exact List.mem_map_of_mem hc
    simp [this]
  have hp : (y.policies.filter fun p => !containsString (policyNames (complete ds t).policies) p.name) = [] := by
    rw [List.filter_eq_nil_iff]
    intro i hi
    have : containsString (policyNames (complete ds t).policies) i.name = true := by
      rw [containsString_iff]
      show i.name ∈ (complete ds t).policies.map (·.name)
      rw [← h.pols]; exact List.mem_map_of_mem hi
    simp [this]
  unfold cleanupTable
  rw [hf, hi, hc, hp]
  rfl

theorem concatMapM_forall₂ {R : Table → Table → Prop} {f g : Table → Except Err (List Stmt)} {xs ys : List Table}
    (h : List.Forall₂ R xs ys) (hfg : ∀ x y, x ∈ xs → R x y → f x = g y) : concatMapM f xs = concatMapM g ys := by
  induction h with
  | nil => rfl
  | cons hxy _ ih => simp only [concatMapM, hfg _ _ (by simp) hxy, ih fun x y hx => hfg x y (by simp [hx])]

theorem concatMapM_nil {α β : Type} (f : α → Except Err (List β)) (l : List α) (h : ∀ a ∈ l, f a = .ok []) :
    concatMapM f l = .ok [] := by
  induction l with
  | nil => rfl
  | cons a l ih =>
    simp only [concatMapM, h a (by simp), ih fun b hb => h b (by simp [hb]), bind, Except.bind]
    rfl

theorem nodup_current {cur : List Table} {pre : List DDL} {as bs : List Table} (huc : (cur.map (·.name)).Nodup)
    (hup : UniqueTables pre) (ha : as.map (·.name) = cur.map (·.name)) (hb : bs.map (·.name) = (newTables cur pre).map (·.name)) :
    ((as ++ bs).map (·.name)).Nodup := by
  rw [List.map_append, List.nodup_append, ha, hb]
  refine ⟨huc, newTables_nodup hup, ?_⟩
  intro a h1 b h2 e
  subst e
  obtain ⟨t, ht, rfl⟩ := List.mem_map.1 h2
  simp only [newTables, List.mem_filter, decide_eq_true_eq] at ht
  exact ht.2 h1

/-- The second loop of the generator, without the simulated state. -/
theorem cleanup_stateless {mode : Mode} {cur : List Table} {cv : List View} {ct : List Trigger} {ds : List DDL}
    {g : Gen} (h : Inv mode cur cv ct ds g) (huc : (cur.map (·.name)).Nodup) (hup : UniqueTables ds) :
    cleanupTables g.mode g.desiredTables g.currentTables g.currentTables =
      concatMapM (tableCleanup mode (tablesOf ds)) cur := by
  obtain ⟨as, bs, hc, hO, hN⟩ := h.current
  have has : as.map (·.name) = cur.map (·.name) := forall₂_names SimOld.name hO
  have hbs := forall₂_names SimNew.name' hN
  rw [cleanupTables_eq _ _ _ _ (by rw [hc]; exact nodup_current huc hup has hbs) fun t ht => ⟨t, ht, rfl⟩]
  rw [h.mode, h.desired, hc, concatMapM_append]
  have h1 : concatMapM (tableCleanup mode (tablesOf ds)) bs = .ok [] := by
    rw [← concatMapM_forall₂ (f := fun _ => .ok []) hN]
    · exact concatMapM_nil _ _ fun _ _ => rfl
    · intro t y ht hty
      simp only [newTables, List.mem_filter] at ht
      have := tableIn_of_created hup ht.1
      rw [tableIn_eq, ← hty.name] at this
      unfold tableCleanup
      rw [this]
      exact (cleanupTable_new mode ds t y hty).symm
  have h2 : concatMapM (tableCleanup mode (tablesOf ds)) cur = concatMapM (tableCleanup mode (tablesOf ds)) as := by
    refine concatMapM_forall₂ hO fun x y _ hxy => ?_
    unfold tableCleanup
    rw [SimOld.name x y hxy]
    unfold SimOld at hxy
    rw [tableIn_eq] at hxy
    split at hxy
    · rfl
    · next d hd => exact (cleanupTable_same mode d x y hxy).symm
  rw [h1, ← h2]
  cases concatMapM (tableCleanup mode (tablesOf ds)) cur with
  | error e => rfl
  | ok x => simp [bind, Except.bind, pure, Except.pure]

/-- The generator without its simulated state. -/
theorem generateDDLs_stateless (mode : Mode) (cur : List Table) (cv : List View) (ct : List Trigger) (ds : List DDL)
    (huc : (cur.map (·.name)).Nodup) (hup : UniqueTables ds) (out : List Stmt) :
    generateDDLs ⟨mode, [], cur, [], cv, [], ct⟩ ds = .ok out ↔
      WellFormed ds ∧ ∃ x y, concatMapM (defStmts mode cur cv ct) ds = .ok x ∧
        concatMapM (tableCleanup mode (tablesOf ds)) cur = .ok y ∧ out = x ++ y ++ cleanupViews (viewsOf ds) cv := by
  have h0 : Inv mode cur cv ct [] ⟨mode, [], cur, [], cv, [], ct⟩ :=
    ⟨rfl, rfl, rfl, rfl, rfl, cur, [], by simp, List.forall₂_same.2 fun x _ => rfl, .nil⟩
  obtain ⟨a, b⟩ := steps_stateless ds h0 huc wellFormed_nil hup
  simp only [List.nil_append] at a b
  simp only [generateDDLs, bind, Except.bind]
  constructor
  · intro h
    split at h
    · cases h
    · next r hr =>
      obtain ⟨g', x⟩ := r
      obtain ⟨hw, hx, hinv⟩ := b x g' hr
      simp only [cleanup_stateless hinv huc hup] at h
      cases hy : concatMapM (tableCleanup mode (tablesOf ds)) cur with
      | error e => rw [hy] at h; cases h
      | ok y =>
        rw [hy] at h
        cases h
        exact ⟨hw, x, y, hx, rfl, by rw [hinv.dviews, hinv.views]⟩
  · rintro ⟨hw, x, y, hx, hy, rfl⟩
    obtain ⟨g', hg⟩ := a x hw hx
    obtain ⟨-, -, hinv⟩ := b x g' hg
    rw [hg]
    simp only [cleanup_stateless hinv huc hup, hy, hinv.dviews, hinv.views]
    rfl

/-! ### The current schema -/

theorem wellFormedCurrent_snoc {pre : List DDL} {d : DDL} :
    WellFormedCurrent (pre ++ [d]) ↔ WellFormedCurrent pre ∧ FollowsCurrent pre d := by
  constructor
  · intro h
    refine ⟨fun a x b e => h a x (b ++ [d]) (by simp [e]), h pre d [] rfl⟩
  · rintro ⟨h1, h2⟩ a x b e
    rcases List.eq_nil_or_concat b with rfl | ⟨b', y, rfl⟩
    · obtain ⟨rfl, hx⟩ := List.append_inj' e rfl
      obtain ⟨rfl, -⟩ := List.cons.inj hx
      exact h2
    · rw [List.concat_eq_append, ← List.cons_append, ← List.append_assoc] at e
      obtain ⟨rfl, hx⟩ := List.append_inj' e rfl
      exact h1 a x b' rfl

theorem wellFormedCurrent_prefix {a b : List DDL} (h : WellFormedCurrent (a ++ b)) : WellFormedCurrent a := by
  intro p x q e
  exact h p x (q ++ b) (by simp [e])

theorem freshCurrent {pre : List DDL} (h : WellFormedCurrent pre) {n : Str} (hn : n ∉ createdNames pre) :
    indexesFor n pre = [] ∧ foreignKeysFor n pre = [] ∧ policiesFor n pre = [] ∧ ∀ c, markedPrimary n c pre = false := by
  induction pre using List.reverseRecOn with
  | nil => simp [indexesFor, foreignKeysFor, policiesFor, markedPrimary]
  | append_singleton pre d ih =>
    obtain ⟨h1, h2⟩ := wellFormedCurrent_snoc.1 h
    rw [createdNames_append, List.mem_append, not_or] at hn
    obtain ⟨a, b, c, e⟩ := ih h1 hn.1
    have key : ∀ m, m ∈ createdNames pre → m ≠ n := fun m hm e => hn.1 (e ▸ hm)
    rw [indexesFor_append, foreignKeysFor_append, policiesFor_append]
    simp only [markedPrimary_append, a, b, c, e, List.nil_append, Bool.false_or]
    cases d with
    | createTable s t => simp [indexesFor, foreignKeysFor, policiesFor, markedPrimary]
    | createIndex s m i => simp [indexesFor, foreignKeysFor, policiesFor, markedPrimary, key m h2]
    | addIndex s m i => exact h2.elim
    | addForeignKey s m i => simp [indexesFor, foreignKeysFor, policiesFor, markedPrimary, key m h2]
    | addPolicy s m i => simp [indexesFor, foreignKeysFor, policiesFor, markedPrimary, key m h2]
    | view v => simp [indexesFor, foreignKeysFor, policiesFor, markedPrimary]
    | trigger v => simp [indexesFor, foreignKeysFor, policiesFor, markedPrimary]
    | addPrimaryKey _ m _ =>
      obtain ⟨t, ht, -⟩ := h2
      simp [indexesFor, foreignKeysFor, policiesFor, markedPrimary, key m (tableIn_some_iff.1 ⟨t, ht⟩)]

theorem completeCurrent_fresh {pre : List DDL} (h : WellFormedCurrent pre) {t : Table} (hn : t.name ∉ createdNames pre) :
    complete pre t = t := by
  obtain ⟨a, b, c, e⟩ := freshCurrent h hn
  have e := map_primary_id t.columns (fun c => markedPrimary t.name c.name pre) fun c _ => e c.name
  simp only [complete, a, b, c, e, List.append_nil]

theorem tablesOf_createCurrent (pre : List DDL) (h : WellFormedCurrent pre) (s : Str) (t : Table)
    (hn : t.name ∉ createdNames pre) : tablesOf (pre ++ [.createTable s t]) = tablesOf pre ++ [t] := by
  have hid : ∀ x : Table, complete (pre ++ [.createTable s t]) x = complete pre x := fun x => by
    apply complete_snoc_id <;> simp [indexesFor, foreignKeysFor, policiesFor, markedPrimary]
  have : created [DDL.createTable s t] = [t] := rfl
  have hid' : complete (pre ++ [.createTable s t]) = complete pre := funext hid
  simp only [tablesOf, created_append, this, List.map_append, List.map_cons, List.map_nil, hid',
    completeCurrent_fresh h hn]

theorem tablesOf_primaryKey (pre : List DDL) (s n : Str) (i : Index) (c : IndexColumn) (cs : List IndexColumn)
    (hc : i.columns = c :: cs) :
    tablesOf (pre ++ [.addPrimaryKey s n i]) =
      (tablesOf pre).map fun t => if t.name = n then
        { t with columns := t.columns.map fun col => if col.name = c.column then { col with keyOption := .primary } else col }
        else t := by
  refine tablesOf_snoc_update pre _ n (fun t => { t with columns := t.columns.map fun col =>
    if col.name = c.column then { col with keyOption := .primary } else col }) rfl fun t => ?_
  by_cases hn : t.name = n
  · rw [complete_snoc]
    simp only [complete, hn, indexesFor, foreignKeysFor, policiesFor, List.append_nil, if_true, List.map_map]
    congr 1
    apply List.map_congr_left
    intro col _
    by_cases h1 : markedPrimary n col.name pre <;> by_cases h2 : col.name = c.column
    · have h3 : c.column = col.name := h2.symm
      simp [h1, h3]
    · simp [h1, h2]
    · have h3 : c.column = col.name := h2.symm
      simp [h1, markedPrimary, hc, h3]
    · have : ¬ c.column = col.name := fun e => h2 e.symm
      simp [h1, h2, markedPrimary, hc, this]
  · rw [if_neg hn]
    have hn' : n ≠ t.name := fun e => hn e.symm
    apply complete_snoc_id <;> simp [hn', indexesFor, foreignKeysFor, policiesFor, markedPrimary]

theorem tablesOf_primaryKey_nil (pre : List DDL) (s n : Str) (i : Index) (hc : i.columns = []) :
    tablesOf (pre ++ [.addPrimaryKey s n i]) = tablesOf pre := by
  simp only [tablesOf, created_append, created, List.append_nil]
  apply List.map_congr_left
  intro t _
  apply complete_snoc_id <;> simp [indexesFor, foreignKeysFor, policiesFor, markedPrimary, hc]

theorem convertStep_eq (pre : List DDL) (d : DDL) (hw : WellFormedCurrent pre) (hu : UniqueTables (pre ++ [d]))
    (ts : List Table) : convertStep (tablesOf pre) d = .ok ts ↔ FollowsCurrent pre d ∧ ts = tablesOf (pre ++ [d]) := by
  have hu' : UniqueTables pre := by
    unfold UniqueTables at *
    rw [createdNames_append] at hu
    exact hu.of_append_left
  have hmap : ∀ n f, updateTable (tablesOf pre) n f = (tablesOf pre).map fun t => if t.name = n then f t else t :=
    fun n f => updateTable_eq_map _ _ _ (by rw [names_tablesOf]; exact hu')
  have hfind : ∀ n, findTableByName (tablesOf pre) n = tableIn pre n := fun n => rfl
  cases d with
  | createTable s t =>
    have hn : t.name ∉ createdNames pre := by
      unfold UniqueTables at hu
      rw [createdNames_append, List.nodup_append] at hu
      intro hm
      exact hu.2.2 _ hm t.name (by simp [createdNames, created]) rfl
    simp [convertStep, FollowsCurrent, tablesOf_createCurrent pre hw s t hn, eq_comm]
  | createIndex s n i =>
    simp only [convertStep, FollowsCurrent, hfind, hmap, tablesOf_index pre _ n i (.inl ⟨s, rfl⟩)]
    cases h : tableIn pre n with
    | none => simp [tableIn_none.1 h]
    | some t => simp [tableIn_some_iff.1 ⟨t, h⟩, eq_comm]
  | addIndex s n i => simp [convertStep, FollowsCurrent]
  | addForeignKey s n f =>
    simp only [convertStep, FollowsCurrent, hfind, hmap, tablesOf_fk]
    cases h : tableIn pre n with
    | none => simp [tableIn_none.1 h]
    | some t => simp [tableIn_some_iff.1 ⟨t, h⟩, eq_comm]
  | addPolicy s n p =>
    simp only [convertStep, FollowsCurrent, hfind, hmap, tablesOf_policy]
    cases h : tableIn pre n with
    | none => simp [tableIn_none.1 h]
    | some t => simp [tableIn_some_iff.1 ⟨t, h⟩, eq_comm]
  | view v => simp [convertStep, FollowsCurrent, tablesOf_other pre _ (.inl ⟨v, rfl⟩), eq_comm]
  | trigger t => simp [convertStep, FollowsCurrent, tablesOf_other pre _ (.inr ⟨t, rfl⟩), eq_comm]
  | addPrimaryKey s n i =>
    simp only [convertStep, FollowsCurrent, hfind, hmap]
    cases h : tableIn pre n with
    | none => simp
    | some t =>
      cases hc : i.columns with
      | nil =>
        rw [tablesOf_primaryKey_nil pre s n i hc]
        by_cases ht : t.columns = []
        · simp [ht, eq_comm]
        · simp [ht]
      | cons c cs =>
        rw [tablesOf_primaryKey pre s n i c cs hc]
        simp [eq_comm]

theorem convertFrom_eq (ds : List DDL) (pre : List DDL) (hw : WellFormedCurrent pre) (hu : UniqueTables (pre ++ ds))
    (ts : List Table) : convertFrom (tablesOf pre) ds = .ok ts ↔ WellFormedCurrent (pre ++ ds) ∧ ts = tablesOf (pre ++ ds) := by
  induction ds generalizing pre with
  | nil => simp [convertFrom, hw, eq_comm]
  | cons d ds ih =>
    have e : pre ++ d :: ds = (pre ++ [d]) ++ ds := by simp
    rw [e] at hu ⊢
    have hu1 : UniqueTables (pre ++ [d]) := by
      unfold UniqueTables at *
      rw [createdNames_append] at hu
      exact hu.of_append_left
    simp only [convertFrom, bind, Except.bind]
    cases hs : convertStep (tablesOf pre) d with
    | error er =>
      simp only [reduceCtorEq, false_iff, not_and]
      intro hwf
      have hf := (wellFormedCurrent_snoc.1 (wellFormedCurrent_prefix hwf)).2
      have := (convertStep_eq pre d hw hu1 _).2 ⟨hf, rfl⟩
      rw [hs] at this
      cases this
    | ok ts1 =>
      obtain ⟨hf, rfl⟩ := (convertStep_eq pre d hw hu1 ts1).1 hs
      exact ih (pre ++ [d]) (wellFormedCurrent_snoc.2 ⟨hw, hf⟩) hu

/-- Reading the current schema gives the tables it describes. -/
theorem convertDDLsToTables_eq (ds : List DDL) (hu : UniqueTables ds) (ts : List Table) :
    convertDDLsToTables ds = .ok ts ↔ WellFormedCurrent ds ∧ ts = tablesOf ds := by
  have hw : WellFormedCurrent [] := by intro a x b e; simp at e
  have := convertFrom_eq ds [] hw (by simpa using hu) ts
  simpa [convertDDLsToTables, tablesOf, created] using this

/-- **The generator, definition by definition and table by table.** -/
theorem diff_stateless (mode : Mode) (desired current : List DDL) (hd : UniqueTables desired) (hc : UniqueTables current)
    (out : List Stmt) :
    diff mode desired current = .ok out ↔
      WellFormed desired ∧ WellFormedCurrent current ∧
      ∃ x y, concatMapM (defStmts mode (tablesOf current) (viewsOf current) (triggersOf current)) desired = .ok x ∧
        concatMapM (tableCleanup mode (tablesOf desired)) (tablesOf current) = .ok y ∧
        out = x ++ y ++ cleanupViews (viewsOf desired) (viewsOf current) := by
  have huc : ((tablesOf current).map (·.name)).Nodup := by rw [names_tablesOf]; exact hc
  have key := generateDDLs_stateless mode (tablesOf current) (viewsOf current) (triggersOf current) desired huc hd out
  unfold diff
  rw [convertDDLsToViews_eq, convertDDLsToTriggers_eq]
  simp only [bind, Except.bind]
  constructor
  · intro h
    split at h
    · cases h
    · next ts hts =>
      obtain ⟨hw, rfl⟩ := (convertDDLsToTables_eq current hc ts).1 hts
      obtain ⟨h1, h2⟩ := key.1 h
      exact ⟨h1, hw, h2⟩
  · rintro ⟨h1, hw, h2⟩
    rw [(convertDDLsToTables_eq current hc _).2 ⟨hw, rfl⟩]
    exact key.2 ⟨h1, h2⟩

end Sqldef
