import Verif.Proofs.DefStmt
/-! What a successful generation says about the two schemas, whether or not a table is created twice. -/
namespace Sqldef
open Spec

theorem find_updateTable (ts : List Table) (n m : Str) (f : Table → Table) (hf : ∀ t, (f t).name = t.name) :
    findTableByName (updateTable ts n f) m = (findTableByName ts m).map fun t => if m = n then f t else t := by
  induction ts with
  | nil => rfl
  | cons t ts ih =>
    unfold findTableByName at ih ⊢
    unfold updateTable
    by_cases h : t.name = n
    · rw [if_pos h]
      by_cases hm : t.name = m
      · have hm' : (f t).name = m := (hf t).trans hm
        rw [List.find?_cons_of_pos (by simpa using hm'), List.find?_cons_of_pos (by simpa using hm)]
        simp [hm.symm.trans h]
      · have hm' : ¬ (f t).name = m := by rw [hf]; exact hm
        rw [List.find?_cons_of_neg (by simpa using hm'), List.find?_cons_of_neg (by simpa using hm)]
        have : m ≠ n := fun e => hm (h.trans e.symm)
        simp [this]
    · rw [if_neg h]
      by_cases hm : t.name = m
      · rw [List.find?_cons_of_pos (by simpa using hm), List.find?_cons_of_pos (by simpa using hm)]
        have : m ≠ n := fun e => h (hm.trans e)
        simp [this]
      · rw [List.find?_cons_of_neg (by simpa using hm), List.find?_cons_of_neg (by simpa using hm), ih]

/-- The tables after one more CREATE TABLE, even of a name that is already there. -/
theorem tableIn_snoc_create {pre : List DDL} (hfresh : ∀ t : Table, t.name ∉ createdNames pre → complete pre t = t)
    (s : Str) (t : Table) (m : Str) :
    tableIn (pre ++ [.createTable s t]) m = (tableIn pre m).or (if t.name = m then some t else none) := by
  have hid : complete (pre ++ [.createTable s t]) = complete pre := funext fun x => by
    apply complete_snoc_id <;> simp [indexesFor, foreignKeysFor, policiesFor, markedPrimary]
  have hc : created [DDL.createTable s t] = [t] := rfl
  unfold tableIn
  rw [show tablesOf (pre ++ [.createTable s t]) = tablesOf pre ++ [complete pre t] by
    simp [tablesOf, created_append, hc, hid], List.find?_append]
  cases hx : (tablesOf pre).find? (·.name = m) with
  | some x => simp
  | none =>
    simp only [Option.none_or]
    by_cases h : t.name = m
    · have hn : t.name ∉ createdNames pre := by
        rw [h]; exact tableIn_none.1 hx
      simp [hfresh t hn, h]
    · simp [h]

/-- The invariant of the first loop that does not need distinct table names. -/
structure Known (pre : List DDL) (g : Gen) : Prop where
  wf : WellFormed pre
  tables : ∀ n, findTableByName g.desiredTables n = tableIn pre n
  views : g.desiredViews = viewsOf pre

theorem Known.step {pre : List DDL} {g g' : Gen} {d : DDL} {x : List Stmt} (h : Known pre g)
    (hs : step g d = .ok (g', x)) : Known (pre ++ [d]) g' := by
  cases d with
  | createTable s t =>
    have hd : g'.desiredTables = g.desiredTables ++ [t] ∧ g'.desiredViews = g.desiredViews := by
      simp only [Sqldef.step, stepCreateTable] at hs
      split at hs
      · obtain ⟨l, -, hs⟩ := bind_ok.1 hs; cases hs; exact ⟨rfl, rfl⟩
      · cases hs; exact ⟨rfl, rfl⟩
    refine ⟨wellFormed_snoc.2 ⟨h.wf, trivial⟩, fun n => ?_, ?_⟩
    · rw [tableIn_snoc_create (fun t => complete_fresh h.wf), ← h.tables, hd.1]
      simp only [findTableByName, List.find?_append]
      by_cases hn : t.name = n <;> simp [hn]
    · rw [hd.2, h.views, viewsOf_append]; simp [viewsOf]
  | createIndex s n i =>
    simp only [Sqldef.step, stepCreateIndex] at hs
    split at hs
    · cases hs
    · split at hs
      · cases hs
      · next dt hdt =>
        split at hs
        · cases hs
        · next hc =>
          cases hs
          have hc : i.name ∉ dt.indexes.map (·.name) := not_containsString.1 (by simpa [indexNames] using hc)
          rw [h.tables] at hdt
          refine ⟨wellFormed_snoc.2 ⟨h.wf, dt, hdt, hc⟩, fun m => ?_, by simp [h.views, viewsOf_append, viewsOf]⟩
          simp only
          rw [find_updateTable _ _ _ _ (by simp), h.tables,
            tableIn_snoc_update (by simp) (tablesOf_index pre _ n i (.inl ⟨s, rfl⟩))]
  | addIndex s n i =>
    simp only [Sqldef.step, stepCreateIndex] at hs
    split at hs
    · cases hs
    · split at hs
      · cases hs
      · next dt hdt =>
        split at hs
        · cases hs
        · next hc =>
          cases hs
          have hc : i.name ∉ dt.indexes.map (·.name) := not_containsString.1 (by simpa [indexNames] using hc)
          rw [h.tables] at hdt
          refine ⟨wellFormed_snoc.2 ⟨h.wf, dt, hdt, hc⟩, fun m => ?_, by simp [h.views, viewsOf_append, viewsOf]⟩
          simp only
          rw [find_updateTable _ _ _ _ (by simp), h.tables,
            tableIn_snoc_update (by simp) (tablesOf_index pre _ n i (.inr ⟨s, rfl⟩))]
  | addForeignKey s n f =>
    simp only [Sqldef.step, stepAddForeignKey] at hs
    split at hs
    · cases hs
    · next dt hdt =>
      split at hs
      · cases hs
      · next hc =>
        cases hs
        have hc : f.constraintName ∉ dt.foreignKeys.map (·.constraintName) :=
          not_containsString.1 (by simpa [fkConstraintNames] using hc)
        rw [h.tables] at hdt
        refine ⟨wellFormed_snoc.2 ⟨h.wf, dt, hdt, hc⟩, fun m => ?_, by simp [h.views, viewsOf_append, viewsOf]⟩
        simp only
        rw [find_updateTable _ _ _ _ (by simp), h.tables, tableIn_snoc_update (by simp) (tablesOf_fk pre s n f)]
  | addPolicy s n p =>
    simp only [Sqldef.step, stepCreatePolicy] at hs
    split at hs
    · cases hs
    · split at hs
      · cases hs
      · next dt hdt =>
        split at hs
        · cases hs
        · next hc =>
          cases hs
          have hc : p.name ∉ dt.policies.map (·.name) := not_containsString.1 (by simpa [policyNames] using hc)
          rw [h.tables] at hdt
          refine ⟨wellFormed_snoc.2 ⟨h.wf, dt, hdt, hc⟩, fun m => ?_, by simp [h.views, viewsOf_append, viewsOf]⟩
          simp only
          rw [find_updateTable _ _ _ _ (by simp), h.tables, tableIn_snoc_update (by simp) (tablesOf_policy pre s n p)]
  | view v =>
    simp only [Sqldef.step, stepCreateView] at hs
    split at hs
    · cases hs
    · next hc =>
      cases hs
      have hc : v.name ∉ (viewsOf pre).map (·.name) := by
        rw [← h.views]; exact not_containsString.1 (by simpa [viewNames] using hc)
      refine ⟨wellFormed_snoc.2 ⟨h.wf, hc⟩, fun m => ?_, by simp [h.views, viewsOf_append, viewsOf]⟩
      simp only
      rw [h.tables]; unfold tableIn; rw [tablesOf_other pre _ (.inl ⟨v, rfl⟩)]
  | trigger t =>
    have hd : g'.desiredTables = g.desiredTables ∧ g'.desiredViews = g.desiredViews := by
      simp only [Sqldef.step, stepCreateTrigger] at hs
      split at hs <;> cases hs <;> exact ⟨rfl, rfl⟩
    refine ⟨wellFormed_snoc.2 ⟨h.wf, trivial⟩, fun m => ?_, ?_⟩
    · rw [hd.1, h.tables]; unfold tableIn; rw [tablesOf_other pre _ (.inr ⟨t, rfl⟩)]
    · rw [hd.2, h.views, viewsOf_append]; simp [viewsOf]
  | addPrimaryKey s n i => cases hs

theorem Known.steps {ds pre : List DDL} {g g' : Gen} {x : List Stmt} (h : Known pre g)
    (hs : steps g ds = .ok (g', x)) : Known (pre ++ ds) g' := by
  induction ds generalizing pre g x with
  | nil => cases hs; simpa using h
  | cons d ds ih =>
    obtain ⟨⟨g1, x1⟩, h1, hs⟩ := bind_ok.1 hs
    obtain ⟨⟨g2, x2⟩, h2, hs⟩ := bind_ok.1 hs
    cases hs
    have := ih (h.step h1) h2
    simpa using this

/-- Generation succeeds only for a well-formed desired schema. -/
theorem wellFormed_of_diff {mode : Mode} {desired current : List DDL} {out : List Stmt}
    (h : diff mode desired current = .ok out) : WellFormed desired := by
  obtain ⟨ts, -, h⟩ := bind_ok.1 h
  obtain ⟨⟨g', x⟩, hs, -⟩ := bind_ok.1 h
  have := Known.steps (pre := []) ⟨wellFormed_nil, fun n => rfl, rfl⟩ hs
  simpa using this.wf

theorem convertStep_names {ts ts' : List Table} {pre : List DDL} {d : DDL}
    (hn : ts.map (·.name) = createdNames pre) (h : convertStep ts d = .ok ts') :
    ts'.map (·.name) = createdNames (pre ++ [d]) ∧
      (∀ n, DDL.table d = some n → (∀ s t, d ≠ .createTable s t) → n ∈ createdNames pre) ∧ ∀ s n i, d ≠ .addIndex s n i := by
  have key : ∀ {n : Str} {x : Table}, findTableByName ts n = some x → n ∈ createdNames pre := by
    intro n x hx; rw [← hn]; exact find_isSome.1 ⟨x, hx⟩
  cases d with
  | createTable s t =>
    cases h
    refine ⟨by simp [createdNames, created_append, created, hn], fun n _ hc => absurd rfl (hc s t), by simp⟩
  | addIndex s n i => cases h
  | view v => cases h; refine ⟨by simp [createdNames, created_append, created, hn], by simp [DDL.table], by simp⟩
  | trigger v => cases h; refine ⟨by simp [createdNames, created_append, created, hn], by simp [DDL.table], by simp⟩
  | createIndex s n i =>
    simp only [convertStep] at h
    split at h
    · cases h
    · next x hx =>
      cases h
      refine ⟨?_, ?_, by simp⟩
      · rw [updateTable_names _ _ _ (by simp), hn]; simp [createdNames, created_append, created]
      · rintro m hm -; cases hm; exact key hx
  | addForeignKey s n i =>
    simp only [convertStep] at h
    split at h
    · cases h
    · next x hx =>
      cases h
      refine ⟨?_, ?_, by simp⟩
      · rw [updateTable_names _ _ _ (by simp), hn]; simp [createdNames, created_append, created]
      · rintro m hm -; cases hm; exact key hx
  | addPolicy s n i =>
    simp only [convertStep] at h
    split at h
    · cases h
    · next x hx =>
      cases h
      refine ⟨?_, ?_, by simp⟩
      · rw [updateTable_names _ _ _ (by simp), hn]; simp [createdNames, created_append, created]
      · rintro m hm -; cases hm; exact key hx
  | addPrimaryKey s n i =>
    simp only [convertStep] at h
    split at h
    · cases h
    · next x hx =>
      refine ⟨?_, ?_, by simp⟩
      · split at h
        · split at h
          · cases h; rw [hn]; simp [createdNames, created_append, created]
          · cases h
        · cases h
          rw [updateTable_names _ _ _ (by simp), hn]; simp [createdNames, created_append, created]
      · rintro m hm -; cases hm; exact key hx

theorem convertFrom_follows {ts ts' : List Table} {pre ds : List DDL}
    (hn : ts.map (·.name) = createdNames pre) (h : convertFrom ts ds = .ok ts') :
    ∀ p d q, ds = p ++ d :: q →
      (∀ n, DDL.table d = some n → (∀ s t, d ≠ .createTable s t) → n ∈ createdNames (pre ++ p)) ∧ ∀ s n i, d ≠ .addIndex s n i := by
  induction ds generalizing ts pre with
  | nil => intro p d q e; simp at e
  | cons d ds ih =>
    obtain ⟨ts1, h1, h2⟩ := bind_ok.1 h
    obtain ⟨hn1, hf, hi⟩ := convertStep_names hn h1
    intro p e q he
    cases p with
    | nil =>
      obtain ⟨rfl, -⟩ := List.cons.inj he
      simpa using ⟨hf, hi⟩
    | cons a p =>
      obtain ⟨rfl, he'⟩ := List.cons.inj he
      simpa using ih hn1 h2 p e q he'

/-- Generation succeeds only if every definition of the current schema is about a table created before. -/
theorem current_follows_of_diff {mode : Mode} {desired current : List DDL} {out : List Stmt}
    (h : diff mode desired current = .ok out) : ∀ pre d post, current = pre ++ d :: post →
      (∀ n, DDL.table d = some n → (∀ s t, d ≠ .createTable s t) → n ∈ createdNames pre) ∧ ∀ s n i, d ≠ .addIndex s n i := by
  obtain ⟨ts, hts, -⟩ := bind_ok.1 h
  simpa using convertFrom_follows (pre := []) rfl hts

end Sqldef
