import Verif.Proofs.DefStmt
/-! The part of the script that is about one table. -/
namespace Sqldef
open Spec

variable {mode : Mode} {desired current : List DDL} {out x y : List Stmt}

/-- In a well-formed desired schema, what comes before the CREATE TABLE of a table is not about it. -/
theorem not_about_before {desired pre post : List DDL} {s : Str} {t : Table} (hw : WellFormed desired) (hu : UniqueTables desired)
    (h : desired = pre ++ .createTable s t :: post) : ∀ d ∈ pre, DDL.table d ≠ some t.name := by
  intro d hd hn
  have hnot : t.name ∉ createdNames pre := by
    intro hm
    subst h
    simp only [UniqueTables, createdNames, created_append, created, List.map_append, List.map_cons,
      List.nodup_append, List.mem_cons] at hu
    exact hu.2.2 t.name hm t.name (.inl rfl) rfl
  obtain ⟨p, q, rfl⟩ := List.append_of_mem hd
  have hf := hw p d (q ++ .createTable s t :: post) (by rw [h]; simp)
  have hmono : ∀ {m : Str} {t' : Table}, tableIn p m = some t' → m ∈ createdNames (p ++ d :: q) := by
    intro m t' h'
    simp only [createdNames, created_append, List.map_append, List.mem_append]
    exact .inl (tableIn_some_iff.1 ⟨_, h'⟩)
  cases d with
  | createTable s' t' =>
    simp only [DDL.table, Option.some.injEq] at hn
    exact hnot (mem_createdNames.2 ⟨s', t', by simp, hn⟩)
  | createIndex _ m _ => simp only [DDL.table, Option.some.injEq] at hn; obtain ⟨t', ht', -⟩ := hf; exact hnot (hmono (hn ▸ ht'))
  | addIndex _ m _ => simp only [DDL.table, Option.some.injEq] at hn; obtain ⟨t', ht', -⟩ := hf; exact hnot (hmono (hn ▸ ht'))
  | addForeignKey _ m _ => simp only [DDL.table, Option.some.injEq] at hn; obtain ⟨t', ht', -⟩ := hf; exact hnot (hmono (hn ▸ ht'))
  | addPolicy _ m _ => simp only [DDL.table, Option.some.injEq] at hn; obtain ⟨t', ht', -⟩ := hf; exact hnot (hmono (hn ▸ ht'))
  | view v => cases hn
  | trigger t => cases hn
  | addPrimaryKey _ _ _ => exact hf

/-- The definitions about a table: its CREATE TABLE, then separate definitions. -/
theorem about_created {desired : List DDL} {s : Str} {t : Table} (hw : WellFormed desired) (hu : UniqueTables desired)
    (h : .createTable s t ∈ desired) :
    ∃ rest, (desired.filter fun d => decide (DDL.table d = some t.name)) = .createTable s t :: rest ∧
      ∀ d ∈ rest, d ∈ desired ∧ DDL.table d = some t.name ∧ ∀ s' t', d ≠ .createTable s' t' := by
  obtain ⟨pre, post, hpp⟩ := List.append_of_mem h
  have hb := not_about_before hw hu hpp
  refine ⟨post.filter fun d => decide (DDL.table d = some t.name), ?_, ?_⟩
  · rw [hpp, List.filter_append, List.filter_eq_nil_iff.2 (by simpa using hb), List.nil_append,
      List.filter_cons_of_pos (by simp [DDL.table])]
  · intro d hd
    obtain ⟨hd1, hd2⟩ := List.mem_filter.1 hd
    simp only [decide_eq_true_eq] at hd2
    refine ⟨by rw [hpp]; simp [hd1], hd2, ?_⟩
    rintro s' t' rfl
    simp only [DDL.table, Option.some.injEq] at hd2
    rw [hpp] at hu
    simp only [UniqueTables, createdNames, created_append, created, List.map_append, List.map_cons,
      List.nodup_append, List.nodup_cons, List.mem_map] at hu
    exact hu.2.1.1 ⟨t', mem_created.2 ⟨s', hd1⟩, hd2⟩

theorem tablesOf_filter_name (hu : UniqueTables current) {n : Str} {x : Table} (h : tableIn current n = some x)
    {v : List Stmt} {D : List Table}
    (hv : concatMapM (tableCleanup mode D) ((tablesOf current).filter fun t => decide (some t.name = some n)) = .ok v) :
    tableCleanup mode D x = .ok v := by
  rw [filter_name_eq hu h] at hv
  obtain ⟨p, q, hp, hq, rfl⟩ := concatMapM_cons_ok.1 hv
  cases hq
  simpa using hp

/-- The script about a table present in both schemas: changes for the CREATE TABLE, changes for separate
definitions, clean-up. -/
theorem Script.table_parts (h : Script mode desired current out x y) {s : Str} {t c : Table}
    (ht : .createTable s t ∈ desired) (hc : tableIn current t.name = some c) :
    ∃ l r v, generateDDLsForCreateTable mode c t = .ok l ∧ cleanupTable mode c (complete desired t) = .ok v ∧
      out.filter (fun s => decide (Stmt.table s = some t.name)) = l ++ r ++ v ∧
      ∀ st ∈ r, ∃ d ∈ desired, DDL.table d = some t.name ∧ (∀ s' t', d ≠ .createTable s' t') ∧
        DefStmt mode (tablesOf current) (viewsOf current) (triggersOf current) d st := by
  obtain ⟨u, v, hu, hv, ho⟩ := h.about t.name
  obtain ⟨rest, hr1, hr2⟩ := about_created h.wd h.ud ht
  rw [hr1] at hu
  obtain ⟨l, r, hl, hr, rfl⟩ := concatMapM_cons_ok.1 hu
  have hv := tablesOf_filter_name h.uc hc hv
  have hf : findTableByName (tablesOf current) t.name = some c := hc
  simp only [defStmts, hf] at hl
  have hf2 : findTableByName (tablesOf desired) c.name = some (complete desired t) := by
    rw [tableIn_name hc]; exact tableIn_of_created h.ud (mem_created.2 ⟨s, ht⟩)
  unfold tableCleanup at hv
  rw [hf2] at hv
  refine ⟨l, r, v, hl, hv, ho, fun st hst => ?_⟩
  obtain ⟨d, hd, z, hz, hs⟩ := (mem_concatMapM hr st).1 hst
  obtain ⟨h1, h2, h3⟩ := hr2 d hd
  exact ⟨d, h1, h2, h3, defStmts_shape hz hs⟩

end Sqldef
