import Verif.Proofs.StoredText
/-
Schemas of tables only, compared table by table.
-/
namespace Sqldef
open Spec Written Dumped

/-- Definitions of tables, each with the text of its statement. -/
def tableDefs (ps : List (Str × Table)) : List DDL := ps.map fun p => .createTable p.1 p.2

theorem created_tableDefs (ps : List (Str × Table)) : created (tableDefs ps) = ps.map (·.2) := by
  induction ps with
  | nil => rfl
  | cons p ps ih => simp only [tableDefs, List.map_cons] at ih ⊢; simp only [created, ih]

theorem parts_tableDefs (n : Str) (ps : List (Str × Table)) : indexesFor n (tableDefs ps) = [] ∧ foreignKeysFor n (tableDefs ps) = [] ∧
    policiesFor n (tableDefs ps) = [] ∧ viewsOf (tableDefs ps) = [] ∧ triggersOf (tableDefs ps) = [] ∧
    ∀ c, markedPrimary n c (tableDefs ps) = false := by
  induction ps with
  | nil => exact ⟨rfl, rfl, rfl, rfl, rfl, fun _ => rfl⟩
  | cons p ps ih =>
    simp only [tableDefs, List.map_cons] at ih ⊢
    simpa [indexesFor, foreignKeysFor, policiesFor, viewsOf, triggersOf, markedPrimary] using ih

theorem complete_tableDefs (ps : List (Str × Table)) (t : Table) : Spec.complete (tableDefs ps) t = t := by
  obtain ⟨h1, h2, h3, -, -, h4⟩ := parts_tableDefs t.name ps
  unfold Spec.complete
  simp [h1, h2, h3, h4]

theorem tablesOf_tableDefs (ps : List (Str × Table)) : tablesOf (tableDefs ps) = ps.map (·.2) := by
  unfold tablesOf
  rw [created_tableDefs, List.map_congr_left (g := id) (fun t _ => complete_tableDefs ps t), List.map_id]

theorem concatMapM_ok {α β : Type} (f : α → Except Err (List β)) (g : α → List β) (l : List α) (h : ∀ a ∈ l, f a = .ok (g a)) :
    concatMapM f l = .ok (l.flatMap g) := by
  induction l with
  | nil => rfl
  | cons a l ih =>
    unfold concatMapM
    rw [h a (by simp), ih fun x hx => h x (by simp [hx])]
    rfl

theorem flatMap_when {α β : Type} (p : α → Prop) [DecidablePred p] (f : α → β) (l : List α) :
    l.flatMap (fun a => if p a then [f a] else []) = (l.filter fun a => p a).map f := by
  induction l with
  | nil => rfl
  | cons a l ih =>
    by_cases h : p a
    · simp [h, ih]
    · simp [h, ih]

/-- Of two schemas that agree on the tables they share, the first is reached from the second by creating what is missing
and dropping what is not wanted. -/
theorem diff_tables {mode : Mode} {D C : List (Str × Table)} (hD : Normal mode (tableDefs D)) (hC : Normal mode (tableDefs C))
    (h : ∀ c ∈ C, ∀ d ∈ D, c.2.name = d.2.name → c.2 = d.2) :
    diff mode (tableDefs D) (tableDefs C) = .ok
      (((D.filter fun d => d.2.name ∉ C.map (·.2.name)).map fun d => .user (.createTable d.1 d.2)) ++
       (C.filter fun c => c.2.name ∉ D.map (·.2.name)).map fun c => .dropTable c.2.name) := by
  have find : ∀ (ps : List (Str × Table)) n, findTableByName (ps.map (·.2)) n = none ↔ n ∉ ps.map (·.2.name) := by
    intro ps n
    unfold findTableByName
    rw [List.find?_eq_none]
    simp only [List.mem_map, not_exists, not_and]
    constructor
    · intro h x hx e
      exact absurd e (by simpa using h x.2 ⟨x, hx, rfl⟩)
    · rintro h t ⟨x, hx, rfl⟩ e
      exact h x hx (by simpa using e)
  have found : ∀ (ps : List (Str × Table)) n x, findTableByName (ps.map (·.2)) n = some x → ∃ p ∈ ps, p.2 = x ∧ x.name = n := by
    intro ps n x hx
    unfold findTableByName at hx
    have h1 := List.mem_of_find?_eq_some hx
    have h2 := List.find?_some hx
    obtain ⟨p, hp, rfl⟩ := List.mem_map.mp h1
    exact ⟨p, hp, rfl, by simpa using h2⟩
  refine (diff_stateless mode _ _ hD.unique hC.unique _).2 ⟨hD.wellFormed,
    wellFormedCurrent_of_wellFormed hC.wellFormed hC.noAddIndex,
    (D.filter fun d => d.2.name ∉ C.map (·.2.name)).map fun d => .user (.createTable d.1 d.2),
    (C.filter fun c => c.2.name ∉ D.map (·.2.name)).map fun c => .dropTable c.2.name, ?_, ?_, ?_⟩
  · rw [← flatMap_when]
    have := concatMapM_ok (defStmts mode (tablesOf (tableDefs C)) (viewsOf (tableDefs C)) (triggersOf (tableDefs C)))
      (fun d => match d with
        | .createTable s t => if t.name ∉ C.map (·.2.name) then [Stmt.user (.createTable s t)] else []
        | _ => []) (tableDefs D) ?_
    · rw [this, tableDefs, List.flatMap_map]
    · intro d hd
      obtain ⟨p, hp, rfl⟩ := List.mem_map.mp hd
      simp only [defStmts, tablesOf_tableDefs]
      cases hf : findTableByName (C.map (·.2)) p.2.name with
      | none => rw [if_pos ((find C _).mp hf)]
      | some x =>
        rw [if_neg (fun hn => by rw [(find C _).mpr hn] at hf; cases hf)]
        obtain ⟨c, hc, rfl, hn⟩ := found C _ _ hf
        have e := h c hc p hp hn
        show generateDDLsForCreateTable mode c.2 p.2 = _
        have := createTable_self hD.wellFormed (hD.tables p.1 p.2 (List.mem_map.mpr ⟨p, hp, rfl⟩))
        rw [complete_tableDefs] at this
        rw [e]
        exact this
  · rw [← flatMap_when, tablesOf_tableDefs, tablesOf_tableDefs]
    have := concatMapM_ok (tableCleanup mode (D.map (·.2)))
      (fun t : Table => if t.name ∉ D.map (·.2.name) then [Stmt.dropTable t.name] else []) (C.map (·.2)) ?_
    · rw [this, List.flatMap_map]
    · intro t ht
      obtain ⟨c, hc, rfl⟩ := List.mem_map.mp ht
      unfold tableCleanup
      cases hf : findTableByName (D.map (·.2)) c.2.name with
      | none => rw [if_pos ((find D _).mp hf)]
      | some x =>
        rw [if_neg (fun hn => by rw [(find D _).mpr hn] at hf; cases hf)]
        obtain ⟨d, hd, rfl, hn⟩ := found D _ _ hf
        show cleanupTable mode c.2 d.2 = _
        rw [h c hc d hd hn.symm]
        exact cleanup_self _
  · rw [(parts_tableDefs [] C).2.2.2.1, (parts_tableDefs [] D).2.2.2.1]
    simp [cleanupViews]

/-! ### Files of tables -/

/-- The definition that a statement stands for. -/
def StandsFor (fmtFloat : Str → Str) (mode : Mode) (t : Written.Table) (u : Table) : Prop :=
  u.name = t.name.name ∧ ∀ x, convertStatement (Sql.env fmtFloat) mode x (.ddl (Sentence.meaning (.table t))) = .ok (.createTable x u)

theorem standsFor_unique {fmtFloat : Str → Str} {mode : Mode} {t : Written.Table} {u v : Table} (h : StandsFor fmtFloat mode t u)
    (h' : StandsFor fmtFloat mode t v) : u = v := by
  have := (h.2 []).symm.trans (h'.2 [])
  simpa using this

/-- A file of tables is read table by table. -/
theorem tables_read (fmtFloat : Str → Str) {mode : Mode} (hm : mode ≠ .postgres) {ts : List Written.Table} {file : Str}
    (hf : Contains mode file (ts.map Sentence.table)) (h : ∀ t ∈ ts, (Sentence.table t).Clear ∧ (Sentence.table t).InRange) :
    ∃ ps, parseDDLs (Sql.env fmtFloat) mode file = .ok (tableDefs ps) ∧ ps.map (·.1) = statementTexts file ∧
      List.Forall₂ (fun t p => StandsFor fmtFloat mode t p.2) ts ps := by
  suffices key : ∃ ps, List.Forall₂ (fun t d => parseDDL (Sql.env fmtFloat) mode t = .ok d) (statementTexts file) (tableDefs ps) ∧
      ps.map (·.1) = statementTexts file ∧ List.Forall₂ (fun t p => StandsFor fmtFloat mode t p.2) ts ps by
    obtain ⟨ps, h1, h2, h3⟩ := key
    exact ⟨ps, (C12_one_definition_per_statement _ mode file _).mpr h1, h2, h3⟩
  unfold Contains at hf
  generalize statementTexts file = xs at hf
  induction ts generalizing xs with
  | nil =>
    cases hf
    exact ⟨[], .nil, rfl, .nil⟩
  | cons t ts ih =>
    cases hf with
    | @cons x _ xs _ hx hxs =>
    obtain ⟨ps, h1, h2, h3⟩ := ih (fun t ht => h t (by simp [ht])) xs hxs
    obtain ⟨hc, hr⟩ := h t (by simp)
    obtain ⟨d, hd, hs, hk, hst⟩ := C57_statement_is_a_definition fmtFloat mode x _ hc false (by simpa [given] using hx) hr
    have hp := C57_statement_is_understood mode x _ hc false (by simpa [given] using hx)
    have h4 : convertStatement (Sql.env fmtFloat) mode x (.ddl (Sentence.meaning (.table t))) = .ok d := by
      rw [← hd, parseDDL, show (Sql.env fmtFloat).parse mode x = _ from hp]
    obtain ⟨y, u, rfl⟩ := hk
    cases hst
    refine ⟨(y, u) :: ps, .cons hd h1, by simp only [List.map_cons, h2]; rfl, .cons ⟨?_, ?_⟩ h3⟩
    · cases hs with
      | createTable _ _ hn _ _ _ => exact hn.2.2 hm
    · intro z
      exact convert_withText _ mode y z _ _ h4

/-- The texts of the statements that define tables of other names. -/
def newTexts (file : Str) (ts : List Written.Table) (names : List Str) : List Str :=
  ((List.zip (statementTexts file) ts).filter fun p => p.2.name.name ∉ names).map (·.1)

theorem names_of_standsFor {fmtFloat : Str → Str} {mode : Mode} {ts : List Written.Table} {ps : List (Str × Table)}
    (h : List.Forall₂ (fun t p => StandsFor fmtFloat mode t p.2) ts ps) : ps.map (·.2.name) = ts.map (·.name.name) := by
  induction h with
  | nil => rfl
  | cons hx _ ih => simp [ih, hx.1]

theorem read_normal {fmtFloat : Str → Str} {mode : Mode} (hm : mode ≠ .postgres) {ts : List Written.Table} {file : Str}
    (hf : Contains mode file (ts.map Sentence.table)) (h : OrderlyTables mode ts) {ds : List DDL}
    (hp : parseDDLs (Sql.env fmtFloat) mode file = .ok ds) : Normal mode ds := by
  obtain ⟨defs, h3, h4, -⟩ := C57_file_is_understood fmtFloat mode file _ hf (orderly_clear h)
  cases h3.symm.trans hp
  exact tables_normal hm h h4

/-- What is done for a file of tables if the tables that are there already and have a name in the file are as in the file. -/
theorem generate_tables (fmtFloat : Str → Str) {mode : Mode} (hm : mode ≠ .postgres) {ts us : List Written.Table} {file dump : Str}
    (hf : Contains mode file (ts.map Sentence.table)) (hd : Contains mode dump (us.map Sentence.table))
    (ht : OrderlyTables mode ts) (hu : OrderlyTables mode us)
    (hs : ∀ u ∈ us, ∀ t ∈ ts, u.name.name = t.name.name → u = t) :
    generateIdempotentDDLs (Sql.env fmtFloat) mode file dump = .ok
      (newTexts file ts (us.map (·.name.name)) ++
       (us.filter fun u => u.name.name ∉ ts.map (·.name.name)).map fun u => lit "DROP TABLE " ++ escapeTableName mode u.name.name) := by
  obtain ⟨D, d1, d2, d3⟩ := tables_read fmtFloat hm hf ht.clear
  obtain ⟨C, c1, c2, c3⟩ := tables_read fmtFloat hm hd hu.clear
  have hdiff := diff_tables (read_normal hm hf ht d1) (read_normal hm hd hu c1) (by
    intro c hc d hd e
    obtain ⟨u, hu, h1⟩ := forall₂_back c3 hc
    obtain ⟨t, ht, h2⟩ := forall₂_back d3 hd
    have := hs u hu t ht (by rw [← h1.1, ← h2.1, e])
    subst this
    exact standsFor_unique h1 h2)
  unfold generateIdempotentDDLs
  rw [d1, c1]
  change (diff mode (tableDefs D) (tableDefs C) >>= fun l => pure (l.map (Stmt.render mode))) = _
  rw [hdiff]
  change Except.ok _ = _
  congr 1
  rw [List.map_append, List.map_map, List.map_map, names_of_standsFor c3, names_of_standsFor d3]
  congr 1
  · unfold newTexts
    rw [← d2]
    generalize us.map (·.name.name) = names
    clear hdiff d1 d2 hs hf ht
    induction d3 with
    | nil => rfl
    | @cons t p ts ps hx _ ih =>
      simp only [List.map_cons, List.zip_cons_cons]
      by_cases hc : t.name.name ∈ names
      · rw [List.filter_cons_of_neg (by simp [hx.1, hc]), List.filter_cons_of_neg (by simp [hc])]
        exact ih
      · rw [List.filter_cons_of_pos (by simp [hx.1, hc]), List.filter_cons_of_pos (by simp [hc]), List.map_cons, List.map_cons, ih]
        rfl
  · generalize ts.map (·.name.name) = names
    clear hdiff c1 c2 hs hd hu
    induction c3 with
    | nil => rfl
    | @cons t p ts ps hx _ ih =>
      by_cases hc : t.name.name ∈ names
      · rw [List.filter_cons_of_neg (by simp [hx.1, hc]), List.filter_cons_of_neg (by simp [hc])]
        exact ih
      · rw [List.filter_cons_of_pos (by simp [hx.1, hc]), List.filter_cons_of_pos (by simp [hc]), List.map_cons, List.map_cons, ih]
        simp only [Function.comp_apply, Stmt.render, hx.1]

end Sqldef
