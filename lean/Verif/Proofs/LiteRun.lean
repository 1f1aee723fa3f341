import Verif.Proofs.TableSet
import Verif.Proofs.PgPolicy
/-
Runs against a SQLite database.
-/
namespace Sqldef
open Spec Written Dumped

theorem trimLeft_head (s : Str) (c : Char) (h : (trimLeft s).head? = some c) : isSpace c = false := by
  unfold trimLeft at h
  have := List.head?_dropWhile_not (p := isSpace) s
  rw [h] at this
  simpa using this

theorem trimSpace_twice (s : Str) : trimSpace (trimSpace s) = trimSpace s := by
  refine trimSpace_id ?_ ?_
  · intro c hc
    unfold trimSpace trimRight at hc
    have hp : ((trimLeft s).reverse.dropWhile isSpace).reverse <+: trimLeft s := by
      have := List.dropWhile_suffix (l := (trimLeft s).reverse) isSpace
      simpa using List.reverse_prefix.mpr this
    obtain ⟨r, hr⟩ := hp
    refine trimLeft_head s c ?_
    rw [← hr, List.head?_append, hc]
    rfl
  · intro c hc
    unfold trimSpace trimRight at hc
    rw [List.getLast?_reverse] at hc
    exact trimLeft_head _ c hc

theorem statementText_facts {file x : Str} (h : x ∈ statementTexts file) : ';' ∉ x ∧ trimSpace x = x := by
  unfold statementTexts at h
  obtain ⟨h1, -⟩ := List.mem_filter.mp h
  obtain ⟨y, hy, rfl⟩ := List.mem_map.mp h1
  refine ⟨fun hc => not_mem_splitOn _ _ _ hy ((trimSpace_infix y).mem hc), trimSpace_twice y⟩

/-- The texts of the statements of new tables. -/
theorem newTexts_says {mode : Mode} {file : Str} {ts : List Written.Table} (hf : Contains mode file (ts.map Sentence.table))
    (hc : ∀ x ∈ statementTexts file, NoComment x) (names : List Str) :
    List.Forall₂ (TextSays mode) (newTexts file ts names) ((ts.filter fun t => t.name.name ∉ names).map Sentence.table) := by
  unfold newTexts Contains at *
  have hx : ∀ x ∈ statementTexts file, ';' ∉ x ∧ trimSpace x = x := fun x => statementText_facts
  revert hx hf hc
  generalize statementTexts file = xs
  intro hf hc hx
  induction ts generalizing xs with
  | nil =>
    cases hf
    exact .nil
  | cons t ts ih =>
    cases hf with
    | @cons x _ xs _ h1 h2 =>
    have := ih xs h2 (fun y hy => hc y (by simp [hy])) fun y hy => hx y (by simp [hy])
    by_cases hn : t.name.name ∈ names
    · rw [List.zip_cons_cons, List.filter_cons_of_neg (by simp [hn]), List.filter_cons_of_neg (by simp [hn])]
      exact this
    · rw [List.zip_cons_cons, List.filter_cons_of_pos (by simp [hn]), List.filter_cons_of_pos (by simp [hn])]
      refine .cons ⟨h1, (hx x (by simp)).1, hc x (by simp), (hx x (by simp)).2⟩ this

theorem orderly_perm {mode : Mode} {ts us : List Written.Table} (h : OrderlyTables mode ts) (hp : us.Perm ts) : OrderlyTables mode us where
  clear t ht := h.clear t (hp.mem_iff.mp ht)
  names := (hp.map _).nodup_iff.mpr h.names
  tables t ht := h.tables t (hp.mem_iff.mp ht)

theorem orderly_eq {mode : Mode} {ts : List Written.Table} (h : OrderlyTables mode ts) {t u : Written.Table} (ht : t ∈ ts) (hu : u ∈ ts)
    (e : t.name.name = u.name.name) : t = u :=
  List.inj_on_of_nodup_map h.names ht hu e

/-- With the tables of the file in place, in whatever order, there is nothing to do. -/
theorem generate_nothing (fmtFloat : Str → Str) {mode : Mode} (hm : mode ≠ .postgres) {ts us : List Written.Table} {file dump : Str}
    (hf : Contains mode file (ts.map Sentence.table)) (hd : Contains mode dump (us.map Sentence.table))
    (ht : OrderlyTables mode ts) (hp : us.Perm ts) : generateIdempotentDDLs (Sql.env fmtFloat) mode file dump = .ok [] := by
  rw [generate_tables fmtFloat hm hf hd ht (orderly_perm ht hp) fun u hu t ht' e => orderly_eq ht (hp.mem_iff.mp hu) ht' e]
  have e1 : newTexts file ts (us.map (·.name.name)) = [] := by
    unfold newTexts
    rw [List.filter_eq_nil_iff.mpr, List.map_nil]
    intro p hp'
    have : p.2.name.name ∈ us.map (·.name.name) :=
      List.mem_map.mpr ⟨p.2, hp.mem_iff.mpr (List.of_mem_zip hp').2, rfl⟩
    simpa using this
  have e2 : (us.filter fun u => u.name.name ∉ ts.map (·.name.name)) = [] := by
    rw [List.filter_eq_nil_iff]
    intro u hu
    have : u.name.name ∈ ts.map (·.name.name) := List.mem_map.mpr ⟨u, hp.mem_iff.mp hu, rfl⟩
    simpa using this
  rw [e1, e2]
  rfl

/-- What is there after the tables have been created and dropped. -/
theorem tables_after {mode : Mode} {ts us : List Written.Table} (ht : OrderlyTables mode ts) (hu : OrderlyTables mode us)
    (hs : ∀ u ∈ us, ∀ t ∈ ts, u.name.name = t.name.name → u = t) :
    ((us ++ ts.filter fun t => t.name.name ∉ us.map (·.name.name)).filter fun w =>
      w.name.name ∉ (us.filter fun u => u.name.name ∉ ts.map (·.name.name)).map (·.name.name)).Perm ts := by
  have hnt : ts.Nodup := List.Nodup.of_map _ ht.names
  have hnu : us.Nodup := List.Nodup.of_map _ hu.names
  have hall : (us ++ ts.filter fun t => t.name.name ∉ us.map (·.name.name)).Nodup := by
    rw [List.nodup_append]
    refine ⟨hnu, hnt.filter _, ?_⟩
    intro a ha b hb e
    subst e
    have := of_decide_eq_true (List.mem_filter.mp hb).2
    exact this (List.mem_map.mpr ⟨a, ha, rfl⟩)
  refine (List.perm_ext_iff_of_nodup (hall.filter _) hnt).mpr fun w => ?_
  rw [List.mem_filter, List.mem_append, decide_eq_true_iff]
  have hname : ∀ {l : List Written.Table} {x}, x ∈ l → x.name.name ∈ l.map (·.name.name) := fun h => List.mem_map.mpr ⟨_, h, rfl⟩
  constructor
  · rintro ⟨h1 | h1, h2⟩
    · by_cases hw : w.name.name ∈ ts.map (·.name.name)
      · obtain ⟨t, ht', e⟩ := List.mem_map.mp hw
        rw [hs w h1 t ht' e.symm]
        exact ht'
      · exact absurd (hname (List.mem_filter.mpr ⟨h1, by simpa using hw⟩)) h2
    · exact (List.mem_filter.mp h1).1
  · intro hw
    refine ⟨?_, ?_⟩
    · by_cases h : w.name.name ∈ us.map (·.name.name)
      · obtain ⟨u, hu', e⟩ := List.mem_map.mp h
        rw [← hs u hu' w hw e]
        exact .inl hu'
      · exact .inr (List.mem_filter.mpr ⟨hw, by simpa using h⟩)
    · intro h
      obtain ⟨u, hu', e⟩ := List.mem_map.mp h
      have := of_decide_eq_true (List.mem_filter.mp hu').2
      rw [e] at this
      exact this (hname hw)

/-- A run that ends without an error leaves the tables of the file behind. -/
theorem lite_run (fmtFloat : Str → Str) {σ : Type} {db : Db σ} {master : σ → List Lite.Object} (hdb : LiteServer db master) {s : σ}
    {ts us : List Written.Table} (hu : LiteCatalogSays (master s) us) (hou : OrderlyTables .sqlite3 us) (hot : OrderlyTables .sqlite3 ts)
    (hs : ∀ u ∈ us, ∀ t ∈ ts, u.name.name = t.name.name → u = t) (hq : ∀ u ∈ us, u.name.name ≠ [] ∧ '`' ∉ u.name.name)
    (hn : ∀ t ∈ ts, t.ifNotExists = false ∧ t.name.schema = none ∧ ¬ Reserved t.name.name)
    {fs : Files} {o : Options} (he : o.export_ = false) (hdry : o.dryRun = false) (hskip : o.skipDrop = false) {file : Str}
    (hr : readFile fs o.sqlFile = .ok file) (hf : Contains .sqlite3 file (ts.map Sentence.table))
    (hc : ∀ x ∈ statementTexts file, NoComment x)
    (herr : (run (Sql.env fmtFloat) .sqlite3 (Lite.database db master) fs o s).err = none) :
    ∃ ws, ws.Perm ts ∧ LiteCatalogSays (master (run (Sql.env fmtFloat) .sqlite3 (Lite.database db master) fs o s).state) ws := by
  obtain ⟨texts, h1, h2⟩ := lite_dumped db master s hu
  have hg := generate_tables fmtFloat (by decide) hf (contains_joined h2).1 hot hou hs
  have hnew := newTexts_says hf hc (us.map (·.name.name))
  refine ⟨_, tables_after hot hou hs, ?_⟩
  simp only [run, h1, he, hr, hg, hdry, hskip, Bool.false_eq_true, if_false] at herr ⊢
  generalize hN : newTexts file ts (us.map (·.name.name)) = new at *
  have edrop : ((us.filter fun u => u.name.name ∉ ts.map (·.name.name)).map fun u => lit "DROP TABLE " ++ escapeTableName .sqlite3 u.name.name) =
      ((us.filter fun u => u.name.name ∉ ts.map (·.name.name)).map (·.name.name)).map fun n => lit "DROP TABLE `" ++ n ++ lit "`" := by
    rw [List.map_map]
    rfl
  rw [edrop] at herr ⊢
  generalize hD : (us.filter fun u => u.name.name ∉ ts.map (·.name.name)).map (·.name.name) = drops at *
  split
  · rename_i hnil
    obtain ⟨e1, e2⟩ := List.append_eq_nil_iff.mp hnil
    rw [e1] at hnew
    have e3 : ts.filter (fun t => t.name.name ∉ us.map (·.name.name)) = [] := by
      cases hx : ts.filter (fun t => t.name.name ∉ us.map (·.name.name)) with
      | nil => rfl
      | cons a l =>
        rw [hx] at hnew
        cases hnew
    have e4 : drops = [] := by simpa using e2
    rw [e3, e4, List.append_nil, List.filter_eq_self.mpr (by simp)]
    exact hu
  · rename_i hnil
    rw [if_neg hnil] at herr
    simp only [runDDLs] at herr ⊢
    have hb : (Lite.database db master).begin s = db.begin s := rfl
    rw [hb] at herr ⊢
    cases hx : db.begin s with
    | mk e s1 =>
    rw [hx] at herr
    cases e with
    | some m => simp at herr
    | none =>
      simp only at herr ⊢
      have hloop : ∀ l s, runLoop (Lite.database db master) false l s = runLoop db false l s := by
        intro l
        induction l with
        | nil => intro s; rfl
        | cons x l ih =>
          intro s
          simp only [runLoop, ih]
          rfl
      rw [hloop] at herr ⊢
      have hm : master s1 = master s := by
        have := hdb.begins s
        rw [hx] at this
        exact this
      obtain ⟨s2, a1, a2, a3⟩ := lite_applied hdb hnew ((hot.names.sublist (List.Sublist.map _ List.filter_sublist)))
        (fun t ht => hn t (List.mem_filter.mp ht).1) _ s1 us (by rw [hm]; exact hu) (by
          intro t ht
          rw [hm]
          intro hmem
          obtain ⟨h3, h4⟩ := List.mem_filter.mp ht
          obtain ⟨p, hp, e⟩ := List.mem_map.mp hmem
          obtain ⟨p', hp', e1, e2⟩ := hu.owned p hp
          obtain ⟨u, hu', h5, -⟩ := forall₂_mem hu.tables (a := p')
            (List.mem_filter.mpr ⟨hp', by simp only [e1, true_and, e2, e, (hn t h3).2.2, not_false_eq_true, decide_true]⟩)
          refine of_decide_eq_true h4 (List.mem_map.mpr ⟨u, hu', ?_⟩)
          rw [← h5, e2, e]) herr
      rw [a3]
      refine lite_cleaned hdb drops ?_ ?_ s2 _ a1 ?_ a2
      · intro n hn'
        rw [← hD] at hn'
        obtain ⟨u, hu', rfl⟩ := List.mem_map.mp hn'
        exact hq u (List.mem_filter.mp hu').1
      · rw [← hD]
        exact hou.names.sublist (List.Sublist.map _ List.filter_sublist)
      · intro n hn'
        rw [← hD] at hn'
        obtain ⟨u, hu', rfl⟩ := List.mem_map.mp hn'
        exact List.mem_map.mpr ⟨u, List.mem_append_left _ (List.mem_filter.mp hu').1, rfl⟩

end Sqldef
