import Verif.Proofs.LiteViews
import Verif.Props.Run
/-
Runs with `--skip-drop` on SQLite databases with tables and views.
-/
namespace Sqldef
open Spec Written Token Dumped

theorem ran_of_skipping {σ : Type} {db : Db σ} {l : List Str} {s : σ} (h : (runLoop db true l s).err = none) :
    ∃ s', Ran db (l.filter fun x => !isSkipped true x) s s' ∧ (runLoop db true l s).state = (db.commit s').2 := by
  induction l generalizing s with
  | nil => exact ⟨s, .nil, rfl⟩
  | cons x l ih =>
    cases hskip : isSkipped true x with
    | true =>
      have eq : (runLoop db true (x :: l) s).err = (runLoop db true l s).err ∧ (runLoop db true (x :: l) s).state = (runLoop db true l s).state := by
        simp only [runLoop, hskip]
        simp
      rw [eq.1] at h
      obtain ⟨s', h1, h2⟩ := ih h
      rw [List.filter_cons_of_neg (by simp [hskip])]
      exact ⟨s', h1, eq.2.trans h2⟩
    | false =>
      rw [List.filter_cons_of_pos (by simp [hskip])]
      cases hx : db.exec x s with
      | mk e s1 =>
      cases e with
      | some m =>
        simp only [runLoop, hskip, hx] at h
        simp at h
      | none =>
        have eq : (runLoop db true (x :: l) s).err = (runLoop db true l s1).err ∧ (runLoop db true (x :: l) s).state = (runLoop db true l s1).state := by
          simp only [runLoop, hskip, hx]
          simp
        rw [eq.1] at h
        obtain ⟨s', h1, h2⟩ := ih h
        refine ⟨s', .cons (by rw [hx]) (by rw [hx]; exact h1), eq.2.trans h2⟩

theorem run_is_ran_skipping (fmtFloat : Str → Str) {σ : Type} {db : Db σ} {master : σ → List Lite.Object} (hdb : LiteKeeps db master) {s : σ}
    {fs : Files} {o : Options} (he : o.export_ = false) (hdry : o.dryRun = false) (hskip : o.skipDrop = true) {file dump : Str}
    (hr : readFile fs o.sqlFile = .ok file) (h1 : dumpDDLs (Lite.database db master) s = .ok dump) {script : List Str}
    (hg : generateIdempotentDDLs (Sql.env fmtFloat) .sqlite3 file dump = .ok script)
    (herr : (run (Sql.env fmtFloat) .sqlite3 (Lite.database db master) fs o s).err = none) :
    ∃ s1 s2, master s1 = master s ∧ Ran db (script.filter fun x => !isSkipped true x) s1 s2 ∧
      master (run (Sql.env fmtFloat) .sqlite3 (Lite.database db master) fs o s).state = master s2 := by
  simp only [run, h1, he, hr, hg, hdry, hskip, Bool.false_eq_true, if_false] at herr ⊢
  by_cases hnil : script = []
  · subst hnil
    exact ⟨s, s, rfl, .nil, rfl⟩
  · rw [if_neg hnil] at herr ⊢
    simp only [runDDLs] at herr ⊢
    have hb : (Lite.database db master).begin s = db.begin s := rfl
    rw [hb] at herr ⊢
    cases hx : db.begin s with
    | mk e s1 =>
    rw [hx] at herr
    cases e with
    | some m => simp at herr
    | none =>
      simp only at herr ⊢
      have hloop : ∀ l s, runLoop (Lite.database db master) true l s = runLoop db true l s := by
        intro l
        induction l with
        | nil => intro s; rfl
        | cons x l ih =>
          intro s
          simp only [runLoop, ih]
          rfl
      rw [hloop] at herr ⊢
      obtain ⟨s2, a1, a2⟩ := ran_of_skipping herr
      refine ⟨s1, s2, ?_, a1, ?_⟩
      · have := hdb.begins s
        rwa [hx] at this
      · rw [a2]
        exact hdb.commits s2

theorem zip_chosen {α β : Type} {R : α → β → Prop} {xs : List α} {as : List β} (h : List.Forall₂ R xs as) (q : α × β → Bool) :
    List.Forall₂ R (((List.zip xs as).filter q).map (·.1)) (((List.zip xs as).filter q).map (·.2)) := by
  induction h with
  | nil => exact .nil
  | @cons x a xs as h1 _ ih =>
    rw [List.zip_cons_cons]
    cases hq : q (x, a) with
    | true =>
      rw [List.filter_cons_of_pos hq]
      exact .cons h1 ih
    | false =>
      rw [List.filter_cons_of_neg (by simp [hq])]
      exact ih

theorem zip_snd_sublist {α β : Type} (xs : List α) (as : List β) (q : α × β → Bool) : (((List.zip xs as).filter q).map (·.2)).Sublist as := by
  refine (List.Sublist.map _ List.filter_sublist).trans ?_
  rw [← List.unzip_snd]
  induction xs generalizing as with
  | nil => simp
  | cons x xs ih =>
    cases as with
    | nil => simp
    | cons a as => simpa using ih as

theorem drop_skipped (word n : Str) : (!isSkipped true (lit "DROP" ++ word ++ n ++ lit "`")) = false := by
  have : contains (lit "DROP") (lit "DROP" ++ word ++ n ++ lit "`") = true := by
    rw [List.append_assoc, List.append_assoc]
    exact contains_append_mid (lit "DROP") [] _
  unfold isSkipped
  rw [this]
  rfl

/-- The definitions that are missing and are created under `--skip-drop`: those whose text does not contain `DROP`. -/
def keptOnes {α : Type} (key : α → Str) (xs : List Str) (as : List α) (names : List Str) : List α :=
  ((List.zip xs as).filter fun p => key p.2 ∉ names ∧ contains (lit "DROP") p.1 = false).map (·.2)

theorem newOnes_kept {α : Type} (key : α → Str) (xs : List Str) (as : List α) (names : List Str) :
    (newOnes key xs as names).filter (fun x => !isSkipped true x) =
      ((List.zip xs as).filter fun p => key p.2 ∉ names ∧ contains (lit "DROP") p.1 = false).map (·.1) := by
  unfold newOnes
  rw [List.filter_map, List.filter_filter]
  congr 1
  refine List.filter_congr fun p _ => ?_
  simp only [Function.comp_apply, isSkipped, Bool.true_and]
  rw [Bool.decide_and, Bool.and_comm]
  congr 1
  cases contains (lit "DROP") p.1 <;> rfl

theorem lite_views_skipping (fmtFloat : Str → Str) {σ : Type} {db : Db σ} {master : σ → List Lite.Object} (hdb : LiteKeeps db master) {s : σ}
    {ts us : List Written.Table} {vs ws : List NewView} (hu : LiteHolds (master s) us ws) (hou : OrderlyTables .sqlite3 us)
    (hot : OrderlyTables .sqlite3 ts) (how : OrderlyViews ws) (hov : OrderlyViews vs)
    (hs : ∀ u ∈ us, ∀ t ∈ ts, u.name.name = t.name.name → u = t) (hs' : ∀ w ∈ ws, ∀ v ∈ vs, w.name.name = v.name.name → w = v)
    (hx : ∀ t ∈ ts ++ us, ∀ v ∈ vs ++ ws, t.name.name ≠ v.name.name)
    (hn : ∀ t ∈ ts, t.ifNotExists = false ∧ t.name.schema = none ∧ ¬ Reserved t.name.name)
    {fs : Files} {o : Options} (he : o.export_ = false) (hdry : o.dryRun = false) (hskip : o.skipDrop = true) {file : Str}
    (hr : readFile fs o.sqlFile = .ok file) (hf : Consists .sqlite3 file (tablesAndViews ts vs))
    (hc : ∀ x ∈ statementTexts file, NoComment x)
    (herr : (run (Sql.env fmtFloat) .sqlite3 (Lite.database db master) fs o s).err = none) :
    ∃ xs ys, statementTexts file = xs ++ ys ∧ xs.length = ts.length ∧ ys.length = vs.length ∧
      LiteHolds (master (run (Sql.env fmtFloat) .sqlite3 (Lite.database db master) fs o s).state)
        (us ++ keptOnes (fun t : Written.Table => t.name.name) xs ts (us.map (·.name.name)))
        (ws ++ keptOnes (fun v : NewView => v.name.name) ys vs (ws.map (·.name.name))) := by
  obtain ⟨texts, h1, h2⟩ := lite_all db master s (holds_says hu how.clear)
  obtain ⟨xs, ys, g1, g2, g3⟩ := generate_mixed fmtFloat hf (consists_joined h2).1 hot hou hov how hs hs'
  obtain ⟨s1, s2, r1, r2, r3⟩ := run_is_ran_skipping fmtFloat hdb he hdry hskip hr h1 g3 herr
  have none1 : ∀ names : List Str, (names.map fun n => lit "DROP TABLE `" ++ n ++ lit "`").filter (fun x => !isSkipped true x) = [] := by
    intro names
    rw [List.filter_eq_nil_iff]
    intro x hx
    obtain ⟨n, -, rfl⟩ := List.mem_map.mp hx
    have := drop_skipped (lit " TABLE `") n
    simpa [lit] using this
  have none2 : ∀ names : List Str, (names.map fun n => lit "DROP VIEW `" ++ n ++ lit "`").filter (fun x => !isSkipped true x) = [] := by
    intro names
    rw [List.filter_eq_nil_iff]
    intro x hx
    obtain ⟨n, -, rfl⟩ := List.mem_map.mp hx
    have := drop_skipped (lit " VIEW `") n
    simpa [lit] using this
  rw [List.filter_append, List.filter_append, List.filter_append, none1, none2, List.append_nil, List.append_nil, newOnes_kept, newOnes_kept] at r2
  obtain ⟨s3, k1, k2⟩ := ran_append r2
  have facts : ∀ x ∈ xs ++ ys, ';' ∉ x ∧ trimSpace x = x ∧ NoComment x := by
    intro x hm
    rw [← g1] at hm
    exact ⟨(statementText_facts hm).1, (statementText_facts hm).2, hc x hm⟩
  unfold Consists tablesAndViews at hf
  rw [g1] at hf
  obtain ⟨f1, f2⟩ := split_forall₂ hf (by simpa using g2)
  have f1 := unmap_forall₂ (unmap_forall₂ f1)
  have f2 := unmap_forall₂ f2
  have stand : ∀ {α : Type} {toks : α → List Token} {xs : List Str} {as : List α}, List.Forall₂ (fun x a => Layout .sqlite3 x (toks a)) xs as →
      (∀ x ∈ xs, ';' ∉ x ∧ trimSpace x = x ∧ NoComment x) → List.Forall₂ (fun x a => TextStands .sqlite3 x (toks a)) xs as := by
    intro α toks xs as h hx
    induction h with
    | nil => exact .nil
    | @cons x a xs as h1 _ ih =>
      obtain ⟨f1, f2, f3⟩ := hx x (by simp)
      exact .cons ⟨h1, f1, f3, f2⟩ (ih fun y hy => hx y (by simp [hy]))
  have n1 := zip_chosen (stand (toks := Written.Table.tokens) f1 fun x hm => facts x (by simp [hm]))
    (fun p => decide (p.2.name.name ∉ us.map (·.name.name) ∧ contains (lit "DROP") p.1 = false))
  have n2 := zip_chosen (stand (toks := NewView.tokens) f2 fun x hm => facts x (by simp [hm]))
    (fun p => decide (p.2.name.name ∉ ws.map (·.name.name) ∧ contains (lit "DROP") p.1 = false))
  have new : ∀ {α : Type} {key : α → Str} {xs : List Str} {as : List α} {names : List Str} {a : α}, a ∈ keptOnes key xs as names → a ∈ as ∧ key a ∉ names := by
    intro α key xs as names a ha
    obtain ⟨p, hp, rfl⟩ := List.mem_map.mp ha
    obtain ⟨h3, h4⟩ := List.mem_filter.mp hp
    exact ⟨(List.of_mem_zip h3).2, (of_decide_eq_true h4).1⟩
  have newT : ∀ t ∈ keptOnes (fun t : Written.Table => t.name.name) xs ts (us.map (·.name.name)), t ∈ ts ∧ t.name.name ∉ us.map (·.name.name) :=
    fun _ ht => new ht
  have newV : ∀ v ∈ keptOnes (fun v : NewView => v.name.name) ys vs (ws.map (·.name.name)), v ∈ vs ∧ v.name.name ∉ ws.map (·.name.name) :=
    fun _ hv => new hv
  change List.Forall₂ _ _ (keptOnes (fun t : Written.Table => t.name.name) xs ts (us.map (·.name.name))) at n1
  change List.Forall₂ _ _ (keptOnes (fun v : NewView => v.name.name) ys vs (ws.map (·.name.name))) at n2
  have a1 := ran_tables hdb n1 (hot.names.sublist ((zip_snd_sublist xs ts _).map _)) (fun t ht => hn t (newT t ht).1) k1 (pre := us) (vs := ws) (by rw [r1]; exact hu)
    (fun t ht => (newT t ht).2) (by
      intro t ht hm
      obtain ⟨v, hv, e⟩ := List.mem_map.mp hm
      exact hx t (by simp [(newT t ht).1]) v (by simp [hv]) e.symm)
  have a2 := ran_views hdb n2 (hov.names.sublist ((zip_snd_sublist ys vs _).map _)) (fun v hv => ⟨(hov.plain v (newV v hv).1).1, (hov.plain v (newV v hv).1).2,
    (hov.quotable v (newV v hv).1).2.2⟩) k2 a1 (fun v hv => (newV v hv).2) (by
      intro v hv hm
      obtain ⟨t, ht, e⟩ := List.mem_map.mp hm
      refine hx t ?_ v (by simp [(newV v hv).1]) e
      rcases List.mem_append.mp ht with ht | ht
      · simp [ht]
      · simp [(newT t ht).1])
  rw [r3]
  exact ⟨xs, ys, g1, g2, f2.length_eq, a2⟩

end Sqldef
