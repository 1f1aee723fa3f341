import Verif.Spec.LiteViews
import Verif.Proofs.LiteRun
import Verif.Proofs.ViewDump
import Verif.Props.Views
/-
Runs against a SQLite database with tables and views.
-/
namespace Sqldef
open Spec Written Dumped

/-! ### Rows -/

theorem lite_holds_fresh {os : List Lite.Object} {ts : List Written.Table} {vs : List NewView} (h : LiteHolds os ts vs) {n : Str}
    (hr : ¬ Reserved n) (ht : n ∉ ts.map (·.name.name)) (hv : n ∉ vs.map (·.name.name)) : n ∉ os.map (·.tblName) := by
  intro hm
  obtain ⟨o, ho, rfl⟩ := List.mem_map.mp hm
  by_cases hc : o.type = lit "view"
  · obtain ⟨v, hv', e, -⟩ := forall₂_mem h.views (List.mem_filter.mpr ⟨ho, by simpa using hc⟩)
    exact hv (List.mem_map.mpr ⟨v, hv', e.symm⟩)
  · obtain ⟨p, hp, h1, h2⟩ := h.owned o ho hc
    obtain ⟨t, ht', e, -⟩ := forall₂_mem h.tables (a := p) (List.mem_filter.mpr ⟨hp, by simp only [h1, h2, hr, not_false_eq_true, and_self, decide_true]⟩)
    exact ht (List.mem_map.mpr ⟨t, ht', by rw [← e, h2]⟩)

theorem holds_snoc {α β : Type} {R : α → β → Prop} {as : List α} {bs : List β} {a : α} {b : β} (h : List.Forall₂ R as bs) (hr : R a b) :
    List.Forall₂ R (as ++ [a]) (bs ++ [b]) := by
  induction h with
  | nil => exact .cons hr .nil
  | cons hx _ ih => exact .cons hx ih

theorem holds_table {os : List Lite.Object} {ts : List Written.Table} {vs : List NewView} (h : LiteHolds os ts vs) {t : Written.Table}
    {sql : Str} {indexes : List Lite.Object} (hs : TextStands .sqlite3 sql (Written.Table.tokens t))
    (hi : ∀ o ∈ indexes, o.type = lit "index" ∧ o.tblName = t.name.name) (hf : t.name.name ∉ os.map (·.tblName)) (hr : ¬ Reserved t.name.name) :
    LiteHolds (os ++ { type := lit "table", tblName := t.name.name, sql := some sql } :: indexes) (ts ++ [t]) vs := by
  have ne1 : lit "index" ≠ lit "table" := by decide
  have ne2 : lit "index" ≠ lit "view" := by decide
  have ne3 : lit "table" ≠ lit "view" := by decide
  have new : ∀ o ∈ ({ type := lit "table", tblName := t.name.name, sql := some sql } : Lite.Object) :: indexes,
      o.tblName = t.name.name ∧ o.type ≠ lit "view" := by
    intro o ho
    rcases List.mem_cons.mp ho with rfl | ho
    · exact ⟨rfl, ne3⟩
    · exact ⟨(hi o ho).2, (hi o ho).1 ▸ ne2⟩
  have old : ∀ o ∈ os, o.tblName ≠ t.name.name := fun o ho e => hf (List.mem_map.mpr ⟨o, ho, e⟩)
  constructor
  · have none : indexes.filter (fun o => o.type = lit "table" ∧ ¬ Reserved o.tblName) = [] :=
      List.filter_eq_nil_iff.mpr fun o ho => by simp [(hi o ho).1, ne1]
    rw [List.filter_append, List.filter_cons_of_pos (by simp [hr]), none]
    exact holds_snoc h.tables ⟨rfl, sql, rfl, hs⟩
  · have none : (({ type := lit "table", tblName := t.name.name, sql := some sql } : Lite.Object) :: indexes).filter (fun o => o.type = lit "view") = [] :=
      List.filter_eq_nil_iff.mpr fun o ho => by simpa using (new o ho).2
    rw [List.filter_append, none, List.append_nil]
    exact h.views
  · intro o ho ht
    rcases List.mem_append.mp ho with ho | ho
    · rw [List.find?_append, h.first o ho ht]
      rfl
    · have e : o = { type := lit "table", tblName := t.name.name, sql := some sql } := by
        rcases List.mem_cons.mp ho with rfl | ho
        · rfl
        · exact absurd ((hi o ho).1.symm.trans ht) ne1
      subst e
      rw [List.find?_append, List.find?_eq_none.mpr (by
        intro p hp
        simpa using old p hp)]
      simp
  · intro o ho hv
    rcases List.mem_append.mp ho with ho | ho
    · obtain ⟨p, hp, h1⟩ := h.owned o ho hv
      exact ⟨p, List.mem_append_left _ hp, h1⟩
    · exact ⟨_, List.mem_append_right _ List.mem_cons_self, rfl, (new o ho).1.symm⟩
  · intro o ho p hp hv e
    rcases List.mem_append.mp ho with ho | ho
    · rcases List.mem_append.mp hp with hp | hp
      · exact h.apart o ho p hp hv e
      · exact absurd (e.symm.trans (new p hp).1) (old o ho)
    · exact absurd hv (new o ho).2

theorem holds_view {os : List Lite.Object} {ts : List Written.Table} {vs : List NewView} (h : LiteHolds os ts vs) {v : NewView}
    {sql : Str} (hs : TextStands .sqlite3 sql v.tokens) (hf : v.name.name ∉ os.map (·.tblName)) :
    LiteHolds (os ++ [{ type := lit "view", tblName := v.name.name, sql := some sql }]) ts (vs ++ [v]) := by
  have ne3 : lit "view" ≠ lit "table" := by decide
  have old : ∀ o ∈ os, o.tblName ≠ v.name.name := fun o ho e => hf (List.mem_map.mpr ⟨o, ho, e⟩)
  constructor
  · rw [List.filter_append, List.filter_cons_of_neg (by simp [ne3]), List.filter_nil, List.append_nil]
    exact h.tables
  · rw [List.filter_append, List.filter_cons_of_pos (by simp), List.filter_nil]
    exact holds_snoc h.views ⟨rfl, sql, rfl, hs⟩
  · intro o ho ht
    rcases List.mem_append.mp ho with ho | ho
    · rw [List.find?_append, h.first o ho ht]
      rfl
    · cases List.mem_singleton.mp ho
      exact absurd ht ne3
  · intro o ho hv
    rcases List.mem_append.mp ho with ho | ho
    · obtain ⟨p, hp, h1⟩ := h.owned o ho hv
      exact ⟨p, List.mem_append_left _ hp, h1⟩
    · cases List.mem_singleton.mp ho
      exact absurd rfl hv
  · intro o ho p hp hv e
    rcases List.mem_append.mp hp with hp | hp
    · rcases List.mem_append.mp ho with ho | ho
      · exact h.apart o ho p hp hv e
      · cases List.mem_singleton.mp ho
        exact absurd e (old p hp)
    · cases List.mem_singleton.mp hp
      rfl

theorem holds_filter {α : Type} {key : α → Str} {R : Lite.Object → α → Prop} (hk : ∀ o a, R o a → o.tblName = key a) {os : List Lite.Object}
    {as : List α} (h : List.Forall₂ R os as) (n : Str) : List.Forall₂ R (os.filter fun o => o.tblName ≠ n) (as.filter fun a => key a ≠ n) := by
  induction h with
  | nil => exact .nil
  | @cons o a _ _ ho _ ih =>
    by_cases hc : o.tblName = n
    · rw [List.filter_cons_of_neg (by simp [hc]), List.filter_cons_of_neg (by simp [← hk _ _ ho, hc])]
      exact ih
    · rw [List.filter_cons_of_pos (by simp [hc]), List.filter_cons_of_pos (by simp [← hk _ _ ho, hc])]
      exact .cons ho ih

theorem holds_dropped {os : List Lite.Object} {ts : List Written.Table} {vs : List NewView} (h : LiteHolds os ts vs) (n : Str) :
    LiteHolds (os.filter fun o => o.tblName ≠ n) (ts.filter fun t => t.name.name ≠ n) (vs.filter fun v => v.name.name ≠ n) := by
  have swap : ∀ p : Lite.Object → Bool, (os.filter fun o => o.tblName ≠ n).filter p = (os.filter p).filter fun o => o.tblName ≠ n := by
    intro p
    rw [List.filter_filter, List.filter_filter]
    exact List.filter_congr fun o _ => Bool.and_comm _ _
  constructor
  · rw [swap]
    exact holds_filter (fun _ _ hx => hx.1) h.tables n
  · rw [swap]
    exact holds_filter (key := fun v : NewView => v.name.name) (fun _ _ hx => hx.1) h.views n
  · intro o ho ht
    obtain ⟨h1, h2⟩ := List.mem_filter.mp ho
    have h3 := h.first o h1 ht
    have : ∀ l : List Lite.Object, (l.filter fun o => o.tblName ≠ n).find? (fun p => decide (p.tblName = o.tblName)) =
        l.find? fun p => decide (p.tblName = o.tblName) := by
      intro l
      rw [List.find?_filter]
      congr 1
      funext p
      by_cases hp : p.tblName = o.tblName
      · simpa [hp] using h2
      · simp [hp]
    rw [this]
    exact h3
  · intro o ho hv
    obtain ⟨h1, h2⟩ := List.mem_filter.mp ho
    obtain ⟨p, hp, h3, h4⟩ := h.owned o h1 hv
    exact ⟨p, List.mem_filter.mpr ⟨hp, by rw [h4]; exact h2⟩, h3, h4⟩
  · intro o ho p hp
    exact h.apart o (List.mem_filter.mp ho).1 p (List.mem_filter.mp hp).1

/-! ### Statements that succeed -/

/-- All the statements succeed, one after the other. -/
inductive Ran {σ : Type} (db : Db σ) : List Str → σ → σ → Prop
  | nil {s : σ} : Ran db [] s s
  | cons {x : Str} {l : List Str} {s s' : σ} : (db.exec x s).1 = none → Ran db l (db.exec x s).2 s' → Ran db (x :: l) s s'

theorem ran_append {σ : Type} {db : Db σ} {l m : List Str} {s s' : σ} (h : Ran db (l ++ m) s s') : ∃ s1, Ran db l s s1 ∧ Ran db m s1 s' := by
  induction l generalizing s with
  | nil => exact ⟨s, .nil, h⟩
  | cons x l ih =>
    cases h with
    | cons h1 h2 =>
      obtain ⟨s1, h3, h4⟩ := ih h2
      exact ⟨s1, .cons h1 h3, h4⟩

theorem ran_of_loop {σ : Type} {db : Db σ} {l : List Str} {s : σ} (h : (runLoop db false l s).err = none) :
    ∃ s', Ran db l s s' ∧ (runLoop db false l s).state = (db.commit s').2 := by
  induction l generalizing s with
  | nil => exact ⟨s, .nil, rfl⟩
  | cons x l ih =>
    have hskip : isSkipped false x = false := rfl
    cases hx : db.exec x s with
    | mk e s1 =>
    cases e with
    | some m =>
      simp only [runLoop, hskip, hx] at h
      simp at h
    | none =>
      have eq : (runLoop db false (x :: l) s).err = (runLoop db false l s1).err ∧ (runLoop db false (x :: l) s).state = (runLoop db false l s1).state := by
        simp only [runLoop, hskip, hx]
        simp
      rw [eq.1] at h
      obtain ⟨s', h1, h2⟩ := ih h
      refine ⟨s', .cons (by rw [hx]) (by rw [hx]; exact h1), eq.2.trans h2⟩

variable {σ : Type} {db : Db σ} {master : σ → List Lite.Object}

theorem ran_tables (hdb : LiteKeeps db master) {texts : List Str} {ts : List Written.Table}
    (h : List.Forall₂ (fun x t => TextStands .sqlite3 x (Written.Table.tokens t)) texts ts) (hn : (ts.map (·.name.name)).Nodup)
    (ht : ∀ t ∈ ts, t.ifNotExists = false ∧ t.name.schema = none ∧ ¬ Reserved t.name.name) {s s' : σ} (hr : Ran db texts s s')
    {pre : List Written.Table} {vs : List NewView} (hp : LiteHolds (master s) pre vs) (h1 : ∀ t ∈ ts, t.name.name ∉ pre.map (·.name.name))
    (h2 : ∀ t ∈ ts, t.name.name ∉ vs.map (·.name.name)) : LiteHolds (master s') (pre ++ ts) vs := by
  induction h generalizing s pre with
  | nil =>
    cases hr
    rwa [List.append_nil]
  | @cons x t texts ts hx _ ih =>
    cases hr with
    | cons he hr =>
    obtain ⟨a1, a2, a3⟩ := ht t (by simp)
    rw [List.map_cons, List.nodup_cons] at hn
    obtain ⟨sql, indexes, hm, hs, hi⟩ := hdb.createsTable s x t hx a1 a2 he
    have := ih hn.2 (fun x hx => ht x (by simp [hx])) hr (pre := pre ++ [t])
      (by rw [hm]; exact holds_table hp hs hi (lite_holds_fresh hp a3 (h1 t (by simp)) (h2 t (by simp))) a3)
      (by
        intro u hu hm
        rw [List.map_append, List.mem_append] at hm
        rcases hm with hm | hm
        · exact h1 u (by simp [hu]) hm
        · rw [List.map_singleton, List.mem_singleton] at hm
          exact hn.1 (hm ▸ List.mem_map.mpr ⟨u, hu, rfl⟩))
      fun u hu => h2 u (by simp [hu])
    simpa using this

theorem ran_views (hdb : LiteKeeps db master) {texts : List Str} {vs : List NewView}
    (h : List.Forall₂ (fun x (v : NewView) => TextStands .sqlite3 x v.tokens) texts vs) (hn : (vs.map (·.name.name)).Nodup)
    (hv : ∀ v ∈ vs, v.orReplace = false ∧ v.name.schema = none ∧ ¬ Reserved v.name.name) {s s' : σ} (hr : Ran db texts s s')
    {ts : List Written.Table} {pre : List NewView} (hp : LiteHolds (master s) ts pre) (h1 : ∀ v ∈ vs, v.name.name ∉ pre.map (·.name.name))
    (h2 : ∀ v ∈ vs, v.name.name ∉ ts.map (·.name.name)) : LiteHolds (master s') ts (pre ++ vs) := by
  induction h generalizing s pre with
  | nil =>
    cases hr
    rwa [List.append_nil]
  | @cons x v texts vs hx _ ih =>
    cases hr with
    | cons he hr =>
    obtain ⟨a1, a2, a3⟩ := hv v (by simp)
    rw [List.map_cons, List.nodup_cons] at hn
    obtain ⟨sql, hm, hs⟩ := hdb.createsView s x v hx a1 a2 he
    have := ih hn.2 (fun x hx => hv x (by simp [hx])) hr (pre := pre ++ [v])
      (by rw [hm]; exact holds_view hp hs (lite_holds_fresh hp a3 (h2 v (by simp)) (h1 v (by simp))))
      (by
        intro u hu hm
        rw [List.map_append, List.mem_append] at hm
        rcases hm with hm | hm
        · exact h1 u (by simp [hu]) hm
        · rw [List.map_singleton, List.mem_singleton] at hm
          exact hn.1 (hm ▸ List.mem_map.mpr ⟨u, hu, rfl⟩))
      fun u hu => h2 u (by simp [hu])
    simpa using this

theorem filter_more {α : Type} (key : α → Str) (n : Str) (names : List Str) (l : List α) :
    (l.filter fun a => key a ≠ n).filter (fun a => key a ∉ names) = l.filter fun a => key a ∉ n :: names := by
  rw [List.filter_filter]
  refine List.filter_congr fun t _ => ?_
  rw [← Bool.decide_and]
  exact decide_eq_decide.mpr (by simp only [List.mem_cons, not_or]; exact and_comm)

theorem still_there {α : Type} {key : α → Str} {n m : Str} {l : List α} (hm : m ∈ l.map key) (hne : m ≠ n) :
    m ∈ (l.filter fun a => key a ≠ n).map key := by
  obtain ⟨a, ha, e⟩ := List.mem_map.mp hm
  exact List.mem_map.mpr ⟨a, List.mem_filter.mpr ⟨ha, by rw [e]; simpa using hne⟩, e⟩

theorem ran_tables_dropped (hdb : LiteKeeps db master) {names : List Str} (hq : ∀ n ∈ names, n ≠ [] ∧ '`' ∉ n) (hd : names.Nodup) {s s' : σ}
    (hr : Ran db (names.map fun n => lit "DROP TABLE `" ++ n ++ lit "`") s s') {ts : List Written.Table} {vs : List NewView}
    (h : LiteHolds (master s) ts vs) (hin : ∀ n ∈ names, n ∈ ts.map (·.name.name)) :
    LiteHolds (master s') (ts.filter fun t => t.name.name ∉ names) (vs.filter fun v => v.name.name ∉ names) := by
  induction names generalizing s ts vs with
  | nil =>
    cases hr
    rw [List.filter_eq_self.mpr (by simp), List.filter_eq_self.mpr (by simp)]
    exact h
  | cons n names ih =>
    rw [List.nodup_cons] at hd
    rw [List.map_cons] at hr
    cases hr with
    | cons he hr =>
    have hex : ∃ o ∈ master s, o.type = lit "table" ∧ o.tblName = n := by
      obtain ⟨t, ht, e⟩ := List.mem_map.mp (hin n (by simp))
      obtain ⟨o, ho, h1, -⟩ := forall₂_back h.tables ht
      obtain ⟨h2, h3⟩ := List.mem_filter.mp ho
      exact ⟨o, h2, (of_decide_eq_true h3).1, h1.trans e⟩
    have hm := hdb.dropsTable s n (hq n (by simp)).1 (hq n (by simp)).2 hex he
    have := ih (fun m hm => hq m (by simp [hm])) hd.2 hr (by rw [hm]; exact holds_dropped h n)
      fun m hk => still_there (hin m (by simp [hk])) fun e => by subst e; exact hd.1 hk
    rw [filter_more (fun t : Written.Table => t.name.name), filter_more (fun v : NewView => v.name.name)] at this
    exact this

theorem ran_views_dropped (hdb : LiteKeeps db master) {names : List Str} (hq : ∀ n ∈ names, n ≠ [] ∧ '`' ∉ n) (hd : names.Nodup) {s s' : σ}
    (hr : Ran db (names.map fun n => lit "DROP VIEW `" ++ n ++ lit "`") s s') {ts : List Written.Table} {vs : List NewView}
    (h : LiteHolds (master s) ts vs) (hin : ∀ n ∈ names, n ∈ vs.map (·.name.name)) :
    LiteHolds (master s') (ts.filter fun t => t.name.name ∉ names) (vs.filter fun v => v.name.name ∉ names) := by
  induction names generalizing s ts vs with
  | nil =>
    cases hr
    rw [List.filter_eq_self.mpr (by simp), List.filter_eq_self.mpr (by simp)]
    exact h
  | cons n names ih =>
    rw [List.nodup_cons] at hd
    rw [List.map_cons] at hr
    cases hr with
    | cons he hr =>
    have hex : ∃ o ∈ master s, o.type = lit "view" ∧ o.tblName = n := by
      obtain ⟨t, ht, e⟩ := List.mem_map.mp (hin n (by simp))
      obtain ⟨o, ho, h1, -⟩ := forall₂_back h.views ht
      obtain ⟨h2, h3⟩ := List.mem_filter.mp ho
      exact ⟨o, h2, of_decide_eq_true h3, h1.trans e⟩
    have hm := hdb.dropsView s n (hq n (by simp)).1 (hq n (by simp)).2 hex he
    have := ih (fun m hm => hq m (by simp [hm])) hd.2 hr (by rw [hm]; exact holds_dropped h n)
      fun m hk => still_there (hin m (by simp [hk])) fun e => by subst e; exact hd.1 hk
    rw [filter_more (fun t : Written.Table => t.name.name), filter_more (fun v : NewView => v.name.name)] at this
    exact this

/-! ### What is generated -/

/-- Definitions of tables and views. -/
def mixedDefs (ps : List (Str × Table)) (vs : List View) : List DDL := tableDefs ps ++ vs.map DDL.view

theorem created_mixed (ps : List (Str × Table)) (vs : List View) : created (mixedDefs ps vs) = ps.map (·.2) := by
  induction ps with
  | nil =>
    induction vs with
    | nil => rfl
    | cons v vs ih => exact ih
  | cons p ps ih => simp only [mixedDefs, tableDefs, List.map_cons, List.cons_append] at ih ⊢; simp only [created, ih]

theorem parts_mixed (n : Str) (ps : List (Str × Table)) (vs : List View) : indexesFor n (mixedDefs ps vs) = [] ∧ foreignKeysFor n (mixedDefs ps vs) = [] ∧
    policiesFor n (mixedDefs ps vs) = [] ∧ viewsOf (mixedDefs ps vs) = vs ∧ triggersOf (mixedDefs ps vs) = [] ∧
    ∀ c, markedPrimary n c (mixedDefs ps vs) = false := by
  induction ps with
  | nil =>
    induction vs with
    | nil => exact ⟨rfl, rfl, rfl, rfl, rfl, fun _ => rfl⟩
    | cons v vs ih =>
      simp only [mixedDefs, tableDefs, List.map_nil, List.nil_append, List.map_cons] at ih ⊢
      simpa [indexesFor, foreignKeysFor, policiesFor, viewsOf, triggersOf, markedPrimary] using ih
  | cons p ps ih =>
    simp only [mixedDefs, tableDefs, List.map_cons, List.cons_append] at ih ⊢
    simpa [indexesFor, foreignKeysFor, policiesFor, viewsOf, triggersOf, markedPrimary] using ih

theorem complete_mixed (ps : List (Str × Table)) (vs : List View) (t : Table) : Spec.complete (mixedDefs ps vs) t = t := by
  obtain ⟨h1, h2, h3, -, -, h4⟩ := parts_mixed t.name ps vs
  unfold Spec.complete
  simp [h1, h2, h3, h4]

theorem tablesOf_mixed (ps : List (Str × Table)) (vs : List View) : tablesOf (mixedDefs ps vs) = ps.map (·.2) := by
  unfold tablesOf
  rw [created_mixed, List.map_congr_left (g := id) (fun t _ => complete_mixed ps vs t), List.map_id]

theorem contains_names (vs : List View) (n : Str) : containsString (viewNames vs) n = decide (n ∈ vs.map (·.name)) := by
  unfold containsString viewNames
  by_cases h : n ∈ vs.map (·.name)
  · rw [decide_eq_true h]
    simpa using h
  · rw [decide_eq_false h]
    simpa using h

/-- Of two schemas that agree on the tables and views they share, the first is reached from the second by creating what is missing and
dropping what is not wanted. -/
theorem diff_mixed {mode : Mode} {D C : List (Str × Table)} {V W : List View} (hD : Normal mode (mixedDefs D V)) (hC : Normal mode (mixedDefs C W))
    (h : ∀ c ∈ C, ∀ d ∈ D, c.2.name = d.2.name → c.2 = d.2) (hv : ∀ w ∈ W, ∀ v ∈ V, w.name = v.name → w.definition = v.definition) :
    diff mode (mixedDefs D V) (mixedDefs C W) = .ok
      (((D.filter fun d => d.2.name ∉ C.map (·.2.name)).map fun d => .user (.createTable d.1 d.2)) ++
       ((V.filter fun v => v.name ∉ W.map (·.name)).map fun v => .user (.view v)) ++
       ((C.filter fun c => c.2.name ∉ D.map (·.2.name)).map fun c => .dropTable c.2.name) ++
       (W.filter fun w => w.name ∉ V.map (·.name)).map fun w => .dropView w.name) := by
  have find : ∀ (ps : List (Str × Table)) n, findTableByName (ps.map (·.2)) n = none ↔ n ∉ ps.map (·.2.name) := by
    intro ps n
    unfold findTableByName
    rw [List.find?_eq_none]
    simp only [List.mem_map, not_exists, not_and]
    constructor
    · intro h x hx e
      exact absurd e (by simpa using h x.2 ⟨x, hx, rfl⟩)
    · rintro h t ⟨x, hx, rfl⟩ e
      exact h x hx (by simpa using e)
  have found : ∀ (ps : List (Str × Table)) n x, findTableByName (ps.map (·.2)) n = some x → ∃ p ∈ ps, p.2 = x ∧ x.name = n := by
    intro ps n x hx
    unfold findTableByName at hx
    have h1 := List.mem_of_find?_eq_some hx
    have h2 := List.find?_some hx
    obtain ⟨p, hp, rfl⟩ := List.mem_map.mp h1
    exact ⟨p, hp, rfl, by simpa using h2⟩
  refine (diff_stateless mode _ _ hD.unique hC.unique _).2 ⟨hD.wellFormed,
    wellFormedCurrent_of_wellFormed hC.wellFormed hC.noAddIndex,
    ((D.filter fun d => d.2.name ∉ C.map (·.2.name)).map fun d => .user (.createTable d.1 d.2)) ++
      ((V.filter fun v => v.name ∉ W.map (·.name)).map fun v => .user (.view v)),
    (C.filter fun c => c.2.name ∉ D.map (·.2.name)).map fun c => .dropTable c.2.name, ?_, ?_, ?_⟩
  · rw [← flatMap_when, ← flatMap_when]
    have := concatMapM_ok (defStmts mode (tablesOf (mixedDefs C W)) (viewsOf (mixedDefs C W)) (triggersOf (mixedDefs C W)))
      (fun d => match d with
        | .createTable s t => if t.name ∉ C.map (·.2.name) then [Stmt.user (.createTable s t)] else []
        | .view v => if v.name ∉ W.map (·.name) then [Stmt.user (.view v)] else []
        | _ => []) (mixedDefs D V) ?_
    · rw [this, mixedDefs, tableDefs, List.flatMap_append, List.flatMap_map, List.flatMap_map]
    · intro d hd
      rcases List.mem_append.mp hd with hd | hd
      · obtain ⟨p, hp, rfl⟩ := List.mem_map.mp hd
        simp only [defStmts, tablesOf_mixed]
        cases hf : findTableByName (C.map (·.2)) p.2.name with
        | none => rw [if_pos ((find C _).mp hf)]
        | some x =>
          rw [if_neg (fun hn => by rw [(find C _).mpr hn] at hf; cases hf)]
          obtain ⟨c, hc, rfl, hn⟩ := found C _ _ hf
          have e := h c hc p hp hn
          show generateDDLsForCreateTable mode c.2 p.2 = _
          have := createTable_self hD.wellFormed (hD.tables p.1 p.2 (List.mem_append_left _ (List.mem_map.mpr ⟨p, hp, rfl⟩)))
          rw [complete_mixed] at this
          rw [e]
          exact this
      · obtain ⟨v, hv', rfl⟩ := List.mem_map.mp hd
        simp only [defStmts, viewStmts, (parts_mixed [] C W).2.2.2.1]
        cases hf : findViewByName W v.name with
        | none =>
          have new : v.name ∉ W.map (·.name) := by
            unfold findViewByName at hf
            rw [List.find?_eq_none] at hf
            intro hm
            obtain ⟨w, hw, e⟩ := List.mem_map.mp hm
            exact hf w hw (by simpa using e)
          simp only [new, not_false_eq_true, if_true]
        | some w =>
          unfold findViewByName at hf
          have h1 := List.mem_of_find?_eq_some hf
          have h2 : w.name = v.name := by simpa using List.find?_some hf
          have there : v.name ∈ W.map (·.name) := List.mem_map.mpr ⟨w, h1, h2⟩
          simp [there, hv w h1 v hv' h2]
  · rw [← flatMap_when, tablesOf_mixed, tablesOf_mixed]
    have := concatMapM_ok (tableCleanup mode (D.map (·.2)))
      (fun t : Table => if t.name ∉ D.map (·.2.name) then [Stmt.dropTable t.name] else []) (C.map (·.2)) ?_
    · rw [this, List.flatMap_map]
    · intro t ht
      obtain ⟨c, hc, rfl⟩ := List.mem_map.mp ht
      unfold tableCleanup
      cases hf : findTableByName (D.map (·.2)) c.2.name with
      | none => rw [if_pos ((find D _).mp hf)]
      | some x =>
        rw [if_neg (fun hn => by rw [(find D _).mpr hn] at hf; cases hf)]
        obtain ⟨d, hd, rfl, hn⟩ := found D _ _ hf
        show cleanupTable mode c.2 d.2 = _
        rw [h c hc d hd hn.symm]
        exact cleanup_self _
  · rw [(parts_mixed [] C W).2.2.2.1, (parts_mixed [] D V).2.2.2.1]
    unfold cleanupViews
    simp only [contains_names, decide_not]

/-! ### Files of tables and views -/

/-- The definition that the statement of a view stands for. -/
def ViewStandsFor (v : NewView) (w : View) : Prop := w.name = toLower v.name.name ∧ w.definition = v.query.text

/-- A file of tables and views is read statement by statement. -/
theorem mixed_read (fmtFloat : Str → Str) {mode : Mode} (hm : mode ≠ .postgres) {ts : List Written.Table} {vs : List NewView} {file : Str}
    (hf : Consists mode file (tablesAndViews ts vs)) (h : ∀ t ∈ ts, (Sentence.table t).Clear ∧ (Sentence.table t).InRange)
    (hv : ∀ v ∈ vs, v.query.Clear) :
    ∃ ps ws, parseDDLs (Sql.env fmtFloat) mode file = .ok (mixedDefs ps ws) ∧ ps.map (·.1) ++ ws.map (·.statement) = statementTexts file ∧
      List.Forall₂ (fun t p => StandsFor fmtFloat mode t p.2) ts ps ∧ List.Forall₂ ViewStandsFor vs ws := by
  suffices key : ∃ ps ws, List.Forall₂ (fun t d => parseDDL (Sql.env fmtFloat) mode t = .ok d) (statementTexts file) (mixedDefs ps ws) ∧
      ps.map (·.1) ++ ws.map (·.statement) = statementTexts file ∧ List.Forall₂ (fun t p => StandsFor fmtFloat mode t p.2) ts ps ∧
      List.Forall₂ ViewStandsFor vs ws by
    obtain ⟨ps, ws, h1, h2, h3⟩ := key
    exact ⟨ps, ws, (C12_one_definition_per_statement _ mode file _).mpr h1, h2, h3⟩
  unfold Consists tablesAndViews at hf
  generalize statementTexts file = xs at hf
  induction ts generalizing xs with
  | nil =>
    simp only [List.map_nil, List.nil_append] at hf
    clear h
    induction vs generalizing xs with
    | nil =>
      cases hf
      exact ⟨[], [], .nil, rfl, .nil, .nil⟩
    | cons v vs ih =>
      cases hf with
      | @cons x _ xs _ hx hxs =>
      obtain ⟨ps, ws, h1, h2, h3, h4⟩ := ih (fun v hm => hv v (by simp [hm])) xs hxs
      cases h3
      have hd := C67_view_is_a_definition fmtFloat mode x v (hv v (by simp)) false (by simpa [given, Statement.tokens] using hx)
      refine ⟨[], { statement := x, name := toLower v.name.name, definition := v.query.text } :: ws, .cons hd h1, ?_, .nil, .cons ⟨rfl, rfl⟩ h4⟩
      simp only [List.map_nil, List.nil_append, List.map_cons] at h2 ⊢
      rw [h2]
  | cons t ts ih =>
    cases hf with
    | @cons x _ xs _ hx hxs =>
    obtain ⟨ps, ws, h1, h2, h3, h4⟩ := ih (fun t ht => h t (by simp [ht])) xs hxs
    obtain ⟨hc, hr⟩ := h t (by simp)
    have hx : tokenize mode x = .ok (Sentence.table t).tokens := tokenize_layout hx
    obtain ⟨d, hd, hs, hk, hst⟩ := C57_statement_is_a_definition fmtFloat mode x _ hc false (by simpa [given] using hx) hr
    have hp := C57_statement_is_understood mode x _ hc false (by simpa [given] using hx)
    have h5 : convertStatement (Sql.env fmtFloat) mode x (.ddl (Sentence.meaning (.table t))) = .ok d := by
      rw [← hd, parseDDL, show (Sql.env fmtFloat).parse mode x = _ from hp]
    obtain ⟨y, u, rfl⟩ := hk
    cases hst
    refine ⟨(y, u) :: ps, ws, .cons hd h1, by simp only [List.map_cons, List.cons_append, h2]; rfl, .cons ⟨?_, ?_⟩ h3, h4⟩
    · cases hs with
      | createTable _ _ hn _ _ _ => exact hn.2.2 hm
    · intro z
      exact convert_withText _ mode y z _ _ h5

theorem mixed_read_normal {fmtFloat : Str → Str} {mode : Mode} (hm : mode ≠ .postgres) {ts : List Written.Table} {vs : List NewView} {file : Str}
    (hf : Consists mode file (tablesAndViews ts vs)) (h : OrderlyTables mode ts) (hv : OrderlyViews vs) {ds : List DDL}
    (hp : parseDDLs (Sql.env fmtFloat) mode file = .ok ds) : Normal mode ds := by
  obtain ⟨defs, h3, h4, -⟩ := C67_file_is_understood fmtFloat mode file _ hf (mixed_clear (orderly_clear h) hv.clear)
  cases h3.symm.trans hp
  refine mixed_normal h4 (fun _ hx => tables_normal hm h hx) ?_
  unfold ViewsDiffer
  rw [List.map_congr_left hv.small]
  exact hv.names

/-- The texts for which something else than these names is defined. -/
def newOnes {α : Type} (key : α → Str) (xs : List Str) (as : List α) (names : List Str) : List Str :=
  ((List.zip xs as).filter fun p => key p.2 ∉ names).map (·.1)

/-- What is done for a file of tables and views if the tables and views that are there already and have a name in the file are as in the
file. -/
theorem generate_mixed (fmtFloat : Str → Str) {ts us : List Written.Table} {vs ws : List NewView} {file dump : Str}
    (hf : Consists .sqlite3 file (tablesAndViews ts vs)) (hd : Consists .sqlite3 dump (tablesAndViews us ws))
    (ht : OrderlyTables .sqlite3 ts) (hu : OrderlyTables .sqlite3 us) (hv : OrderlyViews vs) (hw : OrderlyViews ws)
    (hs : ∀ u ∈ us, ∀ t ∈ ts, u.name.name = t.name.name → u = t) (hs' : ∀ w ∈ ws, ∀ v ∈ vs, w.name.name = v.name.name → w = v) :
    ∃ xs ys, statementTexts file = xs ++ ys ∧ xs.length = ts.length ∧ generateIdempotentDDLs (Sql.env fmtFloat) .sqlite3 file dump = .ok
      (newOnes (fun t : Written.Table => t.name.name) xs ts (us.map (·.name.name)) ++
       newOnes (fun v : NewView => v.name.name) ys vs (ws.map (·.name.name)) ++
       ((us.filter fun u => u.name.name ∉ ts.map (·.name.name)).map (·.name.name)).map (fun n => lit "DROP TABLE `" ++ n ++ lit "`") ++
       ((ws.filter fun w => w.name.name ∉ vs.map (·.name.name)).map (·.name.name)).map (fun n => lit "DROP VIEW `" ++ n ++ lit "`")) := by
  have hm : Mode.sqlite3 ≠ .postgres := by decide
  obtain ⟨D, V, d1, d2, d3, d4⟩ := mixed_read fmtFloat hm hf ht.clear hv.clear
  obtain ⟨C, W, c1, c2, c3, c4⟩ := mixed_read fmtFloat hm hd hu.clear hw.clear
  have hdiff := diff_mixed (mixed_read_normal hm hf ht hv d1) (mixed_read_normal hm hd hu hw c1) (by
    intro c hc d hd e
    obtain ⟨u, hu, h1⟩ := forall₂_back c3 hc
    obtain ⟨t, ht, h2⟩ := forall₂_back d3 hd
    have := hs u hu t ht (by rw [← h1.1, ← h2.1, e])
    subst this
    exact standsFor_unique h1 h2) (by
    intro w hw' v hv' e
    obtain ⟨a, ha, h1⟩ := forall₂_back c4 hw'
    obtain ⟨b, hb, h2⟩ := forall₂_back d4 hv'
    have := hs' a ha b hb (by rw [← hw.small a ha, ← hv.small b hb, ← h1.1, ← h2.1, e])
    subst this
    rw [h1.2, h2.2])
  have names : ∀ {as : List NewView} {bs : List View}, List.Forall₂ ViewStandsFor as bs → (∀ v ∈ as, toLower v.name.name = v.name.name) →
      bs.map (·.name) = as.map (·.name.name) := by
    intro as bs h
    induction h with
    | nil => exact fun _ => rfl
    | @cons a b _ _ hx _ ih =>
      intro hl
      rw [List.map_cons, List.map_cons, ih fun v hm => hl v (by simp [hm]), hx.1, hl a (by simp)]
  refine ⟨D.map (·.1), V.map (·.statement), d2.symm, ?_, ?_⟩
  · rw [List.length_map]
    exact d3.length_eq.symm
  unfold generateIdempotentDDLs
  rw [d1, c1]
  change (diff .sqlite3 (mixedDefs D V) (mixedDefs C W) >>= fun l => pure (l.map (Stmt.render .sqlite3))) = _
  rw [hdiff]
  change Except.ok _ = _
  congr 1
  rw [List.map_append, List.map_append, List.map_append, List.map_map, List.map_map, List.map_map, List.map_map, names_of_standsFor c3,
    names_of_standsFor d3, names c4 hw.small, names d4 hv.small]
  congr 1
  · congr 1
    · congr 1
      · unfold newOnes
        generalize us.map (·.name.name) = names
        clear hdiff d1 d2 hs hf ht
        induction d3 with
        | nil => rfl
        | @cons t p ts ps hx _ ih =>
          simp only [List.map_cons, List.zip_cons_cons]
          by_cases hc : t.name.name ∈ names
          · rw [List.filter_cons_of_neg (by simp [hx.1, hc]), List.filter_cons_of_neg (by simp [hc])]
            exact ih
          · rw [List.filter_cons_of_pos (by simp [hx.1, hc]), List.filter_cons_of_pos (by simp [hc]), List.map_cons, List.map_cons, ih]
            rfl
      · unfold newOnes
        generalize ws.map (·.name.name) = names
        have hl := hv.small
        clear hdiff d1 d2 hs' hf hv
        induction d4 with
        | nil => rfl
        | @cons v w vs ws hx _ ih =>
          have hn : w.name = v.name.name := hx.1.trans (hl v (by simp))
          have ih := ih fun v hm => hl v (by simp [hm])
          simp only [List.map_cons, List.zip_cons_cons]
          by_cases hc : v.name.name ∈ names
          · rw [List.filter_cons_of_neg (by simp [hn, hc]), List.filter_cons_of_neg (by simp [hc])]
            exact ih
          · rw [List.filter_cons_of_pos (by simp [hn, hc]), List.filter_cons_of_pos (by simp [hc]), List.map_cons, List.map_cons, ih]
            rfl
    · generalize ts.map (·.name.name) = names
      clear hdiff c1 c2 hs hd hu
      induction c3 with
      | nil => rfl
      | @cons t p ts ps hx _ ih =>
        by_cases hc : t.name.name ∈ names
        · rw [List.filter_cons_of_neg (by simp [hx.1, hc]), List.filter_cons_of_neg (by simp [hc])]
          exact ih
        · rw [List.filter_cons_of_pos (by simp [hx.1, hc]), List.filter_cons_of_pos (by simp [hc]), List.map_cons, List.map_cons, List.map_cons, ih]
          simp only [Function.comp_apply, Stmt.render, hx.1]
          rfl
  · generalize vs.map (·.name.name) = names
    have hl := hw.small
    clear hdiff c1 c2 hs' hd hw
    induction c4 with
    | nil => rfl
    | @cons v w vs ws hx _ ih =>
      have hn : w.name = v.name.name := hx.1.trans (hl v (by simp))
      have ih := ih fun v hm => hl v (by simp [hm])
      by_cases hc : v.name.name ∈ names
      · rw [List.filter_cons_of_neg (by simp [hn, hc]), List.filter_cons_of_neg (by simp [hc])]
        exact ih
      · rw [List.filter_cons_of_pos (by simp [hn, hc]), List.filter_cons_of_pos (by simp [hc]), List.map_cons, List.map_cons, List.map_cons, ih]
        simp only [Function.comp_apply, Stmt.render, hn]
        rfl

/-! ### The run -/

theorem split_forall₂ {α β : Type} {R : α → β → Prop} {xs ys : List α} {as bs : List β} (h : List.Forall₂ R (xs ++ ys) (as ++ bs))
    (hl : xs.length = as.length) : List.Forall₂ R xs as ∧ List.Forall₂ R ys bs := by
  induction xs generalizing as with
  | nil =>
    cases as with
    | nil => exact ⟨.nil, h⟩
    | cons _ _ => cases hl
  | cons x xs ih =>
    cases as with
    | nil => cases hl
    | cons a as =>
      cases h with
      | cons h1 h2 =>
        obtain ⟨h3, h4⟩ := ih h2 (Nat.succ.inj hl)
        exact ⟨.cons h1 h3, h4⟩

theorem unmap_forall₂ {α β γ : Type} {R : α → γ → Prop} {f : β → γ} {xs : List α} {bs : List β} (h : List.Forall₂ R xs (bs.map f)) :
    List.Forall₂ (fun x b => R x (f b)) xs bs := by
  induction bs generalizing xs with
  | nil => cases h; exact .nil
  | cons b bs ih =>
    cases h with
    | cons h1 h2 => exact .cons h1 (ih h2)

theorem newOnes_stand {α : Type} {key : α → Str} {toks : α → List Token} {xs : List Str} {as : List α}
    (h : List.Forall₂ (fun x a => Layout .sqlite3 x (toks a)) xs as) (hx : ∀ x ∈ xs, ';' ∉ x ∧ trimSpace x = x ∧ NoComment x) (names : List Str) :
    List.Forall₂ (fun x a => TextStands .sqlite3 x (toks a)) (newOnes key xs as names) (as.filter fun a => key a ∉ names) := by
  unfold newOnes
  induction h with
  | nil => exact .nil
  | @cons x a xs as h1 _ ih =>
    have ih := ih fun y hy => hx y (by simp [hy])
    obtain ⟨f1, f2, f3⟩ := hx x (by simp)
    by_cases hn : key a ∈ names
    · rw [List.zip_cons_cons, List.filter_cons_of_neg (by simp [hn]), List.filter_cons_of_neg (by simp [hn])]
      exact ih
    · rw [List.zip_cons_cons, List.filter_cons_of_pos (by simp [hn]), List.filter_cons_of_pos (by simp [hn])]
      exact .cons ⟨h1, f1, f3, f2⟩ ih

/-- What is there after things have been created and dropped. -/
theorem all_after {α : Type} {key : α → Str} {ts us : List α} (ht : (ts.map key).Nodup) (hu : (us.map key).Nodup)
    (hs : ∀ u ∈ us, ∀ t ∈ ts, key u = key t → u = t) :
    ((us ++ ts.filter fun t => key t ∉ us.map key).filter fun w => key w ∉ (us.filter fun u => key u ∉ ts.map key).map key).Perm ts := by
  have hnt : ts.Nodup := List.Nodup.of_map _ ht
  have hnu : us.Nodup := List.Nodup.of_map _ hu
  have hall : (us ++ ts.filter fun t => key t ∉ us.map key).Nodup := by
    rw [List.nodup_append]
    refine ⟨hnu, hnt.filter _, ?_⟩
    intro a ha b hb e
    subst e
    have := of_decide_eq_true (List.mem_filter.mp hb).2
    exact this (List.mem_map.mpr ⟨a, ha, rfl⟩)
  refine (List.perm_ext_iff_of_nodup (hall.filter _) hnt).mpr fun w => ?_
  rw [List.mem_filter, List.mem_append, decide_eq_true_iff]
  have hname : ∀ {l : List α} {x}, x ∈ l → key x ∈ l.map key := fun h => List.mem_map.mpr ⟨_, h, rfl⟩
  constructor
  · rintro ⟨h1 | h1, h2⟩
    · by_cases hw : key w ∈ ts.map key
      · obtain ⟨t, ht', e⟩ := List.mem_map.mp hw
        rw [hs w h1 t ht' e.symm]
        exact ht'
      · exact absurd (hname (List.mem_filter.mpr ⟨h1, by simpa using hw⟩)) h2
    · exact (List.mem_filter.mp h1).1
  · intro hw
    refine ⟨?_, ?_⟩
    · by_cases h : key w ∈ us.map key
      · obtain ⟨u, hu', e⟩ := List.mem_map.mp h
        rw [← hs u hu' w hw e]
        exact .inl hu'
      · exact .inr (List.mem_filter.mpr ⟨hw, by simpa using h⟩)
    · intro h
      obtain ⟨u, hu', e⟩ := List.mem_map.mp h
      have := of_decide_eq_true (List.mem_filter.mp hu').2
      rw [e] at this
      exact this (hname hw)

theorem holds_says {os : List Lite.Object} {ts : List Written.Table} {vs : List NewView} (h : LiteHolds os ts vs) (hc : ∀ v ∈ vs, v.query.Clear) :
    LiteDatabaseSays os ts vs where
  tables := forall₂_imp (fun _ _ hx => hx.2) h.tables
  first := h.first
  views := by
    have := h.views
    clear h
    generalize os.filter (fun o => decide (o.type = lit "view")) = rows at this
    induction this with
    | nil => exact .nil
    | @cons o v _ _ h1 _ ih => exact .cons ⟨h1.2, hc v (by simp)⟩ (ih fun v hm => hc v (by simp [hm]))

/-- What a run that ends without an error does to the schema is what the statements do, one after the other. -/
theorem run_is_ran (fmtFloat : Str → Str) {σ : Type} {db : Db σ} {master : σ → List Lite.Object} (hdb : LiteKeeps db master) {s : σ}
    {fs : Files} {o : Options} (he : o.export_ = false) (hdry : o.dryRun = false) (hskip : o.skipDrop = false) {file dump : Str}
    (hr : readFile fs o.sqlFile = .ok file) (h1 : dumpDDLs (Lite.database db master) s = .ok dump) {script : List Str}
    (hg : generateIdempotentDDLs (Sql.env fmtFloat) .sqlite3 file dump = .ok script)
    (herr : (run (Sql.env fmtFloat) .sqlite3 (Lite.database db master) fs o s).err = none) :
    ∃ s1 s2, master s1 = master s ∧ Ran db script s1 s2 ∧
      master (run (Sql.env fmtFloat) .sqlite3 (Lite.database db master) fs o s).state = master s2 := by
  simp only [run, h1, he, hr, hg, hdry, hskip, Bool.false_eq_true, if_false] at herr ⊢
  by_cases hnil : script = []
  · subst hnil
    exact ⟨s, s, rfl, .nil, rfl⟩
  · rw [if_neg hnil] at herr ⊢
    simp only [runDDLs] at herr ⊢
    have hb : (Lite.database db master).begin s = db.begin s := rfl
    rw [hb] at herr ⊢
    cases hx : db.begin s with
    | mk e s1 =>
    rw [hx] at herr
    cases e with
    | some m => simp at herr
    | none =>
      simp only at herr ⊢
      have hloop : ∀ l s, runLoop (Lite.database db master) false l s = runLoop db false l s := by
        intro l
        induction l with
        | nil => intro s; rfl
        | cons x l ih =>
          intro s
          simp only [runLoop, ih]
          rfl
      rw [hloop] at herr ⊢
      obtain ⟨s2, a1, a2⟩ := ran_of_loop herr
      refine ⟨s1, s2, ?_, a1, ?_⟩
      · have := hdb.begins s
        rwa [hx] at this
      · rw [a2]
        exact hdb.commits s2

theorem lite_views_run (fmtFloat : Str → Str) {σ : Type} {db : Db σ} {master : σ → List Lite.Object} (hdb : LiteKeeps db master) {s : σ}
    {ts us : List Written.Table} {vs ws : List NewView} (hu : LiteHolds (master s) us ws) (hou : OrderlyTables .sqlite3 us)
    (hot : OrderlyTables .sqlite3 ts) (how : OrderlyViews ws) (hov : OrderlyViews vs)
    (hs : ∀ u ∈ us, ∀ t ∈ ts, u.name.name = t.name.name → u = t) (hs' : ∀ w ∈ ws, ∀ v ∈ vs, w.name.name = v.name.name → w = v)
    (hx : ∀ t ∈ ts ++ us, ∀ v ∈ vs ++ ws, t.name.name ≠ v.name.name)
    (hq : ∀ u ∈ us, u.name.name ≠ [] ∧ '`' ∉ u.name.name)
    (hn : ∀ t ∈ ts, t.ifNotExists = false ∧ t.name.schema = none ∧ ¬ Reserved t.name.name)
    {fs : Files} {o : Options} (he : o.export_ = false) (hdry : o.dryRun = false) (hskip : o.skipDrop = false) {file : Str}
    (hr : readFile fs o.sqlFile = .ok file) (hf : Consists .sqlite3 file (tablesAndViews ts vs))
    (hc : ∀ x ∈ statementTexts file, NoComment x)
    (herr : (run (Sql.env fmtFloat) .sqlite3 (Lite.database db master) fs o s).err = none) :
    ∃ ts' vs', ts'.Perm ts ∧ vs'.Perm vs ∧
      LiteHolds (master (run (Sql.env fmtFloat) .sqlite3 (Lite.database db master) fs o s).state) ts' vs' := by
  obtain ⟨texts, h1, h2⟩ := lite_all db master s (holds_says hu how.clear)
  obtain ⟨xs, ys, g1, g2, g3⟩ := generate_mixed fmtFloat hf (consists_joined h2).1 hot hou hov how hs hs'
  obtain ⟨s1, s2, r1, r2, r3⟩ := run_is_ran fmtFloat hdb he hdry hskip hr h1 g3 herr
  obtain ⟨s5, r2, k4⟩ := ran_append r2
  obtain ⟨s4, r2, k3⟩ := ran_append r2
  obtain ⟨s3, k1, k2⟩ := ran_append r2
  have facts : ∀ x ∈ xs ++ ys, ';' ∉ x ∧ trimSpace x = x ∧ NoComment x := by
    intro x hm
    rw [← g1] at hm
    exact ⟨(statementText_facts hm).1, (statementText_facts hm).2, hc x hm⟩
  unfold Consists tablesAndViews at hf
  rw [g1] at hf
  obtain ⟨f1, f2⟩ := split_forall₂ hf (by simpa using g2)
  have f1 := unmap_forall₂ (unmap_forall₂ f1)
  have f2 := unmap_forall₂ f2
  have n1 := newOnes_stand (key := fun t : Written.Table => t.name.name) (toks := Written.Table.tokens) f1 (fun x hm => facts x (by simp [hm])) (us.map (·.name.name))
  have n2 := newOnes_stand (key := fun v : NewView => v.name.name) (toks := NewView.tokens) f2 (fun x hm => facts x (by simp [hm])) (ws.map (·.name.name))
  have sub : ∀ {α : Type} {key : α → Str} {l : List α} (p : α → Bool), (l.map key).Nodup → ((l.filter p).map key).Nodup :=
    fun p hd => hd.sublist (List.Sublist.map _ List.filter_sublist)
  have a1 := ran_tables hdb n1 (sub _ hot.names) (fun t ht => hn t (List.mem_filter.mp ht).1) k1 (pre := us) (vs := ws) (by rw [r1]; exact hu)
    (fun t ht => of_decide_eq_true (List.mem_filter.mp ht).2) (by
      intro t ht hm
      obtain ⟨v, hv, e⟩ := List.mem_map.mp hm
      exact hx t (by simp [(List.mem_filter.mp ht).1]) v (by simp [hv]) e.symm)
  have a2 := ran_views hdb n2 (sub _ hov.names) (fun v hv => ⟨(hov.plain v (List.mem_filter.mp hv).1).1, (hov.plain v (List.mem_filter.mp hv).1).2,
    (hov.quotable v (List.mem_filter.mp hv).1).2.2⟩) k2 a1 (fun v hv => of_decide_eq_true (List.mem_filter.mp hv).2) (by
      intro v hv hm
      obtain ⟨t, ht, e⟩ := List.mem_map.mp hm
      refine hx t ?_ v (by simp [(List.mem_filter.mp hv).1]) e
      rcases List.mem_append.mp ht with ht | ht
      · simp [ht]
      · simp [(List.mem_filter.mp ht).1])
  have a3 := ran_tables_dropped hdb (fun n hm => by
      obtain ⟨u, hu', rfl⟩ := List.mem_map.mp hm
      exact hq u (List.mem_filter.mp hu').1) (sub _ hou.names) k3 a2 (fun n hm => by
      obtain ⟨u, hu', rfl⟩ := List.mem_map.mp hm
      exact List.mem_map.mpr ⟨u, List.mem_append_left _ (List.mem_filter.mp hu').1, rfl⟩)
  have same : ((ws ++ vs.filter fun v => v.name.name ∉ ws.map (·.name.name)).filter fun v =>
      v.name.name ∉ (us.filter fun u => u.name.name ∉ ts.map (·.name.name)).map (·.name.name)) =
      ws ++ vs.filter fun v => v.name.name ∉ ws.map (·.name.name) := by
    rw [List.filter_eq_self]
    intro v hv
    refine decide_eq_true fun hm => ?_
    obtain ⟨u, hu', e⟩ := List.mem_map.mp hm
    refine hx u (by simp [(List.mem_filter.mp hu').1]) v ?_ e
    rcases List.mem_append.mp hv with hv | hv
    · simp [hv]
    · simp [(List.mem_filter.mp hv).1]
  rw [same] at a3
  have a4 := ran_views_dropped hdb (fun n hm => by
      obtain ⟨w, hw', rfl⟩ := List.mem_map.mp hm
      exact ⟨(how.quotable w (List.mem_filter.mp hw').1).1, (how.quotable w (List.mem_filter.mp hw').1).2.1⟩) (sub _ how.names) k4 a3 (fun n hm => by
      obtain ⟨w, hw', rfl⟩ := List.mem_map.mp hm
      exact List.mem_map.mpr ⟨w, List.mem_append_left _ (List.mem_filter.mp hw').1, rfl⟩)
  rw [r3]
  refine ⟨_, _, ?_, all_after hov.names how.names hs', a4⟩
  rw [List.filter_eq_self.mpr]
  · exact all_after hot.names hou.names hs
  · intro t ht
    refine decide_eq_true fun hm => ?_
    obtain ⟨w, hw', e⟩ := List.mem_map.mp hm
    refine hx t ?_ w (by simp [(List.mem_filter.mp hw').1]) e.symm
    rcases List.mem_append.mp (List.mem_filter.mp ht).1 with ht | ht
    · simp [ht]
    · simp [(List.mem_filter.mp ht).1]

end Sqldef
