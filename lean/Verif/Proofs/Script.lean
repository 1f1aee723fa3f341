import Verif.Proofs.Shapes
/-! The script as a whole: where its statements come from. -/
namespace Sqldef
open Spec

theorem mem_created {ds : List DDL} {t : Table} : t ∈ created ds ↔ ∃ s, .createTable s t ∈ ds := by
  induction ds with
  | nil => simp [created]
  | cons d ds ih => cases d <;> simp [created, ih, exists_or]

theorem mem_createdNames {ds : List DDL} {n : Str} : n ∈ createdNames ds ↔ ∃ s t, .createTable s t ∈ ds ∧ t.name = n := by
  simp only [createdNames, List.mem_map, mem_created]
  constructor
  · rintro ⟨t, ⟨s, h⟩, e⟩; exact ⟨s, t, h, e⟩
  · rintro ⟨s, t, h, e⟩; exact ⟨t, ⟨s, h⟩, e⟩

theorem tableIn_iff {ds : List DDL} (hu : UniqueTables ds) {n : Str} {d : Table} :
    tableIn ds n = some d ↔ ∃ s t, .createTable s t ∈ ds ∧ t.name = n ∧ d = complete ds t := by
  constructor
  · intro h
    obtain ⟨t, ht, hn, e⟩ := tableIn_mem h
    obtain ⟨s, hs⟩ := mem_created.1 ht
    exact ⟨s, t, hs, hn, e⟩
  · rintro ⟨s, t, hs, rfl, rfl⟩
    exact tableIn_of_created hu (mem_created.2 ⟨s, hs⟩)

theorem tableIn_name {ds : List DDL} {n : Str} {d : Table} (h : tableIn ds n = some d) : d.name = n :=
  find_name (by simpa [tableIn_eq] using h)

theorem tableIn_mem_tablesOf {ds : List DDL} {n : Str} {d : Table} (h : tableIn ds n = some d) : d ∈ tablesOf ds :=
  find_mem (by simpa [tableIn_eq] using h)

theorem tableIn_of_mem {ds : List DDL} (hu : UniqueTables ds) {x : Table} (h : x ∈ tablesOf ds) :
    tableIn ds x.name = some x := by
  rw [tableIn_eq]
  exact find_of_mem (by rw [names_tablesOf]; exact hu) h

theorem filter_name_eq {ds : List DDL} (hu : UniqueTables ds) {n : Str} {x : Table} (h : tableIn ds n = some x) :
    ((tablesOf ds).filter fun t => decide (some t.name = some n)) = [x] := by
  have hm := tableIn_mem_tablesOf h
  have hn := tableIn_name h
  have hnd : ((tablesOf ds).map (·.name)).Nodup := by rw [names_tablesOf]; exact hu
  obtain ⟨a, b, hab⟩ := List.append_of_mem hm
  rw [hab] at hnd ⊢
  simp only [List.map_append, List.map_cons, List.nodup_append, List.nodup_cons, List.mem_map, List.mem_cons] at hnd
  rw [List.filter_append, List.filter_cons_of_pos (by simp [hn])]
  have ha : (a.filter fun t => decide (some t.name = some n)) = [] := by
    rw [List.filter_eq_nil_iff]
    intro y hy hyn
    simp only [Option.some.injEq, decide_eq_true_eq] at hyn
    exact hnd.2.2 x.name ⟨y, hy, hyn.trans hn.symm⟩ x.name (.inl rfl) rfl
  have hb : (b.filter fun t => decide (some t.name = some n)) = [] := by
    rw [List.filter_eq_nil_iff]
    intro y hy hyn
    simp only [Option.some.injEq, decide_eq_true_eq] at hyn
    exact hnd.2.1.1 ⟨y, hy, hyn.trans hn.symm⟩
  rw [ha, hb]; rfl

theorem concatMapM_cons_ok {α β : Type} {f : α → Except Err (List β)} {a : α} {l : List α} {r : List β} :
    concatMapM f (a :: l) = .ok r ↔ ∃ x y, f a = .ok x ∧ concatMapM f l = .ok y ∧ r = x ++ y := by
  simp only [concatMapM]
  rw [bind_ok]
  constructor
  · rintro ⟨x, hx, h⟩
    obtain ⟨y, hy, h⟩ := bind_ok.1 h
    cases h
    exact ⟨x, y, hx, hy, rfl⟩
  · rintro ⟨x, y, hx, hy, rfl⟩
    exact ⟨x, hx, bind_ok.2 ⟨y, hy, rfl⟩⟩

theorem concatMapM_append_ok {α β : Type} {f : α → Except Err (List β)} {a b : List α} {r : List β} :
    concatMapM f (a ++ b) = .ok r ↔ ∃ x y, concatMapM f a = .ok x ∧ concatMapM f b = .ok y ∧ r = x ++ y := by
  rw [concatMapM_append, bind_ok]
  constructor
  · rintro ⟨x, hx, h⟩
    obtain ⟨y, hy, h⟩ := bind_ok.1 h
    cases h
    exact ⟨x, y, hx, hy, rfl⟩
  · rintro ⟨x, y, hx, hy, rfl⟩
    exact ⟨x, hx, bind_ok.2 ⟨y, hy, rfl⟩⟩

/-- The script is split at any definition. -/
theorem concatMapM_split {α β : Type} {f : α → Except Err (List β)} {a : α} {pre post : List α} {r : List β}
    (h : concatMapM f (pre ++ a :: post) = .ok r) :
    ∃ x y z, concatMapM f pre = .ok x ∧ f a = .ok y ∧ concatMapM f post = .ok z ∧ r = x ++ y ++ z := by
  obtain ⟨x, w, hx, hw, rfl⟩ := concatMapM_append_ok.1 h
  obtain ⟨y, z, hy, hz, rfl⟩ := concatMapM_cons_ok.1 hw
  exact ⟨x, y, z, hx, hy, hz, by simp⟩

/-- The statements for a list of desired definitions that concern table `n`. -/
theorem filter_concatMapM {α : Type} {f : α → Except Err (List Stmt)} {g : α → Option Str}
    (hg : ∀ a l, f a = .ok l → ∀ s ∈ l, Stmt.table s = g a) {l : List α} {r : List Stmt}
    (h : concatMapM f l = .ok r) (n : Str) :
    concatMapM f (l.filter fun a => decide (g a = some n)) = .ok (r.filter fun s => decide (Stmt.table s = some n)) := by
  induction l generalizing r with
  | nil => cases h; rfl
  | cons a l ih =>
    obtain ⟨x, y, hx, hy, rfl⟩ := concatMapM_cons_ok.1 h
    rw [List.filter_append]
    by_cases hn : g a = some n
    · have hx' : x.filter (fun s => decide (Stmt.table s = some n)) = x := by
        rw [List.filter_eq_self]
        intro s hs
        rw [hg a x hx s hs, hn]; simp
      rw [List.filter_cons_of_pos (by simp [hn]), hx']
      exact concatMapM_cons_ok.2 ⟨x, _, hx, ih hy, rfl⟩
    · have hx' : x.filter (fun s => decide (Stmt.table s = some n)) = [] := by
        rw [List.filter_eq_nil_iff]
        intro s hs
        rw [hg a x hx s hs]; simp [hn]
      rw [List.filter_cons_of_neg (by simp [hn]), hx', List.nil_append]
      exact ih hy

section
variable {mode : Mode} {desired current : List DDL} {out : List Stmt}

/-- Everything that the generated script consists of. -/
structure Script (mode : Mode) (desired current : List DDL) (out x y : List Stmt) : Prop where
  ud : UniqueTables desired
  uc : UniqueTables current
  wd : WellFormed desired
  wc : WellFormedCurrent current
  defs : concatMapM (defStmts mode (tablesOf current) (viewsOf current) (triggersOf current)) desired = .ok x
  clean : concatMapM (tableCleanup mode (tablesOf desired)) (tablesOf current) = .ok y
  out_eq : out = x ++ y ++ cleanupViews (viewsOf desired) (viewsOf current)

theorem script (hd : UniqueTables desired) (hc : UniqueTables current) (h : diff mode desired current = .ok out) :
    ∃ x y, Script mode desired current out x y := by
  obtain ⟨h1, h2, x, y, h3, h4, h5⟩ := (diff_stateless mode desired current hd hc out).1 h
  exact ⟨x, y, ⟨hd, hc, h1, h2, h3, h4, h5⟩⟩

variable {x y : List Stmt}

theorem Script.mem (h : Script mode desired current out x y) {s : Stmt} (hs : s ∈ out) :
    (∃ d ∈ desired, ∃ l, defStmts mode (tablesOf current) (viewsOf current) (triggersOf current) d = .ok l ∧ s ∈ l) ∨
    (∃ t, tableIn current t.name = some t ∧ ∃ l, tableCleanup mode (tablesOf desired) t = .ok l ∧ s ∈ l) ∨
    (∃ v ∈ viewsOf current, v.name ∉ (viewsOf desired).map (·.name) ∧ s = .dropView v.name) := by
  rw [h.out_eq] at hs
  simp only [List.mem_append] at hs
  rcases hs with (hs | hs) | hs
  · exact .inl ((mem_concatMapM h.defs s).1 hs)
  · obtain ⟨t, ht, l, hl, hs⟩ := (mem_concatMapM h.clean s).1 hs
    exact .inr (.inl ⟨t, tableIn_of_mem h.uc ht, l, hl, hs⟩)
  · unfold cleanupViews at hs
    obtain ⟨v, hv, rfl⟩ := List.mem_map.1 hs
    obtain ⟨hv1, hv2⟩ := List.mem_filter.1 hv
    simp only [Bool.not_eq_true', not_containsString] at hv2
    exact .inr (.inr ⟨v, hv1, hv2, rfl⟩)

theorem Script.mem_def (h : Script mode desired current out x y) {s : Stmt} {d : DDL} (hd : d ∈ desired) {l : List Stmt}
    (hl : defStmts mode (tablesOf current) (viewsOf current) (triggersOf current) d = .ok l) (hs : s ∈ l) : s ∈ out := by
  rw [h.out_eq]
  simp only [List.mem_append]
  exact .inl (.inl ((mem_concatMapM h.defs s).2 ⟨d, hd, l, hl, hs⟩))

theorem Script.def_ok (h : Script mode desired current out x y) {d : DDL} (hd : d ∈ desired) :
    ∃ l, defStmts mode (tablesOf current) (viewsOf current) (triggersOf current) d = .ok l ∧ l ⊆ out := by
  obtain ⟨l, hl, -⟩ := concatMapM_ok_mem h.defs d hd
  exact ⟨l, hl, fun s hs => h.mem_def hd hl hs⟩

theorem Script.clean_ok (h : Script mode desired current out x y) {n : Str} {t : Table} (ht : tableIn current n = some t) :
    ∃ l, tableCleanup mode (tablesOf desired) t = .ok l ∧ l ⊆ out := by
  obtain ⟨l, hl, hsub⟩ := concatMapM_ok_mem h.clean t (tableIn_mem_tablesOf ht)
  refine ⟨l, hl, fun s hs => ?_⟩
  rw [h.out_eq]
  simp only [List.mem_append]
  exact .inl (.inr (hsub hs))

/-- A table present in both schemas: the statements for its columns, keys and foreign keys, and its clean-up. -/
theorem Script.shared (h : Script mode desired current out x y) {s : Str} {t d : Table}
    (ht : .createTable s t ∈ desired) (hd : tableIn current t.name = some d) :
    ∃ l m, generateDDLsForCreateTable mode d t = .ok l ∧ l ⊆ out ∧
      cleanupTable mode d (complete desired t) = .ok m ∧ m ⊆ out := by
  obtain ⟨l, hl, hlo⟩ := h.def_ok ht
  simp only [defStmts] at hl
  have hf : findTableByName (tablesOf current) t.name = some d := hd
  rw [hf] at hl
  obtain ⟨m, hm, hmo⟩ := h.clean_ok hd
  unfold tableCleanup at hm
  have hf2 : findTableByName (tablesOf desired) d.name = some (complete desired t) := by
    rw [tableIn_name hd]; exact tableIn_of_created h.ud (mem_created.2 ⟨s, ht⟩)
  rw [hf2] at hm
  exact ⟨l, m, hl, hlo, hm, hmo⟩

/-- The statements about a given table. -/
theorem Script.about (h : Script mode desired current out x y) (n : Str) :
    ∃ u v, concatMapM (defStmts mode (tablesOf current) (viewsOf current) (triggersOf current))
        (desired.filter fun d => decide (DDL.table d = some n)) = .ok u ∧
      concatMapM (tableCleanup mode (tablesOf desired))
        ((tablesOf current).filter fun t => decide (some t.name = some n)) = .ok v ∧
      out.filter (fun s => decide (Stmt.table s = some n)) = u ++ v := by
  refine ⟨_, _, filter_concatMapM (fun a l hl => defStmts_table hl) h.defs n,
    filter_concatMapM (g := fun t => some t.name) (fun a l hl => tableCleanup_table hl) h.clean n, ?_⟩
  rw [h.out_eq, List.filter_append, List.filter_append]
  have : (cleanupViews (viewsOf desired) (viewsOf current)).filter (fun s => decide (Stmt.table s = some n)) = [] := by
    rw [List.filter_eq_nil_iff]
    intro s hs
    unfold cleanupViews at hs
    obtain ⟨v, -, rfl⟩ := List.mem_map.1 hs
    simp [Stmt.table]
  rw [this, List.append_nil]

end

/-! ### Columns with their predecessors -/

theorem mem_withPrev {prev : Option Str} {cs : List Column} {p : Option Str} {c : Column}
    (h : (p, c) ∈ withPrev prev cs) : c ∈ cs := by
  induction cs generalizing prev with
  | nil => cases h
  | cons x cs ih =>
    simp only [withPrev, List.mem_cons, Prod.mk.injEq] at h
    rcases h with ⟨-, rfl⟩ | h
    · simp
    · exact List.mem_cons_of_mem _ (ih h)

/-- The predecessor of a column in a list of columns. -/
theorem withPrev_append (prev : Option Str) (a b : List Column) :
    withPrev prev (a ++ b) = withPrev prev a ++
      withPrev ((a.getLast?.map (·.name)).or prev) b := by
  induction a generalizing prev with
  | nil => simp [withPrev]
  | cons x a ih =>
    simp only [List.cons_append, withPrev, ih, List.cons.injEq, true_and]
    congr 2
    cases a with
    | nil => simp
    | cons y a =>
      rw [List.getLast?_cons_cons]
      cases h : (y :: a).getLast? with
      | none => simp at h
      | some z => simp

end Sqldef
