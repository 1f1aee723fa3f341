import Verif.Proofs.Removals
/-
C82: what depends on a table is dropped before it.
-/
namespace Sqldef
open Spec

variable {mode : Mode} {desired current : List DDL} {out : List Stmt}

/-- **C82**: the tables that are dropped, in the order of the statements, are those of the database that the file does not define, in the order in
which the database lists them. -/
theorem C82_tables_in_the_order_of_the_database (hd : UniqueTables desired) (hc : UniqueTables current) (h : diff mode desired current = .ok out) :
    out.filterMap droppedTable = (createdNames current).filter fun n => decide (n ∉ createdNames desired) := by
  obtain ⟨x, y, sc⟩ := script hd hc h
  rw [sc.out_eq, List.filterMap_append, List.filterMap_append, sc.dropped.1, sc.dropped.2, views_drop_no_table]
  simp

/-- **C82**, if the database lists every table before those to which it has foreign keys: no table is dropped before one that has a foreign key
to it. -/
theorem C82_referencing_tables_first_partial (hd : UniqueTables desired) (hc : UniqueTables current) (h : diff mode desired current = .ok out)
    (ho : (createdNames current).Pairwise fun a b => ¬ References current b a) :
    (out.filterMap droppedTable).Pairwise fun a b => ¬ References current b a := by
  rw [C82_tables_in_the_order_of_the_database hd hc h]
  exact ho.sublist List.filter_sublist

/-- **C82** fails for views: after the drop of a view that the file does not mention no table is dropped, so that all tables are dropped before. -/
theorem C82_tables_are_dropped_before_views (hd : UniqueTables desired) (hc : UniqueTables current) (h : diff mode desired current = .ok out)
    {v : Str} (hv : v ∉ (viewsOf desired).map (·.name)) {p q : List Stmt} (ho : out = p ++ .dropView v :: q) (t : Str) : .dropTable t ∉ q := by
  obtain ⟨x, y, sc⟩ := script hd hc h
  have hl := sc.view_dropped_last hv
  have hz := views_drop_no_table (viewsOf desired) (viewsOf current)
  have e := sc.out_eq
  rw [ho] at e
  intro ht
  rcases List.append_eq_append_iff.mp e with ⟨a, e1, e2⟩ | ⟨a, e1, e2⟩
  · cases a with
    | nil =>
      rw [List.nil_append] at e2
      have := List.filterMap_eq_nil_iff.mp hz (.dropTable t) (by rw [← e2]; simp [ht])
      cases this
    | cons b a =>
      injection e2 with e2 e3
      exact hl (by rw [e1, ← e2]; simp)
  · have := List.filterMap_eq_nil_iff.mp hz (.dropTable t) (by rw [e2]; simp [ht])
    cases this

/-- **C82** fails for views: on a server that does not drop a table as long as a view uses it, as Postgres, a run that is to drop both ends with
an error, whatever else it does. -/
theorem C82_table_of_a_dropped_view_is_refused {σ : Type} (db : Db σ) (hd : UniqueTables desired) (hc : UniqueTables current)
    (h : diff mode desired current = .ok out) {t v : Str} (ht : t ∈ createdNames current ∧ t ∉ createdNames desired)
    (hv : v ∉ (viewsOf desired).map (·.name)) {depends : σ → Prop} (g : Guards db mode out (.dropView v) t depends) (s : σ) (hs : depends s) :
    (runDDLs db (out.map (Stmt.render mode)) false s).err ≠ none := by
  have hm : t ∈ out.filterMap droppedTable := by
    rw [C82_tables_in_the_order_of_the_database hd hc h]
    exact List.mem_filter.mpr ⟨ht.1, by simpa using ht.2⟩
  obtain ⟨st, hst, e⟩ := List.mem_filterMap.mp hm
  cases st <;> simp only [droppedTable] at e <;> cases e
  obtain ⟨p, q, rfl⟩ := List.append_of_mem hst
  refine run_refused g s (fun hp => ?_) hs
  obtain ⟨a, b, rfl⟩ := List.append_of_mem hp
  exact C82_tables_are_dropped_before_views hd hc h hv (p := a) (q := b ++ .dropTable t :: q) (by simp) t (by simp)

/-- **C82** fails for tables: on a server that does not drop a table as long as another one has a foreign key to it, a run that is to drop both
ends with an error if the database lists the table with the foreign key later. -/
theorem C82_referenced_table_is_refused {σ : Type} (db : Db σ) (hd : UniqueTables desired) (hc : UniqueTables current)
    (h : diff mode desired current = .ok out) {t c : Str} {a b : List Str} (hl : createdNames current = a ++ t :: b) (hb : c ∈ b)
    (ht : t ∉ createdNames desired) {depends : σ → Prop} (g : Guards db mode out (.dropTable c) t depends) (s : σ) (hs : depends s) :
    (runDDLs db (out.map (Stmt.render mode)) false s).err ≠ none := by
  have hf := C82_tables_in_the_order_of_the_database hd hc h
  have hm : t ∈ out.filterMap droppedTable := by
    rw [hf, hl]
    exact List.mem_filter.mpr ⟨by simp, by simpa using ht⟩
  obtain ⟨st, hst, e⟩ := List.mem_filterMap.mp hm
  cases st <;> simp only [droppedTable] at e <;> cases e
  obtain ⟨p, q, rfl⟩ := List.append_of_mem hst
  refine run_refused g s (fun hp => ?_) hs
  have hn : (createdNames current).Nodup := hc
  rw [hl] at hn
  -- `c` comes before `t` among the dropped tables and after it in the database
  have h1 : List.Sublist [c, t] (createdNames current) := by
    refine List.Sublist.trans ?_ (List.filter_sublist (p := fun n => decide (n ∉ createdNames desired)))
    rw [← hf, List.filterMap_append]
    change List.Sublist ([c] ++ [t]) _
    refine List.Sublist.append ?_ ?_
    · rw [List.singleton_sublist]
      exact List.mem_filterMap.mpr ⟨_, hp, rfl⟩
    · rw [List.singleton_sublist]
      exact List.mem_filterMap.mpr ⟨.dropTable t, by simp, rfl⟩
  rw [hl] at h1
  obtain ⟨_, hn2, hn3⟩ := List.nodup_append.mp hn
  have hct : c ≠ t := fun e => (List.nodup_cons.mp hn2).1 (e ▸ hb)
  have hca : c ∉ a := fun e => hn3 c e c (by simp [hb]) rfl
  obtain ⟨l1, l2, e, s1, s2⟩ := List.sublist_append_iff.mp h1
  cases l1 with
  | nil =>
    simp only [List.nil_append] at e
    subst e
    cases s2 with
    | cons _ s3 => exact (List.nodup_cons.mp hn2).1 (s3.subset (by simp))
    | cons_cons _ s3 => exact hct rfl
  | cons x l1 =>
    injection e with e1 e2
    exact hca (s1.subset (by rw [e1]; simp))

/-! ### An example -/

/-- The table `users` of a database. -/
def exPeople : Table := { name := lit "public.users", columns := [] }

/-- A table that refers to it and is listed after it. -/
def exVisits : Table :=
  { name := lit "public.visits", columns := [],
    foreignKeys := [{ constraintName := lit "k", indexColumns := [lit "u"], referenceName := lit "public.users", referenceColumns := [lit "id"] }] }

/-- A database with both and a view. -/
def exUsedTables : List DDL :=
  [.createTable [] exPeople, .createTable [] exVisits, .view { statement := [], name := lit "seen", definition := lit "select id from users" }]

theorem exUsed_script : diff .postgres [] exUsedTables = .ok [.dropTable (lit "public.users"), .dropTable (lit "public.visits"), .dropView (lit "seen")] := by
  decide +kernel

/-- A server that remembers whether something still depends on `users`, until `release` is executed. -/
def exGuard (release : Str) : Db Bool where
  tableNames _ := .ok []
  dumpTableDDL _ _ := .ok []
  views _ := .ok []
  triggers _ := .ok []
  begin s := (none, s)
  exec x s := if x = release then (none, false) else (if s = true ∧ x = txt "DROP TABLE \"public\".\"users\"" then some [] else none, s)
  rollback s := (none, s)
  commit s := (none, s)

/-- Dropping the table and the view fails. -/
example : (runDDLs (exGuard (txt "DROP VIEW \"public\".\"seen\""))
    ([Stmt.dropTable (lit "public.users"), .dropTable (lit "public.visits"), .dropView (lit "seen")].map (Stmt.render .postgres)) false true).err ≠ none := by
  refine C82_table_of_a_dropped_view_is_refused (t := lit "public.users") (v := lit "seen") _ (by decide +kernel) (by decide +kernel) exUsed_script
    (by decide +kernel) (by decide +kernel) (depends := fun s => s = true) ⟨fun s h => h, ?_, ?_⟩ true rfl
  · rintro s rfl
    decide +kernel
  · rintro s st hst hn rfl
    simp only [List.mem_cons, List.not_mem_nil, or_false] at hst
    rcases hst with rfl | rfl | rfl
    · decide +kernel
    · decide +kernel
    · exact absurd rfl hn

/-- Dropping the table and the one that refers to it fails. -/
example : (runDDLs (exGuard (txt "DROP TABLE \"public\".\"visits\""))
    ([Stmt.dropTable (lit "public.users"), .dropTable (lit "public.visits"), .dropView (lit "seen")].map (Stmt.render .postgres)) false true).err ≠ none := by
  refine C82_referenced_table_is_refused (t := lit "public.users") (c := lit "public.visits") (a := []) (b := [lit "public.visits"]) _ (by decide +kernel)
    (by decide +kernel) exUsed_script (by decide +kernel) (by simp) (by decide +kernel) (depends := fun s => s = true) ⟨fun s h => h, ?_, ?_⟩ true rfl
  · rintro s rfl
    decide +kernel
  · rintro s st hst hn rfl
    simp only [List.mem_cons, List.not_mem_nil, or_false] at hst
    rcases hst with rfl | rfl | rfl
    · decide +kernel
    · exact absurd rfl hn
    · decide +kernel

/-- A database that lists the referring table first. -/
example : (out : List Stmt) → diff .postgres [] [.createTable [] exVisits, .createTable [] exPeople] = .ok out →
    (out.filterMap droppedTable).Pairwise fun a b => ¬ References [.createTable [] exVisits, .createTable [] exPeople] b a := by
  intro out h
  refine C82_referencing_tables_first_partial (by decide +kernel) (by decide +kernel) h ?_
  refine .cons ?_ (.cons (fun _ h => (by cases h)) .nil)
  intro b hb
  rintro ⟨t, ht, k, hk, -⟩
  rw [show tableIn [.createTable [] exVisits, .createTable [] exPeople] b = some exPeople by rw [List.mem_singleton.mp hb]; decide +kernel] at ht
  cases ht
  cases hk

end Sqldef
