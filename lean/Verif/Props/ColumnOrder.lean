import Verif.Proofs.ColumnOrder
import Verif.Props.Converge
import Verif.Model.Parser
/-!
The order of the columns: C28.

The names of the columns of a table `t`, in their order, are `t.columns.map (·.name)`.
-/
namespace Sqldef
open Spec

variable {mode : Mode} {desired current : List DDL} {out : List Stmt} {c : Catalog}

theorem after_of_exec (hd : UniqueTables desired) (hc : UniqueTables current) (hs : Supported mode desired current)
    (h : diff mode desired current = .ok out) (he : execAll mode out (catalogOf current) = some c) {t : Table}
    (ht : t ∈ created desired) : ∃ T, c.table t.name = some T ∧ TableAfter mode desired current t T := by
  obtain ⟨_, _, sc⟩ := script hd hc h
  obtain ⟨c', h1, -, h3⟩ := script_after sc hs
  rw [he] at h1
  cases h1
  exact h3 t ht

theorem names_keyNotNull (t : Table) : (keyNotNull t).names = t.names := by
  simp only [Table.names, keyNotNull, List.map_map]
  refine List.map_congr_left fun c _ => ?_
  simp only [Function.comp_apply]
  split <;> rfl

theorem NewTable.names {t T : Table} (h : NewTable desired t T) : T.names = t.names := by
  have : T.names = (keyNotNull t).names := congrArg (List.map fun c : Column => c.name) h.columns
  rw [this, names_keyNotNull]

/-- **C28 (partial: if the common columns keep their relative order).** After one run on MySQL the columns of a
table are in the order of the desired schema. -/
theorem C28_mysql_order_partial (hd : UniqueTables desired) (hc : UniqueTables current)
    (hs : Supported .mysql desired current) (h : diff .mysql desired current = .ok out)
    (he : execAll .mysql out (catalogOf current) = some c) {t : Table} (ht : t ∈ created desired)
    (hord : ∀ x ∈ tablesOf current, x.name = t.name →
      (x.columns.map (·.name)).filter (· ∈ t.columns.map (·.name)) = (t.columns.map (·.name)).filter (· ∈ x.columns.map (·.name))) :
    ∃ T, c.table t.name = some T ∧ T.columns.map (·.name) = t.columns.map (·.name) := by
  obtain ⟨T, hT, ha⟩ := after_of_exec hd hc hs h he ht
  refine ⟨T, hT, ?_⟩
  cases ha with
  | new _ hn => exact hn.names
  | shared x l v hx _ _ hf hfin =>
    have hx1 := hord x (tableIn_mem_tablesOf hx) (tableIn_name hx)
    have := fold_in_order (x := x) (d := t) (P := []) (Q := t.columns) (l := x.names) (f := fun m => decide (m ∈ t.names))
      hf.dCols (fun c hc => by simpa using List.mem_map_of_mem (f := fun c : Column => c.name) hc) hx1
    rw [← show T.names = T.columns.map (·.name) from rfl, hfin.names]
    exact this

/-- A table with a dropped, a new and two kept columns. -/
example :
    let before := [exCreate { name := lit "t", columns := [exInt "a" 0, exInt "old" 1, exInt "b" 2] }]
    let after := [exCreate { name := lit "t", columns := [exInt "new" 0, exInt "a" 1, exInt "mid" 2, exInt "b" 3] }]
    Supported .mysql after before ∧
    (tableAfter .mysql after before (lit "t")).map (Option.map fun T => T.columns.map (·.name)) =
      some (some [lit "new", lit "a", lit "mid", lit "b"]) := by
  refine ⟨by decide +kernel, by decide +kernel⟩

/-- **C28 is violated on MySQL when the common columns change their order**: one run does not give the desired order.
The columns `a, b, c` should become `c, b, a`, and become `c, a, b`. -/
theorem C28_mysql_order_missed : ∃ desired current, UniqueTables desired ∧ UniqueTables current ∧ Supported .mysql desired current ∧
    ∃ out c T t, diff .mysql desired current = .ok out ∧ execAll .mysql out (catalogOf current) = some c ∧
      t ∈ created desired ∧ c.table t.name = some T ∧ T.columns.map (·.name) ≠ t.columns.map (·.name) := by
  have key : tableAfter .mysql [exCreate { name := lit "t", columns := [exInt "c" 0, exInt "b" 1, exInt "a" 2] }]
      [exCreate { name := lit "t", columns := [exInt "a" 0, exInt "b" 1, exInt "c" 2] }] (lit "t") =
      some (some { name := lit "t", columns := [{ exInt "c" 0 with notNull := none }, exInt "a" 0, exInt "b" 1] }) := by decide +kernel
  refine ⟨[exCreate { name := lit "t", columns := [exInt "c" 0, exInt "b" 1, exInt "a" 2] }],
    [exCreate { name := lit "t", columns := [exInt "a" 0, exInt "b" 1, exInt "c" 2] }],
    by decide, by decide, by decide +kernel, ?_⟩
  unfold tableAfter at key
  split at key
  · next out ho =>
    cases he : execAll .mysql out (catalogOf [exCreate { name := lit "t", columns := [exInt "a" 0, exInt "b" 1, exInt "c" 2] }]) with
    | none => rw [he] at key; cases key
    | some c =>
      rw [he] at key
      simp only [Option.map_some, Option.some.injEq] at key
      exact ⟨out, c, _, { name := lit "t", columns := [exInt "c" 0, exInt "b" 1, exInt "a" 2] }, ho, he,
        by simp [created, exCreate], key, by decide⟩
  · cases key

/-- **C28.** Every run on MySQL brings one more column into its place: if the tables have the same columns and the
first `k` are in their place, then after the run the first `k + 1` are. -/
theorem C28_mysql_progress (hd : UniqueTables desired) (hc : UniqueTables current)
    (hs : Supported .mysql desired current) (h : diff .mysql desired current = .ok out)
    (he : execAll .mysql out (catalogOf current) = some c) {t x : Table} (ht : t ∈ created desired) (hx : x ∈ tablesOf current)
    (hn : x.name = t.name) (hnt : Numbered t.columns) (hnx : Numbered x.columns)
    (hp : (x.columns.map (·.name)).Perm (t.columns.map (·.name))) {k : Nat}
    (hk : (x.columns.map (·.name)).take k = (t.columns.map (·.name)).take k) :
    ∃ T, c.table t.name = some T ∧ (T.columns.map (·.name)).take (k + 1) = (t.columns.map (·.name)).take (k + 1) := by
  obtain ⟨T, hT, ha⟩ := after_of_exec hd hc hs h he ht
  refine ⟨T, hT, ?_⟩
  have hxt : tableIn current t.name = some x := by rw [← hn]; exact tableIn_of_mem hc hx
  cases ha with
  | new hno _ => rw [hxt] at hno; cases hno
  | shared x' l v hx' _ _ hf hfin =>
    rw [hxt] at hx'
    cases hx'
    show T.names.take (k + 1) = t.names.take (k + 1)
    by_cases hlt : k < t.columns.length
    · obtain ⟨R, hR⟩ := fold_progress hnx hnt hf.xCols hf.dCols hp hlt hk
      rw [hfin.names]
      show ((foldNames (stepNames x t) none t.columns x.names).filter fun m => decide (m ∈ t.names)).take (k + 1) = _
      rw [hR, List.filter_append]
      have hself : (t.names.take (k + 1)).filter (fun m => decide (m ∈ t.names)) = t.names.take (k + 1) := by
        rw [List.filter_eq_self]
        intro a ha
        simpa using List.mem_of_mem_take ha
      rw [hself]
      rw [List.take_append_of_le_length, List.take_take, Nat.min_self]
      simp only [List.length_take, Table.names, List.length_map]
      omega
    · -- the columns are in their place already
      have hlen : x.names.length = t.names.length := hp.length_eq
      have hl2 : t.names.length ≤ k := by simp only [Table.names, List.length_map]; omega
      have hxe : x.names = t.names := by
        have hk : x.names.take k = t.names.take k := hk
        rw [List.take_of_length_le (by omega), List.take_of_length_le hl2] at hk
        exact hk
      have := fold_in_order (x := x) (d := t) (P := []) (Q := t.columns) (l := x.names) (f := fun m => decide (m ∈ t.names))
        hf.dCols (fun c hc => by simpa using List.mem_map_of_mem (f := fun c : Column => c.name) hc) (by rw [hxe]; rfl)
      rw [hfin.names]
      show ((foldNames (stepNames x t) none t.columns x.names).filter fun m => decide (m ∈ t.names)).take (k + 1) = _
      rw [show (foldNames (stepNames x t) none t.columns x.names).filter (fun m => decide (m ∈ t.names)) = t.names from this]

/-! ### Reading a database with one table -/

theorem execAll_others {n : Str} {l : List Stmt} {c c' : Catalog} (hl : ∀ s ∈ l, Stmt.table s = some n) (h : execAll mode l c = some c') :
    c'.view = c.view ∧ c'.trigger = c.trigger ∧ ∀ m, m ≠ n → c'.table m = c.table m := by
  induction l generalizing c with
  | nil => cases h; exact ⟨rfl, rfl, fun _ _ => rfl⟩
  | cons s l ih =>
    simp only [execAll, Option.bind_eq_some_iff] at h
    obtain ⟨c1, h1, h2⟩ := h
    obtain ⟨e1, e2, e3⟩ := ih (fun s hs => hl s (List.mem_cons_of_mem _ hs)) h2
    have hs := hl s List.mem_cons_self
    have hv := view_of_table hs
    unfold exec at h1
    rw [hs, hv.1, hv.2] at h1
    obtain ⟨o, -, rfl⟩ := Option.map_eq_some_iff.1 h1
    exact ⟨e1, e2, fun m hm => by rw [e3 m hm]; simp [update, hm]⟩

/-- Every statement of the script is about the table. -/
def onlyAbout (mode : Mode) (desired current : List DDL) (n : Str) : Bool :=
  match diff mode desired current with
  | .ok out => out.all fun s => decide (Stmt.table s = some n)
  | .error _ => false

/-- One run on a database with one table. -/
theorem runOnce_one {x T : Table} (hT : tableAfter mode desired [exCreate x] x.name = some (some T)) (hn : T.name = x.name)
    (ho : onlyAbout mode desired [exCreate x] x.name = true) :
    RunOnce mode desired [exCreate x] [exCreate { T with columns := renumber 0 T.columns }] := by
  unfold tableAfter at hT
  unfold onlyAbout at ho
  split at hT
  · next out hdiff =>
    rw [hdiff] at ho
    simp only [List.all_eq_true, decide_eq_true_eq] at ho
    cases he : execAll mode out (catalogOf [exCreate x]) with
    | none => rw [he] at hT; cases hT
    | some c =>
      rw [he] at hT
      simp only [Option.map_some, Option.some.injEq] at hT
      obtain ⟨e1, e2, e3⟩ := execAll_others ho he
      refine ⟨out, c, hdiff, he, ?_, ?_, ?_, ?_, ?_⟩
      · simp [UniqueTables, createdNames, created, exCreate]
      · intro pre d post hp
        cases pre with
        | nil =>
          obtain ⟨rfl, rfl⟩ := List.cons.inj hp
          simp [FollowsCurrent, exCreate]
        | cons a pre =>
          obtain ⟨-, hp⟩ := List.cons.inj hp
          simp at hp
      · intro m
        by_cases hm : m = x.name
        · subst hm
          rw [hT]
          simp [exCreate, tableIn, tablesOf, created, complete, indexesFor, policiesFor, markedPrimary, foreignKeysFor, hn]
        · rw [e3 m hm]
          have hm' : x.name ≠ m := fun h => hm h.symm
          simp [exCreate, catalogOf, tableIn, tablesOf, created, complete, hn, hm']
      · intro m
        rw [e1]
        rfl
      · intro m
        rw [e2]
        rfl
  · cases hT

theorem renumber_names (i : Int) (cs : List Column) : (renumber i cs).map (·.name) = cs.map (·.name) := by
  induction cs generalizing i with
  | nil => rfl
  | cons c cs ih => simp [renumber, ih]

theorem renumber_get (n : Int) (cs : List Column) (i : Nat) (c : Column) (h : (renumber n cs)[i]? = some c) : c.position = n + i := by
  induction cs generalizing n i with
  | nil => simp [renumber] at h
  | cons e cs ih =>
    cases i with
    | zero =>
      simp only [renumber, List.getElem?_cons_zero, Option.some.injEq] at h
      subst h
      simp
    | succ i =>
      simp only [renumber, List.getElem?_cons_succ] at h
      rw [ih (n + 1) i h]
      push_cast
      omega

theorem runs_snoc {n : Nat} {a b : List DDL} (h : Runs mode desired (n + 1) a b) :
    ∃ m, Runs mode desired n a m ∧ UniqueTables m ∧ Supported mode desired m ∧ RunOnce mode desired m b := by
  induction n generalizing a with
  | zero =>
    cases h with
    | more hu hs h hr => cases hr; exact ⟨a, .none a, hu, hs, h⟩
  | succ n ih =>
    cases h with
    | more hu hs h hr =>
      obtain ⟨m, h1, h2⟩ := ih hr
      exact ⟨m, .more hu hs h h1, h2⟩

theorem runs_take (hd : UniqueTables desired) {t : Table} (ht : t ∈ created desired) (hnt : Numbered t.columns)
    {n : Nat} {current' : List DDL} (h : Runs .mysql desired (n + 1) current current') {T : Table}
    (hT : tableIn current' t.name = some T) :
    UniqueTables current' ∧ Numbered T.columns ∧ T.names.Perm t.names ∧ T.names.take n = t.names.take n := by
  induction n generalizing current' T with
  | zero =>
    obtain ⟨m, -, hu, hs, out, c, hdiff, he, hdesc⟩ := runs_snoc h
    have hTc := hdesc.tables t.name
    rw [hT] at hTc
    obtain ⟨T0, hT0, hTe⟩ := Option.map_eq_some_iff.1 hTc.symm
    obtain ⟨_, _, sc⟩ := script hd hu hdiff
    obtain ⟨c', h1, h2, -⟩ := script_after sc hs
    rw [he] at h1
    cases h1
    obtain ⟨T1, hT1, hr⟩ := h2.table t ht
    rw [hT0] at hT1
    cases hT1
    have hnames : T.names = T0.names := by rw [← hTe]; exact renumber_names 0 T0.columns
    refine ⟨hdesc.unique, ?_, ?_, by simp⟩
    · intro i e hi
      rw [← hTe] at hi
      simpa using renumber_get 0 T0.columns i e hi
    · rw [hnames]
      have := hr.columns
      rw [complete_columns sc.wd t] at this
      exact this
  | succ n ih =>
    obtain ⟨m, hm, hu, hs, out, c, hdiff, he, hdesc⟩ := runs_snoc h
    obtain ⟨_, _, sc⟩ := script hd hu hdiff
    -- the table before the last run
    obtain ⟨x, hx⟩ : ∃ x, tableIn m t.name = some x := by
      obtain ⟨m', -, hu', hs', out', c', hdiff', he', hdesc'⟩ := runs_snoc hm
      obtain ⟨T', hT', -⟩ := after_of_exec hd hu' hs' hdiff' he' ht
      rw [hdesc'.tables, hT']
      exact ⟨_, rfl⟩
    obtain ⟨-, hnx, hpx, hkx⟩ := ih hm hx
    obtain ⟨T0, hT0, htake⟩ := C28_mysql_progress hd hu hs hdiff he ht (tableIn_mem_tablesOf hx) (tableIn_name hx) hnt hnx hpx hkx
    obtain ⟨c', h1, h2, -⟩ := script_after sc hs
    rw [he] at h1
    cases h1
    obtain ⟨T1, hT1, hr⟩ := h2.table t ht
    rw [hT0] at hT1
    cases hT1
    have hTc := hdesc.tables t.name
    rw [hT, hT0] at hTc
    have hTe := Option.some.inj hTc
    have hnames : T.names = T0.names := by rw [hTe]; exact renumber_names 0 T0.columns
    refine ⟨hdesc.unique, ?_, ?_, by rw [hnames]; exact htake⟩
    · intro i e hi
      rw [hTe] at hi
      simpa using renumber_get 0 T0.columns i e hi
    · rw [hnames]
      have := hr.columns
      rw [complete_columns sc.wd t] at this
      exact this

/-- **C28.** Running the command repeatedly on MySQL reaches the desired order: as many runs as the table has columns
are enough, whatever the schema was before. -/
theorem C28_mysql_repeated_runs_reach_the_order (hd : UniqueTables desired) {t : Table} (ht : t ∈ created desired)
    (hnt : Numbered t.columns) {n : Nat} {current' : List DDL} (h : Runs .mysql desired n current current')
    (hn : t.columns.length ≤ n) (hn0 : 0 < n) {T : Table} (hT : tableIn current' t.name = some T) :
    T.columns.map (·.name) = t.columns.map (·.name) := by
  obtain ⟨n, rfl⟩ : ∃ m, n = m + 1 := ⟨n - 1, by omega⟩
  obtain ⟨-, -, hp, hk⟩ := runs_take hd ht hnt h hT
  show T.names = t.names
  have hlen := hp.length_eq
  -- all but the last name agree
  by_cases hl : t.names.length ≤ n
  · rwa [List.take_of_length_le (by omega), List.take_of_length_le hl] at hk
  · have hl' : t.names.length = n + 1 := by
      simp only [Table.names, List.length_map] at hl ⊢
      omega
    have hTl : T.names.length = n + 1 := by omega
    have e1 := List.take_append_drop n T.names
    have e2 := List.take_append_drop n t.names
    have hdrop : (T.names.drop n).Perm (t.names.drop n) := by
      have : (T.names.take n ++ T.names.drop n).Perm (t.names.take n ++ t.names.drop n) := by rw [e1, e2]; exact hp
      rw [hk] at this
      exact (List.perm_append_left_iff _).1 this
    have hd1 : (T.names.drop n).length = 1 := by rw [List.length_drop]; omega
    obtain ⟨a, ha⟩ := List.length_eq_one_iff.1 hd1
    rw [ha] at hdrop
    have := List.perm_singleton.1 hdrop.symm
    rw [← e1, ← e2, hk, ha, this]

/-- Two runs that bring `a, b, c` into the order `c, b, a`. -/
example : ∃ current', Runs .mysql [exCreate { name := lit "t", columns := [exInt "c" 0, exInt "b" 1, exInt "a" 2] }] 2
    [exCreate { name := lit "t", columns := [exInt "a" 0, exInt "b" 1, exInt "c" 2] }] current' := by
  refine ⟨[exCreate { name := lit "t", columns := [exInt "c" 0, exInt "b" 1, exInt "a" 2] }], ?_⟩
  refine .more (by decide) (by decide +kernel)
    (runOnce_one (T := { name := lit "t", columns := [exInt "c" 0, exInt "a" 0, exInt "b" 1] }) (by decide +kernel) rfl (by decide +kernel)) ?_
  refine .more (by decide) (by decide +kernel)
    (runOnce_one (T := { name := lit "t", columns := [exInt "c" 0, exInt "b" 1, exInt "a" 1] }) (by decide +kernel) rfl (by decide +kernel)) ?_
  exact .none _

/-- The parser numbers the columns of a table in their order. -/
theorem C28_parsed_columns_are_numbered (env : Env) (d : SqlDDL) {t : Table} (h : parseTable env mode d = .ok t) : Numbered t.columns := by
  have key : ∀ (spec : SqlTableSpec) (cs : List SqlColumn) (n i : Nat) (c : Column),
      (parseColumns env spec n cs)[i]? = some c → c.position = n + i := by
    intro spec cs
    induction cs with
    | nil => intro n i c h; simp [parseColumns] at h
    | cons e cs ih =>
      intro n i c h
      cases i with
      | zero =>
        simp only [parseColumns, List.getElem?_cons_zero, Option.some.injEq] at h
        subst h
        simp [parseColumn]
      | succ i =>
        simp only [parseColumns, List.getElem?_cons_succ] at h
        rw [ih (n + 1) i c h]
        push_cast
        omega
  unfold parseTable at h
  split at h
  · cases h
  · split at h
    · cases h
    obtain ⟨is, -, h⟩ := bind_ok.1 h
    cases h
    intro i c hi
    simpa using key _ _ 0 i c hi

/-- **C28.** In the other dialects existing columns keep their place and new columns are appended in the desired order. -/
theorem C28_other_dialects_append (hm : mode ≠ .mysql) (hd : UniqueTables desired) (hc : UniqueTables current)
    (hs : Supported mode desired current) (h : diff mode desired current = .ok out)
    (he : execAll mode out (catalogOf current) = some c) {t x : Table} (ht : t ∈ created desired) (hx : x ∈ tablesOf current)
    (hn : x.name = t.name) :
    ∃ T, c.table t.name = some T ∧ T.columns.map (·.name) =
      (x.columns.map (·.name)).filter (· ∈ t.columns.map (·.name)) ++ (t.columns.map (·.name)).filter (· ∉ x.columns.map (·.name)) := by
  obtain ⟨T, hT, ha⟩ := after_of_exec hd hc hs h he ht
  refine ⟨T, hT, ?_⟩
  have hxt : tableIn current t.name = some x := by rw [← hn]; exact tableIn_of_mem hc hx
  cases ha with
  | new hno _ => rw [hxt] at hno; cases hno
  | shared x' l v hx' _ _ hf hfin =>
    rw [hxt] at hx'
    cases hx'
    have hord : ordering mode x t = appendNames x := by cases mode <;> first | rfl | exact absurd rfl hm
    show T.names = _
    rw [hfin.names, hord, fold_append, List.filter_append]
    congr 1
    rw [List.filter_eq_self]
    intro a ha
    simpa using (List.mem_filter.1 ha).1

end Sqldef
