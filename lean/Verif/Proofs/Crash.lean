import Verif.Spec.Crash
import Verif.Proofs.Errors
import Verif.Proofs.Conversion
/-! The generator does not crash on complete definitions. -/
namespace Sqldef
open Spec

/-- The call returns a value or an error. -/
def Returns {α : Type} (r : Except Err α) : Prop := ¬ Crashes r

theorem returns_ok {α : Type} (a : α) : Returns (.ok a : Except Err α) := by
  unfold Returns Crashes; rintro (h | h) <;> cases h

theorem returns_pure {α : Type} (a : α) : Returns (pure a : Except Err α) := returns_ok a

theorem returns_error {α : Type} {e : Err} (h1 : e ≠ .panic) (h2 : e ≠ .fatal) : Returns (.error e : Except Err α) := by
  unfold Returns Crashes
  rintro (h | h) <;> cases h
  · exact h1 rfl
  · exact h2 rfl

theorem returns_bind {α β : Type} {x : Except Err α} {f : α → Except Err β} (hx : Returns x)
    (hf : ∀ a, x = .ok a → Returns (f a)) : Returns (x >>= f) := by
  cases x with
  | ok a => exact hf a rfl
  | error e =>
    unfold Returns Crashes at *
    rintro (h | h) <;> cases h <;> simp at hx

theorem returns_guardText {t : Except Err Str} (h : Returns t) (s : Stmt) : Returns (guardText t s) :=
  returns_bind h fun _ _ => returns_pure _

theorem returns_concatMapM {α β : Type} {f : α → Except Err (List β)} {l : List α} (h : ∀ a ∈ l, Returns (f a)) :
    Returns (concatMapM f l) := by
  induction l with
  | nil => exact returns_ok _
  | cons a l ih =>
    exact returns_bind (h a (by simp)) fun _ _ =>
      returns_bind (ih fun b hb => h b (by simp [hb])) fun _ _ => returns_pure _

theorem returns_mapM {α β : Type} {f : α → Except Err β} {l : List α} (h : ∀ a ∈ l, Returns (f a)) :
    Returns (l.mapM f) := by
  induction l with
  | nil => exact returns_pure _
  | cons a l ih =>
    rw [List.mapM_cons]
    exact returns_bind (h a (by simp)) fun _ _ =>
      returns_bind (ih fun b hb => h b (by simp [hb])) fun _ _ => returns_pure _

/-! ### Texts -/

theorem returns_default (v : Value) : Returns (generateDefaultDefinition v) := by
  unfold generateDefaultDefinition
  split <;> first | exact returns_ok _ | exact returns_error (by simp) (by simp)

theorem returns_columnDefinition {mode : Mode} {c : Column} (h : CompleteColumn mode c) (u : Bool) :
    Returns (generateColumnDefinition mode c u) := by
  refine returns_bind ?_ fun _ _ => returns_bind ?_ fun _ _ => returns_bind ?_ fun _ _ => returns_pure _
  · unfold defaultClause
    split
    · exact returns_ok _
    · split
      · exact returns_ok _
      · exact returns_bind (returns_default _) fun _ _ => returns_pure _
  · unfold keyClause
    split <;> first | exact returns_ok _ | exact returns_error (by simp) (by simp)
  · have part (hb : ∀ i, c.identity = some i → i.behavior = []) :
        Returns (if mode = .mssql then
          match c.sequence with
          | none => .ok []
          | some s =>
            match s.startWith, s.incrementBy, c.identity with
            | some a, some b, some i =>
              .ok (lit "IDENTITY(" ++ showInt a ++ lit "," ++ showInt b ++ lit ")" ++
                (if i.notForReplication then lit " NOT FOR REPLICATION" else []))
            | _, _, _ => .error .panic
          else .ok [] : Except Err Str) := by
      split
      · next hm =>
        split
        · exact returns_ok _
        · next s hs =>
          obtain ⟨i, hi, hc⟩ := h.sequence hm s hs
          rcases hc with hc | ⟨h1, h2⟩
          · exact absurd (hb i hi) hc
          · obtain ⟨a, ha⟩ := Option.ne_none_iff_exists'.1 h1
            obtain ⟨b, hb⟩ := Option.ne_none_iff_exists'.1 h2
            rw [ha, hb, hi]
            exact returns_ok _
      · exact returns_ok _
    unfold identityClause
    simp only
    cases hid : c.identity with
    | some i =>
      simp only
      split
      · exact returns_ok _
      · next hb => 
        have := part fun j hj => by rw [hid] at hj; cases hj; simpa using hb
        rw [hid] at this; exact this
    | none =>
      have := part fun j hj => by rw [hid] at hj; cases hj
      rw [hid] at this; exact this

theorem returns_indexOption {o : IndexOption} (h : o.value ≠ none) : Returns (mssqlIndexOption o) := by
  unfold mssqlIndexOption
  split
  · next hn => exact absurd hn h
  · exact returns_ok _

theorem returns_addIndex {mode : Mode} {i : Index} (h : HasOptionValues mode i) (n : Str) :
    Returns (generateAddIndex mode n i) := by
  refine returns_bind ?_ fun _ _ => ?_
  · unfold generateIndexOptionDefinition
    split
    · exact returns_ok _
    · next o rest ho =>
      split
      · have := h (.inl rfl) o (by simp [ho])
        split
        · next hn => exact absurd hn this
        · exact returns_ok _
      · exact returns_bind (returns_mapM fun o' ho' => returns_indexOption (h (.inr rfl) o' (by rw [ho]; exact ho')))
          fun _ _ => returns_pure _
      · exact returns_ok _
  · split
    · split <;> exact returns_pure _
    · exact returns_pure _

/-! ### Tables -/

theorem Spec.CompleteColumn.auto {mode : Mode} {c : Column} (h : CompleteColumn mode c) (b : Bool) :
    CompleteColumn mode { c with autoIncrement := b } := ⟨h.default, h.sequence⟩

theorem Spec.CompleteColumn.seen {mode : Mode} {c : Column} (h : CompleteColumn mode c) (cur : Column) :
    CompleteColumn mode (seen cur c) := by
  unfold Sqldef.seen; split
  · exact h
  · exact h.auto _

theorem returns_columnDDLs {mode : Mode} {x d : Table} {prev : Option Str} {c : Column} (h : CompleteColumn mode c) :
    Returns (columnDDLs mode x d prev c) := by
  unfold columnDDLs
  split
  · exact returns_guardText (returns_columnDefinition (h.auto _) _) _
  · next cur _ =>
    have h' := h.seen cur
    unfold seen at h'
    simp only
    generalize (if cur.autoIncrement = true then c else { c with autoIncrement := false }) = c' at *
    cases mode with
    | mysql =>
      refine returns_bind ?_ fun _ _ => returns_pure _
      unfold mysqlChange
      simp only
      split
      · exact returns_guardText (returns_columnDefinition h' _) _
      · exact returns_ok _
    | postgres =>
      refine returns_bind ?_ fun _ _ => returns_pure _
      unfold pgDefault
      split
      · split
        · exact returns_ok _
        · next v hv =>
          split
          · next hn => exact absurd hn (h'.default v hv)
          · exact returns_guardText (returns_default _) _
      · exact returns_ok _
    | mssql =>
      refine returns_bind ?_ fun _ _ => returns_bind ?_ fun _ _ => returns_pure _
      · unfold mssqlIdentity
        split
        · refine returns_bind ?_ fun _ _ => returns_pure _
          unfold mssqlIdentityAdd
          split
          · exact returns_ok _
          · exact returns_guardText (returns_columnDefinition h' _) _
        · exact returns_ok _
      · unfold mssqlDefault
        split
        · refine returns_bind ?_ fun _ _ => returns_pure _
          unfold mssqlDefaultAdd
          split
          · exact returns_ok _
          · next v hv =>
            split
            · next hn => exact absurd hn (h'.default v hv)
            · exact returns_guardText (returns_default _) _
        · exact returns_ok _
    | sqlite3 => exact returns_ok _

theorem mysql_complete {c : Column} (u : Bool) : Returns (generateColumnDefinition .mysql c u) := by
  refine returns_bind ?_ fun _ _ => returns_bind ?_ fun _ _ => returns_bind ?_ fun _ _ => returns_pure _
  · unfold defaultClause
    split
    · exact returns_ok _
    · split
      · exact returns_ok _
      · exact returns_bind (returns_default _) fun _ _ => returns_pure _
  · unfold keyClause
    split <;> first | exact returns_ok _ | exact returns_error (by simp) (by simp)
  · unfold identityClause
    simp only [reduceCtorEq, if_false]
    split
    · split <;> exact returns_ok _
    · exact returns_ok _

theorem withPrev_mem {prev p : Option Str} {cs : List Column} {c : Column} (h : (p, c) ∈ withPrev prev cs) : c ∈ cs := by
  induction cs generalizing prev with
  | nil => simp [withPrev] at h
  | cons a cs ih =>
    simp only [withPrev, List.mem_cons, Prod.mk.injEq] at h
    rcases h with ⟨-, rfl⟩ | h
    · simp
    · simp [ih h]

theorem primaryKey_optionValues {mode : Mode} {t : Table} (h : ∀ i ∈ t.indexes, HasOptionValues mode i) {pk : Index}
    (hp : t.primaryKey = some pk) : HasOptionValues mode pk := by
  unfold Table.primaryKey at hp
  split at hp
  · next i hi => cases hp; exact h _ (List.mem_of_find?_eq_some hi)
  · simp only at hp
    split at hp
    · cases hp
    · cases hp; intro _ o ho; simp at ho

theorem splitDot_isSome {n : Str} (h : '.' ∈ n) : ∃ p, splitDot n = some p := by
  induction n with
  | nil => simp at h
  | cons c n ih =>
    unfold splitDot
    by_cases hc : c = '.'
    · exact ⟨_, by rw [if_pos hc]⟩
    · rw [if_neg hc]
      obtain ⟨p, hp⟩ := ih (by
        rcases List.mem_cons.1 h with h | h
        · exact absurd h.symm hc
        · exact h)
      exact ⟨_, by rw [hp]⟩

theorem returns_createTable {mode : Mode} {x d : Table} (h : CompleteTable mode d) :
    Returns (generateDDLsForCreateTable mode x d) := by
  refine returns_bind ?_ fun _ _ => returns_bind ?_ fun _ _ => returns_bind ?_ fun _ _ => returns_bind ?_ fun _ _ =>
    returns_bind ?_ fun _ _ => returns_bind ?_ fun _ _ => returns_pure _
  · exact returns_concatMapM fun pc hpc => returns_columnDDLs (h.columns _ (withPrev_mem (p := pc.1) hpc))
  · unfold removeAutoIncrement
    split
    · next hm =>
      refine returns_concatMapM fun c _ => ?_
      split
      · rw [hm]; exact returns_guardText (mysql_complete _) _
      · exact returns_ok _
    · exact returns_ok _
  · unfold primaryKeyDDLs
    split
    · refine returns_bind ?_ fun _ _ => returns_bind ?_ fun _ _ => returns_pure _
      · unfold dropPrimaryKeyDDLs
        split
        · exact returns_ok _
        · split
          · exact returns_ok _
          · split
            · next hs =>
              obtain ⟨p, hp⟩ := splitDot_isSome (h.name rfl)
              rw [hp] at hs; cases hs
            · exact returns_ok _
          · exact returns_ok _
      · unfold addPrimaryKeyDDLs
        split
        · exact returns_ok _
        · next pk hp => exact returns_guardText (returns_addIndex (primaryKey_optionValues h.indexOptions hp) _) _
    · exact returns_ok _
  · refine returns_concatMapM fun i hi => ?_
    have := returns_addIndex (h.indexOptions i hi) d.name
    unfold tableIndexDDLs
    split
    · exact returns_ok _
    · split
      · split
        · exact returns_bind (returns_guardText this _) fun _ _ => returns_pure _
        · exact returns_ok _
      · exact returns_guardText this _
  · unfold addAutoIncrement
    split
    · next hm =>
      refine returns_concatMapM fun c _ => ?_
      split
      · rw [hm]; exact returns_guardText (mysql_complete _) _
      · exact returns_ok _
    · exact returns_ok _
  · refine returns_concatMapM fun f _ => ?_
    unfold tableForeignKeyDDLs
    split
    · exact returns_error (by simp) (by simp)
    · split
      · split <;> exact returns_ok _
      · exact returns_ok _

/-! ### The first loop -/

/-- Every index of every table has columns. -/
def IndexesHaveColumns (ts : List Table) : Prop := ∀ t ∈ ts, ∀ i ∈ t.indexes, HasColumns i

theorem forall_updateTable {P : Table → Prop} {ts : List Table} {n : Str} {f : Table → Table} (h : ∀ t ∈ ts, P t)
    (hf : ∀ t ∈ ts, P t → P (f t)) : ∀ t ∈ updateTable ts n f, P t := by
  induction ts with
  | nil => intro t ht; simp [updateTable] at ht
  | cons a ts ih =>
    intro t ht
    unfold updateTable at ht
    split at ht
    · rcases List.mem_cons.1 ht with rfl | ht
      · exact hf a (by simp) (h a (by simp))
      · exact h t (by simp [ht])
    · rcases List.mem_cons.1 ht with rfl | ht
      · exact h _ (by simp)
      · exact ih (fun t ht => h t (by simp [ht])) (fun t ht => hf t (by simp [ht])) t ht

theorem mem_mergeIndexes {a b : List Index} {i : Index} (h : i ∈ mergeIndexes a b) : i ∈ a ∨ i ∈ b := by
  induction b generalizing a with
  | nil => exact .inl h
  | cons x b ih =>
    unfold mergeIndexes at h
    split at h
    · rcases ih h with h | h
      · rcases List.mem_append.1 h with h | h
        · exact .inl h
        · exact .inr (by simp at h; simp [h])
      · exact .inr (by simp [h])
    · rcases ih h with h | h
      · exact .inl h
      · exact .inr (by simp [h])

/-- What the first loop preserves: `base` are the names of the tables of the current schema. -/
structure Steady (base : List Str) (pre : List DDL) (g : Gen) : Prop where
  columns : IndexesHaveColumns g.currentTables
  names : ∃ more, g.currentTables.map (·.name) = base ++ more ∧ ∀ n ∈ more, n ∈ createdNames pre
  desired : g.desiredTables.map (·.name) = createdNames pre

theorem createdNames_append' (a b : List DDL) : createdNames (a ++ b) = createdNames a ++ createdNames b := by
  simp [createdNames, created_append]

theorem Steady.keep {base : List Str} {pre : List DDL} {g g' : Gen} {d : DDL} (h : Steady base pre g)
    (hd : created [d] = []) (hc : IndexesHaveColumns g'.currentTables)
    (hn : g'.currentTables.map (·.name) = g.currentTables.map (·.name))
    (hn' : g'.desiredTables.map (·.name) = g.desiredTables.map (·.name)) : Steady base (pre ++ [d]) g' := by
  have : createdNames (pre ++ [d]) = createdNames pre := by simp [createdNames, created_append, hd]
  refine ⟨hc, ?_, ?_⟩
  · rw [hn, this]; exact h.names
  · rw [hn', this]; exact h.desired

theorem Steady.createIndex {base : List Str} {pre : List DDL} {g g' : Gen} {d : DDL} {n : Str} {i : Index}
    {x : List Stmt} (h : Steady base pre g) (hd : created [d] = []) (hi : HasColumns i)
    (hs : stepCreateIndex g d n i = .ok (g', x)) : Steady base (pre ++ [d]) g' := by
  simp only [stepCreateIndex] at hs
  split at hs
  · cases hs
  · next t ht =>
    split at hs
    · cases hs
    · split at hs
      · cases hs
      · cases hs
        refine h.keep hd ?_ ?_ ?_
        · refine forall_updateTable h.columns fun u hu hu' => ?_
          intro j hj
          have htc := h.columns t (find_mem ht)
          simp only at hj
          split at hj
          · rcases List.mem_append.1 hj with hj | hj
            · exact htc j hj
            · simp at hj; subst hj; exact hi
          · split at hj
            · obtain ⟨k, hk, rfl⟩ := List.mem_map.1 hj
              split
              · exact hi
              · exact htc k hk
            · exact htc j hj
        · simp only; rw [updateTable_names _ _ _ (by simp)]
        · simp only; rw [updateTable_names _ _ _ (by simp)]

theorem Steady.step {base : List Str} {pre : List DDL} {g g' : Gen} {d : DDL} {x : List Stmt} {mode : Mode}
    (h : Steady base pre g) (hd : CompleteDesired mode d) (hs : Sqldef.step g d = .ok (g', x)) :
    Steady base (pre ++ [d]) g' := by
  cases d with
  | createTable s t =>
    simp only [Sqldef.step, stepCreateTable] at hs
    have ht : ∀ i ∈ t.indexes, HasColumns i := hd.indexColumns
    have hcn : createdNames (pre ++ [.createTable s t]) = createdNames pre ++ [t.name] := by
      simp [createdNames, created_append, created]
    obtain ⟨more, hm, hm'⟩ := h.names
    split at hs
    · next u hu =>
      obtain ⟨l, -, hs⟩ := bind_ok.1 hs
      cases hs
      refine ⟨?_, ⟨more, ?_, ?_⟩, ?_⟩
      · refine forall_updateTable h.columns fun v hv hv' i hi => ?_
        rcases mem_mergeIndexes hi with hi | hi
        · exact hv' i hi
        · exact ht i hi
      · simp only; rw [updateTable_names _ _ _ (by simp [mergeTable]), hm]
      · intro n hn; rw [hcn]; simp [hm' n hn]
      · simp [h.desired, hcn]
    · cases hs
      refine ⟨?_, ⟨more ++ [t.name], ?_, ?_⟩, ?_⟩
      · intro u hu
        rcases List.mem_append.1 hu with hu | hu
        · exact h.columns u hu
        · simp at hu; subst hu; exact ht
      · simp [hm]
      · intro n hn
        rw [hcn]
        rcases List.mem_append.1 hn with hn | hn
        · simp [hm' n hn]
        · simp at hn; simp [hn]
      · simp [h.desired, hcn]
  | createIndex s n i => exact h.createIndex rfl hd hs
  | addIndex s n i => exact h.createIndex rfl hd hs
  | addForeignKey s n f =>
    simp only [Sqldef.step, stepAddForeignKey] at hs
    split at hs
    · cases hs
    · split at hs
      · cases hs
      · cases hs
        exact h.keep rfl h.columns rfl (by simp only; rw [updateTable_names _ _ _ (by simp)])
  | addPolicy s n p =>
    simp only [Sqldef.step, stepCreatePolicy] at hs
    split at hs
    · cases hs
    · split at hs
      · cases hs
      · split at hs
        · cases hs
        · cases hs
          refine h.keep rfl ?_ ?_ ?_
          · exact forall_updateTable h.columns fun v hv hv' => hv'
          · simp only; rw [updateTable_names _ _ _ (by simp)]
          · simp only; rw [updateTable_names _ _ _ (by simp)]
  | view v =>
    simp only [Sqldef.step, stepCreateView] at hs
    split at hs
    · cases hs
    · cases hs; exact h.keep rfl h.columns rfl rfl
  | trigger t =>
    simp only [Sqldef.step, stepCreateTrigger] at hs
    split at hs <;> cases hs <;> exact h.keep rfl h.columns rfl rfl
  | addPrimaryKey s n i => cases hs

theorem step_mode {g g' : Gen} {d : DDL} {x : List Stmt} (hs : step g d = .ok (g', x)) : g'.mode = g.mode := by
  cases d with
  | createTable s t =>
    simp only [step, stepCreateTable] at hs
    split at hs
    · obtain ⟨l, -, hs⟩ := bind_ok.1 hs; cases hs; rfl
    · cases hs; rfl
  | createIndex s n i =>
    simp only [step, stepCreateIndex] at hs
    split at hs
    · cases hs
    · split at hs
      · cases hs
      · split at hs <;> cases hs; rfl
  | addIndex s n i =>
    simp only [step, stepCreateIndex] at hs
    split at hs
    · cases hs
    · split at hs
      · cases hs
      · split at hs <;> cases hs; rfl
  | addForeignKey s n f =>
    simp only [step, stepAddForeignKey] at hs
    split at hs
    · cases hs
    · split at hs <;> cases hs; rfl
  | addPolicy s n p =>
    simp only [step, stepCreatePolicy] at hs
    split at hs
    · cases hs
    · split at hs
      · cases hs
      · split at hs <;> cases hs; rfl
  | view v =>
    simp only [step, stepCreateView] at hs
    split at hs <;> cases hs; rfl
  | trigger t =>
    simp only [step, stepCreateTrigger] at hs
    split at hs <;> cases hs <;> rfl
  | addPrimaryKey s n i => cases hs

theorem returns_step {g : Gen} {d : DDL} (hd : CompleteDesired g.mode d) : Returns (step g d) := by
  have index : ∀ {d : DDL} {n : Str} {i : Index}, Returns (stepCreateIndex g d n i) := by
    intro d n i
    simp only [stepCreateIndex]
    split
    · exact returns_error (by simp) (by simp)
    · split
      · exact returns_error (by simp) (by simp)
      · split
        · exact returns_error (by simp) (by simp)
        · exact returns_ok _
  cases d with
  | createTable s t =>
    simp only [step, stepCreateTable]
    split
    · exact returns_bind (returns_createTable hd) fun _ _ => returns_pure _
    · exact returns_ok _
  | createIndex s n i => exact index
  | addIndex s n i => exact index
  | addForeignKey s n f =>
    simp only [step, stepAddForeignKey]
    split
    · exact returns_error (by simp) (by simp)
    · split
      · exact returns_error (by simp) (by simp)
      · exact returns_ok _
  | addPolicy s n p =>
    simp only [step, stepCreatePolicy]
    split
    · exact returns_error (by simp) (by simp)
    · split
      · exact returns_error (by simp) (by simp)
      · split
        · exact returns_error (by simp) (by simp)
        · exact returns_ok _
  | view v =>
    simp only [step, stepCreateView]
    split
    · exact returns_error (by simp) (by simp)
    · exact returns_ok _
  | trigger t =>
    simp only [step, stepCreateTrigger]
    split <;> exact returns_ok _
  | addPrimaryKey s n i => exact returns_error (by simp) (by simp)

theorem returns_steps {g : Gen} {ds : List DDL} (hd : ∀ d ∈ ds, CompleteDesired g.mode d) : Returns (steps g ds) := by
  induction ds generalizing g with
  | nil => exact returns_ok _
  | cons d ds ih =>
    refine returns_bind (returns_step (hd d (by simp))) fun ⟨g1, x⟩ h1 => returns_bind (ih ?_) fun ⟨g2, y⟩ h2 => returns_pure _
    intro e he
    rw [step_mode h1]
    exact hd e (by simp [he])

theorem steady_steps {base : List Str} {ds pre : List DDL} {g g' : Gen} {x : List Stmt} (h : Steady base pre g)
    (hd : ∀ d ∈ ds, CompleteDesired g.mode d) (hs : steps g ds = .ok (g', x)) :
    Steady base (pre ++ ds) g' ∧ g'.mode = g.mode := by
  induction ds generalizing pre g x with
  | nil => cases hs; simpa using h
  | cons d ds ih =>
    obtain ⟨⟨g1, x1⟩, h1, hs⟩ := bind_ok.1 hs
    obtain ⟨⟨g2, x2⟩, h2, hs⟩ := bind_ok.1 hs
    cases hs
    have hm := step_mode h1
    obtain ⟨h3, h4⟩ := ih (h.step (hd d (by simp)) h1) (fun e he => by rw [hm]; exact hd e (by simp [he])) h2
    exact ⟨by simpa using h3, h4.trans hm⟩

/-! ### Cleaning up -/

theorem returns_absentIndex {mode : Mode} {i : Index} {x d : Table} (h : HasColumns i) : Returns (absentIndex mode i x d) := by
  unfold absentIndex
  split
  · split
    · split <;> exact returns_ok _
    · split
      · next hn => exact absurd hn h
      · split
        · exact returns_error (by simp) (by simp)
        · exact returns_ok _
  · split
    · split
      · next hn => exact absurd hn h
      · split <;> exact returns_ok _
    · exact returns_ok _

theorem returns_cleanupTable {mode : Mode} {x d : Table} (h : ∀ i ∈ x.indexes, HasColumns i) :
    Returns (cleanupTable mode x d) := by
  refine returns_bind (returns_concatMapM fun i hi => ?_) fun _ _ => returns_pure _
  exact returns_absentIndex (h i (List.mem_filter.1 hi).1)

theorem returns_cleanupTables {mode : Mode} {dts rem ts : List Table} (h : IndexesHaveColumns ts)
    (hn : ((ts.map (·.name)).filter (· ∉ dts.map (·.name))).Nodup)
    (hr : ∀ n ∈ ts.map (·.name), n ∉ dts.map (·.name) → n ∈ rem.map (·.name)) :
    Returns (cleanupTables mode dts rem ts) := by
  induction ts generalizing rem with
  | nil => exact returns_ok _
  | cons t ts ih =>
    have h' : IndexesHaveColumns ts := fun u hu => h u (by simp [hu])
    unfold cleanupTables
    split
    · next hf =>
      have hf' : t.name ∉ dts.map (·.name) := find_none.1 hf
      simp only [List.map_cons, List.filter_cons, hf', not_false_eq_true, decide_true, if_true] at hn
      obtain ⟨hn1, hn2⟩ := List.nodup_cons.1 hn
      have hrem : rem.any (·.name = t.name) = true := by
        obtain ⟨u, hu, he⟩ := List.mem_map.1 (hr t.name (by simp) hf')
        exact List.any_eq_true.2 ⟨u, hu, by simpa using he⟩
      refine returns_bind (by unfold removeTableByName; rw [if_pos hrem]; exact returns_ok _) fun r hr' =>
        returns_bind (ih h' hn2 ?_) fun _ _ => returns_pure _
      intro n hn3 hn4
      unfold removeTableByName at hr'
      rw [if_pos hrem] at hr'
      cases hr'
      obtain ⟨u, hu, he⟩ := List.mem_map.1 (hr n (by simp [hn3]) hn4)
      refine List.mem_map.2 ⟨u, List.mem_filter.2 ⟨hu, ?_⟩, he⟩
      have : n ≠ t.name := by
        rintro rfl
        exact hn1 (List.mem_filter.2 ⟨hn3, by simpa using hn4⟩)
      simpa [he] using this
    · next d hf =>
      have hf' : t.name ∈ dts.map (·.name) := find_isSome.1 ⟨d, hf⟩
      refine returns_bind (returns_cleanupTable (h t (by simp))) fun _ _ =>
        returns_bind (ih h' ?_ ?_) fun _ _ => returns_pure _
      · rw [List.map_cons, List.filter_cons_of_neg (by simpa using hf')] at hn
        exact hn
      · intro n hn3 hn4; exact hr n (by simp [hn3]) hn4

/-! ### The current schema -/

theorem returns_convertFrom {ts : List Table} {ds : List DDL} (hd : ∀ d ∈ ds, CompleteCurrent d) :
    Returns (convertFrom ts ds) := by
  induction ds generalizing ts with
  | nil => exact returns_ok _
  | cons d ds ih =>
    refine returns_bind ?_ fun ts' _ => ih fun e he => hd e (by simp [he])
    have hd := hd d (by simp)
    unfold convertStep
    split
    · exact returns_ok _
    · split <;> first | exact returns_error (by simp) (by simp) | exact returns_ok _
    · split
      · exact returns_error (by simp) (by simp)
      · split
        · next hn => exact absurd hn hd
        · exact returns_ok _
    · split <;> first | exact returns_error (by simp) (by simp) | exact returns_ok _
    · split <;> first | exact returns_error (by simp) (by simp) | exact returns_ok _
    · exact returns_ok _
    · exact returns_ok _
    · exact returns_error (by simp) (by simp)

theorem convertStep_columns {ts ts' : List Table} {d : DDL} (h : IndexesHaveColumns ts) (hd : CompleteCurrent d)
    (hs : convertStep ts d = .ok ts') : IndexesHaveColumns ts' := by
  cases d with
  | createTable s t =>
    cases hs
    intro u hu
    rcases List.mem_append.1 hu with hu | hu
    · exact h u hu
    · simp at hu; subst hu; exact hd
  | createIndex s n i =>
    simp only [convertStep] at hs
    split at hs
    · cases hs
    · cases hs
      refine forall_updateTable h fun u hu hu' j hj => ?_
      rcases List.mem_append.1 hj with hj | hj
      · exact hu' j hj
      · simp at hj; subst hj; exact hd
  | addPrimaryKey s n i =>
    simp only [convertStep] at hs
    split at hs
    · cases hs
    · split at hs
      · split at hs
        · cases hs; exact h
        · cases hs
      · cases hs; exact forall_updateTable h fun u hu hu' => hu'
  | addForeignKey s n i =>
    simp only [convertStep] at hs
    split at hs
    · cases hs
    · cases hs; exact forall_updateTable h fun u hu hu' => hu'
  | addPolicy s n i =>
    simp only [convertStep] at hs
    split at hs
    · cases hs
    · cases hs; exact forall_updateTable h fun u hu hu' => hu'
  | view v => cases hs; exact h
  | trigger v => cases hs; exact h
  | addIndex s n i => cases hs

theorem convertFrom_steady {ts ts' : List Table} {pre ds : List DDL} (h : IndexesHaveColumns ts)
    (hn : ts.map (·.name) = createdNames pre) (hd : ∀ d ∈ ds, CompleteCurrent d) (hs : convertFrom ts ds = .ok ts') :
    IndexesHaveColumns ts' ∧ ts'.map (·.name) = createdNames (pre ++ ds) := by
  induction ds generalizing ts pre with
  | nil => cases hs; exact ⟨h, by simpa using hn⟩
  | cons d ds ih =>
    obtain ⟨ts1, h1, h2⟩ := bind_ok.1 hs
    obtain ⟨h3, h4⟩ := ih (convertStep_columns h (hd d (by simp)) h1) (convertStep_names hn h1).1
      (fun e he => hd e (by simp [he])) h2
    exact ⟨h3, by simpa using h4⟩

theorem returns_diff {mode : Mode} {desired current : List DDL} (hd : ∀ d ∈ desired, CompleteDesired mode d)
    (hc : ∀ d ∈ current, CompleteCurrent d) (ho : ObsoleteOnce desired current) : Returns (diff mode desired current) := by
  refine returns_bind (returns_convertFrom hc) fun ts hts => ?_
  obtain ⟨h1, h2⟩ := convertFrom_steady (ts := []) (pre := []) (fun t ht => by simp at ht) rfl hc hts
  refine returns_bind (returns_steps hd) fun ⟨g', x⟩ hs => returns_bind ?_ fun _ _ => returns_pure _
  obtain ⟨h3, -⟩ := steady_steps (base := createdNames current) (pre := []) ⟨h1, ⟨[], by simpa using h2, by simp⟩, rfl⟩ hd hs
  obtain ⟨more, hm, hm'⟩ := h3.names
  refine returns_cleanupTables h3.columns ?_ fun n hn _ => hn
  rw [hm, h3.desired, List.nil_append, List.filter_append]
  have : more.filter (· ∉ createdNames desired) = [] := by
    rw [List.filter_eq_nil_iff]
    intro n hn
    simpa using hm' n hn
  rw [this, List.append_nil]
  exact ho

/-! ### Texts -/

theorem listRel_nonempty {α β : Type} {R : Nat → α → β → Prop} {as : List α} {bs : List β} (h : ListRel R as bs)
    (ha : as ≠ []) : bs ≠ [] := by
  intro hb
  have := h.1
  rw [hb] at this
  exact ha (List.length_eq_zero_iff.1 this)

theorem listRel_back {α β : Type} {R : Nat → α → β → Prop} {as : List α} {bs : List β} (h : ListRel R as bs) {b : β}
    (hb : b ∈ bs) : ∃ a ∈ as, ∃ i, R i a b := by
  obtain ⟨i, hi, rfl⟩ := List.mem_iff_getElem.1 hb
  have hi' : i < as.length := by rw [h.1]; exact hi
  exact ⟨as[i], List.getElem_mem hi', i, h.2 i _ _ (List.getElem?_eq_getElem hi') (List.getElem?_eq_getElem hi)⟩

theorem optRel_ne {α β : Type} {R : α → β → Prop} {a : Option α} {b : Option β} (h : OptRel R a b) (ha : a ≠ none) :
    b ≠ none := by
  cases h with
  | none => exact absurd rfl ha
  | some _ => simp

theorem toUpper_ne {s : Str} (h : s ≠ []) : toUpper s ≠ [] := by
  intro he
  unfold toUpper at he
  simp at he
  exact h he

theorem keepsOptions {mode : Mode} {as : List SqlIndexOption} {i : Index}
    (h : ListRel (fun _ => KeepsIndexOption) as i.options) (hw : WholeOptions mode as) : HasOptionValues mode i := by
  intro hm o ho
  obtain ⟨a, ha, -, hao⟩ := listRel_back h ho
  exact optRel_ne hao.value (hw hm a ha)

theorem keepsColumn_complete {mode : Mode} {i : Nat} {a : SqlColumn} {b : Column} (h : KeepsColumn i a b)
    (hw : WholeColumn mode a) : CompleteColumn mode b := by
  constructor
  · intro d hd hv
    cases hda : a.type.default with
    | none =>
      have := h.default.2 (by simp [hda])
      rw [hd] at this; cases this
    | some e =>
      cases hev : e.value with
      | none =>
        have := h.default.2 (by intro e' he'; rw [hda] at he'; cases he'; exact hev)
        rw [hd] at this; cases this
      | some v =>
        obtain ⟨d', hd', hk⟩ := h.default.1 e v hda hev
        rw [hd] at hd'
        cases hd'
        exact optRel_ne hk.value (by simp [hev]) hv
  · intro hm s hs
    have hseq := h.sequence
    have hid := h.identity
    cases hai : a.type.identity with
    | none => rw [hai, hs] at hseq; cases hseq
    | some j =>
      rw [hai] at hid
      cases hbi : b.identity with
      | none => rw [hbi] at hid; cases hid
      | some k =>
        rw [hbi] at hid
        have hid' : KeepsIdentity j k := by cases hid; assumption
        refine ⟨k, rfl, ?_⟩
        rw [hai] at hseq
        simp only [Option.bind_some] at hseq
        cases hjs : j.sequence with
        | none => rw [hjs, hs] at hseq; cases hseq
        | some q =>
          rw [hjs, hs] at hseq
          cases hseq with
          | some hq =>
            rcases hw hm j q hai hjs with hb | ⟨h1, h2⟩
            · refine .inl ?_
              rw [hid'.behavior]
              exact toUpper_ne hb
            · exact .inr ⟨optRel_ne hq.start h1, optRel_ne hq.increment h2⟩

theorem keepsTableName_dot {a : SqlTableName} {n : Str} (h : KeepsTableName .postgres a n) : '.' ∈ n := by
  by_cases hq : a.qualifier = []
  · rw [h.2.1 rfl hq]; exact List.mem_append_left _ (by decide)
  · rw [h.1 rfl hq]; simp

theorem completeDesired_of_says {mode : Mode} {text : Str} {a : SqlDDL} {d : DDL} (h : SaysTheSame mode text a d)
    (hw : WholeStatement mode a) : CompleteDesired mode d := by
  cases h with
  | createTable ha hs hn hc hi hf hp =>
    obtain ⟨spec, hspec, hw1, hw2⟩ := hw.table ha
    rw [hs] at hspec
    cases hspec
    refine ⟨fun hm => ?_, fun c hc' => ?_, fun i hi' => ?_, fun i hi' => ?_⟩
    · subst hm; exact keepsTableName_dot hn
    · obtain ⟨b, hb, j, hbc⟩ := listRel_back hc hc'
      exact keepsColumn_complete hbc (hw1 b hb).1
    · obtain ⟨b, hb, j, hbc⟩ := listRel_back hi hi'
      exact listRel_nonempty hbc.columns (hw2 b hb).1
    · obtain ⟨b, hb, j, hbc⟩ := listRel_back hi hi'
      exact keepsOptions hbc.options (hw2 b hb).2
  | createIndex ha hs hn hi => exact listRel_nonempty hi.columns (hw.indexColumns (by simp [ha]))
  | addIndex ha hs hn hi => exact listRel_nonempty hi.columns (hw.indexColumns (by simp [ha]))
  | addPrimaryKey ha hs hn hi => trivial
  | addForeignKey => trivial
  | addPolicy => trivial
  | view => trivial
  | trigger => trivial

theorem completeCurrent_of_says {mode : Mode} {text : Str} {a : SqlDDL} {d : DDL} (h : SaysTheSame mode text a d)
    (hw : WholeStatement mode a) : CompleteCurrent d := by
  cases h with
  | createTable ha hs hn hc hi hf hp =>
    obtain ⟨spec, hspec, hw1, hw2⟩ := hw.table ha
    rw [hs] at hspec
    cases hspec
    intro i hi'
    obtain ⟨b, hb, j, hbc⟩ := listRel_back hi hi'
    exact listRel_nonempty hbc.columns (hw2 b hb).1
  | createIndex ha hs hn hi => exact listRel_nonempty hi.columns (hw.indexColumns (by simp [ha]))
  | addIndex ha hs hn hi => trivial
  | addPrimaryKey ha hs hn hi => exact listRel_nonempty hi.columns (hw.indexColumns (by simp [ha]))
  | addForeignKey => trivial
  | addPolicy => trivial
  | view => trivial
  | trigger => trivial

theorem returns_indexColumns (cs : List SqlIndexColumn) : Returns (parseIndexColumns cs) := by
  induction cs with
  | nil => exact returns_ok _
  | cons c cs ih =>
    refine returns_bind ?_ fun _ _ => returns_bind ih fun _ _ => returns_pure _
    unfold parseLength
    split
    · exact returns_ok _
    · split
      · exact returns_error (by simp) (by simp)
      · split
        · exact returns_ok _
        · exact returns_error (by simp) (by simp)

theorem returns_tableIndexes (env : Env) (is : List SqlIndexDef) : Returns (parseTableIndexes env is) := by
  induction is with
  | nil => exact returns_ok _
  | cons i is ih =>
    exact returns_bind (returns_indexColumns _) fun _ _ => returns_bind ih fun _ _ => returns_pure _

theorem returns_parseIndex (env : Env) {a : SqlDDL}
    (hw : ∀ s w, a.indexSpec = some s → s.whereClause = some w → w.expr.panics = false) : Returns (parseIndex env a) := by
  unfold parseIndex
  split
  · exact returns_error (by simp) (by simp)
  · next s hs =>
    have h : wherePanics s.whereClause = false := by
      cases h : s.whereClause with
      | none => rfl
      | some w => simp [wherePanics, hw s w hs h]
    simp only [h]
    exact returns_bind (returns_indexColumns _) fun _ _ => returns_pure _

theorem returns_convert (env : Env) {mode : Mode} {text : Str} {a : SqlDDL} (hw : WholeStatement mode a) :
    Returns (convertStatement env mode text (.ddl a)) := by
  unfold convertStatement
  simp only
  split
  · next h =>
    refine returns_bind ?_ fun _ _ => returns_pure _
    obtain ⟨spec, hspec, hcols, -⟩ := hw.table h
    unfold parseTable
    have hc : spec.columns.any SqlColumn.checkPanics = false := by
      rw [List.any_eq_false]
      intro c hc
      unfold SqlColumn.checkPanics
      split
      · simp
      · next k hk => simp [(hcols c hc).2 k hk]
    simp only [hspec, hc]
    exact returns_bind (returns_tableIndexes _ _) fun _ _ => returns_pure _
  · split
    · next h => exact returns_bind (returns_parseIndex _ (hw.condition (by simp [h]))) fun _ _ => returns_pure _
    · split
      · next h => exact returns_bind (returns_parseIndex _ (hw.condition (by simp [h]))) fun _ _ => returns_pure _
      · split
        · next h => exact returns_bind (returns_parseIndex _ (hw.condition (by simp [h]))) fun _ _ => returns_pure _
        · split
          · next h =>
            split
            · next hn => exact absurd hn (hw.foreignKey h)
            · exact returns_ok _
          · split
            · next h =>
              obtain ⟨p, hp, hu, hc⟩ := hw.policy h
              have hu : predicatePanics p.using_ = false := by
                cases he : p.using_ with
                | none => rfl
                | some e => exact hu e he
              have hc : predicatePanics p.withCheck = false := by
                cases he : p.withCheck with
                | none => rfl
                | some e => exact hc e he
              simp only [hp, hu, hc]
              exact returns_ok _
            · split
              · next h =>
                obtain ⟨v, hv, hp⟩ := hw.view h
                simp only [hv, hp]
                exact returns_ok _
              · split
                · next h =>
                  obtain ⟨t, ht, hp⟩ := hw.trigger h
                  simp only [ht, hp]
                  exact returns_ok _
                · exact returns_error (by simp) (by simp)

theorem returns_parsePieces {env : Env} {mode : Mode}
    (hp : ∀ text, Returns (env.parse mode text))
    (hw : ∀ text a, env.parse mode text = .ok (.ddl a) → WholeStatement mode a) (ps : List Str) :
    Returns (parsePieces env mode ps) := by
  induction ps with
  | nil => exact returns_ok _
  | cons p ps ih =>
    unfold parsePieces
    simp only
    split
    · exact ih
    · refine returns_bind ?_ fun _ _ => returns_bind ih fun _ _ => returns_pure _
      unfold parseDDL
      split
      · next e he => exact returns_error (fun h => hp _ (.inl (h ▸ he))) (fun h => hp _ (.inr (h ▸ he)))
      · next s hs =>
        cases s with
        | other => exact returns_error (by simp) (by simp)
        | ddl a => exact returns_convert env (hw _ a hs)

theorem parsePieces_says {env : Env} {mode : Mode} {ps : List Str} {ds : List DDL} (h : parsePieces env mode ps = .ok ds) :
    ∀ d ∈ ds, ∃ text a, env.parse mode text = .ok (.ddl a) ∧ SaysTheSame mode text a d := by
  induction ps generalizing ds with
  | nil => cases h; simp
  | cons p ps ih =>
    unfold parsePieces at h
    simp only at h
    split at h
    · exact ih h
    · obtain ⟨d, hd, h⟩ := bind_ok.1 h
      obtain ⟨ds', hds, h⟩ := bind_ok.1 h
      cases h
      intro e he
      rcases List.mem_cons.1 he with rfl | he
      · unfold parseDDL at hd
        split at hd
        · cases hd
        · next s hs =>
          cases s with
          | other => cases hd
          | ddl a => exact ⟨_, a, hs, saysTheSame_convert env mode _ a _ hd⟩
      · exact ih hds e he

end Sqldef
