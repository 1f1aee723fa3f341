import Verif.Proofs.TableScript
import Verif.Props.Objects
/-!
The order of the statements: C26, C27.
-/
namespace Sqldef
open Spec

variable {mode : Mode} {desired current : List DDL} {out : List Stmt}

/-! ### C26 -/

theorem pairwise_append_le {l m : List Nat} {b : Nat} (hl : l.Pairwise (· ≤ ·)) (hm : m.Pairwise (· ≤ ·))
    (h1 : ∀ a ∈ l, a ≤ b) (h2 : ∀ a ∈ m, b ≤ a) : (l ++ m).Pairwise (· ≤ ·) :=
  List.pairwise_append.2 ⟨hl, hm, fun a ha c hc => Nat.le_trans (h1 a ha) (h2 c hc)⟩

/-- A part of the script all of whose stages are `k`. -/
theorem const_stage {d : Table} {l : List Stmt} {k : Nat} (h : ∀ s ∈ l, ∀ a, stage mode d s = some a → a = k) :
    (∀ a ∈ l.filterMap (stage mode d), a = k) ∧ (l.filterMap (stage mode d)).Pairwise (· ≤ ·) := by
  have : ∀ a ∈ l.filterMap (stage mode d), a = k := by
    intro a ha
    obtain ⟨s, hs, ha⟩ := List.mem_filterMap.1 ha
    exact h s hs a ha
  refine ⟨this, ?_⟩
  generalize l.filterMap (stage mode d) = m at this
  induction m with
  | nil => exact .nil
  | cons a m ih =>
    refine List.pairwise_cons.2 ⟨fun b hb => ?_, ih fun b hb => this b (List.mem_cons_of_mem _ hb)⟩
    rw [this a (by simp), this b (List.mem_cons_of_mem _ hb)]; exact Nat.le_refl _

theorem columns_stage {x t : Table} {ds : List DDL} (hw : WellFormed ds) {cols : List Stmt}
    (h : concatMapM (fun pc : Option Str × Column => columnDDLs mode x t pc.1 pc.2) (withPrev none t.columns) = .ok cols) :
    ∀ s ∈ cols, ∀ a, stage mode (complete ds t) s = some a → a = 1 := by
  intro s hs a ha
  obtain ⟨prev, c, hm, hcol⟩ := columns_shape h s hs
  have hcm : c.name ∈ (complete ds t).columns.map (·.name) := by
    rw [complete_columns hw]; exact List.mem_map_of_mem (mem_withPrev hm)
  cases hcol with
  | alter cur s h1 h2 h3 =>
    rcases h3 with rfl | rfl | rfl | ⟨_, _, rfl⟩ | rfl | ⟨_, _, rfl⟩ | rfl | ⟨_, rfl⟩ <;> simp [stage] at ha
  | identityDrop cur h1 h2 h3 h4 =>
    have hcn : cur.name = c.name := by simpa using List.find?_some h2
    simp only [stage, hcn, if_pos hcm] at ha
    cases ha
  | add => simp [stage] at ha; exact ha.symm
  | identityAdd => simp [stage] at ha; exact ha.symm
  | _ => simp [stage] at ha

theorem primaryKey_primary {t : Table} {i : Index} (h : t.primaryKey = some i) : i.primary = true := by
  unfold Table.primaryKey at h
  split at h
  · next hf => cases h; simpa using List.find?_some hf
  · simp only at h
    split at h
    · cases h
    · cases h; rfl

/-- C26: the statements about a table that stays come in this order: columns are added, then the primary key,
indexes and foreign keys; then the separate definitions; then obsolete foreign keys, indexes, columns
and policies are dropped. -/
theorem C26_order_of_statements (hd : UniqueTables desired) (hc : UniqueTables current)
    (h : diff mode desired current = .ok out) {n : Str} {x d : Table} (hx : tableIn current n = some x)
    (hdd : tableIn desired n = some d) :
    ((out.filter fun s => decide (Stmt.table s = some n)).filterMap (stage mode d)).Pairwise (· ≤ ·) := by
  obtain ⟨_, _, sc⟩ := script hd hc h
  obtain ⟨s, t, ht, rfl, rfl⟩ := (tableIn_iff hd).1 hdd
  obtain ⟨l, r, v, hl, hv, ho, hr⟩ := sc.table_parts ht hx
  obtain ⟨cols, rai, pk, idx, aai, fks, h1, h2, h3, h4, h5, h6, rfl⟩ := createTable_parts hl
  obtain ⟨oidx, hoidx, rfl⟩ := cleanup_parts hv
  rw [ho]
  have hname := tableIn_name hx
  have c1 := const_stage (mode := mode) (columns_stage sc.wd h1)
  have c2 : (rai.filterMap (stage mode (complete desired t))) = [] := by
    rw [List.filterMap_eq_nil_iff]
    intro s hs
    obtain ⟨-, _, -, -, -, rfl⟩ := removeAutoIncrement_shape h2 s hs; rfl
  have c3 : ∀ s ∈ pk, ∀ a, stage mode (complete desired t) s = some a → a = 2 := by
    intro s hs a ha
    obtain ⟨-, ⟨-, hm, _, rfl⟩ | ⟨i, hi, rfl⟩⟩ := primaryKeyDDLs_shape h3 s hs
    · rcases hm with rfl | rfl <;> · simp [stage] at ha; exact ha.symm
    · simp [stage, primaryKey_primary hi] at ha; exact ha.symm
  have c3 := const_stage c3
  have c4 : ∀ s ∈ idx, ∀ a, stage mode (complete desired t) s = some a → a = 3 := by
    intro s hs a ha
    obtain ⟨i, hi, hp, -, rfl | ⟨-, rfl⟩⟩ := indexes_shape h4 s hs
    · simp [stage, hp] at ha; exact ha.symm
    · have : i.name ∈ (complete desired t).indexes.map (·.name) := List.mem_map_of_mem (by simp [complete, hi])
      simp only [stage, if_pos this] at ha; cases ha
  have c4 := const_stage c4
  have c5 : (aai.filterMap (stage mode (complete desired t))) = [] := by
    rw [List.filterMap_eq_nil_iff]
    intro s hs
    obtain ⟨-, _, -, -, -, rfl⟩ := addAutoIncrement_shape h5 s hs; rfl
  have c6 : ∀ s ∈ fks, ∀ a, stage mode (complete desired t) s = some a → a = 4 := by
    intro s hs a ha
    obtain ⟨f, hf, -, rfl | ⟨-, -, rfl⟩⟩ := foreignKeys_shape h6 s hs
    · simp [stage] at ha; exact ha.symm
    · have : f.constraintName ∈ (complete desired t).foreignKeys.map (·.constraintName) :=
        List.mem_map_of_mem (by simp [complete, hf])
      simp only [stage, if_pos this] at ha; cases ha
  have c6 := const_stage c6
  have c7 : ∀ s ∈ r, ∀ a, stage mode (complete desired t) s = some a → a = 5 := by
    intro st hst a ha
    obtain ⟨d, hdm, hdt, hnc, hds⟩ := hr st hst
    cases hds with
    | create s t => exact absurd rfl (hnc _ _)
    | table s t x => exact absurd rfl (hnc _ _)
    | dropIndex _ m i c hi =>
      have hmt : m = t.name := by obtain ⟨_, rfl | rfl⟩ := hi <;> simpa [DDL.table] using hdt
      subst hmt
      obtain ⟨d', hd', hid⟩ := wanted_of_defined sc.wd hd hdm hi
      rw [hdd] at hd'
      cases hd'
      simp only [stage, if_pos (List.mem_map_of_mem hid)] at ha; cases ha
    | dropPolicy s m p =>
      simp only [DDL.table, Option.some.injEq] at hdt
      subst hdt
      have : p ∈ (complete desired t).policies := by
        simp only [complete, List.mem_append]; exact .inr (mem_policiesFor.2 ⟨s, hdm⟩)
      simp only [stage, if_pos (List.mem_map_of_mem this)] at ha; cases ha
    | _ => first | (simp [stage] at ha; exact ha.symm) | (simp [stage] at ha)
  have c7 := const_stage c7
  set d := complete desired t with hdef
  have c8 : ∀ s ∈ (x.foreignKeys.filter fun fk =>
          !containsString (fkConstraintNames d.foreignKeys) fk.constraintName).flatMap
            (fun fk => absentForeignKey mode fk x d), ∀ a, stage mode d s = some a → a = 6 := by
    intro s hs a ha
    obtain ⟨f, -, hs⟩ := List.mem_flatMap.1 hs
    have : s = .dropForeignKey x.name f.constraintName := by
      unfold absentForeignKey at hs
      cases mode <;> simp only [] at hs
      · simpa using hs
      · split at hs <;> simp at hs; exact hs
      · cases hs
      · split at hs <;> simp at hs; exact hs
    subst this
    simp only [stage] at ha
    split at ha
    · cases ha
    · cases ha; rfl
  have c8 := const_stage c8
  have c9 : ∀ s ∈ oidx, ∀ a, stage mode d s = some a → a = 7 := by
    intro s hs a ha
    obtain ⟨i, -, z, hz, hs⟩ := (mem_concatMapM hoidx s).1 hs
    rcases absentIndex_shape hz s hs with ⟨-, hm, -, rfl⟩ | ⟨-, -, rfl⟩
    · simp [stage, hm] at ha; exact ha.symm
    · simp only [stage] at ha
      split at ha
      · cases ha
      · cases ha; rfl
  have c9 := const_stage c9
  have c10 : ∀ s ∈ (x.columns.filter fun c => !containsString (columnNames d.columns) c.name).flatMap
          (fun c => absentColumn mode x c.name), ∀ a, stage mode d s = some a → a = 8 := by
    intro s hs a ha
    obtain ⟨c, -, hs⟩ := List.mem_flatMap.1 hs
    unfold absentColumn at hs
    rcases List.mem_append.1 hs with hs | hs
    · split at hs
      · obtain ⟨c', -, hs⟩ := List.mem_filterMap.1 hs
        split at hs
        · cases hs
        · split at hs
          · cases hs; simp [stage] at ha
          · cases hs
      · cases hs
    · rw [List.mem_singleton.1 hs] at ha
      simp only [stage] at ha
      split at ha
      · cases ha
      · cases ha; rfl
  have c10 := const_stage c10
  have c11 : ∀ s ∈ (x.policies.filter fun p => !containsString (policyNames d.policies) p.name).map
          (fun p => Stmt.dropPolicy x.name p.name), ∀ a, stage mode d s = some a → a = 9 := by
    intro s hs a ha
    obtain ⟨p, -, rfl⟩ := List.mem_map.1 hs
    simp only [stage] at ha
    split at ha
    · cases ha
    · cases ha; rfl
  have c11 := const_stage c11
  simp only [List.filterMap_append, c2, c5, List.append_nil]
  have bound : ∀ (b : Nat) (l : List Nat) (k : Nat), (∀ a ∈ l, a = k) → k ≤ b → ∀ a ∈ l, a ≤ b :=
    fun b l k h hk a ha => by rw [h a ha]; exact hk
  have bound' : ∀ (b : Nat) (l : List Nat) (k : Nat), (∀ a ∈ l, a = k) → b ≤ k → ∀ a ∈ l, b ≤ a :=
    fun b l k h hk a ha => by rw [h a ha]; exact hk
  have join : ∀ (b : Nat) (l m : List Nat), (∀ a ∈ l, a ≤ b) → (∀ a ∈ m, a ≤ b) → ∀ a ∈ l ++ m, a ≤ b := by
    intro b l m h1 h2 a ha
    rcases List.mem_append.1 ha with ha | ha
    · exact h1 a ha
    · exact h2 a ha
  have p1 := pairwise_append_le (b := 2) c1.2 c3.2 (bound _ _ _ c1.1 (by omega)) (bound' _ _ _ c3.1 (by omega))
  have p2 := pairwise_append_le (b := 3) p1 c4.2
    (join _ _ _ (bound _ _ _ c1.1 (by omega)) (bound _ _ _ c3.1 (by omega))) (bound' _ _ _ c4.1 (by omega))
  have q2 := join 4 _ _ (join _ _ _ (bound _ _ _ c1.1 (by omega)) (bound _ _ _ c3.1 (by omega))) (bound _ _ _ c4.1 (by omega))
  have p3 := pairwise_append_le (b := 4) p2 c6.2 q2 (bound' _ _ _ c6.1 (by omega))
  have q3 := join 5 _ _ (fun a ha => Nat.le_succ_of_le (q2 a ha)) (bound _ _ _ c6.1 (by omega))
  have p4 := pairwise_append_le (b := 5) p3 c7.2 q3 (bound' _ _ _ c7.1 (by omega))
  have q4 := join 5 _ _ q3 (bound _ _ _ c7.1 (by omega))
  have r1 := pairwise_append_le (b := 7) c8.2 c9.2 (bound _ _ _ c8.1 (by omega)) (bound' _ _ _ c9.1 (by omega))
  have s1 := join 8 _ _ (bound _ _ _ c8.1 (by omega)) (bound _ _ _ c9.1 (by omega))
  have r2 := pairwise_append_le (b := 8) r1 c10.2 s1 (bound' _ _ _ c10.1 (by omega))
  have s2 := join 9 _ _ (fun a ha => Nat.le_succ_of_le (s1 a ha)) (bound _ _ _ c10.1 (by omega))
  have r3 := pairwise_append_le (b := 9) r2 c11.2 s2 (bound' _ _ _ c11.1 (by omega))
  refine pairwise_append_le (b := 5) p4 r3 q4 ?_
  intro a ha
  simp only [List.mem_append] at ha
  rcases ha with ((ha | ha) | ha) | ha
  · rw [c8.1 a ha]; omega
  · rw [c9.1 a ha]; omega
  · rw [c10.1 a ha]; omega
  · rw [c11.1 a ha]; omega

/-- All the removals of a table and all the additions, in the stated order. -/
def exOrderCurrent : List DDL :=
  [exCreate { exUsers with indexes := [exIdx "old" "id"], foreignKeys := [exFk "oldfk" ""] },
   .addPolicy [] (lit "users") (exPol "oldp" [])]
def exOrderDesired : List DDL :=
  [exCreate { exUsers' with indexes := [exIdx "new" "id"], foreignKeys := [exFk "newfk" ""] },
   .addPolicy [] (lit "users") (exPol "newp" [])]
example : (∃ x, tableIn exOrderCurrent (lit "users") = some x) ∧
    ∃ d out, tableIn exOrderDesired (lit "users") = some d ∧ diff .mysql exOrderDesired exOrderCurrent = .ok out ∧
      out.filterMap (stage .mysql d) = [1, 3, 4, 5, 6, 7, 8, 9] :=
  ⟨⟨_, rfl⟩, _, _, rfl, rfl, by decide +kernel⟩

/-! ### C27 -/

/-- C27: ADD COLUMN never carries AUTO_INCREMENT (for SQL Server, which has no AUTO_INCREMENT, unless the
column has it already). -/
theorem C27_add_column_without_auto_increment (hm : mode ≠ .mssql) (hd : UniqueTables desired) (hc : UniqueTables current)
    (h : diff mode desired current = .ok out) {n : Str} {c : Column} {p : Place} (hs : .addColumn n c p ∈ out) :
    c.autoIncrement = false := by
  obtain ⟨xs, ys, sc⟩ := script hd hc h
  generalize hg : Stmt.addColumn n c p = st at hs
  cases sc.origin hs with
  | definition e s he hde =>
    cases hde with
    | table s t x st hf hts =>
      cases hts with
      | column prev c s hm' hcol =>
        cases hcol with
        | alter cur s h1 h2 h3 => subst hg; rcases h3 with h3 | h3 | h3 | ⟨_, _, h3⟩ | h3 | ⟨_, _, h3⟩ | h3 | ⟨_, h3⟩ <;> cases h3
        | identityAdd cur h1 => exact absurd h1 hm
        | add => cases hg; rfl
        | _ => cases hg
      | _ => cases hg
    | _ => cases hg
  | clean x d s hx hdd hcl => cases hcl <;> cases hg
  | dropTable => cases hg
  | dropView v hv hn => cases hg

/-- If no `P` is in the first part and no `Q` in the second, no `P` comes before a `Q`. -/
theorem pairwise_of_parts {α : Type} {P Q : α → Prop} {l m : List α} (hl : ∀ a ∈ l, ¬ P a) (hm : ∀ b ∈ m, ¬ Q b) :
    (l ++ m).Pairwise fun a b => ¬ (P a ∧ Q b) := by
  rw [List.pairwise_append]
  refine ⟨?_, ?_, fun a ha b _ h => hl a ha h.1⟩
  · rw [List.pairwise_iff_forall_sublist]
    intro a b hab h
    exact hl a (hab.subset (by simp)) h.1
  · rw [List.pairwise_iff_forall_sublist]
    intro a b hab h
    exact hm b (hab.subset (by simp)) h.2

/-- An ordering of the statements about a table holds in the whole script. -/
theorem pairwise_of_about {P Q : Stmt → Prop} {n : Str} (hP : ∀ s, P s → Stmt.table s = some n) (hQ : ∀ s, Q s → Stmt.table s = some n)
    (h : (out.filter fun s => decide (Stmt.table s = some n)).Pairwise fun a b => ¬ (P a ∧ Q b)) :
    out.Pairwise fun a b => ¬ (P a ∧ Q b) :=
  (List.pairwise_filter.1 h).imp fun {a b} hab hpq => hab (by simpa using hP a hpq.1) (by simpa using hQ b hpq.2) hpq

theorem clean_of_parts {x d : Table} {v : List Stmt} (h : cleanupTable mode x d = .ok v) :
    ∀ s ∈ v, CleanStmt mode x d s := fun s hs => cleanup_shape h s hs

theorem separate_not {d : DDL} {st : Stmt} (hnc : ∀ s' t', d ≠ .createTable s' t') {C V T}
    (h : DefStmt mode C V T d st) : (∀ n old c p, st ≠ .changeColumn n old c p) ∧ (∀ n i, st ≠ .addIndex n i) := by
  cases h with
  | create s t => exact absurd rfl (hnc _ _)
  | table s t x => exact absurd rfl (hnc _ _)
  | _ => constructor <;> intros <;> simp

/-- C27: the primary key of a table is never dropped before AUTO_INCREMENT is taken from a column. -/
theorem C27_removed_before_primary_key_is_dropped (hd : UniqueTables desired) (hc : UniqueTables current)
    (h : diff mode desired current = .ok out) {n : Str} {x : Table} (hx : tableIn current n = some x) :
    out.Pairwise fun a b => ¬ ((∃ k, a = .dropPrimaryKey n k) ∧ ClearsAutoIncrement x b) := by
  obtain ⟨_, _, sc⟩ := script hd hc h
  have hname := tableIn_name hx
  apply pairwise_of_about (n := n)
  · rintro _ ⟨k, rfl⟩; rfl
  · rintro _ ⟨o, c, p, rfl, -⟩; simp [Stmt.table, hname]
  by_cases hdd : n ∈ createdNames desired
  · obtain ⟨s, t, ht, rfl⟩ := mem_createdNames.1 hdd
    obtain ⟨l, r, v, hl, hv, ho, hr⟩ := sc.table_parts ht hx
    obtain ⟨cols, rai, pk, idx, aai, fks, h1, h2, h3, h4, h5, h6, rfl⟩ := createTable_parts hl
    rw [ho]
    have e : cols ++ rai ++ pk ++ idx ++ aai ++ fks ++ r ++ v = (cols ++ rai) ++ (pk ++ (idx ++ (aai ++ (fks ++ (r ++ v))))) := by
      simp only [List.append_assoc]
    rw [e]
    apply pairwise_of_parts
    · rintro s hs ⟨k, rfl⟩
      rcases List.mem_append.1 hs with hs | hs
      · obtain ⟨prev, c, -, hcol⟩ := columns_shape h1 _ hs
        generalize hg : Stmt.dropPrimaryKey t.name k = st at hcol
        cases hcol with
        | alter cur s h1 h2 h3 => subst hg; rcases h3 with h3 | h3 | h3 | ⟨_, _, h3⟩ | h3 | ⟨_, _, h3⟩ | h3 | ⟨_, h3⟩ <;> cases h3
        | _ => cases hg
      · obtain ⟨-, _, -, -, -, h⟩ := removeAutoIncrement_shape h2 _ hs; cases h
    · rintro s hs ⟨o, c, p, rfl, hai, -⟩
      simp only [List.mem_append] at hs
      rcases hs with hs | hs | hs | hs | hs | hs
      · obtain ⟨-, ⟨-, -, _, h⟩ | ⟨_, -, h⟩⟩ := primaryKeyDDLs_shape h3 _ hs <;> cases h
      · obtain ⟨_, -, -, -, h | ⟨-, h⟩⟩ := indexes_shape h4 _ hs <;> cases h
      · obtain ⟨-, c', -, hai', -, h⟩ := addAutoIncrement_shape h5 _ hs
        cases h; rw [hai] at hai'; cases hai'
      · obtain ⟨_, -, -, h | ⟨-, -, h⟩⟩ := foreignKeys_shape h6 _ hs <;> cases h
      · obtain ⟨d, -, -, hnc, hds⟩ := hr _ hs
        exact (separate_not hnc hds).1 _ _ _ _ rfl
      · have := clean_of_parts hv _ hs
        generalize hg : Stmt.changeColumn x.name o c p = st at this
        cases this <;> cases hg
  · have hnone : ∀ s ∈ out.filter (fun s => decide (Stmt.table s = some n)), ∀ o c p, s ≠ .changeColumn n o c p := by
      rintro s hs o c p rfl
      have hs := (List.mem_filter.1 hs).1
      generalize hg : Stmt.changeColumn n o c p = st at hs
      cases sc.origin hs with
      | definition e s he hde =>
        cases hde with
        | table s t x' st hf hts =>
          have htm : t.name ∈ createdNames desired := mem_createdNames.2 ⟨_, _, he, rfl⟩
          have hne : t.name ≠ n := fun e => hdd (e ▸ htm)
          have hxn : x'.name = t.name := tableIn_name hf
          cases hts with
          | column prev c s hm' hcol =>
            cases hcol with
            | alter cur s h1 h2 h3 => subst hg; rcases h3 with h3 | h3 | h3 | ⟨_, _, h3⟩ | h3 | ⟨_, _, h3⟩ | h3 | ⟨_, h3⟩ <;> cases h3
            | change => cases hg; exact hne rfl
            | _ => cases hg
          | _ => first | (cases hg; done) | (cases hg; exact hne hxn.symm) 
        | _ => cases hg
      | clean x d s hx hdd hcl => cases hcl <;> cases hg
      | dropTable => cases hg
      | dropView v hv hn => cases hg
    rw [List.pairwise_iff_forall_sublist]
    rintro a b hab ⟨-, o, c, p, rfl, -⟩
    exact hnone (.changeColumn x.name o c p) (hab.subset (by simp)) o c p (by rw [hname])

/-- C27: AUTO_INCREMENT is never given to a column of a table before an index or the primary key of the
table is added. -/
theorem C27_set_after_keys_are_added (hd : UniqueTables desired) (hc : UniqueTables current)
    (h : diff mode desired current = .ok out) {n : Str} {x : Table} (hx : tableIn current n = some x) :
    out.Pairwise fun a b => ¬ (SetsAutoIncrement x a ∧ ∃ i, b = .addIndex n i) := by
  obtain ⟨_, _, sc⟩ := script hd hc h
  have hname := tableIn_name hx
  apply pairwise_of_about (n := n)
  · rintro _ ⟨o, c, p, rfl, -⟩; simp [Stmt.table, hname]
  · rintro _ ⟨k, rfl⟩; rfl
  by_cases hdd : n ∈ createdNames desired
  · obtain ⟨s, t, ht, rfl⟩ := mem_createdNames.1 hdd
    obtain ⟨l, r, v, hl, hv, ho, hr⟩ := sc.table_parts ht hx
    obtain ⟨cols, rai, pk, idx, aai, fks, h1, h2, h3, h4, h5, h6, rfl⟩ := createTable_parts hl
    rw [ho]
    have e : cols ++ rai ++ pk ++ idx ++ aai ++ fks ++ r ++ v = (cols ++ rai ++ pk ++ idx) ++ (aai ++ (fks ++ (r ++ v))) := by
      simp only [List.append_assoc]
    rw [e]
    apply pairwise_of_parts
    · rintro s hs ⟨o, c, p, rfl, hai, hcur⟩
      simp only [List.mem_append] at hs
      rcases hs with ((hs | hs) | hs) | hs
      · obtain ⟨prev, c', -, hcol⟩ := columns_shape h1 _ hs
        generalize hg : Stmt.changeColumn x.name o c p = st at hcol
        cases hcol with
        | alter cur s h1 h2 h3 => subst hg; rcases h3 with h3 | h3 | h3 | ⟨_, _, h3⟩ | h3 | ⟨_, _, h3⟩ | h3 | ⟨_, h3⟩ <;> cases h3
        | change cur place hm hf =>
          obtain ⟨-, rfl, rfl, rfl⟩ := Stmt.changeColumn.inj hg
          have := hcur cur (List.mem_of_find?_eq_some hf) rfl
          simp [seen, this] at hai
        | _ => cases hg
      · obtain ⟨-, _, -, -, -, h⟩ := removeAutoIncrement_shape h2 _ hs; cases h; cases hai
      · obtain ⟨-, ⟨-, -, _, h⟩ | ⟨_, -, h⟩⟩ := primaryKeyDDLs_shape h3 _ hs <;> cases h
      · obtain ⟨_, -, -, -, h | ⟨-, h⟩⟩ := indexes_shape h4 _ hs <;> cases h
    · rintro s hs ⟨i, rfl⟩
      simp only [List.mem_append] at hs
      rcases hs with hs | hs | hs | hs
      · obtain ⟨-, c', -, -, -, h⟩ := addAutoIncrement_shape h5 _ hs; cases h
      · obtain ⟨_, -, -, h | ⟨-, -, h⟩⟩ := foreignKeys_shape h6 _ hs <;> cases h
      · obtain ⟨d, -, -, hnc, hds⟩ := hr _ hs
        exact (separate_not hnc hds).2 _ _ rfl
      · have := clean_of_parts hv _ hs
        generalize hg : Stmt.addIndex t.name i = st at this
        cases this <;> cases hg
  · have hnone : ∀ s ∈ out.filter (fun s => decide (Stmt.table s = some n)), ∀ i, s ≠ .addIndex n i := by
      rintro s hs i rfl
      have hs := (List.mem_filter.1 hs).1
      generalize hg : Stmt.addIndex n i = st at hs
      cases sc.origin hs with
      | definition e s he hde =>
        cases hde with
        | table s t x' st hf hts =>
          have htm : t.name ∈ createdNames desired := mem_createdNames.2 ⟨_, _, he, rfl⟩
          have hne : t.name ≠ n := fun e => hdd (e ▸ htm)
          cases hts with
          | column prev c s hm' hcol =>
            cases hcol with
            | alter cur s h1 h2 h3 => subst hg; rcases h3 with h3 | h3 | h3 | ⟨_, _, h3⟩ | h3 | ⟨_, _, h3⟩ | h3 | ⟨_, h3⟩ <;> cases h3
            | _ => cases hg
          | _ => first | (cases hg; done) | (cases hg; exact hne rfl)
        | _ => cases hg
      | clean x d s hx hdd hcl => cases hcl <;> cases hg
      | dropTable => cases hg
      | dropView v hv hn => cases hg
    rw [List.pairwise_iff_forall_sublist]
    rintro a b hab ⟨-, i, rfl⟩
    exact hnone _ (hab.subset (by simp)) i rfl

/-- C27: a column of the desired CREATE TABLE that is to have AUTO_INCREMENT and has not got it, gets it. -/
theorem C27_is_set (hd : UniqueTables desired) (hc : UniqueTables current)
    (h : diff .mysql desired current = .ok out) {s : Str} {t x : Table} {c : Column} (ht : .createTable s t ∈ desired)
    (hx : tableIn current t.name = some x) (hcm : c ∈ t.columns) (hai : c.autoIncrement = true)
    (hcur : ∀ e ∈ x.columns, e.name = c.name → e.autoIncrement = false) :
    .changeColumn t.name c.name c .none ∈ out := by
  obtain ⟨_, _, sc⟩ := script hd hc h
  obtain ⟨l, r, v, hl, hv, ho, hr⟩ := sc.table_parts ht hx
  obtain ⟨cols, rai, pk, idx, aai, fks, h1, h2, h3, h4, h5, h6, rfl⟩ := createTable_parts hl
  have : Stmt.changeColumn t.name c.name c .none ∈ aai := by
    unfold addAutoIncrement at h5
    rw [if_pos rfl] at h5
    obtain ⟨z, hz, hsub⟩ := concatMapM_ok_mem h5 c hcm
    apply hsub
    have hg : gainsAutoIncrement x c = true := by
      unfold gainsAutoIncrement
      rw [hai, Bool.true_and]
      split
      · rfl
      · next e he =>
        have hn : e.name = c.name := by simpa using List.find?_some he
        simp [hcur e (List.mem_of_find?_eq_some he) hn]
    simp only [hg, if_true] at hz
    obtain ⟨rfl, -⟩ := guardText_ok hz
    rw [tableIn_name hx]; simp
  have hm : Stmt.changeColumn t.name c.name c .none ∈ out.filter (fun s => decide (Stmt.table s = some t.name)) := by
    rw [ho]; simp [this]
  exact (List.mem_filter.1 hm).1

/-- C27: a column that has AUTO_INCREMENT and is not to have it in the desired CREATE TABLE loses it. -/
theorem C27_is_removed (hd : UniqueTables desired) (hc : UniqueTables current)
    (h : diff .mysql desired current = .ok out) {s : Str} {t x : Table} {c : Column} (ht : .createTable s t ∈ desired)
    (hx : tableIn current t.name = some x) (hcm : c ∈ x.columns) (hai : c.autoIncrement = true)
    (hcur : ∀ e ∈ t.columns, e.name = c.name → e.autoIncrement = false) :
    .changeColumn t.name c.name { c with autoIncrement := false } .none ∈ out := by
  obtain ⟨_, _, sc⟩ := script hd hc h
  obtain ⟨l, r, v, hl, hv, ho, hr⟩ := sc.table_parts ht hx
  obtain ⟨cols, rai, pk, idx, aai, fks, h1, h2, h3, h4, h5, h6, rfl⟩ := createTable_parts hl
  have : Stmt.changeColumn t.name c.name { c with autoIncrement := false } .none ∈ rai := by
    unfold removeAutoIncrement at h2
    rw [if_pos rfl] at h2
    obtain ⟨z, hz, hsub⟩ := concatMapM_ok_mem h2 c hcm
    apply hsub
    have hg : losesAutoIncrement t c = true := by
      unfold losesAutoIncrement
      rw [hai, Bool.true_and]
      split
      · rfl
      · next e he =>
        have hn : e.name = c.name := by simpa using List.find?_some he
        simp [hcur e (List.mem_of_find?_eq_some he) hn]
    simp only [hg, if_true] at hz
    obtain ⟨rfl, -⟩ := guardText_ok hz
    rw [tableIn_name hx]; simp
  have hm : Stmt.changeColumn t.name c.name { c with autoIncrement := false } .none ∈
      out.filter (fun s => decide (Stmt.table s = some t.name)) := by
    rw [ho]; simp [this]
  exact (List.mem_filter.1 hm).1

/-- AUTO_INCREMENT moves from the primary key `id` to the new primary key `other`. -/
def exAI (ai : Bool) (n : String) (p : Int) : Column := { exInt n p with autoIncrement := ai, notNull := some true }
def exPk (c : String) : Index := { exIdx "PRIMARY" c with primary := true, unique := true, indexType := lit "PRIMARY KEY" }
def exAICurrent : Table := { exUsers with columns := [exAI true "id" 0, exAI false "other" 1], indexes := [exPk "id"] }
def exAIDesired : Table := { exUsers with columns := [exAI false "id" 0, exAI true "other" 1], indexes := [exPk "other"] }
example : diff .mysql [exCreate exAIDesired] [exCreate exAICurrent] =
    .ok [.changeColumn (lit "users") (lit "id") (exAI false "id" 0) .none,
      .dropPrimaryKey (lit "users") (lit "PRIMARY"), .addIndex (lit "users") (exPk "other"),
      .changeColumn (lit "users") (lit "other") (exAI true "other" 1) .none] := by decide +kernel

end Sqldef
