import Verif.Proofs.ColumnPhases
/-! Execution of the clean-up of a table. -/
namespace Sqldef
open Spec

/-! ### Columns -/

/-- The default constraint dropped before the column. -/
def defaultDrop (mode : Mode) (x : Table) (c : Column) : List Stmt :=
  if mode = .mssql then
    match c.defaultDef with
    | none => []
    | some d => if d.constraintName ≠ [] then [.dropDefaultConstraint x.name c.name d.constraintName] else []
  else []

theorem filterMap_one {α β : Type} {key : α → Str} {g : α → Option β} {l : List α} {c : α} (hn : (l.map key).Nodup) (hc : c ∈ l)
    (hg : ∀ e ∈ l, key e ≠ key c → g e = none) : l.filterMap g = (g c).toList := by
  induction l with
  | nil => cases hc
  | cons e l ih =>
    rw [List.map_cons, List.nodup_cons] at hn
    rcases List.mem_cons.1 hc with rfl | hc
    · have : l.filterMap g = [] := by
        rw [List.filterMap_eq_nil_iff]
        exact fun f hf => hg f (by simp [hf]) fun h => hn.1 (List.mem_map.2 ⟨f, hf, h⟩)
      rw [List.filterMap_cons, this]
      cases g c <;> rfl
    · have hne : key e ≠ key c := fun h => hn.1 (List.mem_map.2 ⟨c, hc, h.symm⟩)
      rw [List.filterMap_cons, hg e (by simp) hne]
      exact ih hn.2 hc fun f hf => hg f (by simp [hf])

theorem absentColumn_eq {mode : Mode} {x : Table} (hx : x.names.Nodup) {c : Column} (hc : c ∈ x.columns) :
    absentColumn mode x c.name = defaultDrop mode x c ++ [.dropColumn x.name c.name] := by
  unfold absentColumn defaultDrop
  by_cases hm : mode = .mssql
  · rw [if_pos hm, if_pos hm]
    congr 1
    rw [filterMap_one (key := fun c : Column => c.name) hx hc]
    · cases hd : c.defaultDef with
      | none => rfl
      | some d =>
        simp only [true_and]
        split <;> rfl
    · intro e _ hne
      cases e.defaultDef with
      | none => rfl
      | some d => simp [hne]
  · rw [if_neg hm, if_neg hm]

theorem colDrops_run {mode : Mode} {x : Table} (hx : x.names.Nodup) {cs : List Column} (hcs : ∀ c ∈ cs, c ∈ x.columns)
    (hn : (cs.map (·.name)).Nodup) {T : Table}
    (hT : ∀ c ∈ cs, ∃ e, T.col c.name = some e ∧ (mode = .mssql → e.defaultDef = c.defaultDef)) :
    ∃ T', alters mode (cs.flatMap fun c => absentColumn mode x c.name) T = some T' ∧ OnlyColumns T T' ∧
      T'.names = T.names.filter (fun m => decide (m ∉ cs.map (·.name))) ∧
      ∀ m, T'.col m = if m ∈ cs.map (·.name) then none else T.col m := by
  induction cs generalizing T with
  | nil =>
    refine ⟨T, rfl, .refl T, ?_, fun m => by simp⟩
    simp
  | cons c cs ih =>
    rw [List.map_cons, List.nodup_cons] at hn
    obtain ⟨e, he, hed⟩ := hT c (by simp)
    rw [List.flatMap_cons, absentColumn_eq hx (hcs c (by simp)), List.append_assoc]
    -- the default constraint
    have step : ∃ T1, alters mode (defaultDrop mode x c) T = some T1 ∧ OnlyColumns T T1 ∧ T1.names = T.names ∧
        ∀ m, m ≠ c.name → T1.col m = T.col m := by
      unfold defaultDrop
      by_cases hm : mode = .mssql
      · rw [if_pos hm]
        cases hd : c.defaultDef with
        | none => exact ⟨T, rfl, .refl T, rfl, fun _ _ => rfl⟩
        | some d =>
          simp only
          split
          · obtain ⟨T1, h1, h2⟩ := alter_column (mode := mode) (s := .dropDefaultConstraint x.name c.name d.constraintName)
              (n := c.name) (t := T) (c := e) (e := { e with defaultDef := none }) (by rw [hm]; decide) rfl he
              (by simp [colEffect, hed hm, hd])
            exact ⟨T1, by simp only [alters, h1, Option.bind_some], h2.toOnlyColumns, h2.names,
              fun m hmc => by rw [h2.col, if_neg hmc]⟩
          · exact ⟨T, rfl, .refl T, rfl, fun _ _ => rfl⟩
      · rw [if_neg hm]
        exact ⟨T, rfl, .refl T, rfl, fun _ _ => rfl⟩
    obtain ⟨T1, h1, h2, h3, h4⟩ := step
    have hc1 : c.name ∈ T1.names := by rw [h3]; exact mem_of_col he
    obtain ⟨T2, g1, g2⟩ := dropColumn_spec (mode := mode) (k := x.name) hc1
    have hT2 : ∀ f ∈ cs, ∃ e, T2.col f.name = some e ∧ (mode = .mssql → e.defaultDef = f.defaultDef) := by
      intro f hf
      obtain ⟨e', he', hed'⟩ := hT f (by simp [hf])
      have hne : f.name ≠ c.name := fun h => hn.1 (List.mem_map.2 ⟨f, hf, h⟩)
      exact ⟨e', by rw [g2.col, if_neg hne, h4 _ hne]; exact he', hed'⟩
    obtain ⟨T3, k1, k2, k3, k4⟩ := ih (fun f hf => hcs f (by simp [hf])) hn.2 hT2
    refine ⟨T3, ?_, h2.trans (g2.toOnlyColumns.trans k2), ?_, fun m => ?_⟩
    · rw [alters_append, h1, Option.bind_some, alters_append]
      simp only [alters, g1, Option.bind_some, k1]
    · rw [k3, g2.names, h3, List.filter_filter]
      refine List.filter_congr fun m _ => ?_
      rw [Bool.eq_iff_iff]
      simp
      tauto
    · rw [k4, g2.col]
      by_cases hm : m = c.name
      · subst hm; simp
      · simp [hm, h4 m hm]

/-! ### Indexes and foreign keys -/

/-- The clean-up drops the index. -/
def droppedIndex (D : Table) (i : Index) : Bool :=
  !i.primary && decide (i.name ∉ D.indexes.map (·.name)) && decide (i.name ∉ fkIndexNames D.foreignKeys) &&
  !(i.unique && D.columns.any fun col => col.keyOption.isUnique && decide (i.columns.head?.map (·.column) = some col.name))

theorem absentIndexes_eq {mode : Mode} {x D : Table} {l : List Stmt} {is : List Index}
    (hp : mode = .mssql → ∀ i ∈ is, i.primary = true → i.name ∈ D.indexes.map (·.name) ∨
      ∃ c ∈ D.columns, c.keyOption = .primary)
    (h : concatMapM (fun i => absentIndex mode i x D)
      (is.filter fun i => !(containsString (indexNames D.indexes) i.name ||
        containsString (fkIndexNames D.foreignKeys) i.name)) = .ok l) :
    l = (is.filter (droppedIndex D)).map fun i => Stmt.dropIndex x.name i.name := by
  induction is generalizing l with
  | nil => cases h; rfl
  | cons i is ih =>
    have ih := fun {l} => ih (l := l) fun hm j hj => hp hm j (by simp [hj])
    by_cases hk : (!(containsString (indexNames D.indexes) i.name || containsString (fkIndexNames D.foreignKeys) i.name)) = true
    · rw [List.filter_cons_of_pos (by simpa using hk)] at h
      obtain ⟨a, b, ha, hb, rfl⟩ := concatMapM_cons_ok.1 h
      simp only [Bool.not_eq_true', Bool.or_eq_false_iff, not_containsString] at hk
      have hk1 : i.name ∉ D.indexes.map (·.name) := hk.1
      have hk2 := hk.2
      rw [ih hb]
      have : a = if droppedIndex D i then [Stmt.dropIndex x.name i.name] else [] := by
        unfold absentIndex at ha
        unfold droppedIndex
        simp only [hk1, hk2, not_false_eq_true, decide_true, Bool.and_true]
        cases hpr : i.primary with
        | true =>
          simp only [hpr, if_true] at ha
          simp only [Bool.not_true, Bool.false_and, Bool.false_eq_true, if_false]
          split at ha
          · next hnone =>
            split at ha
            · next hm =>
              rcases hp hm i (by simp) hpr with h | ⟨c, hc, hck⟩
              · exact absurd h hk1
              · have := List.find?_eq_none.1 hnone c hc
                simp [hck] at this
            · cases ha; rfl
          · split at ha
            · cases ha
            · split at ha
              · cases ha
              · cases ha; rfl
        | false =>
          simp only [hpr, Bool.false_eq_true, if_false] at ha
          cases hu : i.unique with
          | false =>
            simp only [hu, Bool.false_eq_true, if_false] at ha
            cases ha
            simp
          | true =>
            simp only [hu, if_true] at ha
            cases hcol : i.columns with
            | nil =>
              rw [hcol] at ha
              simp only at ha
              split at ha
              · cases ha; simp
              · cases ha
            | cons k ks =>
              rw [hcol] at ha
              simp only at ha
              have he : (D.columns.any fun col => decide (col.name = k.column) && col.keyOption.isUnique) =
                  D.columns.any fun col => col.keyOption.isUnique && decide ((k :: ks).head?.map (·.column) = some col.name) := by
                congr 1
                funext col
                rw [Bool.and_comm]
                congr 2
                simp [eq_comm]
              rw [he] at ha
              cases hany : D.columns.any fun col =>
                  col.keyOption.isUnique && decide ((k :: ks).head?.map (·.column) = some col.name) with
              | true => rw [hany] at ha; cases ha; simp
              | false => rw [hany] at ha; cases ha; simp
      rw [this]
      by_cases hd : droppedIndex D i = true
      · rw [List.filter_cons_of_pos hd]; simp [hd]
      · rw [List.filter_cons_of_neg hd]; simp [hd]
    · rw [List.filter_cons_of_neg (by simpa using hk)] at h
      rw [ih h, List.filter_cons_of_neg]
      intro hd
      apply hk
      simp only [droppedIndex, Bool.and_eq_true, decide_eq_true_eq] at hd
      simp only [Bool.not_eq_true', Bool.or_eq_false_iff, not_containsString]
      exact ⟨hd.1.1.2, hd.1.2⟩

/-- The clean-up drops the foreign key. -/
def droppedFk (mode : Mode) (D : Table) (f : ForeignKey) : Bool :=
  decide (f.constraintName ∉ D.foreignKeys.map (·.constraintName)) && decide (mode ≠ .sqlite3) &&
  (decide (mode = .mysql) || !(D.columns.any fun c => decide (c.references = f.referenceName)))

theorem absentFks_eq {mode : Mode} {x D : Table} {fs : List ForeignKey} :
    (fs.filter fun fk => !containsString (fkConstraintNames D.foreignKeys) fk.constraintName).flatMap
      (fun fk => absentForeignKey mode fk x D) =
    (fs.filter (droppedFk mode D)).map fun f => Stmt.dropForeignKey x.name f.constraintName := by
  induction fs with
  | nil => rfl
  | cons f fs ih =>
    by_cases hk : (!containsString (fkConstraintNames D.foreignKeys) f.constraintName) = true
    · rw [List.filter_cons_of_pos (by simpa using hk), List.flatMap_cons, ih]
      simp only [Bool.not_eq_true', not_containsString] at hk
      have hk1 : f.constraintName ∉ D.foreignKeys.map (·.constraintName) := hk
      have : absentForeignKey mode f x D = if droppedFk mode D f then [Stmt.dropForeignKey x.name f.constraintName] else [] := by
        unfold absentForeignKey droppedFk
        simp only [hk1, not_false_eq_true, decide_true, Bool.true_and]
        cases mode <;> simp <;> split <;> simp_all
      rw [this]
      by_cases hd : droppedFk mode D f = true
      · rw [List.filter_cons_of_pos hd]; simp [hd]
      · rw [List.filter_cons_of_neg hd]; simp [hd]
    · rw [List.filter_cons_of_neg (by simpa using hk), ih, List.filter_cons_of_neg]
      intro hd
      apply hk
      simp only [droppedFk, Bool.and_eq_true, decide_eq_true_eq] at hd
      simp only [Bool.not_eq_true', not_containsString]
      exact hd.1.1

theorem drop_ops {α β : Type} {R : Op α → Stmt → Prop} {l : List β} {key : β → Str} {g : β → Stmt}
    (h : ∀ b ∈ l, R (.drop (key b)) (g b)) : List.Forall₂ R ((l.map key).map Op.drop) (l.map g) := by
  induction l with
  | nil => exact .nil
  | cons b l ih => exact .cons (h b (by simp)) (ih fun c hc => h c (by simp [hc]))

/-- The obsolete columns. -/
def obsoleteCols (x D : Table) : List Column := x.columns.filter fun c => decide (c.name ∉ D.names)

/-- The obsolete policies. -/
def obsoletePols (x D : Table) : List Policy := x.policies.filter fun p => decide (p.name ∉ D.policies.map (·.name))

/-- What the clean-up does to a table. -/
structure Cleaned (mode : Mode) (x D T T' : Table) : Prop where
  name : T'.name = T.name
  prim : T'.prim = T.prim
  names : T'.names = T.names.filter fun m => decide (m ∉ (obsoleteCols x D).map (·.name))
  col : ∀ m, T'.col m = if m ∈ (obsoleteCols x D).map (·.name) then none else T.col m
  sec : ∀ n, look (·.name) T'.sec n =
    if n ∈ (x.indexes.filter (droppedIndex D)).map (·.name) then none else look (·.name) T.sec n
  secNodup : (T.sec.map (·.name)).Nodup → (T'.sec.map (·.name)).Nodup
  fks : ∀ n, look (·.constraintName) T'.foreignKeys n =
    if n ∈ (x.foreignKeys.filter (droppedFk mode D)).map (·.constraintName) then none else look (·.constraintName) T.foreignKeys n
  fksNodup : (T.foreignKeys.map (·.constraintName)).Nodup → (T'.foreignKeys.map (·.constraintName)).Nodup
  pols : ∀ n, look (·.name) T'.policies n =
    if n ∈ (obsoletePols x D).map (·.name) then none else look (·.name) T.policies n
  polsNodup : (T.policies.map (·.name)).Nodup → (T'.policies.map (·.name)).Nodup

theorem cleanup_run {mode : Mode} {x D T : Table} {l : List Stmt} (h : cleanupTable mode x D = .ok l)
    (hcols : x.names.Nodup) (hidx : (x.sec.map (·.name)).Nodup) (hfks : (x.foreignKeys.map (·.constraintName)).Nodup)
    (hpols : (x.policies.map (·.name)).Nodup)
    (hp : mode = .mssql → ∀ i ∈ x.indexes, i.primary = true → i.name ∈ D.indexes.map (·.name) ∨
      ∃ c ∈ D.columns, c.keyOption = .primary)
    (hq : mode = .sqlite3 → x.indexes.filter (droppedIndex D) = [] ∧ obsoletePols x D = [])
    (hT : ∀ c ∈ obsoleteCols x D, ∃ e, T.col c.name = some e ∧ (mode = .mssql → e.defaultDef = c.defaultDef))
    (hTi : ∀ i ∈ x.indexes, droppedIndex D i = true → i.name ∈ T.sec.map (·.name))
    (hTf : ∀ f ∈ x.foreignKeys, droppedFk mode D f = true → f.constraintName ∈ T.foreignKeys.map (·.constraintName))
    (hTp : ∀ p ∈ obsoletePols x D, p.name ∈ T.policies.map (·.name)) :
    ∃ T', alters mode l T = some T' ∧ Cleaned mode x D T T' := by
  obtain ⟨idx, hi, rfl⟩ := cleanup_parts h
  rw [absentFks_eq, absentIndexes_eq hp hi]
  have hc : (x.columns.filter fun c => !containsString (columnNames D.columns) c.name) = obsoleteCols x D := by
    refine List.filter_congr fun c _ => ?_
    rw [Bool.eq_iff_iff]
    simp only [Bool.not_eq_true', not_containsString, decide_eq_true_eq]
    exact Iff.rfl
  have hpl : (x.policies.filter fun p => !containsString (policyNames D.policies) p.name) = obsoletePols x D := by
    refine List.filter_congr fun c _ => ?_
    rw [Bool.eq_iff_iff]
    simp only [Bool.not_eq_true', not_containsString, decide_eq_true_eq]
    exact Iff.rfl
  rw [hc, hpl]
  -- foreign keys
  have hfops : List.Forall₂ (IsFk mode) (((x.foreignKeys.filter (droppedFk mode D)).map (·.constraintName)).map Op.drop)
      ((x.foreignKeys.filter (droppedFk mode D)).map fun f => Stmt.dropForeignKey x.name f.constraintName) := by
    refine drop_ops fun f hf => ⟨rfl, ?_⟩
    have := (List.mem_filter.1 hf).2
    simp only [droppedFk, Bool.and_eq_true, decide_eq_true_eq] at this
    exact this.1.2
  obtain ⟨L1, f1, f2, f3⟩ := drops_run (key := fun f : ForeignKey => f.constraintName) (L := T.foreignKeys)
    (ns := (x.foreignKeys.filter (droppedFk mode D)).map (·.constraintName)) (nodup_drop hfks)
    (by
      intro n hn
      obtain ⟨f, hf, rfl⟩ := List.mem_map.1 hn
      exact hTf f (List.mem_filter.1 hf).1 (List.mem_filter.1 hf).2)
  obtain ⟨T1, a1, a2, a3⟩ := fk_run hfops f1
  -- indexes
  have hsecsub : x.indexes.filter (droppedIndex D) = x.sec.filter (droppedIndex D) := by
    simp only [Table.sec, List.filter_filter]
    refine List.filter_congr fun i _ => ?_
    unfold droppedIndex
    cases i.primary <;> simp
  obtain ⟨L2, i1, i2, i3⟩ := drops_run (key := fun i : Index => i.name) (L := T1.sec)
    (ns := (x.indexes.filter (droppedIndex D)).map (·.name)) (by rw [hsecsub]; exact nodup_drop hidx)
    (by
      intro n hn
      obtain ⟨i, hi, rfl⟩ := List.mem_map.1 hn
      simp only [Table.sec, a2.indexes]
      exact hTi i (List.mem_filter.1 hi).1 (List.mem_filter.1 hi).2)
  have hiops : List.Forall₂ (IsIdx mode) (((x.indexes.filter (droppedIndex D)).map (·.name)).map Op.drop)
      ((x.indexes.filter (droppedIndex D)).map fun i => Stmt.dropIndex x.name i.name) := by
    refine drop_ops fun i hi => ⟨rfl, fun hm => ?_⟩
    rw [(hq hm).1] at hi
    cases hi
  obtain ⟨T2, b1, b2, b3⟩ := idx_run hiops i1
  -- columns
  obtain ⟨T3, c1, c2, c3, c4⟩ := colDrops_run (mode := mode) hcols (cs := obsoleteCols x D) (fun c hc => (List.mem_filter.1 hc).1)
    (nodup_drop hcols) (T := T2) (by
      intro c hc
      obtain ⟨e, he, hed⟩ := hT c hc
      refine ⟨e, ?_, hed⟩
      simp only [Table.col, b2.columns, a2.columns]
      exact he)
  -- policies
  obtain ⟨L4, p1, p2, p3⟩ := drops_run (key := fun p : Policy => p.name) (L := T3.policies)
    (ns := (obsoletePols x D).map (·.name)) (nodup_drop hpols)
    (by
      intro n hn
      obtain ⟨p, hp, rfl⟩ := List.mem_map.1 hn
      rw [c2.policies, b2.policies, a2.policies]
      exact hTp p hp)
  have hpops : List.Forall₂ (IsPol mode) (((obsoletePols x D).map (·.name)).map Op.drop)
      ((obsoletePols x D).map fun p => Stmt.dropPolicy x.name p.name) := by
    refine drop_ops fun p hp => ⟨rfl, fun hm => ?_⟩
    rw [(hq hm).2] at hp
    cases hp
  obtain ⟨T4, d1, d2, d3⟩ := pol_run hpops p1
  have hsec4 : T4.sec = L2 := by simp only [Table.sec, d2.indexes, c2.indexes]; exact b3
  have hfk4 : T4.foreignKeys = L1 := by rw [d2.foreignKeys, c2.foreignKeys, b2.foreignKeys, a3]
  refine ⟨T4, ?_, ⟨?_, ?_, ?_, ?_, ?_, ?_, ?_, ?_, ?_, ?_⟩⟩
  · rw [alters_append, alters_append, alters_append, a1, Option.bind_some, b1, Option.bind_some, c1, Option.bind_some, d1]
  · rw [d2.name, c2.name, b2.name, a2.name]
  · simp only [Table.prim, d2.indexes, c2.indexes]
    rw [show List.filter (fun i => i.primary) T2.indexes = T2.prim from rfl, b2.prim]
    simp only [Table.prim, a2.indexes]
  · simp only [Table.names, d2.columns] at c3 ⊢
    rw [c3, b2.columns, a2.columns]
  · intro m
    have := c4 m
    simp only [Table.col, d2.columns] at this ⊢
    rw [this, b2.columns, a2.columns]
  · intro n
    rw [hsec4, i2]
    simp only [Table.sec, a2.indexes]
  · intro hT
    rw [hsec4]
    refine i3 ?_
    simp only [Table.sec, a2.indexes]
    exact hT
  · intro n
    rw [hfk4, f2]
  · intro hT
    rw [hfk4]
    exact f3 hT
  · intro n
    rw [d3, p2, c2.policies, b2.policies, a2.policies]
  · intro hT
    rw [d3]
    refine p3 ?_
    rw [c2.policies, b2.policies, a2.policies]
    exact hT

end Sqldef
