import Verif.Spec.MsServer
import Verif.Proofs.PgQuery
import Mathlib.Data.List.Perm.Basic
import Mathlib.Data.List.Nodup
/-
The answers of a SQL Server to the queries of the adapter.
-/
namespace Sqldef
open Spec.MsServer Spec.Dumped Ms

theorem key_one {α β : Type} [DecidableEq β] {f : α → β} {l : List α} (hn : (l.map f).Nodup) {a : α} (ha : a ∈ l)
    {p : α → Bool} (hp : ∀ b ∈ l, (p b = true ↔ f b = f a)) : l.filter p = [a] ∧ l.find? p = some a := by
  have h := filter_key hn ha hp
  exact ⟨h, by rw [← List.head?_filter, h]; rfl⟩

theorem key_atMost {α β : Type} [DecidableEq β] {f : α → β} {l : List α} (hn : (l.map f).Nodup) {p : α → Bool} {k : β}
    (hp : ∀ b ∈ l, (p b = true ↔ f b = k)) : l.filter p = (l.find? p).toList := by
  by_cases h : ∃ a ∈ l, f a = k
  · obtain ⟨a, ha, rfl⟩ := h
    obtain ⟨h1, h2⟩ := key_one hn ha hp
    rw [h1, h2]
    rfl
  · have : l.filter p = [] := List.filter_eq_nil_iff.mpr fun b hb e => h ⟨b, hb, (hp b hb).mp e⟩
    rw [← List.head?_filter, this]
    rfl

theorem flatMap_some {α β : Type} {l : List α} {g : α → List β} {h : α → β} {q : α → Bool} (hg : ∀ a ∈ l, q a = true → g a = [h a])
    (hq : ∀ a ∈ l, q a = false → g a = []) : l.flatMap g = (l.filter q).map h := by
  induction l with
  | nil => rfl
  | cons a l ih =>
    have ih := ih (fun b hb => hg b (by simp [hb])) fun b hb => hq b (by simp [hb])
    cases e : q a
    · rw [List.flatMap_cons, hq a (by simp) e, ih, List.filter_cons_of_neg (by simp [e])]; rfl
    · rw [List.flatMap_cons, hg a (by simp) e, ih, List.filter_cons_of_pos e]; rfl

/-- A join along a key. -/
theorem join_perm {α β γ κ : Type} [DecidableEq κ] {l : List α} {f : α → κ} (hn : (l.map f).Nodup) (k : β → κ) {r : α → β → γ} {r' : β → γ}
    {m : List β} (hm : ∀ b ∈ m, ∃ a ∈ l, f a = k b ∧ r a b = r' b) :
    (l.flatMap fun a => (m.filter fun b => f a = k b).map (r a)).Perm (m.map r') := by
  induction m with
  | nil => simp
  | cons b m ih =>
    have ih := ih fun c hc => hm c (by simp [hc])
    have e : (fun a => ((b :: m).filter fun b => f a = k b).map (r a)) =
        fun a => (if f a = k b then [r a b] else []) ++ (m.filter fun b => f a = k b).map (r a) := by
      funext a
      by_cases h : f a = k b <;> simp [h]
    rw [e]
    refine (List.flatMap_append_perm _ _ _).symm.trans ?_
    obtain ⟨a, ha, h1, h2⟩ := hm b (by simp)
    rw [flatMap_key hn ha (fun c _ hc => by rw [if_neg]; rw [← h1]; exact hc), if_pos h1, h2]
    exact List.Perm.cons _ ih

theorem flatMap_filter_eq {α β : Type} (l : List α) (p : α → Bool) (g : α → List β) :
    (l.filter p).flatMap g = l.flatMap fun a => if p a then g a else [] := by
  induction l with
  | nil => rfl
  | cons a l ih => cases e : p a <;> simp [e, ih]

/-! ### Numbers -/

theorem tableId_eq {srv : Server} (hs : Sound srv) {o : SysObject} (ho : IsTable srv o) : tableId srv o.schema o.name = some o.id := by
  have := (key_one hs.objectNames ho.1 (p := fun b => b.schema = o.schema ∧ b.name = o.name ∧ b.kind = lit "U") fun b hb => by
    simp only [decide_eq_true_eq, Prod.mk.injEq]
    refine ⟨fun h => ⟨h.1, h.2.1⟩, fun h => ⟨h.1, h.2, ?_⟩⟩
    rw [List.inj_on_of_nodup_map hs.objectNames hb ho.1 (by simp [h.1, h.2])]
    exact ho.2).2
  rw [tableId, this]
  rfl

theorem objectId_eq {srv : Server} (hs : Sound srv) {o : SysObject} (ho : IsTable srv o) : objectId srv o.schema o.name = some o.id := by
  have := (key_one hs.objectNames ho.1 (p := fun b => b.schema = o.schema ∧ b.name = o.name) fun b _ => by simp).2
  rw [objectId, this]
  rfl

theorem colName_eq {srv : Server} {o n : Nat} (h : ∃ k ∈ srv.columns, k.objectId = o ∧ k.columnId = n) :
    colName srv o n = some (nameOf srv o n) := by
  obtain ⟨k, hk, h1, h2⟩ := h
  rw [colName, nameOf, columnOf]
  cases e : srv.columns.find? fun c => decide (c.objectId = o ∧ c.columnId = n) with
  | some c => rfl
  | none => simpa [h1, h2] using List.find?_eq_none.mp e k hk

theorem objectName_eq {srv : Server} {n : Nat} (h : ∃ o ∈ srv.objects, o.id = n) :
    objectName srv n = some ((objectOf srv n).elim [] (·.name)) := by
  obtain ⟨k, hk, h1⟩ := h
  rw [objectName, objectOf]
  cases e : srv.objects.find? fun c => decide (c.id = n) with
  | some c => rfl
  | none => simpa [h1] using List.find?_eq_none.mp e k hk

/-! ### The queries -/

theorem filter_within {α : Type} {l : List α} {p q : α → Bool} (h : ∀ a ∈ l, p a = true → q a = true) : (l.filter q).filter p = l.filter p := by
  rw [List.filter_filter]
  refine List.filter_congr fun a ha => ?_
  cases e : p a
  · simp
  · simp [h a ha e]

theorem columnsRow_eq {srv : Server} (hs : Sound srv) {c : SysColumn} (hc : c ∈ srv.columns) {t : SysType}
    (ht : (srv.types.find? fun t => t.userTypeId = c.userTypeId) = some t) :
    columnsRow srv c t (srv.checks.find? fun k => k.parentObjectId = c.objectId ∧ k.parentColumnId = c.columnId)
      (srv.identities.find? fun i => i.objectId = c.objectId ∧ i.columnId = c.columnId) = some (ownColumn srv c) := by
  have h1 : columnIdentity c (srv.identities.find? fun i => i.objectId = c.objectId ∧ i.columnId = c.columnId) =
      some (ownColumn srv c).identity := by
    by_cases hi : c.isIdentity = true
    · obtain ⟨i, hi1, hi2⟩ := hs.identities c hc hi
      rw [columnIdentity, ownColumn, if_pos hi, if_pos hi]
      cases e : srv.identities.find? fun i => decide (i.objectId = c.objectId ∧ i.columnId = c.columnId) with
      | some c => rfl
      | none => simpa [hi2] using List.find?_eq_none.mp e i hi1
    · rw [columnIdentity, ownColumn, if_neg hi, if_neg hi]
  have h2 : columnDefault srv c = some ((ownColumn srv c).defaultName, (ownColumn srv c).defaultVal) := by
    by_cases hd : c.defaultObjectId = 0
    · simp [columnDefault, ownColumn, hd]
    · obtain ⟨k, hk, h1, h2⟩ := hs.defaults c hc hd
      have : (srv.objects.find? fun o => o.id = c.defaultObjectId) = some k :=
        (key_one hs.objectIds hk fun b _ => by simp [h1]).2
      obtain ⟨x, hx⟩ := Option.ne_none_iff_exists'.mp h2
      simp [columnDefault, ownColumn, hd, objectName, objectDefinition, objectOf, this, hx]
  rw [columnsRow, h1, h2]
  simp only [ownColumn, ht]
  rfl

theorem columnsQuery_eq {srv : Server} (hs : Sound srv) {o : SysObject} (ho : IsTable srv o) (hp : Simple srv o) :
    columnsQuery srv o.schema o.name = (ownColumns srv o).map some := by
  rw [columnsQuery, tableId_eq hs ho, ownColumns, List.map_map]
  rw [List.filter_congr (q := fun c => c.objectId = o.id) (fun c _ => by simp [eq_comm])]
  refine flatMap_single fun c hc => ?_
  obtain ⟨hc, hco⟩ := List.mem_filter.mp hc
  have hco : c.objectId = o.id := by simpa using hco
  obtain ⟨t, ht, htc⟩ := hs.types c hc
  obtain ⟨t1, -⟩ := key_one hs.typeIds ht (p := fun tp => c.userTypeId = tp.userTypeId) fun b _ => by simp [htc, eq_comm]
  obtain ⟨-, t2⟩ := key_one hs.typeIds ht (p := fun tp => tp.userTypeId = c.userTypeId) fun b _ => by simp [htc]
  have hk : (srv.checks.filter fun cc => c.objectId = cc.parentObjectId ∧ cc.parentColumnId = c.columnId) =
      (srv.checks.find? fun k => k.parentObjectId = c.objectId ∧ k.parentColumnId = c.columnId).toList := by
    have h0 : ∀ k ∈ srv.checks, decide (k.parentObjectId = c.objectId ∧ k.parentColumnId = c.columnId) = true →
        decide (k.parentObjectId = o.id ∧ k.parentColumnId ≠ 0) = true := fun k _ h => by
      simp only [decide_eq_true_eq] at h ⊢
      exact ⟨h.1.trans hco, h.2 ▸ hs.columnsNumbered c hc⟩
    have := key_atMost hp.checks (k := c.columnId) (p := fun k => k.parentObjectId = c.objectId ∧ k.parentColumnId = c.columnId) fun b hb => by
      have hb := (List.mem_filter.mp hb).2
      simp only [decide_eq_true_eq] at hb ⊢
      exact ⟨fun h => h.2, fun h => ⟨hb.1.trans hco.symm, h⟩⟩
    rw [filter_within h0, ← List.head?_filter, filter_within h0, List.head?_filter] at this
    rw [← this]
    exact List.filter_congr fun b _ => by simp [eq_comm]
  have hi : (srv.identities.filter fun ic => c.objectId = ic.objectId ∧ ic.columnId = c.columnId) =
      (srv.identities.find? fun i => i.objectId = c.objectId ∧ i.columnId = c.columnId).toList := by
    rw [← key_atMost hs.identityIds (k := (c.objectId, c.columnId)) fun b _ => by simp]
    exact List.filter_congr fun b _ => by simp [eq_comm]
  rw [t1, hk, hi, leftJoin_option, leftJoin_option]
  simp only [List.flatMap_singleton, List.map_cons, List.map_nil, columnsRow_eq hs hc t2]
  rfl

theorem indexesQuery_eq {srv : Server} (hs : Sound srv) {o : SysObject} (ho : IsTable srv o) :
    indexesQuery srv o.schema o.name = (ownIndexes srv o).map some := by
  rw [indexesQuery, objectId_eq hs ho, ownIndexes, List.map_map]
  have e : (srv.indexes.filter fun i => i.objectId = o.id ∧ i.indexId ≠ 0) =
      (srv.indexes.filter fun i => some o.id = some i.objectId).filter fun i => i.indexId ≠ 0 := by
    rw [List.filter_filter]
    exact List.filter_congr fun i _ => by simp [eq_comm, Bool.and_comm]
  rw [e]
  refine flatMap_some (fun i hi hq => ?_) fun i hi hq => ?_
  · have hi := (List.mem_filter.mp hi).1
    have hq : i.indexId ≠ 0 := by simpa using hq
    obtain ⟨s, h1, h2, h3⟩ := hs.stats i hi hq
    obtain ⟨s1, -⟩ := key_one hs.statsIds h1 (p := fun st => i.objectId = st.objectId ∧ i.indexId = st.statsId) fun b _ => by
      simp only [decide_eq_true_eq, Prod.mk.injEq, h2, h3]
      exact ⟨fun h => ⟨h.1.symm, h.2.symm⟩, fun h => ⟨h.1.symm, h.2.symm⟩⟩
    obtain ⟨-, s2⟩ := key_one hs.statsIds h1 (p := fun st => st.objectId = i.objectId ∧ st.statsId = i.indexId) fun b _ => by simp [h2, h3]
    obtain ⟨n, hn⟩ := Option.ne_none_iff_exists'.mp (hs.named i hi hq)
    rw [s1, List.map_cons, List.map_nil, indexesRow, hn]
    simp only [Function.comp, ownIndex, s2, hn]
    rfl
  · have hq : i.indexId = 0 := by simpa using hq
    rw [List.map_eq_nil_iff, List.filter_eq_nil_iff]
    intro s h1 h2
    simp only [decide_eq_true_eq] at h2
    exact hs.numbered s h1 (h2.2.symm.trans hq)

theorem indexColumnsQuery_perm {srv : Server} (hs : Sound srv) {o : SysObject} (ho : IsTable srv o) :
    (indexColumnsQuery srv o.schema o.name).Perm ((ownIndexColumns srv o).map some) := by
  rw [indexColumnsQuery, objectId_eq hs ho, ownIndexColumns, List.map_map, flatMap_filter_eq]
  have e : (srv.indexes.flatMap fun ind => if decide (some o.id = some ind.objectId) = true then
        (srv.indexColumns.filter fun ic => ind.objectId = ic.objectId ∧ ind.indexId = ic.indexId).map fun ic => indexColumnsRow srv ind ic else []) =
      srv.indexes.flatMap fun ind => ((srv.indexColumns.filter fun c => c.objectId = o.id).filter fun ic =>
        (ind.objectId, ind.indexId) = (ic.objectId, ic.indexId)).map (indexColumnsRow srv ind) := by
    refine List.flatMap_congr fun ind _ => ?_
    rw [List.filter_filter]
    by_cases h : ind.objectId = o.id
    · rw [if_pos (by simp [h])]
      congr 1
      refine List.filter_congr fun ic _ => ?_
      rw [← Bool.decide_and]
      refine decide_eq_decide.mpr ?_
      rw [Prod.mk.injEq, h]
      exact ⟨fun x => ⟨x, x.1.symm⟩, fun x => x.1⟩
    · rw [if_neg (by simpa [eq_comm] using h), List.filter_eq_nil_iff.mpr]
      · rfl
      · intro ic _ h'
        simp only [Bool.and_eq_true, decide_eq_true_eq, Prod.mk.injEq] at h'
        exact h (h'.1.1.trans h'.2)
  rw [e]
  refine join_perm hs.indexIds (fun ic : SysIndexColumn => (ic.objectId, ic.indexId)) fun c hc => ?_
  obtain ⟨-, ⟨i, hi, h1, h2⟩, hk⟩ := hs.indexColumns c (List.mem_filter.mp hc).1
  refine ⟨i, hi, by simp [h1, h2], ?_⟩
  have hf : indexOf srv c.objectId c.indexId = some i := (key_one hs.indexIds hi fun b _ => by simp [h1, h2]).2
  obtain ⟨n, hn⟩ := Option.ne_none_iff_exists'.mp (hs.named i hi (by rw [h2]; exact (hs.indexColumns c (List.mem_filter.mp hc).1).1))
  simp [indexColumnsRow, ownIndexColumn, hf, hn, colName_eq hk]

theorem foreignKeysQuery_eq {srv : Server} (hs : Sound srv) {o : SysObject} (ho : IsTable srv o) (hp : Simple srv o) :
    foreignKeysQuery srv o.schema o.name = (ownForeignKeys srv o).map some := by
  rw [foreignKeysQuery, objectId_eq hs ho, ownForeignKeys, List.map_map]
  rw [List.filter_congr (q := fun f => f.parentObjectId = o.id) (fun c _ => by simp [eq_comm])]
  refine flatMap_single fun f hf => ?_
  obtain ⟨hf, hfo⟩ := List.mem_filter.mp hf
  have hfo : f.parentObjectId = o.id := by simpa using hfo
  obtain ⟨c, hc⟩ := hp.foreignKeys f hf hfo
  have hfind : (srv.foreignKeyColumns.find? fun c => c.constraintObjectId = f.id) = some c := by rw [← List.head?_filter, hc]; rfl
  have hm := List.mem_filter.mp (hc ▸ List.mem_singleton_self c)
  obtain ⟨h1, h2⟩ := hs.foreignKeys f hf
  obtain ⟨h3, h4⟩ := h2 c hm.1 (by simpa using hm.2)
  rw [List.filter_congr (q := fun c => c.constraintObjectId = f.id) (fun c _ => by simp [eq_comm]), hc]
  simp [foreignKeysRow, ownForeignKey, hfind, colName_eq h3, colName_eq h4, objectName_eq h1]

/-! ### The answers -/

theorem perm_of_some {α : Type} {l l' : List α} (h : (l.map some).Perm (l'.map some)) : l.Perm l' :=
  (List.map_perm_map_iff fun _ _ h => Option.some.inj h).mp h

theorem msAnswers_own {srv : Server} {cat : Ms.Catalog} (h : Answers srv cat) (hs : Sound srv) {o : SysObject} (ho : IsTable srv o)
    (hp : Simple srv o) : (cat.columns o.schema o.name).Perm (ownColumns srv o) ∧ (cat.indexes o.schema o.name).Perm (ownIndexes srv o) ∧
      (cat.indexColumns o.schema o.name).Perm (ownIndexColumns srv o) ∧ (cat.foreignKeys o.schema o.name).Perm (ownForeignKeys srv o) :=
  ⟨perm_of_some (columnsQuery_eq hs ho hp ▸ h.columns _ _), perm_of_some (indexesQuery_eq hs ho ▸ h.indexes _ _),
    perm_of_some ((h.indexColumns _ _).trans (indexColumnsQuery_perm hs ho)), perm_of_some (foreignKeysQuery_eq hs ho hp ▸ h.foreignKeys _ _)⟩

theorem msAnswers_tables {srv : Server} {cat : Ms.Catalog} (h : Answers srv cat) (hs : Sound srv) :
    cat.tables.Nodup ∧ ∀ t : Str × Str, t ∈ cat.tables ↔ ∃ o, IsTable srv o ∧ (o.schema, o.name) = t := by
  refine ⟨h.tables.nodup_iff.mpr (List.Nodup.sublist (List.filter_sublist.map _) hs.objectNames), fun t => ?_⟩
  rw [h.tables.mem_iff, tablesQuery]
  simp [IsTable, and_assoc]

theorem nodup_second {α β γ : Type} {l : List α} {f : α → β} {g : α → γ} (h : (l.map fun a => (f a, g a)).Nodup) {p : α → Bool} {b : β}
    (hp : ∀ a ∈ l, p a = true → f a = b) : ((l.filter p).map g).Nodup := by
  refine List.Nodup.map_on (fun x hx y hy e => ?_) (List.Nodup.filter _ (List.Nodup.of_map _ h))
  obtain ⟨hx, hx'⟩ := List.mem_filter.mp hx
  obtain ⟨hy, hy'⟩ := List.mem_filter.mp hy
  exact List.inj_on_of_nodup_map h hx hy (by simp [hp x hx hx', hp y hy hy', e])

theorem msAnswers_orderly {srv : Server} {cat : Ms.Catalog} (h : Answers srv cat) (hs : Sound srv) {o : SysObject} (ho : IsTable srv o)
    (hp : Simple srv o) : MsOrderly cat o.schema o.name := by
  obtain ⟨h1, h2, -, h4⟩ := msAnswers_own h hs ho hp
  refine ⟨(h1.map _).nodup_iff.mpr ?_, (h2.map _).nodup_iff.mpr ?_, (h4.map _).nodup_iff.mpr ?_⟩
  · rw [ownColumns, List.map_map]
    exact nodup_second hs.columnNames (b := o.id) fun c _ hc => by simpa using hc
  · rw [ownIndexes, List.map_map]
    have e : (srv.indexes.filter fun i => i.objectId = o.id ∧ i.indexId ≠ 0) =
        (srv.indexes.filter fun i => i.indexId ≠ 0).filter fun i => i.objectId = o.id := by
      rw [List.filter_filter]
      exact List.filter_congr fun i _ => by simp
    rw [e]
    have := nodup_second hs.indexNames (p := fun i => i.objectId = o.id) (b := o.id) fun c _ hc => by simpa using hc
    have e2 : ((srv.indexes.filter fun i => decide (i.indexId ≠ 0)).filter fun i => decide (i.objectId = o.id)).map (·.name) =
        (((srv.indexes.filter fun i => decide (i.indexId ≠ 0)).filter fun i => decide (i.objectId = o.id)).map
          ((fun r : IndexRow => r.name) ∘ ownIndex srv)).map some := by
      rw [List.map_map]
      refine List.map_congr_left fun i hi => ?_
      have hi := (List.mem_filter.mp (List.mem_filter.mp hi).1)
      obtain ⟨n, hn⟩ := Option.ne_none_iff_exists'.mp (hs.named i hi.1 (by simpa using hi.2))
      simp [ownIndex, hn]
    rw [e2] at this
    exact List.Nodup.of_map _ this
  · rw [ownForeignKeys, List.map_map]
    exact nodup_second hs.foreignKeyNames (b := o.id) fun c _ hc => by simpa using hc

end Sqldef
