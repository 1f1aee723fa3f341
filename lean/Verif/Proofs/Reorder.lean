import Verif.Props.Normal
import Verif.Proofs.Agrees
/-
Schemas that differ in the order of their statements only.
-/
namespace Sqldef
open Spec

theorem perm_of_parts {α : Type} {f : List DDL → List α} (h0 : f [] = []) (h1 : ∀ d ds, f (d :: ds) = f [d] ++ f ds)
    {as bs : List DDL} (h : as.Perm bs) : (f as).Perm (f bs) := by
  have key : ∀ ds, f ds = ds.flatMap fun d => f [d] := by
    intro ds
    induction ds with
    | nil => exact h0
    | cons d ds ih => rw [h1, ih]; rfl
  rw [key as, key bs]
  exact h.flatMap_right _

theorem indexesFor_perm (n : Str) {as bs : List DDL} (h : as.Perm bs) : (indexesFor n as).Perm (indexesFor n bs) :=
  perm_of_parts rfl (fun d ds => by cases d <;> simp only [indexesFor] <;> (try split) <;> rfl) h

theorem foreignKeysFor_perm (n : Str) {as bs : List DDL} (h : as.Perm bs) : (foreignKeysFor n as).Perm (foreignKeysFor n bs) :=
  perm_of_parts rfl (fun d ds => by cases d <;> simp only [foreignKeysFor] <;> (try split) <;> rfl) h

theorem policiesFor_perm (n : Str) {as bs : List DDL} (h : as.Perm bs) : (policiesFor n as).Perm (policiesFor n bs) :=
  perm_of_parts rfl (fun d ds => by cases d <;> simp only [policiesFor] <;> (try split) <;> rfl) h

theorem viewsOf_perm {as bs : List DDL} (h : as.Perm bs) : (viewsOf as).Perm (viewsOf bs) :=
  perm_of_parts rfl (fun d ds => by cases d <;> rfl) h

theorem triggersOf_perm {as bs : List DDL} (h : as.Perm bs) : (triggersOf as).Perm (triggersOf bs) :=
  perm_of_parts rfl (fun d ds => by cases d <;> rfl) h

theorem mem_split_parts {α : Type} {f : List DDL → List α} (h1 : ∀ d ds, f (d :: ds) = f [d] ++ f ds) (h0 : f [] = []) (pre : List DDL)
    (d : DDL) (post : List DDL) : f (pre ++ d :: post) = f pre ++ (f [d] ++ f post) := by
  induction pre with
  | nil => rw [List.nil_append, h1, h0, List.nil_append]
  | cons e pre ih => rw [List.cons_append, h1, ih, h1 e pre, List.append_assoc]

theorem notBefore {α : Type} {key : α → Str} {own pre post : List α} {x : α} (h : ((own ++ (pre ++ (x :: post))).map key).Nodup) :
    key x ∉ (own ++ pre).map key := by
  rw [← List.append_assoc, List.map_append] at h
  intro hm
  exact (List.nodup_append.mp h).2.2 _ hm _ (by simp) rfl

/-- In whatever order, as long as every statement comes after the table that it is about. -/
theorem wellFormed_perm {mode : Mode} {as bs : List DDL} (h : as.Perm bs) (ha : Normal mode as) (hw : WellFormedCurrent bs) :
    WellFormed bs := by
  have hu : UniqueTables bs := ((created_perm h).map _).nodup_iff.mp ha.unique
  rintro pre d post rfl
  have hcur := hw pre d post rfl
  have hd : d ∈ as := h.mem_iff.mpr (by simp)
  have htab : ∀ n, n ∈ createdNames pre → ∃ t, tableIn pre n = some (complete pre t) ∧ t.name = n ∧ NormalTable mode as t := by
    intro n hn
    obtain ⟨s, t, ht, rfl⟩ := mem_createdNames.1 hn
    have hup : UniqueTables pre := by
      unfold UniqueTables createdNames at hu ⊢
      rw [mem_split_parts (f := created) (fun d ds => by cases d <;> rfl) rfl, List.map_append] at hu
      exact hu.of_append_left
    exact ⟨t, tableIn_of_created hup (mem_created.2 ⟨s, ht⟩), rfl, ha.tables s t (h.mem_iff.mpr (by simp [ht]))⟩
  cases d with
  | createTable s t => trivial
  | createIndex s n i =>
    obtain ⟨t, h1, rfl, h2⟩ := htab n hcur
    refine ⟨_, h1, ?_⟩
    have := (((indexesFor_perm t.name h).append_left t.indexes).map (·.name)).nodup_iff.mp h2.indexes
    rw [mem_split_parts (f := indexesFor t.name) (fun d ds => by cases d <;> simp only [indexesFor] <;> (try split) <;> rfl) rfl] at this
    simp only [indexesFor, if_true, List.singleton_append] at this
    exact notBefore this
  | addIndex s n i => exact hcur.elim
  | addForeignKey s n f =>
    obtain ⟨t, h1, rfl, h2⟩ := htab n hcur
    refine ⟨_, h1, ?_⟩
    have := (((foreignKeysFor_perm t.name h).append_left t.foreignKeys).map (·.constraintName)).nodup_iff.mp h2.foreignKeys
    rw [mem_split_parts (f := foreignKeysFor t.name) (fun d ds => by cases d <;> simp only [foreignKeysFor] <;> (try split) <;> rfl) rfl] at this
    simp only [foreignKeysFor, if_true, List.singleton_append] at this
    exact notBefore this
  | addPolicy s n p =>
    obtain ⟨t, h1, rfl, h2⟩ := htab n hcur
    refine ⟨_, h1, ?_⟩
    have := (((policiesFor_perm t.name h).append_left t.policies).map (·.name)).nodup_iff.mp h2.policies
    rw [mem_split_parts (f := policiesFor t.name) (fun d ds => by cases d <;> simp only [policiesFor] <;> (try split) <;> rfl) rfl] at this
    simp only [policiesFor, if_true, List.singleton_append] at this
    exact notBefore this
  | view v =>
    have := ((viewsOf_perm h).map (·.name)).nodup_iff.mp (viewsOf_nodup ha.wellFormed)
    rw [mem_split_parts (f := viewsOf) (fun d ds => by cases d <;> rfl) rfl] at this
    exact notBefore (own := []) this
  | trigger v => trivial
  | addPrimaryKey s n i =>
    obtain ⟨pre', post', e⟩ := List.append_of_mem hd
    exact (ha.wellFormed pre' _ post' e).elim

theorem normal_perm {mode : Mode} {as bs : List DDL} (h : as.Perm bs) (ha : Normal mode as) (hw : WellFormedCurrent bs) :
    Normal mode bs where
  unique := ((created_perm h).map _).nodup_iff.mp ha.unique
  wellFormed := wellFormed_perm h ha hw
  noAddIndex s n i hm := ha.noAddIndex s n i (h.mem_iff.mpr hm)
  tables s t ht := by
    have := ha.tables s t (h.mem_iff.mpr ht)
    have hi := (indexesFor_perm t.name h).append_left t.indexes
    exact ⟨this.columns, (hi.map _).nodup_iff.mp this.indexes, fun i hm => this.options i (hi.mem_iff.mpr hm),
      fun i hm => this.secondary i ((indexesFor_perm t.name h).mem_iff.mpr hm),
      (((foreignKeysFor_perm t.name h).append_left t.foreignKeys).map _).nodup_iff.mp this.foreignKeys, this.named,
      (((policiesFor_perm t.name h).append_left t.policies).map _).nodup_iff.mp this.policies, this.mysql⟩
  triggers := ((triggersOf_perm h).map _).nodup_iff.mp ha.triggers

theorem cleanup_names {mode : Mode} {x d : Table} (hf : ∀ f ∈ x.foreignKeys, f ∈ d.foreignKeys) (hi : ∀ f ∈ x.indexes, f ∈ d.indexes)
    (hc : ∀ f ∈ x.columns, f ∈ d.columns) (hp : ∀ f ∈ x.policies, f ∈ d.policies) : cleanupTable mode x d = .ok [] := by
  have e : ∀ {α : Type} (l m : List α) (key : α → Str), (∀ a ∈ l, a ∈ m) → (l.filter fun a => !containsString (m.map key) (key a)) = [] := by
    intro α l m key h
    rw [List.filter_eq_nil_iff]
    intro a ha
    rw [containsString_iff.2 (List.mem_map_of_mem (h a ha))]; simp
  have e2 : (x.indexes.filter fun i => !(containsString (indexNames d.indexes) i.name ||
        containsString (fkIndexNames d.foreignKeys) i.name)) = [] := by
    rw [List.filter_eq_nil_iff]
    intro a ha
    have : containsString (indexNames d.indexes) a.name = true := containsString_iff.2 (List.mem_map_of_mem (hi a ha))
    simp [this]
  unfold cleanupTable
  simp only [fkConstraintNames, columnNames, policyNames, e _ _ _ hf, e _ _ _ hc, e _ _ _ hp, e2]
  rfl

theorem complete_mem {cs ds : List DDL} (h : cs.Perm ds) (hw : WellFormed cs) (hw' : WellFormed ds) (t : Table) {mode : Mode} :
    cleanupTable mode (complete cs t) (complete ds t) = .ok [] := by
  refine cleanup_names ?_ ?_ ?_ ?_
  · exact fun f => ((foreignKeysFor_perm t.name h).append_left t.foreignKeys).mem_iff.mp
  · exact fun f => ((indexesFor_perm t.name h).append_left t.indexes).mem_iff.mp
  · rw [complete_columns hw, complete_columns hw']
    exact fun f hf => hf
  · exact fun f => ((policiesFor_perm t.name h).append_left t.policies).mem_iff.mp

theorem diff_reordered {mode : Mode} {ds cs : List DDL} (h : Normal mode ds) (hw : WellFormedCurrent cs) (hp : cs.Perm ds) :
    diff mode ds cs = .ok [] := by
  have hc := normal_perm hp.symm h hw
  obtain ⟨-, -, x, y, h1, -, h3⟩ := (diff_stateless mode cs cs hc.unique hc.unique []).1 (C18_self_diff_is_empty hc)
  have hx : x = [] := by
    have := h3.symm
    simp only [List.append_eq_nil_iff] at this
    exact this.1.1
  subst hx
  refine (diff_stateless mode ds cs h.unique hc.unique []).2 ⟨h.wellFormed, hw, [], [], ?_, ?_, ?_⟩
  · rw [concatMapM_empty_iff] at h1 ⊢
    exact fun d hd => h1 d (hp.mem_iff.mpr hd)
  · rw [concatMapM_empty_iff]
    intro t ht
    obtain ⟨u, hu, rfl⟩ := List.mem_map.mp ht
    unfold tableCleanup
    have : findTableByName (tablesOf ds) u.name = some (complete ds u) := tableIn_of_created h.unique ((created_perm hp).mem_iff.mp hu)
    rw [show (complete cs u).name = u.name from rfl, this]
    exact complete_mem hp hc.wellFormed h.wellFormed u
  · unfold cleanupViews
    have : ((viewsOf cs).filter fun v => !containsString (viewNames (viewsOf ds)) v.name) = [] := by
      rw [List.filter_eq_nil_iff]
      intro a ha
      have : containsString (viewNames (viewsOf ds)) a.name = true :=
        containsString_iff.2 (List.mem_map_of_mem ((viewsOf_perm hp).mem_iff.mp ha))
      simp [this]
    rw [this]; rfl

end Sqldef
