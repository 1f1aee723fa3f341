import Verif.Spec.FileOrder
import Verif.Proofs.ListedText
/-
The statements of the file in another order.
-/
namespace Sqldef
open Spec

/-- What separate statements define on a table has new names. -/
theorem once {α : Type} {f : Str → List DDL → List α} {own : Table → List α} {key : α → Str} (h0 : ∀ n, f n [] = [])
    (h1 : ∀ n d ds, f n (d :: ds) = f n [d] ++ f n ds) (hc : ∀ ds t, own (Spec.complete ds t) = own t ++ f t.name ds)
    (hf : ∀ pre d n, Follows pre d → f n [d] = [] ∨ ∃ x t, f n [d] = [x] ∧ tableIn pre n = some t ∧ key x ∉ (own t).map key)
    (ds : List DDL) (hw : WellFormed ds) (hu : UniqueTables ds) (t : Table) (ht : t ∈ created ds) :
    ((f t.name ds).map key).Nodup ∧ ∀ x ∈ f t.name ds, key x ∉ (own t).map key := by
  induction ds using List.reverseRecOn with
  | nil => cases ht
  | append_singleton ds d ih =>
    obtain ⟨hw', hd⟩ := wellFormed_snoc.mp hw
    have es : f t.name (ds ++ [d]) = f t.name ds ++ f t.name [d] := by
      have := mem_split_parts (f := f t.name) (h1 _) (h0 _) ds d []
      rwa [h0, List.append_nil] at this
    have ec : created (ds ++ [d]) = created ds ++ created [d] := by
      have := mem_split_parts (f := created) (fun d ds => by cases d <;> rfl) rfl ds d []
      rwa [show created [] = [] from rfl, List.append_nil] at this
    have hu' : UniqueTables ds := by
      unfold UniqueTables createdNames at hu ⊢
      rw [ec, List.map_append] at hu
      exact hu.of_append_left
    rcases hf ds d t.name hd with h | ⟨x, u, h, h2, h3⟩
    · rw [es, h, List.append_nil]
      rw [ec] at ht
      rcases List.mem_append.mp ht with ht1 | ht1
      · exact ih hw' hu' ht1
      · have hn : t.name ∉ createdNames ds := by
          unfold UniqueTables createdNames at hu
          rw [ec, List.map_append] at hu
          exact fun hm => (List.nodup_append.mp hu).2.2 _ hm _ (List.mem_map_of_mem ht1) rfl
        have : f t.name ds = [] := by
          clear ih es hu ec ht ht1 hu' h hw hd
          induction ds using List.reverseRecOn with
          | nil => exact h0 _
          | append_singleton ds e ih =>
            obtain ⟨hw1, he⟩ := wellFormed_snoc.mp hw'
            have ec : created (ds ++ [e]) = created ds ++ created [e] := by
              have := mem_split_parts (f := created) (fun d ds => by cases d <;> rfl) rfl ds e []
              rwa [show created [] = [] from rfl, List.append_nil] at this
            have hn' : t.name ∉ createdNames ds := fun hm => hn (by
              unfold createdNames at hm ⊢
              rw [ec, List.map_append]
              exact List.mem_append_left _ hm)
            have es : f t.name (ds ++ [e]) = f t.name ds ++ f t.name [e] := by
              have := mem_split_parts (f := f t.name) (h1 _) (h0 _) ds e []
              rwa [h0, List.append_nil] at this
            rw [es, ih hw1 hn', List.nil_append]
            rcases hf ds e t.name he with h | ⟨x, u, h, h2, h3⟩
            · exact h
            · exact absurd (tableIn_some_iff.1 ⟨u, h2⟩) hn'
        rw [this]
        exact ⟨List.nodup_nil, fun x hx => by cases hx⟩
    · have hm : t ∈ created ds := by
        rw [ec] at ht
        rcases List.mem_append.mp ht with ht | ht
        · exact ht
        · exfalso
          have hm := tableIn_some_iff.1 ⟨u, h2⟩
          unfold UniqueTables createdNames at hu
          rw [ec, List.map_append] at hu
          exact (List.nodup_append.mp hu).2.2 _ hm _ (List.mem_map_of_mem ht) rfl
      cases (tableIn_of_created hu' hm).symm.trans h2
      rw [hc, List.map_append, List.mem_append, not_or] at h3
      obtain ⟨i1, i2⟩ := ih hw' hu' hm
      rw [es, h, List.map_append]
      refine ⟨List.nodup_append.mpr ⟨i1, List.nodup_singleton _, ?_⟩, ?_⟩
      · rintro a ha b hb rfl
        simp only [List.map_cons, List.map_nil, List.mem_singleton] at hb
        exact h3.2 (hb ▸ ha)
      · intro y hy
        rcases List.mem_append.mp hy with hy | hy
        · exact i2 y hy
        · cases List.mem_singleton.mp hy
          exact h3.1

theorem index_once {ds : List DDL} (hw : WellFormed ds) (hu : UniqueTables ds) {t : Table} (ht : t ∈ created ds) :
    ((indexesFor t.name ds).map (·.name)).Nodup ∧ ∀ x ∈ indexesFor t.name ds, x.name ∉ t.indexes.map (·.name) := by
  refine once (f := indexesFor) (own := Table.indexes) (key := Index.name) (fun _ => rfl)
    (fun n d ds => by cases d <;> simp only [indexesFor] <;> (try split) <;> rfl) (fun _ _ => rfl) ?_ ds hw hu t ht
  intro pre d n hd
  cases d with
  | createIndex s m i =>
    by_cases e : m = n
    · subst e
      obtain ⟨t, h1, h2⟩ := hd
      exact .inr ⟨i, t, by simp [indexesFor], h1, h2⟩
    · exact .inl (by simp [indexesFor, e])
  | addIndex s m i =>
    by_cases e : m = n
    · subst e
      obtain ⟨t, h1, h2⟩ := hd
      exact .inr ⟨i, t, by simp [indexesFor], h1, h2⟩
    · exact .inl (by simp [indexesFor, e])
  | _ => exact .inl rfl

theorem foreignKey_once {ds : List DDL} (hw : WellFormed ds) (hu : UniqueTables ds) {t : Table} (ht : t ∈ created ds) :
    ((foreignKeysFor t.name ds).map (·.constraintName)).Nodup ∧ ∀ x ∈ foreignKeysFor t.name ds, x.constraintName ∉ t.foreignKeys.map (·.constraintName) := by
  refine once (f := foreignKeysFor) (own := Table.foreignKeys) (key := ForeignKey.constraintName) (fun _ => rfl)
    (fun n d ds => by cases d <;> simp only [foreignKeysFor] <;> (try split) <;> rfl) (fun _ _ => rfl) ?_ ds hw hu t ht
  intro pre d n hd
  cases d with
  | addForeignKey s m i =>
    by_cases e : m = n
    · subst e
      obtain ⟨t, h1, h2⟩ := hd
      exact .inr ⟨i, t, by simp [foreignKeysFor], h1, h2⟩
    · exact .inl (by simp [foreignKeysFor, e])
  | _ => exact .inl rfl

theorem policy_once {ds : List DDL} (hw : WellFormed ds) (hu : UniqueTables ds) {t : Table} (ht : t ∈ created ds) :
    ((policiesFor t.name ds).map (·.name)).Nodup ∧ ∀ x ∈ policiesFor t.name ds, x.name ∉ t.policies.map (·.name) := by
  refine once (f := policiesFor) (own := Table.policies) (key := Policy.name) (fun _ => rfl)
    (fun n d ds => by cases d <;> simp only [policiesFor] <;> (try split) <;> rfl) (fun _ _ => rfl) ?_ ds hw hu t ht
  intro pre d n hd
  cases d with
  | addPolicy s m i =>
    by_cases e : m = n
    · subst e
      obtain ⟨t, h1, h2⟩ := hd
      exact .inr ⟨i, t, by simp [policiesFor], h1, h2⟩
    · exact .inl (by simp [policiesFor, e])
  | _ => exact .inl rfl

theorem still_new {α : Type} {key : α → Str} {own all pre post : List α} {x : α} (h : (all.map key).Nodup ∧ ∀ y ∈ all, key y ∉ own.map key)
    (hp : all.Perm (pre ++ ([x] ++ post))) : key x ∉ (own ++ pre).map key := by
  rw [List.map_append, List.mem_append, not_or]
  refine ⟨h.2 x (hp.mem_iff.mpr (by simp)), fun hm => ?_⟩
  have := (hp.map key).nodup_iff.mp h.1
  rw [List.map_append] at this
  exact (List.nodup_append.mp this).2.2 _ hm _ (by simp) rfl

/-- In whatever order, as long as every statement comes after the table that it is about. -/
theorem wellFormed_reordered {as bs : List DDL} (h : as.Perm bs) (ha : WellFormed as) (hua : UniqueTables as) (hw : TablesFirst bs) : WellFormed bs := by
  have hu : UniqueTables bs := ((created_perm h).map _).nodup_iff.mp hua
  rintro pre d post rfl
  have hd : d ∈ as := h.mem_iff.mpr (by simp)
  have htab : ∀ n, DDL.table d = some n → (∀ s t, d ≠ .createTable s t) → ∃ t, tableIn pre n = some (Spec.complete pre t) ∧ t.name = n ∧ t ∈ created as := by
    intro n hn hc
    have hn := hw pre d post n rfl hn
    have ec : created (pre ++ [d]) = created pre ++ created [d] := by
      have := mem_split_parts (f := created) (fun d ds => by cases d <;> rfl) rfl pre d []
      rwa [show created [] = [] from rfl, List.append_nil] at this
    have e0 : created [d] = [] := by cases d <;> first | rfl | exact absurd rfl (hc _ _)
    unfold createdNames at hn
    rw [ec, e0, List.append_nil] at hn
    obtain ⟨s, t, ht, rfl⟩ := mem_createdNames.1 hn
    have hup : UniqueTables pre := by
      unfold UniqueTables createdNames at hu ⊢
      rw [mem_split_parts (f := created) (fun d ds => by cases d <;> rfl) rfl, List.map_append] at hu
      exact hu.of_append_left
    exact ⟨t, tableIn_of_created hup (mem_created.2 ⟨s, ht⟩), rfl, mem_created.2 ⟨s, h.mem_iff.mpr (by simp [ht])⟩⟩
  cases d with
  | createTable s t => trivial
  | createIndex s n i =>
    obtain ⟨t, h1, rfl, h2⟩ := htab n rfl (fun _ _ h => by cases h)
    have := indexesFor_perm t.name h
    rw [mem_split_parts (f := indexesFor t.name) (fun d ds => by cases d <;> simp only [indexesFor] <;> (try split) <;> rfl) rfl] at this
    exact ⟨_, h1, still_new (index_once ha hua h2) (x := i) (by simpa only [indexesFor, if_true] using this)⟩
  | addIndex s n i =>
    obtain ⟨t, h1, rfl, h2⟩ := htab n rfl (fun _ _ h => by cases h)
    have := indexesFor_perm t.name h
    rw [mem_split_parts (f := indexesFor t.name) (fun d ds => by cases d <;> simp only [indexesFor] <;> (try split) <;> rfl) rfl] at this
    exact ⟨_, h1, still_new (index_once ha hua h2) (x := i) (by simpa only [indexesFor, if_true] using this)⟩
  | addForeignKey s n f =>
    obtain ⟨t, h1, rfl, h2⟩ := htab n rfl (fun _ _ h => by cases h)
    have := foreignKeysFor_perm t.name h
    rw [mem_split_parts (f := foreignKeysFor t.name) (fun d ds => by cases d <;> simp only [foreignKeysFor] <;> (try split) <;> rfl) rfl] at this
    exact ⟨_, h1, still_new (foreignKey_once ha hua h2) (x := f) (by simpa only [foreignKeysFor, if_true] using this)⟩
  | addPolicy s n p =>
    obtain ⟨t, h1, rfl, h2⟩ := htab n rfl (fun _ _ h => by cases h)
    have := policiesFor_perm t.name h
    rw [mem_split_parts (f := policiesFor t.name) (fun d ds => by cases d <;> simp only [policiesFor] <;> (try split) <;> rfl) rfl] at this
    exact ⟨_, h1, still_new (policy_once ha hua h2) (x := p) (by simpa only [policiesFor, if_true] using this)⟩
  | view v =>
    have := ((viewsOf_perm h).map (·.name)).nodup_iff.mp (viewsOf_nodup ha)
    rw [mem_split_parts (f := viewsOf) (fun d ds => by cases d <;> rfl) rfl] at this
    exact notBefore (own := []) this
  | trigger v => trivial
  | addPrimaryKey s n i =>
    obtain ⟨pre', post', e⟩ := List.append_of_mem hd
    exact (ha pre' _ post' e).elim

theorem contains_congr {l m : List Str} (h : l.Perm m) (s : Str) : containsString l s = containsString m s := by
  rw [Bool.eq_iff_iff, containsString_iff, containsString_iff]
  exact h.mem_iff

theorem fkIndexNames_perm {l m : List ForeignKey} (h : l.Perm m) : (fkIndexNames l).Perm (fkIndexNames m) := by
  unfold fkIndexNames
  exact h.filterMap _

/-- The clean-up of a table uses the names of what is desired only. -/
theorem cleanupTable_desired {mode : Mode} {x : Table} {ds es : List DDL} (h : ds.Perm es) (hw : WellFormed ds) (hw' : WellFormed es) (t : Table) :
    cleanupTable mode x (Spec.complete es t) = cleanupTable mode x (Spec.complete ds t) := by
  have ec : (Spec.complete es t).columns = (Spec.complete ds t).columns := by rw [complete_columns hw, complete_columns hw']
  have e1 : ∀ i, absentIndex mode i x (Spec.complete es t) = absentIndex mode i x (Spec.complete ds t) := fun i => by simp only [absentIndex, ec]
  have e2 : ∀ f, absentForeignKey mode f x (Spec.complete es t) = absentForeignKey mode f x (Spec.complete ds t) := fun i => by simp only [absentForeignKey, ec]
  have hf : (Spec.complete es t).foreignKeys.Perm (Spec.complete ds t).foreignKeys := ((foreignKeysFor_perm t.name h).append_left t.foreignKeys).symm
  have hi : (Spec.complete es t).indexes.Perm (Spec.complete ds t).indexes := ((indexesFor_perm t.name h).append_left t.indexes).symm
  have hp : (Spec.complete es t).policies.Perm (Spec.complete ds t).policies := ((policiesFor_perm t.name h).append_left t.policies).symm
  unfold cleanupTable
  simp only [e1, e2, ec, contains_congr (fkIndexNames_perm hf), contains_congr (show (fkConstraintNames _).Perm _ from hf.map _),
    contains_congr (show (indexNames _).Perm _ from hi.map _), contains_congr (show (policyNames _).Perm _ from hp.map _)]
  rfl

theorem tableCleanup_desired {mode : Mode} {ds es : List DDL} (h : ds.Perm es) (hu : UniqueTables ds) (hw : WellFormed ds) (hw' : WellFormed es) (x : Table) :
    tableCleanup mode (tablesOf es) x = tableCleanup mode (tablesOf ds) x := by
  have hu' : UniqueTables es := ((created_perm h).map _).nodup_iff.mp hu
  unfold tableCleanup
  have e1 : findTableByName (tablesOf es) x.name = tableIn es x.name := rfl
  have e2 : findTableByName (tablesOf ds) x.name = tableIn ds x.name := rfl
  rw [e1, e2]
  by_cases hm : x.name ∈ createdNames ds
  · obtain ⟨s, t, ht, e⟩ := mem_createdNames.1 hm
    rw [← e, tableIn_of_created hu (mem_created.2 ⟨s, ht⟩), tableIn_of_created hu' (mem_created.2 ⟨s, h.mem_iff.mp ht⟩)]
    exact cleanupTable_desired h hw hw' t
  · have hm' : x.name ∉ createdNames es := fun hx => hm (((created_perm h).map _).mem_iff.mpr hx)
    have n1 : tableIn ds x.name = none := by
      cases he : tableIn ds x.name with
      | none => rfl
      | some u => exact absurd (tableIn_some_iff.1 ⟨u, he⟩) hm
    have n2 : tableIn es x.name = none := by
      cases he : tableIn es x.name with
      | none => rfl
      | some u => exact absurd (tableIn_some_iff.1 ⟨u, he⟩) hm'
    rw [n1, n2]

theorem cleanupViews_desired {ds es : List DDL} (h : ds.Perm es) (vs : List View) : cleanupViews (viewsOf es) vs = cleanupViews (viewsOf ds) vs := by
  unfold cleanupViews
  simp only [contains_congr (show (viewNames (viewsOf es)).Perm (viewNames (viewsOf ds)) from ((viewsOf_perm h).map _).symm)]

/-- The statements that one statement of the file leads to. -/
def changesFor (env : Env) (mode : Mode) (cur : List DDL) (text : Str) : List Str :=
  match parseDDL env mode text with
  | .error _ => []
  | .ok d =>
    match defStmts mode (tablesOf cur) (viewsOf cur) (triggersOf cur) d with
    | .error _ => []
    | .ok out => out.map (Stmt.render mode)

theorem changes_flat {env : Env} {mode : Mode} {cur : List DDL} : ∀ {texts : List Str} {ds : List DDL} {out : List Stmt},
    texts.mapM (parseDDL env mode) = .ok ds → concatMapM (defStmts mode (tablesOf cur) (viewsOf cur) (triggersOf cur)) ds = .ok out →
    out.map (Stmt.render mode) = texts.flatMap (changesFor env mode cur) := by
  intro texts
  induction texts with
  | nil =>
    intro ds out h1 h2
    cases h1
    cases h2
    rfl
  | cons t texts ih =>
    intro ds out h1 h2
    rw [List.mapM_cons] at h1
    cases hp : parseDDL env mode t with
    | error e => rw [hp] at h1; cases h1
    | ok d =>
      rw [hp] at h1
      change (texts.mapM (parseDDL env mode) >>= fun l => pure (d :: l)) = _ at h1
      cases hm : texts.mapM (parseDDL env mode) with
      | error e => rw [hm] at h1; cases h1
      | ok l =>
        rw [hm] at h1
        cases h1
        unfold concatMapM at h2
        cases hd : defStmts mode (tablesOf cur) (viewsOf cur) (triggersOf cur) d with
        | error e => rw [hd] at h2; cases h2
        | ok a =>
          rw [hd] at h2
          change (concatMapM _ l >>= fun y => pure (a ++ y)) = _ at h2
          cases hy : concatMapM (defStmts mode (tablesOf cur) (viewsOf cur) (triggersOf cur)) l with
          | error e => rw [hy] at h2; cases h2
          | ok y =>
            rw [hy] at h2
            cases h2
            rw [List.map_append, ih hm hy, List.flatMap_cons]
            congr 1
            simp only [changesFor, hp, hd]

theorem mapM_reordered {α β : Type} {f : α → Except Err β} {l m : List α} (h : l.Perm m) {r : List β} (hr : l.mapM f = .ok r) :
    ∃ s, m.mapM f = .ok s ∧ r.Perm s := by
  have key : ∀ (l : List α) (r : List β), l.mapM f = .ok r ↔ List.Forall₂ (fun a b => f a = .ok b) l r := by
    intro l
    induction l with
    | nil => intro r; exact ⟨fun h => by cases h; exact .nil, fun h => by cases h; rfl⟩
    | cons a l ih =>
      intro r
      rw [List.mapM_cons]
      constructor
      · intro h
        cases ha : f a with
        | error e => rw [ha] at h; cases h
        | ok b =>
          rw [ha] at h
          change (l.mapM f >>= fun l => pure (b :: l)) = _ at h
          cases hl : l.mapM f with
          | error e => rw [hl] at h; cases h
          | ok bs =>
            rw [hl] at h
            cases h
            exact .cons ha ((ih _).mp hl)
      · rintro (_ | ⟨h1, h2⟩)
        rw [h1, (ih _).mpr h2]
        rfl
  obtain ⟨s, h1, h2⟩ := List.perm_comp_forall₂ h.symm ((key _ _).mp hr)
  exact ⟨s, (key _ _).mpr h1, h2.symm⟩

theorem file_reordered {env : Env} {mode : Mode} {current : Str} {cur : List DDL} (hc : parseDDLs env mode current = .ok cur) (hu : UniqueTables cur)
    {file : Str} {des : List DDL} (hp : parseDDLs env mode file = .ok des) (hd : UniqueTables des) {script : List Str}
    (h : generateIdempotentDDLs env mode file current = .ok script) :
    ∃ removals : List Stmt, (∀ s ∈ removals, TakesAway s) ∧
      script = (statementTexts file).flatMap (changesFor env mode cur) ++ removals.map (Stmt.render mode) ∧
      ∀ file', (statementTexts file).Perm (statementTexts file') → (∀ des', parseDDLs env mode file' = .ok des' → TablesFirst des') →
        generateIdempotentDDLs env mode file' current =
          .ok ((statementTexts file').flatMap (changesFor env mode cur) ++ removals.map (Stmt.render mode)) := by
  obtain ⟨_, _, stmts, h1, h2, h3, rfl⟩ := generate_ok_iff.mp h
  cases hp.symm.trans h1
  cases hc.symm.trans h2
  obtain ⟨w1, w2, x, y, h4, h5, rfl⟩ := (diff_stateless mode des cur hd hu stmts).1 h3
  have hm := hp
  rw [parseDDLs_eq] at hm
  refine ⟨y ++ cleanupViews (viewsOf des) (viewsOf cur), ?_, ?_, ?_⟩
  · intro s hs
    rcases List.mem_append.mp hs with hs | hs
    · exact cleanups_remove h5 s hs
    · obtain ⟨v, -, rfl⟩ := List.mem_map.mp hs
      trivial
  · rw [← changes_flat hm h4, List.append_assoc, List.map_append]
  · intro file' hf ht
    obtain ⟨des', m1, m2⟩ := mapM_reordered hf hm
    have hp' : parseDDLs env mode file' = .ok des' := by rw [parseDDLs_eq]; exact m1
    have hd' : UniqueTables des' := ((created_perm m2).map _).nodup_iff.mp hd
    have w1' := wellFormed_reordered m2 w1 hd (ht _ hp')
    obtain ⟨x', h6, -⟩ := concatMapM_reordered m2 h4
    refine generate_ok_iff.mpr ⟨des', cur, x' ++ y ++ cleanupViews (viewsOf des') (viewsOf cur), hp', hc,
      (diff_stateless mode des' cur hd' hu _).2 ⟨w1', w2, x', y, h6, ?_, rfl⟩, ?_⟩
    · rw [← h5]
      congr 1
      funext z
      exact tableCleanup_desired m2 hd w1 w1' z
    · rw [← changes_flat m1 h6, cleanupViews_desired m2]
      simp only [List.map_append, List.append_assoc]

def tablesFirstCheck : List Str → List DDL → Bool
  | _, [] => true
  | seen, d :: ds =>
    (match DDL.table d with
      | none => true
      | some n => decide (n ∈ seen ++ createdNames [d])) && tablesFirstCheck (seen ++ createdNames [d]) ds

theorem tablesFirst_from {seen ds : List DDL} (h : tablesFirstCheck (createdNames seen) ds = true) (pre : List DDL) (d : DDL) (post : List DDL) (n : Str)
    (he : ds = pre ++ d :: post) (hn : DDL.table d = some n) : n ∈ createdNames (seen ++ pre ++ [d]) := by
  have app : ∀ (a : List DDL) (e : DDL), createdNames (a ++ [e]) = createdNames a ++ createdNames [e] := fun a e => by
    have := mem_split_parts (f := createdNames) (fun d ds => by cases d <;> rfl) rfl a e []
    rwa [show createdNames [] = [] from rfl, List.append_nil] at this
  induction ds generalizing seen pre with
  | nil => exact absurd he (by simp)
  | cons e ds ih =>
    rw [tablesFirstCheck, Bool.and_eq_true] at h
    cases pre with
    | nil =>
      cases he
      rw [hn] at h
      have := of_decide_eq_true h.1
      rwa [List.append_nil, app]
    | cons x pre =>
      cases he
      have := ih (seen := seen ++ [e]) (by rw [app]; exact h.2) pre rfl
      simpa using this

theorem tablesFirst_of_check {ds : List DDL} (h : tablesFirstCheck [] ds = true) : TablesFirst ds :=
  fun pre d post n he hn => tablesFirst_from (seen := []) h pre d post n he hn

end Sqldef
