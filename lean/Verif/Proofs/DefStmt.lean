import Verif.Proofs.Script
/-! All the ways in which a statement gets into the script. -/
namespace Sqldef
open Spec

/-- The statements that a definition of the desired schema can give. -/
inductive DefStmt (mode : Mode) (cur : List Table) (cv : List View) (ct : List Trigger) : DDL → Stmt → Prop
  | create (s : Str) (t : Table) : findTableByName cur t.name = none →
      DefStmt mode cur cv ct (.createTable s t) (.user (.createTable s t))
  | table (s : Str) (t x : Table) (st : Stmt) : findTableByName cur t.name = some x → TableStmt mode x t st →
      DefStmt mode cur cv ct (.createTable s t) st
  | newIndex (d : DDL) (n : Str) (i : Index) : DefinesIndex n i d →
      ((findTableByName cur n).bind fun x => findIndexByName x.indexes i.name) = none →
      DefStmt mode cur cv ct d (.user d)
  | dropIndex (d : DDL) (n : Str) (i c : Index) : DefinesIndex n i d →
      ((findTableByName cur n).bind fun x => findIndexByName x.indexes i.name) = some c →
      areSameIndexes c i = false → DefStmt mode cur cv ct d (.dropIndex n i.name)
  | recreateIndex (d : DDL) (n : Str) (i c : Index) : DefinesIndex n i d →
      ((findTableByName cur n).bind fun x => findIndexByName x.indexes i.name) = some c →
      areSameIndexes c i = false → DefStmt mode cur cv ct d (.user d)
  | newPolicy (s n : Str) (p : Policy) :
      ((findTableByName cur n).bind fun x => findPolicyByName x.policies p.name) = none →
      DefStmt mode cur cv ct (.addPolicy s n p) (.user (.addPolicy s n p))
  | dropPolicy (s n : Str) (p c : Policy) :
      ((findTableByName cur n).bind fun x => findPolicyByName x.policies p.name) = some c →
      areSamePolicies c p = false → DefStmt mode cur cv ct (.addPolicy s n p) (.dropPolicy n p.name)
  | recreatePolicy (s n : Str) (p c : Policy) :
      ((findTableByName cur n).bind fun x => findPolicyByName x.policies p.name) = some c →
      areSamePolicies c p = false → DefStmt mode cur cv ct (.addPolicy s n p) (.user (.addPolicy s n p))
  | newView (v : View) : findViewByName cv v.name = none → DefStmt mode cur cv ct (.view v) (.user (.view v))
  | dropView (v c : View) : findViewByName cv v.name = some c → toLower c.definition ≠ toLower v.definition →
      mode = .sqlite3 ∨ mode = .mssql → DefStmt mode cur cv ct (.view v) (.dropView v.name)
  | createView (v c : View) : findViewByName cv v.name = some c → toLower c.definition ≠ toLower v.definition →
      mode = .sqlite3 ∨ mode = .mssql → DefStmt mode cur cv ct (.view v) (.createView v.name v.definition)
  | replaceView (v c : View) : findViewByName cv v.name = some c → toLower c.definition ≠ toLower v.definition →
      ¬ (mode = .sqlite3 ∨ mode = .mssql) → DefStmt mode cur cv ct (.view v) (.replaceView v.name v.definition)
  | newTrigger (t : Trigger) : mode = .mysql ∨ mode = .mssql → findTriggerByName ct t.name = none →
      DefStmt mode cur cv ct (.trigger t) (.createTrigger false t)
  | dropTrigger (t c : Trigger) : mode = .mysql → findTriggerByName ct t.name = some c →
      areSameTriggerDefinition c t = false → DefStmt mode cur cv ct (.trigger t) (.dropTrigger t.name)
  | recreateTrigger (t c : Trigger) : mode = .mysql → findTriggerByName ct t.name = some c →
      areSameTriggerDefinition c t = false → DefStmt mode cur cv ct (.trigger t) (.createTrigger false t)
  | alterTrigger (t c : Trigger) : mode = .mssql → findTriggerByName ct t.name = some c →
      areSameTriggerDefinition c t = false → DefStmt mode cur cv ct (.trigger t) (.createTrigger true t)

theorem indexStmts_shape {mode : Mode} {cur : List Table} {cv : List View} {ct : List Trigger} {d : DDL} {n : Str} {i : Index}
    (hd : DefinesIndex n i d) {s : Stmt} (hs : s ∈ indexStmts cur d n i) : DefStmt mode cur cv ct d s := by
  unfold indexStmts at hs
  split at hs
  · next hn => rw [List.mem_singleton.1 hs]; exact .newIndex d n i hd hn
  · next c hc =>
    split at hs
    · cases hs
    · next hne =>
      simp only [List.mem_cons, List.not_mem_nil, or_false] at hs
      rcases hs with rfl | rfl
      · exact .dropIndex d n i c hd hc (by simpa using hne)
      · exact .recreateIndex d n i c hd hc (by simpa using hne)

theorem defStmts_shape {mode : Mode} {cur : List Table} {cv : List View} {ct : List Trigger} {d : DDL} {l : List Stmt}
    (h : defStmts mode cur cv ct d = .ok l) {s : Stmt} (hs : s ∈ l) : DefStmt mode cur cv ct d s := by
  cases d with
  | createTable st t =>
    simp only [defStmts] at h
    cases hf : findTableByName cur t.name with
    | none => rw [hf] at h; cases h; rw [List.mem_singleton.1 hs]; exact .create st t hf
    | some x => rw [hf] at h; exact .table st t x s hf (createTable_shape h s hs)
  | createIndex st n i =>
    simp only [defStmts, Except.ok.injEq] at h
    subst h
    exact indexStmts_shape ⟨st, .inl rfl⟩ hs
  | addIndex st n i =>
    simp only [defStmts, Except.ok.injEq] at h
    subst h
    exact indexStmts_shape ⟨st, .inr rfl⟩ hs
  | addForeignKey st n f => simp only [defStmts, Except.ok.injEq] at h; subst h; cases hs
  | addPolicy st n p =>
    simp only [defStmts, Except.ok.injEq] at h
    subst h
    unfold policyStmts at hs
    split at hs
    · next hn => rw [List.mem_singleton.1 hs]; exact .newPolicy st n p hn
    · next c hc =>
      split at hs
      · cases hs
      · next hne =>
        simp only [List.mem_cons, List.not_mem_nil, or_false] at hs
        rcases hs with rfl | rfl
        · exact .dropPolicy st n p c hc (by simpa using hne)
        · exact .recreatePolicy st n p c hc (by simpa using hne)
  | view v =>
    simp only [defStmts, Except.ok.injEq] at h
    subst h
    unfold viewStmts at hs
    split at hs
    · next hn => rw [List.mem_singleton.1 hs]; exact .newView v hn
    · next c hc =>
      split at hs
      · next hne =>
        split at hs
        · next hm =>
          have hm : mode = .sqlite3 ∨ mode = .mssql := by simpa using hm
          simp only [List.mem_cons, List.not_mem_nil, or_false] at hs
          rcases hs with rfl | rfl
          · exact .dropView v c hc hne hm
          · exact .createView v c hc hne hm
        · next hm =>
          rw [List.mem_singleton.1 hs]
          exact .replaceView v c hc hne (by simpa using hm)
      · cases hs
  | trigger t =>
    simp only [defStmts, Except.ok.injEq] at h
    subst h
    unfold triggerStmts at hs
    split at hs
    · split at hs
      · next hn => rw [List.mem_singleton.1 hs]; exact .newTrigger t (.inr rfl) hn
      · next c hc =>
        split at hs
        · cases hs
        · next hne => rw [List.mem_singleton.1 hs]; exact .alterTrigger t c rfl hc (by simpa using hne)
    · split at hs
      · next hn => rw [List.mem_singleton.1 hs]; exact .newTrigger t (.inl rfl) hn
      · next c hc =>
        split at hs
        · cases hs
        · next hne =>
          simp only [List.mem_cons, List.not_mem_nil, or_false] at hs
          rcases hs with rfl | rfl
          · exact .dropTrigger t c rfl hc (by simpa using hne)
          · exact .recreateTrigger t c rfl hc (by simpa using hne)
    · cases hs
  | addPrimaryKey st n i => cases h

/-- Origin of a statement of the script. -/
inductive OutStmt (mode : Mode) (desired current : List DDL) : Stmt → Prop
  | definition (d : DDL) (s : Stmt) : d ∈ desired →
      DefStmt mode (tablesOf current) (viewsOf current) (triggersOf current) d s → OutStmt mode desired current s
  | clean (x d : Table) (s : Stmt) : tableIn current x.name = some x → tableIn desired x.name = some d → CleanStmt mode x d s →
      OutStmt mode desired current s
  | dropTable (n : Str) : n ∈ createdNames current → n ∉ createdNames desired → OutStmt mode desired current (.dropTable n)
  | dropView (v : View) : v ∈ viewsOf current → v.name ∉ (viewsOf desired).map (·.name) →
      OutStmt mode desired current (.dropView v.name)

variable {mode : Mode} {desired current : List DDL} {out x y : List Stmt}

theorem Script.origin (h : Script mode desired current out x y) {s : Stmt} (hs : s ∈ out) : OutStmt mode desired current s := by
  rcases h.mem hs with ⟨d, hd, l, hl, hs⟩ | ⟨t, ht, l, hl, hs⟩ | ⟨v, hv, hn, rfl⟩
  · exact .definition d s hd (defStmts_shape hl hs)
  · unfold tableCleanup at hl
    split at hl
    · next hf =>
      cases hl
      rw [List.mem_singleton.1 hs]
      exact .dropTable _ (tableIn_some_iff.1 ⟨_, ht⟩) (tableIn_none.1 hf)
    · next d hf => exact .clean t d s ht hf (cleanup_shape hl s hs)
  · exact .dropView v hv hn

/-- The statements for an index defined by a separate statement. -/
theorem Script.index (h : Script mode desired current out x y) {d : DDL} {n : Str} {i : Index} (hd : d ∈ desired)
    (hi : DefinesIndex n i d) : indexStmts (tablesOf current) d n i ⊆ out := by
  obtain ⟨l, hl, hlo⟩ := h.def_ok hd
  obtain ⟨s, rfl | rfl⟩ := hi <;>
  · simp only [defStmts, Except.ok.injEq] at hl
    rw [hl]; exact hlo

/-! ### Immediate succession -/

theorem followedBy_nil {α : Type} {P : α → Prop} {Q : α → α → Prop} : FollowedBy P Q [] := by
  intro b a c h; simp at h

theorem followedBy_append {α : Type} {P : α → Prop} {Q : α → α → Prop} {l m : List α}
    (hl : FollowedBy P Q l) (hm : FollowedBy P Q m) : FollowedBy P Q (l ++ m) := by
  intro before a after h hp
  rcases List.append_eq_append_iff.1 h with ⟨k, hk1, hk2⟩ | ⟨k, hk1, hk2⟩
  · exact hm k a after hk2 hp
  · cases k with
    | nil =>
      simp only [List.nil_append] at hk2
      exact hm [] a after (by simpa using hk2.symm) hp
    | cons k0 k =>
      simp only [List.cons_append] at hk2
      obtain ⟨rfl, rfl⟩ := List.cons.inj hk2
      obtain ⟨b, rest, hr, hq⟩ := hl before a k hk1 hp
      exact ⟨b, rest ++ m, by rw [hr]; rfl, hq⟩

theorem followedBy_concatMapM {α β : Type} {f : α → Except Err (List β)} {P : β → Prop} {Q : β → β → Prop} {l : List α}
    {r : List β} (h : concatMapM f l = .ok r) (hf : ∀ a ∈ l, ∀ z, f a = .ok z → FollowedBy P Q z) : FollowedBy P Q r := by
  induction l generalizing r with
  | nil => cases h; exact followedBy_nil
  | cons a l ih =>
    obtain ⟨u, v, hu, hv, rfl⟩ := concatMapM_cons_ok.1 h
    exact followedBy_append (hf a (by simp) u hu) (ih hv fun b hb => hf b (List.mem_cons_of_mem _ hb))

/-- Vacuously, if no element satisfies `P`. -/
theorem followedBy_none {α : Type} {P : α → Prop} {Q : α → α → Prop} {l : List α} (h : ∀ a ∈ l, ¬ P a) : FollowedBy P Q l := by
  intro before a after e hp
  exact absurd hp (h a (by rw [e]; simp))

theorem followedBy_pair {α : Type} {P : α → Prop} {Q : α → α → Prop} {a b : α} (hb : ¬ P b) (hq : P a → Q a b) :
    FollowedBy P Q [a, b] := by
  intro before c after e hp
  cases before with
  | nil =>
    obtain ⟨rfl, rfl⟩ := List.cons.inj (by simpa using e)
    exact ⟨b, [], rfl, hq hp⟩
  | cons d before =>
    obtain ⟨rfl, e⟩ := List.cons.inj (by simpa using e)
    cases before with
    | nil =>
      obtain ⟨rfl, -⟩ := List.cons.inj (by simpa using e)
      exact absurd hp hb
    | cons e' before => simp at e

end Sqldef
