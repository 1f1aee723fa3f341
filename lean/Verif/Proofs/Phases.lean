import Verif.Proofs.Keyed
import Verif.Proofs.Columns
import Verif.Proofs.DefStmt
/-! Execution of the statements about indexes, foreign keys and policies of a table. -/
namespace Sqldef
open Spec

/-- The indexes other than the primary key. -/
abbrev Table.sec (t : Table) : List Index := t.indexes.filter fun i => !i.primary

/-- The primary keys among the indexes. -/
abbrev Table.prim (t : Table) : List Index := t.indexes.filter fun i => i.primary

theorem secondaryNames_eq (t : Table) : secondaryNames t = t.sec.map (·.name) := rfl

/-- `t'` is `t` with other secondary indexes. -/
structure OnlyIndexes (t t' : Table) : Prop where
  name : t'.name = t.name
  columns : t'.columns = t.columns
  prim : t'.prim = t.prim
  foreignKeys : t'.foreignKeys = t.foreignKeys
  policies : t'.policies = t.policies

theorem OnlyIndexes.refl (t : Table) : OnlyIndexes t t := ⟨rfl, rfl, rfl, rfl, rfl⟩

theorem OnlyIndexes.trans {a b c : Table} (h : OnlyIndexes a b) (g : OnlyIndexes b c) : OnlyIndexes a c :=
  ⟨g.name.trans h.name, g.columns.trans h.columns, g.prim.trans h.prim, g.foreignKeys.trans h.foreignKeys, g.policies.trans h.policies⟩

/-- The statement carries out the operation on the secondary indexes. -/
def IsIdx (mode : Mode) : Op Index → Stmt → Prop
  | .drop n, .dropIndex _ m => m = n ∧ mode ≠ .sqlite3
  | .add i, .addIndex _ j => j = i ∧ i.primary = false ∧ mode ≠ .sqlite3
  | .add i, .user (.createIndex _ _ j) => j = i ∧ i.primary = false
  | .add i, .user (.addIndex _ _ j) => j = i ∧ i.primary = false ∧ mode ≠ .sqlite3
  | _, _ => False

theorem addIndexes_only (t : Table) {i : Index} (hp : i.primary = false) :
    OnlyIndexes t { t with indexes := t.indexes ++ [i] } ∧ ({ t with indexes := t.indexes ++ [i] } : Table).sec = t.sec ++ [i] := by
  refine ⟨⟨rfl, rfl, ?_, rfl, rfl⟩, ?_⟩
  · simp [Table.prim, List.filter_append, hp]
  · simp [Table.sec, List.filter_append, hp]

theorem idx_step {mode : Mode} {o : Op Index} {s : Stmt} (h : IsIdx mode o s) {t : Table} {L : List Index}
    (ho : runOp (·.name) o t.sec = some L) : ∃ t', alter mode s t = some t' ∧ OnlyIndexes t t' ∧ t'.sec = L := by
  cases o with
  | drop n =>
    cases s <;> simp only [IsIdx] at h
    case dropIndex k m =>
      obtain ⟨rfl, hm⟩ := h
      unfold runOp at ho
      simp only at ho
      split at ho
      · next hn =>
        cases ho
        refine ⟨{ t with indexes := t.indexes.filter fun i => i.primary || i.name ≠ m }, ?_, ⟨rfl, rfl, ?_, rfl, rfl⟩, ?_⟩
        · rw [alter_eq t (fun _ => rfl)]
          simp only [change, if_neg hm]
          rw [if_pos (by rw [secondaryNames_eq]; exact hn)]
        · simp only [Table.prim, List.filter_filter]
          congr 1
          funext i
          cases i.primary <;> simp
        · simp only [Table.sec, List.filter_filter]
          congr 1
          funext i
          cases i.primary <;> simp
      · cases ho
  | add i =>
    unfold runOp at ho
    simp only at ho
    split at ho
    · cases ho
    · next hn =>
      cases ho
      have hn' : i.name ∉ secondaryNames t := hn
      cases s <;> simp only [IsIdx] at h
      case addIndex k j =>
        obtain ⟨rfl, hp, hm⟩ := h
        refine ⟨_, ?_, addIndexes_only t hp⟩
        rw [alter_eq t (fun h => absurd h hm)]
        simp only [change, hp, Bool.false_eq_true, if_false, if_neg hn']
      case user d =>
        cases d <;> simp only [IsIdx] at h
        case createIndex q k j =>
          obtain ⟨rfl, hp⟩ := h
          refine ⟨_, ?_, addIndexes_only t hp⟩
          rw [alter_eq t (fun _ => rfl)]
          simp only [change, if_neg hn']
        case addIndex q k j =>
          obtain ⟨rfl, hp, hm⟩ := h
          refine ⟨_, ?_, addIndexes_only t hp⟩
          rw [alter_eq t (fun h => absurd h hm)]
          simp only [change, if_neg hn']

theorem idx_run {mode : Mode} {os : List (Op Index)} {l : List Stmt} (h : List.Forall₂ (IsIdx mode) os l) {t : Table} {L : List Index}
    (ho : runOps (·.name) os t.sec = some L) : ∃ t', alters mode l t = some t' ∧ OnlyIndexes t t' ∧ t'.sec = L := by
  induction h generalizing t with
  | nil => cases ho; exact ⟨t, rfl, .refl t, rfl⟩
  | cons h _ ih =>
    simp only [runOps] at ho
    obtain ⟨L1, h1, ho⟩ := Option.bind_eq_some_iff.1 ho
    obtain ⟨t1, g1, g2, g3⟩ := idx_step h h1
    obtain ⟨t2, k1, k2, k3⟩ := ih (t := t1) (by rw [g3]; exact ho)
    exact ⟨t2, by simp only [alters, g1, Option.bind_some, k1], g2.trans k2, k3⟩

/-! ### Foreign keys -/

/-- `t'` is `t` with other foreign keys. -/
structure OnlyFks (t t' : Table) : Prop where
  name : t'.name = t.name
  columns : t'.columns = t.columns
  indexes : t'.indexes = t.indexes
  policies : t'.policies = t.policies

theorem OnlyFks.refl (t : Table) : OnlyFks t t := ⟨rfl, rfl, rfl, rfl⟩

theorem OnlyFks.trans {a b c : Table} (h : OnlyFks a b) (g : OnlyFks b c) : OnlyFks a c :=
  ⟨g.name.trans h.name, g.columns.trans h.columns, g.indexes.trans h.indexes, g.policies.trans h.policies⟩

/-- The statement carries out the operation on the foreign keys. -/
def IsFk (mode : Mode) : Op ForeignKey → Stmt → Prop
  | .drop n, .dropForeignKey _ m => m = n ∧ mode ≠ .sqlite3
  | .add i, .addForeignKey _ j => j = i ∧ mode ≠ .sqlite3
  | _, _ => False

theorem fk_step {mode : Mode} {o : Op ForeignKey} {s : Stmt} (h : IsFk mode o s) {t : Table} {L : List ForeignKey}
    (ho : runOp (·.constraintName) o t.foreignKeys = some L) :
    ∃ t', alter mode s t = some t' ∧ OnlyFks t t' ∧ t'.foreignKeys = L := by
  cases o with
  | drop n =>
    cases s <;> simp only [IsFk] at h
    case dropForeignKey k m =>
      obtain ⟨rfl, hm⟩ := h
      unfold runOp at ho
      simp only at ho
      split at ho
      · next hn =>
        cases ho
        refine ⟨{ t with foreignKeys := t.foreignKeys.filter (·.constraintName ≠ m) }, ?_, ⟨rfl, rfl, rfl, rfl⟩, rfl⟩
        rw [alter_eq t (fun h => absurd h hm)]
        simp only [change, if_pos hn]
      · cases ho
  | add i =>
    cases s <;> simp only [IsFk] at h
    case addForeignKey k m =>
      obtain ⟨rfl, hm⟩ := h
      unfold runOp at ho
      simp only at ho
      split at ho
      · cases ho
      · next hn =>
        cases ho
        refine ⟨{ t with foreignKeys := t.foreignKeys ++ [m] }, ?_, ⟨rfl, rfl, rfl, rfl⟩, rfl⟩
        rw [alter_eq t (fun h => absurd h hm)]
        simp only [change, if_neg hn]

theorem fk_run {mode : Mode} {os : List (Op ForeignKey)} {l : List Stmt} (h : List.Forall₂ (IsFk mode) os l) {t : Table}
    {L : List ForeignKey} (ho : runOps (·.constraintName) os t.foreignKeys = some L) :
    ∃ t', alters mode l t = some t' ∧ OnlyFks t t' ∧ t'.foreignKeys = L := by
  induction h generalizing t with
  | nil => cases ho; exact ⟨t, rfl, .refl t, rfl⟩
  | cons h _ ih =>
    simp only [runOps] at ho
    obtain ⟨L1, h1, ho⟩ := Option.bind_eq_some_iff.1 ho
    obtain ⟨t1, g1, g2, g3⟩ := fk_step h h1
    obtain ⟨t2, k1, k2, k3⟩ := ih (t := t1) (by rw [g3]; exact ho)
    exact ⟨t2, by simp only [alters, g1, Option.bind_some, k1], g2.trans k2, k3⟩

/-! ### Policies -/

/-- `t'` is `t` with other policies. -/
structure OnlyPolicies (t t' : Table) : Prop where
  name : t'.name = t.name
  columns : t'.columns = t.columns
  indexes : t'.indexes = t.indexes
  foreignKeys : t'.foreignKeys = t.foreignKeys

theorem OnlyPolicies.refl (t : Table) : OnlyPolicies t t := ⟨rfl, rfl, rfl, rfl⟩

theorem OnlyPolicies.trans {a b c : Table} (h : OnlyPolicies a b) (g : OnlyPolicies b c) : OnlyPolicies a c :=
  ⟨g.name.trans h.name, g.columns.trans h.columns, g.indexes.trans h.indexes, g.foreignKeys.trans h.foreignKeys⟩

/-- The statement carries out the operation on the policies. -/
def IsPol (mode : Mode) : Op Policy → Stmt → Prop
  | .drop n, .dropPolicy _ m => m = n ∧ mode ≠ .sqlite3
  | .add i, .user (.addPolicy _ _ j) => j = i ∧ mode ≠ .sqlite3
  | _, _ => False

theorem pol_step {mode : Mode} {o : Op Policy} {s : Stmt} (h : IsPol mode o s) {t : Table} {L : List Policy}
    (ho : runOp (·.name) o t.policies = some L) : ∃ t', alter mode s t = some t' ∧ OnlyPolicies t t' ∧ t'.policies = L := by
  cases o with
  | drop n =>
    cases s <;> simp only [IsPol] at h
    case dropPolicy k m =>
      obtain ⟨rfl, hm⟩ := h
      unfold runOp at ho
      simp only at ho
      split at ho
      · next hn =>
        cases ho
        refine ⟨{ t with policies := t.policies.filter (·.name ≠ m) }, ?_, ⟨rfl, rfl, rfl, rfl⟩, rfl⟩
        rw [alter_eq t (fun h => absurd h hm)]
        simp only [change, if_pos hn]
      · cases ho
  | add i =>
    cases s <;> try (simp only [IsPol] at h; done)
    case user d =>
      cases d <;> simp only [IsPol] at h
      case addPolicy q k m =>
        obtain ⟨rfl, hm⟩ := h
        unfold runOp at ho
        simp only at ho
        split at ho
        · cases ho
        · next hn =>
          cases ho
          refine ⟨{ t with policies := t.policies ++ [m] }, ?_, ⟨rfl, rfl, rfl, rfl⟩, rfl⟩
          rw [alter_eq t (fun h => absurd h hm)]
          simp only [change, if_neg hn]

theorem pol_run {mode : Mode} {os : List (Op Policy)} {l : List Stmt} (h : List.Forall₂ (IsPol mode) os l) {t : Table}
    {L : List Policy} (ho : runOps (·.name) os t.policies = some L) :
    ∃ t', alters mode l t = some t' ∧ OnlyPolicies t t' ∧ t'.policies = L := by
  induction h generalizing t with
  | nil => cases ho; exact ⟨t, rfl, .refl t, rfl⟩
  | cons h _ ih =>
    simp only [runOps] at ho
    obtain ⟨L1, h1, ho⟩ := Option.bind_eq_some_iff.1 ho
    obtain ⟨t1, g1, g2, g3⟩ := pol_step h h1
    obtain ⟨t2, k1, k2, k3⟩ := ih (t := t1) (by rw [g3]; exact ho)
    exact ⟨t2, by simp only [alters, g1, Option.bind_some, k1], g2.trans k2, k3⟩

/-! ### The statements of the generator as operations -/

/-- A name that no primary key of `x` has is looked up among the secondary indexes. -/
theorem findIndex_sec {x : Table} {n : Str} (h : ∀ j ∈ x.indexes, j.primary = true → j.name ≠ n) :
    findIndexByName x.indexes n = look (·.name) x.sec n := by
  unfold findIndexByName look Table.sec
  rw [List.find?_filter]
  have : ∀ l : List Index, (∀ j ∈ l, j.primary = true → j.name ≠ n) →
      l.find? (fun i => decide (i.name = n)) = l.find? (fun i => !i.primary && decide (i.name = n)) := by
    intro l
    induction l with
    | nil => intro _; rfl
    | cons i l ih =>
      intro hl
      have ih := ih fun j hj => hl j (by simp [hj])
      by_cases hi : i.name = n
      · have hp : i.primary = false := by
          cases hp : i.primary with
          | false => rfl
          | true => exact absurd hi (hl i (by simp) hp)
        rw [List.find?_cons_of_pos (by simpa using hi), List.find?_cons_of_pos (by simp [hi, hp])]
      · rw [List.find?_cons_of_neg (by simpa using hi), List.find?_cons_of_neg (by simp [hi]), ih]
  simpa using this x.indexes h

theorem tableIndex_ops {mode : Mode} {x d : Table} {i : Index} {l : List Stmt} (hp : i.primary = false)
    (hs : ∀ j ∈ x.indexes, j.primary = true → j.name ≠ i.name)
    (hq : mode = .sqlite3 → ∃ c, findIndexByName x.indexes i.name = some c ∧ areSameIndexes c i = true)
    (h : tableIndexDDLs mode x d i = .ok l) : List.Forall₂ (IsIdx mode) (syncOps (·.name) areSameIndexes x.sec i) l := by
  rw [tableIndexDDLs_eq h, hp]
  have hm : ∀ {c : Option Index}, findIndexByName x.indexes i.name = c → (∀ e, c = some e → areSameIndexes e i = false) → mode ≠ .sqlite3 := by
    intro c hc hc' hm
    obtain ⟨e, he, he'⟩ := hq hm
    rw [hc] at he
    rw [hc' e he] at he'
    cases he'
  have hx := findIndex_sec hs
  unfold syncOps
  cases hl : look (·.name) x.sec i.name with
  | none =>
    rw [hl] at hx
    have hm := hm hx (by simp)
    rw [hx]
    simp only [Bool.false_eq_true, if_false]
    exact .cons ⟨rfl, hp, hm⟩ .nil
  | some c =>
    rw [hl] at hx
    rw [hx]
    simp only [Bool.false_eq_true, if_false]
    split
    · exact .nil
    · next hne =>
      have hm := hm hx (by rintro e he; cases he; simpa using hne)
      exact .cons ⟨rfl, hm⟩ (.cons ⟨rfl, hp, hm⟩ .nil)

theorem forall₂_append {α β : Type} {R : α → β → Prop} {a c : List α} {b d : List β} (h : List.Forall₂ R a b)
    (g : List.Forall₂ R c d) : List.Forall₂ R (a ++ c) (b ++ d) := by
  induction h with
  | nil => exact g
  | cons h _ ih => exact .cons h ih

/-- A concatenation of statements is a concatenation of operations. -/
theorem ops_concat {α γ : Type} {R : Op α → Stmt → Prop} {f : γ → Except Err (List Stmt)} {g : γ → List (Op α)} {D : List γ}
    {l : List Stmt} (hg : ∀ i ∈ D, ∀ r, f i = .ok r → List.Forall₂ R (g i) r) (h : concatMapM f D = .ok l) :
    List.Forall₂ R (D.flatMap g) l := by
  induction D generalizing l with
  | nil => cases h; exact .nil
  | cons i D ih =>
    obtain ⟨a, b, ha, hb, rfl⟩ := concatMapM_cons_ok.1 h
    rw [List.flatMap_cons]
    exact forall₂_append (hg i (by simp) a ha) (ih (fun j hj => hg j (by simp [hj])) hb)

theorem tableIndexes_ops {mode : Mode} {x d : Table} {l : List Stmt}
    (hs : ∀ i ∈ d.sec, ∀ j ∈ x.indexes, j.primary = true → j.name ≠ i.name)
    (hq : mode = .sqlite3 → ∀ i ∈ d.sec, ∃ c, findIndexByName x.indexes i.name = some c ∧ areSameIndexes c i = true)
    (h : concatMapM (tableIndexDDLs mode x d) d.indexes = .ok l) :
    List.Forall₂ (IsIdx mode) (d.sec.flatMap (syncOps (·.name) areSameIndexes x.sec)) l := by
  have := ops_concat (R := IsIdx mode) (g := fun i => if i.primary then [] else syncOps (·.name) areSameIndexes x.sec i) (D := d.indexes)
    (fun i hi r hr => by
      cases hp : i.primary with
      | true =>
        simp only [tableIndexDDLs, hp, if_true] at hr
        cases hr
        exact .nil
      | false =>
        have hi' : i ∈ d.sec := List.mem_filter.2 ⟨hi, by simp [hp]⟩
        simp only [Bool.false_eq_true, if_false]
        exact tableIndex_ops hp (hs i hi') (fun hm => hq hm i hi') hr) h
  have he : ∀ l : List Index, l.flatMap (fun i => if i.primary then [] else syncOps (·.name) areSameIndexes x.sec i) =
      (l.filter fun i => !i.primary).flatMap (syncOps (·.name) areSameIndexes x.sec) := by
    intro l
    induction l with
    | nil => rfl
    | cons i l ih =>
      rw [List.flatMap_cons, ih]
      cases hp : i.primary with
      | true => rw [List.filter_cons_of_neg (by simp [hp])]; simp
      | false => rw [List.filter_cons_of_pos (by simp [hp]), List.flatMap_cons]; simp
  rw [he] at this
  exact this

theorem tableForeignKeys_ops {mode : Mode} {x d : Table} {l : List Stmt}
    (hq : mode = .sqlite3 → ∀ f ∈ d.foreignKeys, ∃ c, findForeignKeyByName x.foreignKeys f.constraintName = some c ∧
      areSameForeignKeys .sqlite3 c f = true)
    (h : concatMapM (tableForeignKeyDDLs mode x d) d.foreignKeys = .ok l) :
    List.Forall₂ (IsFk mode) (d.foreignKeys.flatMap (syncOps (·.constraintName) (areSameForeignKeys mode) x.foreignKeys)) l := by
  refine ops_concat (fun f hf r hr => ?_) h
  rw [(tableForeignKeyDDLs_eq hr).2]
  unfold syncOps
  have he : findForeignKeyByName x.foreignKeys f.constraintName = look (·.constraintName) x.foreignKeys f.constraintName := rfl
  rw [he]
  cases hl : look (·.constraintName) x.foreignKeys f.constraintName with
  | none =>
    refine .cons ⟨rfl, ?_⟩ .nil
    intro hm
    obtain ⟨e, he', -⟩ := hq hm f hf
    rw [he, hl] at he'
    cases he'
  | some c =>
    simp only
    split
    · exact .nil
    · next hne =>
      have hm : mode ≠ .sqlite3 := by
        intro hm
        obtain ⟨e, he', he''⟩ := hq hm f hf
        rw [he, hl] at he'
        cases he'
        subst hm
        exact hne he''
      rw [if_neg hm]
      exact .cons ⟨rfl, hm⟩ (.cons ⟨rfl, hm⟩ .nil)

/-! ### Separate definitions -/

/-- `t'` is `t` with other secondary indexes and policies. -/
structure OnlyIdxPol (t t' : Table) : Prop where
  name : t'.name = t.name
  columns : t'.columns = t.columns
  prim : t'.prim = t.prim
  foreignKeys : t'.foreignKeys = t.foreignKeys

/-- The secondary indexes of a table that may be absent. -/
def secOf (o : Option Table) : List Index := o.elim [] Table.sec

/-- The policies of a table that may be absent. -/
def polsOf (o : Option Table) : List Policy := o.elim [] (·.policies)

theorem rest_run {mode : Mode} {cur : List Table} {cv : List View} {ct : List Trigger} {n : Str} {o : Option Table}
    (ho : findTableByName cur n = o) {rest : List DDL}
    (hr : ∀ d ∈ rest, DDL.table d = some n ∧ ∀ s t, d ≠ .createTable s t) (hp : ∀ i ∈ indexesFor n rest, i.primary = false)
    (hs : ∀ i ∈ indexesFor n rest, ∀ x, o = some x → ∀ j ∈ x.indexes, j.primary = true → j.name ≠ i.name)
    (hq : mode = .sqlite3 → (∀ i ∈ indexesFor n rest, ∀ x c, o = some x → findIndexByName x.indexes i.name = some c →
        areSameIndexes c i = true) ∧ policiesFor n rest = [] ∧ ∀ d ∈ rest, ∀ s m i, d ≠ .addIndex s m i)
    {l : List Stmt} (h : concatMapM (defStmts mode cur cv ct) rest = .ok l) {t : Table} {Li : List Index} {Lp : List Policy}
    (hi : runOps (·.name) ((indexesFor n rest).flatMap (syncOps (·.name) areSameIndexes (secOf o))) t.sec = some Li)
    (hpol : runOps (·.name) ((policiesFor n rest).flatMap (syncOps (·.name) areSamePolicies (polsOf o))) t.policies = some Lp) :
    ∃ t', alters mode l t = some t' ∧ OnlyIdxPol t t' ∧ t'.sec = Li ∧ t'.policies = Lp := by
  induction rest generalizing t l with
  | nil =>
    cases h; cases hi; cases hpol
    exact ⟨t, rfl, ⟨rfl, rfl, rfl, rfl⟩, rfl, rfl⟩
  | cons d rest ih =>
    obtain ⟨a, b, ha, hb, rfl⟩ := concatMapM_cons_ok.1 h
    obtain ⟨hdt, hdc⟩ := hr d (by simp)
    have hr' : ∀ d ∈ rest, DDL.table d = some n ∧ ∀ s t, d ≠ .createTable s t := fun e he => hr e (by simp [he])
    -- an index
    have index : ∀ i, indexesFor n (d :: rest) = i :: indexesFor n rest → policiesFor n (d :: rest) = policiesFor n rest →
        a = indexStmts cur d n i → (i.primary = false → IsIdx mode (.add i) (.user d)) →
        ∃ t', alters mode (a ++ b) t = some t' ∧ OnlyIdxPol t t' ∧ t'.sec = Li ∧ t'.policies = Lp := by
      intro i h1 h2 h3 h4
      rw [h1] at hp hs hi
      rw [h2] at hpol
      have hadd := h4 (hp i (by simp))
      rw [List.flatMap_cons, runOps_append] at hi
      obtain ⟨L1, hi1, hi2⟩ := Option.bind_eq_some_iff.1 hi
      have hops : List.Forall₂ (IsIdx mode) (syncOps (·.name) areSameIndexes (secOf o) i) a := by
        rw [h3]
        unfold indexStmts syncOps
        rw [ho]
        cases o with
        | none =>
          have : look (·.name) (secOf none) i.name = none := rfl
          rw [this]
          exact .cons hadd .nil
        | some x =>
          have hx := findIndex_sec (hs i (by simp) x rfl)
          simp only [Option.bind_some, hx, secOf, Option.elim_some]
          cases hl : look (·.name) x.sec i.name with
          | none => exact .cons hadd .nil
          | some c =>
            simp only
            split
            · exact .nil
            · next hne =>
              refine .cons ⟨rfl, fun hm => hne ?_⟩ (.cons hadd .nil)
              exact (hq hm).1 i (by rw [h1]; simp) x c rfl (hx.trans hl)
      obtain ⟨t1, g1, g2, g3⟩ := idx_run hops hi1
      obtain ⟨t2, k1, k2, k3, k4⟩ := ih hr' (fun j hj => hp j (by simp [hj])) (fun j hj => hs j (by simp [hj]))
        (fun hm => ⟨fun j hj => (hq hm).1 j (by rw [h1]; simp [hj]), by rw [← h2]; exact (hq hm).2.1, fun e he => (hq hm).2.2 e (by simp [he])⟩)
        hb (t := t1) (by rw [g3]; exact hi2) (by rw [g2.policies]; exact hpol)
      refine ⟨t2, by rw [alters_append, g1, Option.bind_some, k1], ⟨k2.name.trans g2.name, k2.columns.trans g2.columns,
        k2.prim.trans g2.prim, k2.foreignKeys.trans g2.foreignKeys⟩, k3, k4⟩
    cases d with
    | createTable s t => exact absurd rfl (hdc s t)
    | createIndex s m i =>
      simp only [DDL.table, Option.some.injEq] at hdt
      subst hdt
      simp only [defStmts] at ha
      cases ha
      exact index i (by simp [indexesFor]) (by simp [policiesFor]) rfl (fun hp => ⟨rfl, hp⟩)
    | addIndex s m i =>
      simp only [DDL.table, Option.some.injEq] at hdt
      subst hdt
      simp only [defStmts] at ha
      cases ha
      exact index i (by simp [indexesFor]) (by simp [policiesFor]) rfl
        (fun hp => ⟨rfl, hp, fun hm => (hq hm).2.2 (.addIndex s m i) (by simp) s m i rfl⟩)
    | addForeignKey s m f =>
      simp only [defStmts] at ha
      cases ha
      exact ih hr' hp hs (fun hm => ⟨(hq hm).1, (hq hm).2.1, fun e he => (hq hm).2.2 e (by simp [he])⟩) hb hi hpol
    | addPolicy s m p =>
      simp only [DDL.table, Option.some.injEq] at hdt
      subst hdt
      have h1 : policiesFor m (.addPolicy s m p :: rest) = p :: policiesFor m rest := by simp [policiesFor]
      have hm : mode ≠ .sqlite3 := by
        intro hm
        have := (hq hm).2.1
        rw [h1] at this
        cases this
      rw [h1, List.flatMap_cons, runOps_append] at hpol
      obtain ⟨L1, hp1, hp2⟩ := Option.bind_eq_some_iff.1 hpol
      simp only [defStmts] at ha
      cases ha
      have hops : List.Forall₂ (IsPol mode) (syncOps (·.name) areSamePolicies (polsOf o) p) (policyStmts cur (.addPolicy s m p) m p) := by
        unfold policyStmts syncOps
        rw [ho]
        cases o with
        | none =>
          have : look (·.name) (polsOf none) p.name = none := rfl
          rw [this]
          exact .cons ⟨rfl, hm⟩ .nil
        | some x =>
          have hx : findPolicyByName x.policies p.name = look (·.name) x.policies p.name := rfl
          simp only [Option.bind_some, hx, polsOf, Option.elim_some]
          cases hl : look (·.name) x.policies p.name with
          | none => exact .cons ⟨rfl, hm⟩ .nil
          | some c =>
            simp only
            split
            · exact .nil
            · exact .cons ⟨rfl, hm⟩ (.cons ⟨rfl, hm⟩ .nil)
      obtain ⟨t1, g1, g2, g3⟩ := pol_run hops hp1
      obtain ⟨t2, k1, k2, k3, k4⟩ := ih hr' hp hs (fun hm' => absurd hm' hm) hb (t := t1)
        (by simp only [Table.sec, g2.indexes]; exact hi) (by rw [g3]; exact hp2)
      refine ⟨t2, by rw [alters_append, g1, Option.bind_some, k1], ⟨k2.name.trans g2.name, k2.columns.trans g2.columns,
        k2.prim.trans (by simp only [Table.prim, g2.indexes]), k2.foreignKeys.trans g2.foreignKeys⟩, k3, k4⟩
    | view v => cases hdt
    | trigger v => cases hdt
    | addPrimaryKey s m i => simp only [defStmts] at ha; cases ha

end Sqldef
