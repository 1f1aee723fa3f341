import Verif.Spec.Agrees
import Verif.Proofs.Same
import Verif.Proofs.Script
import Verif.Proofs.Shapes
import Verif.Props.Objects
/-!
The generator produces nothing exactly if the current schema is what the desired schema asks for.
-/
namespace Sqldef
open Spec

variable {mode : Mode}

/-! ### Loops -/

theorem concatMapM_empty_iff {α β : Type} {f : α → Except Err (List β)} {l : List α} :
    concatMapM f l = .ok [] ↔ ∀ a ∈ l, f a = .ok [] := by
  induction l with
  | nil => simp [concatMapM]
  | cons a l ih =>
    rw [concatMapM_cons_ok]
    constructor
    · rintro ⟨x, y, h1, h2, h3⟩
      obtain ⟨rfl, rfl⟩ := List.append_eq_nil_iff.1 h3.symm
      intro b hb
      rcases List.mem_cons.1 hb with rfl | hb
      · exact h1
      · exact ih.1 h2 b hb
    · intro h
      exact ⟨[], [], h a (by simp), ih.2 fun b hb => h b (by simp [hb]), rfl⟩

theorem guardText_nonempty {t : Except Err Str} {s : Stmt} : ¬ guardText t s = .ok [] := by
  intro h
  cases (guardText_ok h).1

/-! ### Sorted roles -/

theorem strLe_iff (a b : Str) : strLe a b = true ↔ a ≤ b := by
  induction a generalizing b with
  | nil => simp [strLe]
  | cons x a ih =>
    cases b with
    | nil => simp [strLe]
    | cons y b =>
      simp only [strLe]
      rw [List.cons_le_cons_iff]
      by_cases h : x = y
      · subst h; simp [ih, Char.lt_irrefl]
      · simp only [h, if_false, decide_eq_true_eq, false_and, or_false]
        exact Iff.rfl

theorem insertRole_ordered {r : Str} {l : List Str} (h : l.Pairwise (· ≤ ·)) : (insertRole r l).Pairwise (· ≤ ·) := by
  induction l with
  | nil => simp [insertRole]
  | cons x xs ih =>
    unfold insertRole
    split
    · next hr =>
      rw [strLe_iff] at hr
      refine List.pairwise_cons.2 ⟨?_, h⟩
      intro b hb
      rcases List.mem_cons.1 hb with rfl | hb
      · exact hr
      · exact List.le_trans hr ((List.pairwise_cons.1 h).1 b hb)
    · next hr =>
      rw [strLe_iff] at hr
      refine List.pairwise_cons.2 ⟨?_, ih (List.pairwise_cons.1 h).2⟩
      intro b hb
      rcases List.mem_cons.1 ((insertRole_perm r xs).mem_iff.1 hb) with rfl | hb
      · exact (List.le_total x b).resolve_right hr
      · exact (List.pairwise_cons.1 h).1 b hb

theorem sortRoles_ordered (l : List Str) : (sortRoles l).Pairwise (· ≤ ·) := by
  induction l with
  | nil => exact .nil
  | cons r l ih => exact insertRole_ordered ih

theorem sortRoles_unique {l m : List Str} (hp : m.Perm l) (hs : m.Pairwise (· ≤ ·)) : sortRoles l = m := by
  refine ((sortRoles_perm l).trans hp.symm).eq_of_pairwise ?_ (sortRoles_ordered l) hs
  intro a b _ _ h1 h2
  exact List.le_antisymm h1 h2

theorem sorted_roles_iff (a b : List Str) :
    (a.length = b.length ∧ ((sortRoles a).zip (sortRoles b)).all (fun (x, y) => toLower x = toLower y) = true) ↔
      SortedRolesAgree a b := by
  have hl : ∀ l, (sortRoles l).length = l.length := fun l => (sortRoles_perm l).length_eq
  have := zip_all_map toLower (sortRoles a) (sortRoles b)
  rw [hl, hl] at this
  rw [this]
  constructor
  · intro h
    exact ⟨_, _, sortRoles_perm a, sortRoles_perm b, sortRoles_ordered a, sortRoles_ordered b, h⟩
  · rintro ⟨a', b', h1, h2, h3, h4, h5⟩
    rw [sortRoles_unique h1 h3, sortRoles_unique h2 h4]
    exact h5

theorem policy_agrees_iff (a b : Policy) : areSamePolicies a b = true ↔ PolicyAgrees a b := by
  constructor
  · intro h
    refine ⟨same_policy h, fun h1 h2 => ?_⟩
    unfold areSamePolicies at h
    rw [← sorted_roles_iff]
    by_cases hs : toLower a.scope ≠ toLower b.scope
    · simp [hs] at h
    by_cases hp : toLower a.permissive ≠ toLower b.permissive
    · simp [hs, hp] at h
    by_cases hr : a.roles.length ≠ b.roles.length
    · simp [hs, hp, h1, h2, hr] at h
    simp only [hs, hp, h1, h2, hr, ne_eq, not_true_eq_false, if_false] at h
    exact ⟨not_not.1 hr, h⟩
  · intro h
    unfold areSamePolicies paren
    simp only [h.scope, h.permissive, ne_eq, not_true_eq_false, if_false]
    by_cases h1 : toLower a.using_ = toLower b.using_
    · by_cases h2 : toLower a.withCheck = toLower b.withCheck
      · have := (sorted_roles_iff _ _).2 (h.sorted h1 h2)
        simp only [h1, h2, this.1, not_true_eq_false, if_false]
        exact this.2
      · have := (h.withCheck h1).resolve_left h2
        simp only [h1, h2, not_true_eq_false, not_false_eq_true, if_false, if_true]
        exact decide_eq_true this
    · have := h.using_.resolve_left h1
      simp only [h1, not_false_eq_true, if_true]
      exact decide_eq_true this

/-! ### Columns -/

theorem notNull_required (c : Column) : notNull .postgres c = true ↔ Required .postgres c := by
  unfold notNull Required
  cases c.notNull with
  | none => simp
  | some b => simp

theorem seen_definition {cur c : Column} {b : Bool} :
    haveSameColumnDefinition mode cur { c with autoIncrement := b } = haveSameColumnDefinition mode cur c := rfl

theorem mysql_silent {x d : Table} {prev : Option Str} {cur c : Column} {b : Bool} :
    mysqlColumn x d prev cur { c with autoIncrement := b } = .ok [] ↔ MysqlAgrees x d cur c := by
  unfold mysqlColumn
  rw [bind_ok]
  constructor
  · rintro ⟨ch, h1, h2⟩
    simp only [pure, Except.pure, Except.ok.injEq, List.append_eq_nil_iff] at h2
    obtain ⟨rfl, h2⟩ := h2
    unfold mysqlChange at h1
    simp only at h1
    split at h1
    · exact absurd h1 guardText_nonempty
    next hn =>
    simp only [Bool.or_eq_true, Bool.not_eq_true', not_or, Bool.not_eq_false, Bool.not_eq_true] at hn
    obtain ⟨⟨h3, h4⟩, h5⟩ := hn
    refine ⟨(same_definition_iff _ _ _).1 h3, (same_default_iff _ _).1 h4, ?_, ?_⟩
    · simp only [changeOrder, Bool.and_eq_false_iff, decide_eq_false_iff_not] at h5
      intro hp
      rcases h5 with h5 | h5
      · exact absurd hp h5
      · simpa using h5
    · intro hu
      unfold mysqlUnique at h2
      by_cases hcu : cur.keyOption.isUnique = true
      · exact .inl hcu
      · right
        by_contra hno
        have : (findIndexByName x.indexes c.name).isNone = true := by
          simp only [findIndexByName, Option.isNone_iff_eq_none, List.find?_eq_none, decide_eq_true_eq]
          intro i hi e
          exact hno (List.mem_map.2 ⟨i, hi, e⟩)
        simp [hu, hcu, this] at h2
  · intro h
    refine ⟨[], ?_, ?_⟩
    · unfold mysqlChange
      have h1 : haveSameColumnDefinition .mysql cur { c with autoIncrement := b } = true := by
        rw [seen_definition]; exact (same_definition_iff _ _ _).2 h.definition
      have h2 := (same_default_iff cur.defaultDef c.defaultDef).2 h.default
      have h3 : changeOrder x d cur { c with autoIncrement := b } = false := by
        simp only [changeOrder, Bool.and_eq_false_iff, decide_eq_false_iff_not]
        by_cases hp : cur.position > c.position
        · exact .inr (by have := h.place hp; simpa using this)
        · exact .inl hp
      simp [h1, h2, h3]
    · have : mysqlUnique x d cur { c with autoIncrement := b } = [] := by
        unfold mysqlUnique
        rw [if_neg]
        intro hc
        simp only [Bool.and_eq_true, Bool.not_eq_true'] at hc
        rcases h.unique hc.1.1 with h1 | h1
        · rw [h1] at hc; cases hc.1.2
        · obtain ⟨i, hi, e⟩ := List.mem_map.1 h1
          have hf := hc.2
          simp only [findIndexByName, Option.isNone_iff_eq_none, List.find?_eq_none, decide_eq_true_eq] at hf
          exact hf i hi e
      rw [this]; rfl

theorem pgDefault_silent {x : Table} {cur c : Column} : pgDefault x cur c = .ok [] ↔ SameDefault cur.defaultDef c.defaultDef := by
  rw [← same_default_iff]
  unfold pgDefault
  cases h : areSameDefaultValue cur.defaultDef c.defaultDef with
  | true => simp
  | false =>
    simp only [Bool.not_false, if_true, Bool.false_eq_true, iff_false]
    intro h
    split at h
    · cases h
    · split at h
      · cases h
      · exact guardText_nonempty h

theorem check_none_iff {a b : Option CheckDefinition} (h : SameCheck a b) : a = none ↔ b = none := by
  unfold SameCheck at h
  cases a <;> cases b <;> simp_all

theorem check_silent {α : Type} {cur c : Column} {f g : CheckDefinition → α} :
    (if (!areSameCheckDefinition cur.check c.check || decide (cur.checkNoInherit ≠ c.checkNoInherit)) = true then
      (match cur.check with | none => [] | some k => [f k]) ++ (match c.check with | none => [] | some k => [g k]) else []) = [] ↔
    SameCheck cur.check c.check ∧ (c.check ≠ none → cur.checkNoInherit = c.checkNoInherit) := by
  rw [← same_check_iff]
  cases hs : areSameCheckDefinition cur.check c.check with
  | true =>
    have := check_none_iff ((same_check_iff _ _).1 hs)
    by_cases hi : cur.checkNoInherit = c.checkNoInherit
    · simp [hi]
    · cases h1 : cur.check <;> cases h2 : c.check <;> simp_all
  | false =>
    cases h1 : cur.check <;> cases h2 : c.check <;> simp_all [areSameCheckDefinition]

theorem pgCheck_silent {d : Table} {cur c : Column} : pgCheck d cur c = [] ↔
    SameCheck cur.check c.check ∧ (c.check ≠ none → cur.checkNoInherit = c.checkNoInherit) := by
  rw [← check_silent (α := Stmt)
    (f := fun _ => .dropCheck d.name c.name (deleteFirst (lit "public.") d.name ++ lit "_" ++ c.name ++ lit "_check"))
    (g := fun k => .addCheck d.name c.name (deleteFirst (lit "public.") d.name ++ lit "_" ++ c.name ++ lit "_check") k c.checkNoInherit)]
  unfold pgCheck
  simp only [Bool.or_eq_true, decide_eq_true_eq]
  cases cur.check <;> cases c.check <;> rfl

theorem mssqlCheck_silent {d : Table} {cur c : Column} : mssqlCheck d cur c = [] ↔
    SameCheck cur.check c.check ∧ (c.check ≠ none → cur.checkNoInherit = c.checkNoInherit) := by
  rw [← check_silent (α := Stmt)
    (f := fun k => .dropCheck d.name c.name k.constraintName)
    (g := fun k => .addCheck d.name c.name (if k.constraintName = [] then
      deleteFirst (lit "dbo.") d.name ++ lit "_" ++ c.name ++ lit "_check" else k.constraintName) k false)]
  unfold mssqlCheck
  simp only [Bool.or_eq_true, decide_eq_true_eq]
  cases cur.check <;> cases c.check <;> rfl

theorem pgIdentity_silent {x d : Table} {cur c : Column} : pgIdentity x d cur c = [] ↔ cur.identity = c.identity := by
  rw [← same_identity_iff]
  unfold pgIdentity
  cases hs : areSameIdentityDefinition cur.identity c.identity with
  | true => simp
  | false =>
    simp only [Bool.not_false, if_true, Bool.false_eq_true, iff_false]
    cases h1 : cur.identity <;> cases h2 : c.identity <;> simp_all [areSameIdentityDefinition]

theorem pgNotNull_silent {x d : Table} {cur c : Column} : pgNotNull x d cur c = [] ↔
    (inPrimaryKey x cur = false → (Required .postgres cur ↔ Required .postgres c)) := by
  rw [← notNull_required, ← notNull_required]
  have : isPrimaryKey cur x = inPrimaryKey x cur := rfl
  unfold pgNotNull
  rw [this]
  cases inPrimaryKey x cur <;> cases notNull .postgres cur <;> cases notNull .postgres c <;> simp

theorem postgres_silent {x d : Table} {cur c : Column} {b : Bool} :
    postgresColumn x d cur { c with autoIncrement := b } = .ok [] ↔ PostgresAgrees x cur c := by
  unfold postgresColumn
  simp only [bind_ok, pure, Except.pure, Except.ok.injEq, List.append_eq_nil_iff]
  have ht : (if (!haveSameDataType .postgres cur { c with autoIncrement := b }) = true then
      [Stmt.alterType d.name cur.name { c with autoIncrement := b }] else []) = [] ↔ SameDataType .postgres cur c := by
    rw [← same_data_type_iff]
    have : haveSameDataType .postgres cur { c with autoIncrement := b } = haveSameDataType .postgres cur c := rfl
    rw [this]
    cases haveSameDataType .postgres cur c <;> simp
  constructor
  · rintro ⟨z, h1, ⟨⟨⟨h2, h3⟩, h4⟩, rfl⟩, h5⟩
    have h5 := pgCheck_silent.1 h5
    exact ⟨ht.1 h2, pgNotNull_silent.1 h3, pgIdentity_silent.1 h4, pgDefault_silent.1 h1, h5.1, h5.2⟩
  · intro h
    exact ⟨[], pgDefault_silent.2 h.default, ⟨⟨⟨ht.2 h.type, pgNotNull_silent.2 h.notNull⟩, pgIdentity_silent.2 h.identity⟩, rfl⟩,
      pgCheck_silent.2 ⟨h.check, h.noInherit⟩⟩

theorem mssqlIdentity_silent {x d : Table} {cur c : Column} : mssqlIdentity x d cur c = .ok [] ↔ cur.identity = c.identity := by
  rw [← same_identity_iff]
  unfold mssqlIdentity
  cases hs : areSameIdentityDefinition cur.identity c.identity with
  | true => simp
  | false =>
    simp only [Bool.not_false, if_true, Bool.false_eq_true, iff_false, bind_ok, pure, Except.pure, Except.ok.injEq,
      List.append_eq_nil_iff]
    rintro ⟨z, h1, h2, rfl⟩
    unfold mssqlIdentityAdd at h1
    unfold mssqlIdentityDrop at h2
    split at h1
    · next hc => split at h2
                 · next hcur => rw [hc, hcur] at hs; cases hs
                 · cases h2
    · exact guardText_nonempty h1

theorem mssqlDefault_silent {x : Table} {cur c : Column} : mssqlDefault x cur c = .ok [] ↔ SameDefault cur.defaultDef c.defaultDef := by
  rw [← same_default_iff]
  unfold mssqlDefault
  cases hs : areSameDefaultValue cur.defaultDef c.defaultDef with
  | true => simp
  | false =>
    simp only [Bool.not_false, if_true, Bool.false_eq_true, iff_false, bind_ok, pure, Except.pure, Except.ok.injEq,
      List.append_eq_nil_iff]
    rintro ⟨z, h1, h2, rfl⟩
    unfold mssqlDefaultAdd at h1
    unfold mssqlDefaultDrop at h2
    split at h1
    · next hc => split at h2
                 · next hcur => rw [hc, hcur] at hs; cases hs
                 · cases h2
    · split at h1
      · cases h1
      · exact guardText_nonempty h1

theorem mssql_silent {x d : Table} {cur c : Column} {b : Bool} :
    mssqlColumn x d cur { c with autoIncrement := b } = .ok [] ↔ MssqlAgrees cur c := by
  have ht : MssqlAgrees cur c ↔ MssqlAgrees cur { c with autoIncrement := b } :=
    ⟨fun h => ⟨h.1, h.2, h.3, h.4⟩, fun h => ⟨h.1, h.2, h.3, h.4⟩⟩
  rw [ht]
  generalize { c with autoIncrement := b } = c
  unfold mssqlColumn
  simp only [bind_ok, pure, Except.pure, Except.ok.injEq, List.append_eq_nil_iff]
  constructor
  · rintro ⟨y, h1, z, h2, ⟨h3, rfl⟩, rfl⟩
    have h3 := mssqlCheck_silent.1 h3
    exact ⟨mssqlIdentity_silent.1 h1, mssqlDefault_silent.1 h2, h3.1, h3.2⟩
  · intro h
    exact ⟨[], mssqlIdentity_silent.2 h.identity, [], mssqlDefault_silent.2 h.default, ⟨mssqlCheck_silent.2 ⟨h.check, h.noInherit⟩, rfl⟩, rfl⟩

theorem column_silent {x d : Table} {prev : Option Str} {c : Column} :
    columnDDLs mode x d prev c = .ok [] ↔
      ∃ cur, x.columns.find? (·.name = c.name) = some cur ∧ ColumnAgrees mode x d cur c := by
  unfold columnDDLs
  show (match x.columns.find? (·.name = c.name) with | none => _ | some cur => _) = _ ↔ _
  cases hf : x.columns.find? (·.name = c.name) with
  | none =>
    simp only [reduceCtorEq, false_and, exists_false, iff_false]
    exact guardText_nonempty
  | some cur =>
    simp only [Option.some.injEq, exists_eq_left']
    have hs : (if cur.autoIncrement = true then c else { c with autoIncrement := false }) =
        { c with autoIncrement := if cur.autoIncrement = true then c.autoIncrement else false } := by
      split <;> rfl
    rw [hs]
    cases mode with
    | mysql => exact mysql_silent.trans ⟨fun h => ⟨fun _ => h, nofun, nofun⟩, fun h => h.mysql rfl⟩
    | postgres => exact postgres_silent.trans ⟨fun h => ⟨nofun, fun _ => h, nofun⟩, fun h => h.postgres rfl⟩
    | mssql => exact mssql_silent.trans ⟨fun h => ⟨nofun, nofun, fun _ => h⟩, fun h => h.mssql rfl⟩
    | sqlite3 => exact ⟨fun _ => ⟨nofun, nofun, nofun⟩, fun _ => rfl⟩

/-! ### Tables -/

theorem exists_withPrev {cs : List Column} {c : Column} (h : c ∈ cs) (o : Option Str) : ∃ p, (p, c) ∈ withPrev o cs := by
  induction cs generalizing o with
  | nil => cases h
  | cons a cs ih =>
    rcases List.mem_cons.1 h with rfl | h
    · exact ⟨o, by simp [withPrev]⟩
    · obtain ⟨p, hp⟩ := ih h (some a.name)
      exact ⟨p, by simp [withPrev, hp]⟩

theorem columns_silent {x d : Table} :
    concatMapM (fun pc : Option Str × Column => columnDDLs mode x d pc.1 pc.2) (withPrev none d.columns) = .ok [] ↔
      ∀ c ∈ d.columns, ∃ cur, x.columns.find? (·.name = c.name) = some cur ∧ ColumnAgrees mode x d cur c := by
  rw [concatMapM_empty_iff]
  constructor
  · intro h c hc
    obtain ⟨p, hp⟩ := exists_withPrev hc none
    exact column_silent.1 (h _ hp)
  · rintro h ⟨p, c⟩ hp
    exact column_silent.2 (h c (mem_withPrev hp))

theorem removeAutoIncrement_silent {x d : Table} : removeAutoIncrement mode x d = .ok [] ↔
    (mode = .mysql → ∀ cur ∈ x.columns, cur.autoIncrement = true →
      ∃ c, d.columns.find? (·.name = cur.name) = some c ∧ c.autoIncrement = true) := by
  unfold removeAutoIncrement
  by_cases hm : mode = .mysql
  · simp only [hm, if_true, forall_const]
    rw [concatMapM_empty_iff]
    refine forall_congr' fun cur => forall_congr' fun _ => ?_
    unfold losesAutoIncrement findColumnByName
    cases hai : cur.autoIncrement with
    | false => simp
    | true =>
      cases d.columns.find? (fun e : Column => decide (e.name = cur.name)) with
      | none =>
        simp only [Bool.and_self, if_true, reduceCtorEq, false_and, exists_false, imp_false, iff_true_intro, not_true_eq_false, iff_false]
        exact guardText_nonempty
      | some c =>
        cases hc : c.autoIncrement with
        | true => simp [hc]
        | false =>
          simp only [Bool.not_false, Bool.and_self, if_true, Option.some.injEq, exists_eq_left', hc, Bool.false_eq_true, imp_false,
            not_true_eq_false, iff_false]
          exact guardText_nonempty
  · simp [hm]

theorem addAutoIncrement_silent {x d : Table} : addAutoIncrement mode x d = .ok [] ↔
    (mode = .mysql → ∀ c ∈ d.columns, c.autoIncrement = true →
      ∃ cur, x.columns.find? (·.name = c.name) = some cur ∧ cur.autoIncrement = true) := by
  unfold addAutoIncrement
  by_cases hm : mode = .mysql
  · simp only [hm, if_true, forall_const]
    rw [concatMapM_empty_iff]
    refine forall_congr' fun cur => forall_congr' fun _ => ?_
    unfold gainsAutoIncrement findColumnByName
    cases hai : cur.autoIncrement with
    | false => simp
    | true =>
      cases x.columns.find? (fun e : Column => decide (e.name = cur.name)) with
      | none =>
        simp only [Bool.and_self, if_true, reduceCtorEq, false_and, exists_false, imp_false, iff_true_intro, not_true_eq_false, iff_false]
        exact guardText_nonempty
      | some c =>
        cases hc : c.autoIncrement with
        | true => simp [hc]
        | false =>
          simp only [Bool.not_false, Bool.and_self, if_true, Option.some.injEq, exists_eq_left', hc, Bool.false_eq_true, imp_false,
            not_true_eq_false, iff_false]
          exact guardText_nonempty
  · simp [hm]

theorem primaryKey_silent {x d : Table} : primaryKeyDDLs mode x d = .ok [] ↔
    (SameKey x.primaryKey d.primaryKey ∨ ((mode = .mssql ∨ mode = .sqlite3) ∧ d.primaryKey = none)) := by
  rw [← same_key_iff]
  unfold primaryKeyDDLs
  cases hs : areSamePrimaryKeys x.primaryKey d.primaryKey with
  | true => simp
  | false =>
    simp only [Bool.not_false, if_true, Bool.false_eq_true, false_or, bind_ok, pure, Except.pure, Except.ok.injEq,
      List.append_eq_nil_iff]
    constructor
    · rintro ⟨y, h1, z, h2, rfl, rfl⟩
      unfold addPrimaryKeyDDLs at h2
      split at h2
      · next hd =>
        unfold dropPrimaryKeyDDLs at h1
        split at h1
        · next hx => rw [hx, hd] at hs; cases hs
        · next k hx =>
          cases mode with
          | mysql => cases h1
          | postgres => simp only at h1; split at h1 <;> cases h1
          | mssql => exact ⟨.inl rfl, hd⟩
          | sqlite3 => exact ⟨.inr rfl, hd⟩
      · exact absurd h2 guardText_nonempty
    · rintro ⟨hm, hd⟩
      refine ⟨[], ?_, [], ?_, rfl, rfl⟩
      · unfold dropPrimaryKeyDDLs
        split
        · rfl
        · rcases hm with rfl | rfl <;> rfl
      · unfold addPrimaryKeyDDLs
        rw [hd]

theorem tableIndex_silent {x d : Table} {i : Index} : tableIndexDDLs mode x d i = .ok [] ↔
    (i.primary = false → ∃ j, x.indexes.find? (·.name = i.name) = some j ∧ SameIndex j i) := by
  unfold tableIndexDDLs findIndexByName
  cases hp : i.primary with
  | true => simp
  | false =>
    simp only [Bool.false_eq_true, if_false, forall_const]
    cases hf : x.indexes.find? (fun e : Index => decide (e.name = i.name)) with
    | none =>
      simp only [reduceCtorEq, false_and, exists_false, iff_false]
      exact guardText_nonempty
    | some j =>
      simp only [Option.some.injEq, exists_eq_left', ← same_index_iff]
      cases areSameIndexes j i with
      | true => simp
      | false =>
        simp only [Bool.not_false, if_true, Bool.false_eq_true, iff_false, bind_ok, pure, Except.pure, Except.ok.injEq]
        rintro ⟨_, _, h⟩
        cases h

theorem tableForeignKey_silent {x d : Table} {f : ForeignKey} : tableForeignKeyDDLs mode x d f = .ok [] ↔
    (f.constraintName ≠ [] ∧
      ∃ g, x.foreignKeys.find? (·.constraintName = f.constraintName) = some g ∧ SameForeignKey mode g f) := by
  unfold tableForeignKeyDDLs findForeignKeyByName
  by_cases hn : f.constraintName = []
  · simp [hn]
  · simp only [hn, if_false, ne_eq, not_false_eq_true, true_and]
    cases x.foreignKeys.find? (fun e : ForeignKey => decide (e.constraintName = f.constraintName)) with
    | none => simp
    | some g =>
      simp only [Option.some.injEq, exists_eq_left', ← same_foreign_key_iff]
      cases areSameForeignKeys mode g f <;> simp

theorem createTable_silent {x d : Table} : generateDDLsForCreateTable mode x d = .ok [] ↔
    (∀ c ∈ d.columns, ∃ cur, x.columns.find? (·.name = c.name) = some cur ∧ ColumnAgrees mode x d cur c) ∧
    (mode = .mysql → ∀ cur ∈ x.columns, cur.autoIncrement = true →
      ∃ c, d.columns.find? (·.name = cur.name) = some c ∧ c.autoIncrement = true) ∧
    (SameKey x.primaryKey d.primaryKey ∨ ((mode = .mssql ∨ mode = .sqlite3) ∧ d.primaryKey = none)) ∧
    (∀ i ∈ d.indexes, i.primary = false → ∃ j, x.indexes.find? (·.name = i.name) = some j ∧ SameIndex j i) ∧
    (mode = .mysql → ∀ c ∈ d.columns, c.autoIncrement = true →
      ∃ cur, x.columns.find? (·.name = c.name) = some cur ∧ cur.autoIncrement = true) ∧
    (∀ f ∈ d.foreignKeys, f.constraintName ≠ [] ∧
      ∃ g, x.foreignKeys.find? (·.constraintName = f.constraintName) = some g ∧ SameForeignKey mode g f) := by
  have hi : concatMapM (tableIndexDDLs mode x d) d.indexes = .ok [] ↔ ∀ i ∈ d.indexes, i.primary = false →
      ∃ j, x.indexes.find? (·.name = i.name) = some j ∧ SameIndex j i := by
    rw [concatMapM_empty_iff]
    exact forall_congr' fun i => forall_congr' fun _ => tableIndex_silent
  have hf : concatMapM (tableForeignKeyDDLs mode x d) d.foreignKeys = .ok [] ↔ ∀ f ∈ d.foreignKeys, f.constraintName ≠ [] ∧
      ∃ g, x.foreignKeys.find? (·.constraintName = f.constraintName) = some g ∧ SameForeignKey mode g f := by
    rw [concatMapM_empty_iff]
    exact forall_congr' fun i => forall_congr' fun _ => tableForeignKey_silent
  rw [← columns_silent, ← removeAutoIncrement_silent, ← primaryKey_silent, ← hi, ← addAutoIncrement_silent, ← hf]
  constructor
  · intro h
    obtain ⟨cols, rai, pk, idx, aai, fks, h1, h2, h3, h4, h5, h6, h7⟩ := createTable_parts h
    have h7 := h7.symm
    simp only [List.append_eq_nil_iff] at h7
    obtain ⟨⟨⟨⟨⟨rfl, rfl⟩, rfl⟩, rfl⟩, rfl⟩, rfl⟩ := h7
    exact ⟨h1, h2, h3, h4, h5, h6⟩
  · rintro ⟨h1, h2, h3, h4, h5, h6⟩
    unfold generateDDLsForCreateTable
    rw [h1, h2, h3, h4, h5, h6]; rfl

/-! ### Clean-up -/

theorem mem_fkIndexNames_iff {fks : List ForeignKey} {n : Str} : n ∈ fkIndexNames fks ↔ ∃ f ∈ fks, BackedBy f n := by
  unfold fkIndexNames BackedBy
  simp only [List.mem_filterMap]
  refine exists_congr fun f => and_congr_right fun _ => ?_
  by_cases h1 : f.indexName = []
  · by_cases h2 : f.constraintName = []
    · simp only [h1, h2, ne_eq, not_true_eq_false, if_false, reduceCtorEq, true_and, or_self, false_iff, not_and]
      exact id
    · simp only [h1, h2, ne_eq, not_true_eq_false, not_false_eq_true, if_false, if_true, Option.some.injEq, true_and]
      constructor
      · rintro rfl; exact ⟨h2, .inr rfl⟩
      · rintro ⟨h3, h4⟩; exact (h4.resolve_left h3).symm
  · simp only [h1, ne_eq, not_false_eq_true, if_true, Option.some.injEq, false_and, or_false]
    constructor
    · rintro rfl; exact ⟨h1, rfl⟩
    · rintro ⟨-, h4⟩; exact h4.symm

theorem absentIndex_silent {x D : Table} {j : Index} : absentIndex mode j x D = .ok [] ↔
    ((j.primary = true ∧
      match D.columns.find? (·.keyOption = .primary) with
      | none => mode ≠ .mssql
      | some c => j.columns.head?.map (·.column) = some c.name) ∨
    (j.primary = false ∧ j.unique = true ∧
      ∃ c ∈ D.columns, c.keyOption.isUnique = true ∧ j.columns.head?.map (·.column) = some c.name)) := by
  unfold absentIndex
  cases hp : j.primary with
  | true =>
    simp only [if_true, true_and, Bool.true_eq_false, false_and, or_false]
    cases D.columns.find? (fun c : Column => decide (c.keyOption = .primary)) with
    | none => by_cases hm : mode = .mssql <;> simp [hm]
    | some c =>
      cases hc : j.columns with
      | nil => simp
      | cons k ks =>
        simp only [List.head?_cons, Option.map_some, Option.some.injEq]
        by_cases he : c.name = k.column
        · simp [he]
        · simp [he, Ne.symm he]
  | false =>
    simp only [Bool.false_eq_true, if_false, false_and, false_or, true_and]
    cases hu : j.unique with
    | false => simp
    | true =>
      simp only [if_true, true_and]
      cases hc : j.columns with
      | nil => cases hd : D.columns <;> simp
      | cons k ks =>
        simp only [List.head?_cons, Option.map_some, Option.some.injEq]
        have : (D.columns.any fun col => decide (col.name = k.column) && col.keyOption.isUnique) = true ↔
            ∃ c ∈ D.columns, c.keyOption.isUnique = true ∧ k.column = c.name := by
          simp only [List.any_eq_true, Bool.and_eq_true, decide_eq_true_eq]
          exact exists_congr fun c => and_congr_right fun _ => ⟨fun h => ⟨h.2, h.1.symm⟩, fun h => ⟨h.2.symm, h.1⟩⟩
        rw [← this]
        cases D.columns.any fun col => decide (col.name = k.column) && col.keyOption.isUnique <;> simp

theorem absentForeignKey_silent {x D : Table} {g : ForeignKey} : absentForeignKey mode g x D = [] ↔
    (mode ≠ .sqlite3 → mode ≠ .mysql ∧ ∃ c ∈ D.columns, c.references = g.referenceName) := by
  have : (D.columns.any fun c => decide (c.references = g.referenceName)) = true ↔ ∃ c ∈ D.columns, c.references = g.referenceName := by
    simp
  rw [← this]
  unfold absentForeignKey
  cases mode <;> cases D.columns.any fun c => decide (c.references = g.referenceName) <;> simp

theorem filter_not_contains {α : Type} {l : List α} {names : List Str} {key : α → Str} :
    (l.filter fun a => !containsString names (key a)) = [] ↔ ∀ a ∈ l, key a ∈ names := by
  rw [List.filter_eq_nil_iff]
  refine forall_congr' fun a => forall_congr' fun _ => ?_
  rw [← containsString_iff]
  cases containsString names (key a) <;> simp

theorem cleanupTable_silent {x D : Table} : cleanupTable mode x D = .ok [] ↔
    (∀ cur ∈ x.columns, cur.name ∈ D.columns.map (·.name)) ∧
    (∀ j ∈ x.indexes, j.name ∈ D.indexes.map (·.name) ∨ MayStay mode D j) ∧
    (mode ≠ .sqlite3 → ∀ g ∈ x.foreignKeys, g.constraintName ∈ D.foreignKeys.map (·.constraintName) ∨
      (mode ≠ .mysql ∧ ∃ c ∈ D.columns, c.references = g.referenceName)) ∧
    (∀ q ∈ x.policies, q.name ∈ D.policies.map (·.name)) := by
  have hfk : ((x.foreignKeys.filter fun fk => !containsString (fkConstraintNames D.foreignKeys) fk.constraintName).flatMap
      fun fk => absentForeignKey mode fk x D) = [] ↔
      (mode ≠ .sqlite3 → ∀ g ∈ x.foreignKeys, g.constraintName ∈ D.foreignKeys.map (·.constraintName) ∨
        (mode ≠ .mysql ∧ ∃ c ∈ D.columns, c.references = g.referenceName)) := by
    rw [List.flatMap_eq_nil_iff]
    simp only [List.mem_filter, Bool.not_eq_true', absentForeignKey_silent, and_imp]
    constructor
    · intro h hm g hg
      by_cases hc : containsString (fkConstraintNames D.foreignKeys) g.constraintName = true
      · exact .inl (containsString_iff.1 hc)
      · exact .inr (h g hg (by simpa using hc) hm)
    · intro h g hg hc hm
      rcases h hm g hg with h | h
      · rw [show containsString (fkConstraintNames D.foreignKeys) g.constraintName = true from containsString_iff.2 h] at hc
        cases hc
      · exact h
  have hidx : concatMapM (fun i => absentIndex mode i x D) (x.indexes.filter fun i =>
      !(containsString (indexNames D.indexes) i.name || containsString (fkIndexNames D.foreignKeys) i.name)) = .ok [] ↔
      ∀ j ∈ x.indexes, j.name ∈ D.indexes.map (·.name) ∨ MayStay mode D j := by
    rw [concatMapM_empty_iff]
    simp only [List.mem_filter, Bool.not_eq_true', Bool.or_eq_false_iff, absentIndex_silent, and_imp]
    refine forall_congr' fun j => forall_congr' fun _ => ?_
    unfold MayStay
    rw [← mem_fkIndexNames_iff]
    constructor
    · intro h
      by_cases h1 : containsString (indexNames D.indexes) j.name = true
      · exact .inl (containsString_iff.1 h1)
      · by_cases h2 : containsString (fkIndexNames D.foreignKeys) j.name = true
        · exact .inr (.inl (containsString_iff.1 h2))
        · exact .inr (.inr (h (by simpa using h1) (by simpa using h2)))
    · rintro (h | h | h) h1 h2
      · rw [show containsString (indexNames D.indexes) j.name = true from containsString_iff.2 h] at h1; cases h1
      · rw [show containsString (fkIndexNames D.foreignKeys) j.name = true from containsString_iff.2 h] at h2; cases h2
      · exact h
  have hcol : ((x.columns.filter fun c => !containsString (columnNames D.columns) c.name).flatMap
      fun c => absentColumn mode x c.name) = [] ↔ ∀ cur ∈ x.columns, cur.name ∈ D.columns.map (·.name) := by
    rw [← filter_not_contains (key := fun c : Column => c.name)]
    constructor
    · intro h
      rw [List.flatMap_eq_nil_iff] at h
      rw [List.eq_nil_iff_forall_not_mem]
      intro c hc
      have := h c hc
      simp [absentColumn] at this
    · intro h
      have : (x.columns.filter fun c => !containsString (columnNames D.columns) c.name) = [] := h
      rw [this]; rfl
  have hpol : ((x.policies.filter fun p => !containsString (policyNames D.policies) p.name).map
      fun p => Stmt.dropPolicy x.name p.name) = [] ↔ ∀ q ∈ x.policies, q.name ∈ D.policies.map (·.name) := by
    rw [List.map_eq_nil_iff]
    exact filter_not_contains (key := fun p : Policy => p.name)
  rw [← hfk, ← hidx, ← hcol, ← hpol]
  unfold cleanupTable
  simp only [bind_ok, pure, Except.pure, Except.ok.injEq, List.append_eq_nil_iff]
  constructor
  · rintro ⟨z, h1, ⟨⟨h2, rfl⟩, h3⟩, h4⟩
    exact ⟨h3, h1, h2, h4⟩
  · rintro ⟨h1, h2, h3, h4⟩
    exact ⟨[], h2, ⟨⟨h3, rfl⟩, h1⟩, h4⟩

/-! ### The whole schema -/

theorem wellFormed_table {ds : List DDL} (hw : WellFormed ds) {d : DDL} (hd : d ∈ ds) {n : Str}
    (h : (∃ s i, d = .createIndex s n i) ∨ (∃ s i, d = .addIndex s n i) ∨ ∃ s p, d = .addPolicy s n p) :
    ∃ t ∈ created ds, t.name = n := by
  obtain ⟨pre, post, rfl⟩ := List.append_of_mem hd
  have hf := hw pre d post rfl
  have : ∃ t, tableIn pre n = some t := by
    rcases h with ⟨s, i, rfl⟩ | ⟨s, i, rfl⟩ | ⟨s, p, rfl⟩ <;> (obtain ⟨t, ht, -⟩ := hf; exact ⟨t, ht⟩)
  obtain ⟨s, t, ht, hn⟩ := mem_createdNames.1 (tableIn_some_iff.1 this)
  exact ⟨t, mem_created.2 ⟨s, by simp [ht]⟩, hn⟩

theorem indexStmts_silent {cur : List Table} {d : DDL} {n : Str} {i : Index} {x : Table} (hx : findTableByName cur n = some x) :
    indexStmts cur d n i = [] ↔ ∃ j, x.indexes.find? (·.name = i.name) = some j ∧ SameIndex j i := by
  unfold indexStmts findIndexByName
  rw [hx, Option.bind_some]
  cases x.indexes.find? (fun e : Index => decide (e.name = i.name)) with
  | none => simp
  | some j =>
    simp only [Option.some.injEq, exists_eq_left', ← same_index_iff]
    cases areSameIndexes j i <;> simp

theorem policyStmts_silent {cur : List Table} {d : DDL} {n : Str} {p : Policy} {x : Table} (hx : findTableByName cur n = some x) :
    policyStmts cur d n p = [] ↔ ∃ q, x.policies.find? (·.name = p.name) = some q ∧ PolicyAgrees q p := by
  unfold policyStmts findPolicyByName
  rw [hx, Option.bind_some]
  cases x.policies.find? (fun e : Policy => decide (e.name = p.name)) with
  | none => simp
  | some j =>
    simp only [Option.some.injEq, exists_eq_left', ← policy_agrees_iff]
    cases areSamePolicies j p <;> simp

theorem viewStmts_silent {cv : List View} {v : View} : viewStmts mode cv v = [] ↔
    ∃ w, cv.find? (·.name = v.name) = some w ∧ toLower w.definition = toLower v.definition := by
  unfold viewStmts findViewByName
  cases cv.find? (fun e : View => decide (e.name = v.name)) with
  | none => simp
  | some w =>
    by_cases h : toLower w.definition = toLower v.definition
    · simp [h]
    · cases mode <;> simp [h]

theorem triggerStmts_silent {ct : List Trigger} {t : Trigger} : triggerStmts mode ct t = [] ↔
    (mode = .mysql ∨ mode = .mssql → ∃ u, ct.find? (·.name = t.name) = some u ∧ SameTrigger u t) := by
  simp only [← same_trigger_iff]
  unfold triggerStmts findTriggerByName
  cases ct.find? (fun e : Trigger => decide (e.name = t.name)) with
  | none => cases mode <;> simp
  | some u => cases h : areSameTriggerDefinition u t <;> cases mode <;> simp [h]

theorem defs_silent {desired current : List DDL} (hd : UniqueTables desired) (hw : WellFormed desired) :
    (∀ d ∈ desired, defStmts mode (tablesOf current) (viewsOf current) (triggersOf current) d = .ok []) ↔
      ((∀ d ∈ created desired, ∃ x, tableIn current d.name = some x ∧ generateDDLsForCreateTable mode x d = .ok [] ∧
        (∀ i ∈ indexesFor d.name desired, ∃ j, x.indexes.find? (·.name = i.name) = some j ∧ SameIndex j i) ∧
        (∀ p ∈ policiesFor d.name desired, ∃ q, x.policies.find? (·.name = p.name) = some q ∧ PolicyAgrees q p)) ∧
      (∀ v ∈ viewsOf desired, ∃ w, (viewsOf current).find? (·.name = v.name) = some w ∧
        toLower w.definition = toLower v.definition) ∧
      (mode = .mysql ∨ mode = .mssql → ∀ t ∈ triggersOf desired,
        ∃ u, (triggersOf current).find? (·.name = t.name) = some u ∧ SameTrigger u t)) := by
  constructor
  · intro h
    refine ⟨?_, ?_, ?_⟩
    · intro d hdm
      obtain ⟨s, hs⟩ := mem_created.1 hdm
      have h1 := h _ hs
      simp only [defStmts] at h1
      cases hx : findTableByName (tablesOf current) d.name with
      | none => rw [hx] at h1; cases h1
      | some x =>
        rw [hx] at h1
        refine ⟨x, hx, h1, ?_, ?_⟩
        · intro i hi
          obtain ⟨e, he, s, hs⟩ := mem_indexesFor.1 hi
          have h2 := h e he
          rcases hs with rfl | rfl
          · exact (indexStmts_silent hx).1 (by simpa [defStmts] using h2)
          · exact (indexStmts_silent hx).1 (by simpa [defStmts] using h2)
        · intro p hp
          obtain ⟨s, hs⟩ := mem_policiesFor.1 hp
          have h2 := h _ hs
          exact (policyStmts_silent hx).1 (by simpa [defStmts] using h2)
    · intro v hv
      have h2 := h _ (viewsOf_def.1 hv)
      exact viewStmts_silent.1 (by simpa [defStmts] using h2)
    · intro hm t ht
      have h2 := h _ (triggersOf_def.1 ht)
      exact triggerStmts_silent.1 (by simpa [defStmts] using h2) hm
  · rintro ⟨h1, h2, h3⟩ d hdm
    cases d with
    | createTable s t =>
      obtain ⟨x, hx, hg, -, -⟩ := h1 t (mem_created.2 ⟨s, hdm⟩)
      simp only [defStmts]
      rw [show findTableByName (tablesOf current) t.name = some x from hx]
      exact hg
    | createIndex s n i =>
      obtain ⟨t, ht, rfl⟩ := wellFormed_table hw hdm (.inl ⟨s, i, rfl⟩)
      obtain ⟨x, hx, -, hi, -⟩ := h1 t ht
      simp only [defStmts, Except.ok.injEq]
      exact (indexStmts_silent hx).2 (hi i (mem_indexesFor.2 ⟨_, hdm, s, .inl rfl⟩))
    | addIndex s n i =>
      obtain ⟨t, ht, rfl⟩ := wellFormed_table hw hdm (.inr (.inl ⟨s, i, rfl⟩))
      obtain ⟨x, hx, -, hi, -⟩ := h1 t ht
      simp only [defStmts, Except.ok.injEq]
      exact (indexStmts_silent hx).2 (hi i (mem_indexesFor.2 ⟨_, hdm, s, .inr rfl⟩))
    | addForeignKey s n f => rfl
    | addPolicy s n p =>
      obtain ⟨t, ht, rfl⟩ := wellFormed_table hw hdm (.inr (.inr ⟨s, p, rfl⟩))
      obtain ⟨x, hx, -, -, hp⟩ := h1 t ht
      simp only [defStmts, Except.ok.injEq]
      exact (policyStmts_silent hx).2 (hp p (mem_policiesFor.2 ⟨s, hdm⟩))
    | view v =>
      simp only [defStmts, Except.ok.injEq]
      exact viewStmts_silent.2 (h2 v (viewsOf_def.2 hdm))
    | trigger t =>
      simp only [defStmts, Except.ok.injEq]
      exact triggerStmts_silent.2 fun hm => h3 hm t (triggersOf_def.2 hdm)
    | addPrimaryKey s n i =>
      obtain ⟨pre, post, rfl⟩ := List.append_of_mem hdm
      exact (hw pre _ post rfl).elim

theorem cleanups_silent {desired current : List DDL} (hd : UniqueTables desired) :
    (∀ x ∈ tablesOf current, tableCleanup mode (tablesOf desired) x = .ok []) ↔
      ∀ x ∈ tablesOf current, ∃ d ∈ created desired, d.name = x.name ∧ cleanupTable mode x (complete desired d) = .ok [] := by
  refine forall_congr' fun x => forall_congr' fun _ => ?_
  unfold tableCleanup
  constructor
  · intro h
    cases hf : findTableByName (tablesOf desired) x.name with
    | none => rw [hf] at h; cases h
    | some D =>
      rw [hf] at h
      obtain ⟨d, h1, h2, rfl⟩ := tableIn_mem (ds := desired) hf
      exact ⟨d, h1, h2, h⟩
  · rintro ⟨d, h1, h2, h3⟩
    have : findTableByName (tablesOf desired) x.name = some (complete desired d) := by
      rw [← h2]; exact tableIn_of_created hd h1
    rw [this]; exact h3

theorem tableAgrees_iff {desired : List DDL} (hw : WellFormed desired) {x d : Table} : TableAgrees mode desired x d ↔
    (generateDDLsForCreateTable mode x d = .ok [] ∧
      (∀ i ∈ indexesFor d.name desired, ∃ j, x.indexes.find? (·.name = i.name) = some j ∧ SameIndex j i) ∧
      (∀ p ∈ policiesFor d.name desired, ∃ q, x.policies.find? (·.name = p.name) = some q ∧ PolicyAgrees q p)) ∧
    cleanupTable mode x (complete desired d) = .ok [] := by
  rw [createTable_silent, cleanupTable_silent, complete_columns hw]
  constructor
  · intro h
    exact ⟨⟨⟨h.columns, h.noOtherAutoIncrement, h.key, h.indexes, h.autoIncrement, h.foreignKeys⟩, h.separateIndexes, h.policies⟩,
      h.noOtherColumn, h.noOtherIndex, h.noOtherForeignKey, h.noOtherPolicy⟩
  · rintro ⟨⟨⟨h1, h2, h3, h4, h5, h6⟩, h7, h8⟩, h9, h10, h11, h12⟩
    exact ⟨h1, h9, h5, h2, h3, h4, h7, h10, h6, h11, h8, h12⟩

/-- Nothing is generated exactly if the schemas are well-formed and agree. -/
theorem diff_silent {desired current : List DDL} (hd : UniqueTables desired) (hc : UniqueTables current) :
    diff mode desired current = .ok [] ↔ WellFormed desired ∧ WellFormedCurrent current ∧ Agrees mode desired current := by
  rw [diff_stateless mode desired current hd hc]
  refine and_congr_right fun hw => and_congr_right fun _ => ?_
  have h1 : (∃ x y, concatMapM (defStmts mode (tablesOf current) (viewsOf current) (triggersOf current)) desired = .ok x ∧
        concatMapM (tableCleanup mode (tablesOf desired)) (tablesOf current) = .ok y ∧
        [] = x ++ y ++ cleanupViews (viewsOf desired) (viewsOf current)) ↔
      concatMapM (defStmts mode (tablesOf current) (viewsOf current) (triggersOf current)) desired = .ok [] ∧
        concatMapM (tableCleanup mode (tablesOf desired)) (tablesOf current) = .ok [] ∧
        cleanupViews (viewsOf desired) (viewsOf current) = [] := by
    constructor
    · rintro ⟨x, y, h1, h2, h3⟩
      have h4 := h3.symm
      simp only [List.append_eq_nil_iff] at h4
      obtain ⟨⟨rfl, rfl⟩, h5⟩ := h4
      exact ⟨h1, h2, h5⟩
    · rintro ⟨h1, h2, h3⟩
      exact ⟨[], [], h1, h2, by rw [h3]; rfl⟩
  have h2 : cleanupViews (viewsOf desired) (viewsOf current) = [] ↔ ∀ w ∈ viewsOf current, w.name ∈ (viewsOf desired).map (·.name) := by
    unfold cleanupViews
    rw [List.map_eq_nil_iff]
    exact filter_not_contains (key := fun v : View => v.name)
  rw [h1, concatMapM_empty_iff, concatMapM_empty_iff, defs_silent hd hw, cleanups_silent hd, h2]
  constructor
  · rintro ⟨⟨a, b, c⟩, e, f⟩
    refine ⟨?_, ?_, b, f, c⟩
    · intro d hdm
      obtain ⟨x, hx, a1⟩ := a d hdm
      refine ⟨x, hx, (tableAgrees_iff hw).2 ⟨a1, ?_⟩⟩
      obtain ⟨d', hd', hn, hcl⟩ := e x (tableIn_mem_tablesOf hx)
      have h1 := tableIn_of_created hd hdm
      have h2 := tableIn_of_created hd hd'
      rw [hn, tableIn_name hx, h1] at h2
      rw [Option.some.inj h2]
      exact hcl
    · intro x hx
      obtain ⟨d', hd', hn, -⟩ := e x hx
      rw [← hn]
      exact List.mem_map_of_mem hd'
  · intro h
    refine ⟨⟨fun d hdm => ?_, h.views, h.triggers⟩, fun x hx => ?_, h.noOtherView⟩
    · obtain ⟨x, hx, ha⟩ := h.tables d hdm
      exact ⟨x, hx, ((tableAgrees_iff hw).1 ha).1⟩
    · obtain ⟨d, hdm, hn⟩ := List.mem_map.1 (h.noOtherTable x hx)
      obtain ⟨x', hx', ha⟩ := h.tables d hdm
      have := tableIn_of_mem hc hx
      rw [← hn, hx'] at this
      cases this
      exact ⟨d, hdm, hn, ((tableAgrees_iff hw).1 ha).2⟩

end Sqldef
