import Verif.Model.Compare
import Verif.Spec.Same
/-! The comparisons of the generator decide the relations of the specification. -/
namespace Sqldef
open Spec

/-- `normalizeDataType` decides whether two names are names of the same type. -/
theorem same_type_iff (mode : Mode) (a b : Str) :
    normalizeDataType mode a = normalizeDataType mode b ↔ SameType mode a b := by
  have toNorm : ∀ t, SameType mode t (normalizeDataType mode t) := by
    intro t
    have h1 : SameType mode t ((dataTypeAlias t).getD t) := by
      unfold dataTypeAlias
      split
      · next h => rw [h]; exact .bool
      split
      · next h => rw [h]; exact .int
      split
      · next h => rw [h]; exact .char
      split
      · next h => rw [h]; exact .varchar
      · exact .refl t
    unfold normalizeDataType
    split
    · next hm =>
      refine h1.trans ?_
      show SameType mode _ ((mysqlDataTypeAlias ((dataTypeAlias t).getD t)).getD ((dataTypeAlias t).getD t))
      generalize (dataTypeAlias t).getD t = u
      unfold mysqlDataTypeAlias
      split
      · next h => rw [h]; exact .tinyint hm
      · exact .refl u
    · exact h1
  constructor
  · intro h
    exact (toNorm a).trans (h ▸ (toNorm b).symm)
  · intro h
    induction h with
    | refl => rfl
    | symm _ ih => exact ih.symm
    | trans _ _ ih1 ih2 => exact ih1.trans ih2
    | bool => cases mode <;> decide
    | int => cases mode <;> decide
    | char => cases mode <;> decide
    | varchar => cases mode <;> decide
    | tinyint h => rw [h]; decide

theorem same_value_iff (a b : Option Value) : areSameValue a b = true ↔ SameValue a b := by
  cases a with
  | none => cases b <;> simp [areSameValue, SameValue]
  | some c =>
    cases b with
    | none => simp [areSameValue, SameValue]
    | some d =>
      simp only [areSameValue, SameValue, Bool.and_eq_true, decide_eq_true_eq, gt_iff_lt]
      split
      · next h =>
        constructor
        · intro e
          exact .inr ⟨h.1, e ▸ List.take_prefix _ _⟩
        · rintro (e | ⟨-, e⟩)
          · rw [e] at h
            exact absurd h.2 (Nat.lt_irrefl _)
          · exact (List.prefix_iff_eq_take.1 e).symm
      · next h =>
        constructor
        · exact .inl
        · rintro (e | ⟨h1, e⟩)
          · exact e
          · refine (e.eq_of_length_le ?_).symm
            exact Nat.le_of_not_lt fun hlt => h ⟨h1, hlt⟩

theorem effectiveDefault_eq (d : Option DefaultDefinition) : effectiveDefault d = givenDefault d := by
  cases d with
  | none => rfl
  | some d =>
    cases d with
    | mk v k =>
      cases v with
      | none => rfl
      | some v =>
        simp only [effectiveDefault, isNullValue, givenDefault, Bool.and_eq_true, decide_eq_true_eq]

theorem same_default_iff (a b : Option DefaultDefinition) : areSameDefaultValue a b = true ↔ SameDefault a b := by
  unfold areSameDefaultValue SameDefault
  rw [same_value_iff, effectiveDefault_eq, effectiveDefault_eq]

theorem same_data_type_iff (mode : Mode) (a b : Column) : haveSameDataType mode a b = true ↔ SameDataType mode a b := by
  unfold haveSameDataType
  simp only [Bool.and_eq_true, decide_eq_true_eq, same_type_iff]
  constructor
  · rintro ⟨⟨⟨h1, h2⟩, h3⟩, h4⟩
    refine ⟨h1, h2, h4, ?_⟩
    intro x y hx hy
    rw [hx, hy] at h3
    simpa using h3
  · intro h
    refine ⟨⟨⟨h.name, h.enumValues⟩, ?_⟩, h.array⟩
    split
    · next x y hx hy => simpa using h.length x y hx hy
    · rfl

theorem same_definition_iff (mode : Mode) (a b : Column) : haveSameColumnDefinition mode a b = true ↔ SameDefinition mode a b := by
  unfold haveSameColumnDefinition checkPtrEq
  simp only [Bool.and_eq_true, decide_eq_true_eq, Bool.or_eq_true, Option.isNone_iff_eq_none, same_data_type_iff]
  have hn : (decide (a.notNull = some true) = (decide (b.notNull = some true) || decide (b.keyOption = .primary))) ↔
      (a.notNull = some true ↔ b.notNull = some true ∨ b.keyOption = .primary) := by
    rw [Bool.eq_iff_iff]
    simp
  rw [hn]
  constructor
  · rintro ⟨⟨⟨⟨⟨⟨⟨h1, h2⟩, h3⟩, h4⟩, h5⟩, h6⟩, h7⟩, h8⟩
    exact ⟨h1, h2, h3, h4, h5, h6, h7, h8⟩
  · rintro ⟨h1, h2, h3, h4, h5, h6, h7, h8⟩
    exact ⟨⟨⟨⟨⟨⟨⟨h1, h2⟩, h3⟩, h4⟩, h5⟩, h6⟩, h7⟩, h8⟩

theorem same_check_iff (a b : Option CheckDefinition) : areSameCheckDefinition a b = true ↔ SameCheck a b := by
  cases a <;> cases b <;> simp [areSameCheckDefinition, SameCheck]

theorem same_identity_iff (a b : Option Identity) : areSameIdentityDefinition a b = true ↔ a = b := by
  cases a with
  | none => cases b <;> simp [areSameIdentityDefinition]
  | some x => cases b with
    | none => simp [areSameIdentityDefinition]
    | some y => cases x; cases y; simp [areSameIdentityDefinition]

theorem same_direction_iff (a b : Str) : normDirection a = normDirection b ↔ SameDirection a b := by
  unfold normDirection SameDirection ascScr
  by_cases ha : a = [] <;> by_cases hb : b = []
  · simp [ha, hb]
  · simp only [ha, hb, if_true, if_false]
    constructor
    · intro h; exact .inr (.inl ⟨trivial, h.symm⟩)
    · rintro (h | ⟨-, h⟩ | ⟨-, h⟩)
      · exact absurd h.symm hb
      · exact h.symm
      · exact absurd h id
  · simp only [ha, hb, if_true, if_false]
    constructor
    · intro h; exact .inr (.inr ⟨h, trivial⟩)
    · rintro (h | ⟨h, -⟩ | ⟨h, -⟩)
      · exact absurd h (by simpa using ha)
      · exact absurd h id
      · exact h
  · simp [ha, hb]

theorem same_columns_iff (a b : List IndexColumn) :
    (a.length = b.length ∧ ((a.zip b).all fun (x, y) =>
      x.column = y.column && normDirection x.direction = normDirection y.direction) = true) ↔ SameColumns a b := by
  induction a generalizing b with
  | nil => cases b <;> simp [SameColumns]
  | cons x a ih =>
    cases b with
    | nil => simp [SameColumns]
    | cons y b =>
      simp only [List.length_cons, Nat.add_right_cancel_iff, List.zip_cons_cons, List.all_cons, Bool.and_eq_true,
        decide_eq_true_eq, SameColumns, ← ih b, same_direction_iff]
      constructor
      · rintro ⟨h1, ⟨h2, h3⟩, h4⟩; exact ⟨h2, h3, h1, h4⟩
      · rintro ⟨h2, h3, h1, h4⟩; exact ⟨h1, ⟨h2, h3⟩, h4⟩

theorem same_index_iff (a b : Index) : areSameIndexes a b = true ↔ SameIndex a b := by
  unfold areSameIndexes
  simp only [Bool.and_eq_true, decide_eq_true_eq]
  have ho : (b.options.all fun ob =>
      match findIndexOptionByName a.options ob.optionName with
      | some oa => areSameValue oa.value ob.value
      | none => false) = true ↔
      ∀ o ∈ b.options, ∃ o', a.options.find? (·.optionName = o.optionName) = some o' ∧ SameValue o'.value o.value := by
    rw [List.all_eq_true]
    refine forall₂_congr fun o _ => ?_
    show (match a.options.find? (·.optionName = o.optionName) with
      | some oa => areSameValue oa.value o.value
      | none => false) = true ↔ _
    cases a.options.find? (·.optionName = o.optionName) with
    | none => simp
    | some oa => simp [same_value_iff]
  constructor
  · rintro ⟨⟨⟨⟨⟨⟨h1, h2⟩, h3⟩, h4⟩, h5⟩, h6⟩, h7⟩
    exact ⟨h1, h2, (same_columns_iff _ _).1 ⟨h3, by simpa using h4⟩, h5, h6, ho.1 h7⟩
  · intro h
    have := (same_columns_iff _ _).2 h.columns
    exact ⟨⟨⟨⟨⟨⟨h.unique, h.primary⟩, this.1⟩, by simpa using this.2⟩, h.whereExpr⟩, h.included⟩, ho.2 h.options⟩

theorem same_key_iff (a b : Option Index) : areSamePrimaryKeys a b = true ↔ SameKey a b := by
  cases a <;> cases b <;> simp [areSamePrimaryKeys, SameKey, same_index_iff]

theorem same_foreign_key_iff (mode : Mode) (a b : ForeignKey) : areSameForeignKeys mode a b = true ↔ SameForeignKey mode a b := by
  have hn : ∀ x, normalizeAction mode x = actionOf mode x := by
    intro x
    simp only [normalizeAction, actionOf, Bool.and_eq_true, Bool.or_eq_true, decide_eq_true_eq]
  unfold areSameForeignKeys
  simp only [Bool.and_eq_true, decide_eq_true_eq, hn]
  exact ⟨fun ⟨⟨h1, h2⟩, h3⟩ => ⟨h1, h2, h3⟩, fun h => ⟨⟨h.1, h.2⟩, h.3⟩⟩

theorem zip_all_map {α β : Type} [DecidableEq β] (f : α → β) (a b : List α) :
    (a.length = b.length ∧ ((a.zip b).all fun (x, y) => decide (f x = f y)) = true) ↔ a.map f = b.map f := by
  induction a generalizing b with
  | nil => cases b <;> simp
  | cons x a ih =>
    cases b with
    | nil => simp
    | cons y b =>
      simp only [List.length_cons, Nat.add_right_cancel_iff, List.zip_cons_cons, List.all_cons, Bool.and_eq_true,
        decide_eq_true_eq, List.map_cons, List.cons.injEq, ← ih b]
      constructor
      · rintro ⟨h1, h2, h3⟩; exact ⟨h2, h1, h3⟩
      · rintro ⟨h2, h1, h3⟩; exact ⟨h1, h2, h3⟩

theorem insertRole_perm (r : Str) (l : List Str) : (insertRole r l).Perm (r :: l) := by
  induction l with
  | nil => exact .refl _
  | cons x xs ih =>
    unfold insertRole
    split
    · exact .refl _
    · exact ((List.Perm.cons x ih).trans (List.Perm.swap r x xs))

theorem sortRoles_perm (l : List Str) : (sortRoles l).Perm l := by
  induction l with
  | nil => exact .refl _
  | cons r l ih => exact (insertRole_perm r _).trans (.cons r ih)

theorem same_policy {a b : Policy} (h : areSamePolicies a b = true) : SamePolicy a b := by
  unfold areSamePolicies paren at h
  split at h
  · cases h
  next h1 =>
  split at h
  · cases h
  next h2 =>
  simp only [ne_eq, Decidable.not_not] at h1 h2
  split at h
  · next h3 => exact ⟨h1, h2, .inr (by simpa using h), fun h' => absurd h' h3, fun h' => absurd h' h3⟩
  next h3 =>
  simp only [ne_eq, Decidable.not_not] at h3
  split at h
  · next h4 => exact ⟨h1, h2, .inl h3, fun _ => .inr (by simpa using h), fun _ h' => absurd h' h4⟩
  next h4 =>
  simp only [ne_eq, Decidable.not_not] at h4
  split at h
  · cases h
  next h5 =>
  simp only [ne_eq, Decidable.not_not] at h5
  refine ⟨h1, h2, .inl h3, fun _ => .inl h4, fun _ _ => ?_⟩
  have hs : (sortRoles a.roles).map toLower = (sortRoles b.roles).map toLower :=
    (zip_all_map toLower _ _).1 ⟨by rw [(sortRoles_perm _).length_eq, (sortRoles_perm _).length_eq]; exact h5, h⟩
  exact (((sortRoles_perm a.roles).map toLower).symm.trans (by rw [hs])).trans ((sortRoles_perm b.roles).map toLower)

theorem same_trigger_iff (a b : Trigger) : areSameTriggerDefinition a b = true ↔ SameTrigger a b := by
  unfold areSameTriggerDefinition
  simp only [Bool.and_eq_true, decide_eq_true_eq]
  have hb := zip_all_map (fun s : Str => toLower (s.filter (· ≠ ' '))) a.body b.body
  have hd : ∀ s : Str, toLower (deleteSpaces s) = toLower (s.filter (· ≠ ' ')) := fun s => by simp [deleteSpaces]
  simp only [hd]
  constructor
  · rintro ⟨⟨⟨⟨h1, h2⟩, h3⟩, h4⟩, h5⟩
    exact ⟨h1, h2, h3, hb.1 ⟨h4, h5⟩⟩
  · intro h
    exact ⟨⟨⟨⟨h.time, h.event⟩, h.tableName⟩, (hb.2 h.body).1⟩, (hb.2 h.body).2⟩

end Sqldef
