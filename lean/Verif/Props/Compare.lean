import Mathlib.Data.List.Forall2
import Mathlib.Data.List.Basic
import Verif.Model.Compare
import Verif.Model.Render
import Verif.Spec.Types
import Verif.Proofs.Same
/-!
Properties C33-C35: the comparisons of `/repo/schema/generator.go`.
-/
namespace Sqldef
open Spec

/-! ### C35 -/

/-- **C35.** Two type names count as the same type exactly if they are names of the same type according to
the documented aliases. -/
theorem C35_same_type_iff (mode : Mode) (a b : Str) :
    normalizeDataType mode a = normalizeDataType mode b ↔ SameType mode a b := same_type_iff mode a b

/-- **C35.** Replacing the aliases twice changes nothing. -/
theorem C35_normalization_idempotent (mode : Mode) (t : Str) :
    normalizeDataType mode (normalizeDataType mode t) = normalizeDataType mode t := by
  have hb : ∀ u : Str, u ≠ lit "bool" → u ≠ lit "int" → u ≠ lit "char" → u ≠ lit "varchar" → dataTypeAlias u = none := by
    intro u h1 h2 h3 h4; simp [dataTypeAlias, h1, h2, h3, h4]
  by_cases h1 : t = lit "bool"
  · subst h1; cases mode <;> decide
  by_cases h2 : t = lit "int"
  · subst h2; cases mode <;> decide
  by_cases h3 : t = lit "char"
  · subst h3; cases mode <;> decide
  by_cases h4 : t = lit "varchar"
  · subst h4; cases mode <;> decide
  by_cases h5 : t = lit "boolean"
  · subst h5; cases mode <;> decide
  have : normalizeDataType mode t = t := by
    simp [normalizeDataType, hb t h1 h2 h3 h4, mysqlDataTypeAlias, h5]
  rw [this, this]

/-- **C35.** Outside MySQL `boolean` and `tinyint` are different types. -/
theorem C35_tinyint_only_mysql : ¬ SameType .postgres (lit "bool") (lit "tinyint") ∧ SameType .mysql (lit "bool") (lit "tinyint") := by
  constructor
  · rw [← C35_same_type_iff]; decide
  · rw [← C35_same_type_iff]; decide

/-! ### C33 -/

theorem areSameValue_refl (v : Option Value) : areSameValue v v = true := by
  cases v <;> simp [areSameValue]

/-- **C33.** A data type compared with itself counts as unchanged. -/
theorem C33_data_type_refl (mode : Mode) (c : Column) : haveSameDataType mode c c = true := by
  unfold haveSameDataType
  cases c.length <;> simp

/-- **C33.** A default, check, identity compared with itself counts as unchanged. -/
theorem C33_default_refl (d : Option DefaultDefinition) : areSameDefaultValue d d = true := areSameValue_refl _

theorem C33_check_refl (d : Option CheckDefinition) : areSameCheckDefinition d d = true := by
  cases d <;> simp [areSameCheckDefinition]

theorem C33_identity_refl (d : Option Identity) : areSameIdentityDefinition d d = true := by
  cases d <;> simp [areSameIdentityDefinition]

/-- **C33.** A foreign key, a policy and a trigger compared with itself count as unchanged. -/
theorem C33_foreign_key_refl (mode : Mode) (f : ForeignKey) : areSameForeignKeys mode f f = true := by
  simp [areSameForeignKeys]

private theorem zip_self_all {α : Type} (l : List α) (p : α × α → Bool) (h : ∀ x ∈ l, p (x, x) = true) :
    (l.zip l).all p = true := by
  induction l with
  | nil => rfl
  | cons x l ih => simp [h x (by simp)]; intro a b hab; have := ih fun x hx => h x (by simp [hx])
                   simp at this; exact this a b hab

theorem C33_policy_refl (p : Policy) : areSamePolicies p p = true := by
  simp only [areSamePolicies, ne_eq, not_true_eq_false, if_false]
  apply zip_self_all
  simp

theorem C33_trigger_refl (t : Trigger) : areSameTriggerDefinition t t = true := by
  simp only [areSameTriggerDefinition, Bool.and_eq_true, decide_eq_true_eq, true_and]
  apply zip_self_all
  simp

/-- **C33.** An index (also a primary key) compared with itself counts as unchanged, if no option is given
twice. -/
theorem C33_index_refl (i : Index) (h : (i.options.map (·.optionName)).Nodup) : areSameIndexes i i = true := by
  have h1 : ((i.columns.zip i.columns).all fun (x, y) =>
      x.column = y.column && normDirection x.direction = normDirection y.direction) = true :=
    zip_self_all _ _ (by simp)
  have h2 : (i.options.all fun ob =>
      match findIndexOptionByName i.options ob.optionName with
      | some oa => areSameValue oa.value ob.value
      | none => false) = true := by
    rw [List.all_eq_true]
    intro o ho
    have : findIndexOptionByName i.options o.optionName = some o := by
      generalize i.options = os at h ho
      unfold findIndexOptionByName
      induction os with
      | nil => simp at ho
      | cons x xs ih =>
        simp only [List.map_cons, List.nodup_cons] at h
        rcases List.mem_cons.1 ho with rfl | ho
        · simp
        · have hx : x.optionName ≠ o.optionName := fun e => h.1 (e ▸ List.mem_map_of_mem ho)
          simp [hx]
          exact ih h.2 ho
    rw [this]
    exact areSameValue_refl _
  unfold areSameIndexes
  rw [h1]
  simp only [decide_true, Bool.and_true, Bool.true_and]
  exact h2

/-- **C33 is violated for an index with a repeated option.** -/
theorem C33_repeated_option_differs : ∃ i : Index, areSameIndexes i i = false :=
  ⟨{ name := lit "i", columns := [{ column := lit "a" }],
     options := [{ optionName := lit "fillfactor", value := some { valueType := .int, raw := lit "10", intVal := 10 } },
                 { optionName := lit "fillfactor", value := some { valueType := .int, raw := lit "20", intVal := 20 } }] },
   by decide⟩

/-- **C33, exactly.** A MySQL column compared with itself counts as unchanged exactly if it has no CHECK and,
if it is declared PRIMARY KEY, is also declared NOT NULL. -/
theorem C33_column_refl_iff (mode : Mode) (c : Column) :
    haveSameColumnDefinition mode c c = true ↔
      c.check = none ∧ (c.keyOption = .primary → c.notNull = some true) := by
  unfold haveSameColumnDefinition
  rw [C33_data_type_refl]
  simp only [checkPtrEq, Bool.true_and, Bool.and_eq_true, decide_eq_true_eq, Bool.and_self, and_true,
    decide_true, Bool.or_true, Option.isNone_iff_eq_none]
  constructor
  · rintro ⟨h1, h2⟩
    refine ⟨h2, fun hk => ?_⟩
    simpa [hk] using h1
  · rintro ⟨h1, h2⟩
    refine ⟨?_, h1⟩
    by_cases hn : c.notNull = some true
    · simp [hn]
    · have : c.keyOption ≠ .primary := fun hk => hn (h2 hk)
      simp [hn, this]

/-- **C33 is violated for MySQL columns with CHECK**: the definitions are compared by address
(`/repo/schema/generator.go:1262`), so such a column always counts as changed. -/
theorem C33_check_column_always_differs (mode : Mode) (a b : Column) (h : a.check ≠ none ∨ b.check ≠ none) :
    haveSameColumnDefinition mode a b = false := by
  have : checkPtrEq a.check b.check = false := by
    unfold checkPtrEq
    rcases h with h | h
    · cases ha : a.check <;> simp_all
    · cases hb : b.check <;> simp_all
  simp [haveSameColumnDefinition, this]

/-! ### C34 -/

private theorem zip_all_forall₂ {α : Type} (l r : List α) (p : α × α → Bool)
    (hlen : l.length = r.length) (h : (l.zip r).all p = true) : List.Forall₂ (fun x y => p (x, y) = true) l r := by
  induction l generalizing r with
  | nil => cases r with
    | nil => exact .nil
    | cons y r => simp at hlen
  | cons x l ih =>
    cases r with
    | nil => simp at hlen
    | cons y r =>
      simp only [List.zip_cons_cons, List.all_cons, Bool.and_eq_true] at h
      exact .cons h.1 (ih r (by simpa using hlen) h.2)

/-- **C34.** Data types that count as the same have names of the same type, the same enumeration values, the
same array mark, and the same length if both give one. -/
theorem C34_data_type_detected (mode : Mode) (a b : Column) (h : haveSameDataType mode a b = true) :
    SameType mode a.typeName b.typeName ∧ a.enumValues = b.enumValues ∧ a.array = b.array ∧
    ∀ x y, a.length = some x → b.length = some y → x.intVal = y.intVal := by
  unfold haveSameDataType at h
  simp only [Bool.and_eq_true, decide_eq_true_eq] at h
  refine ⟨(C35_same_type_iff mode _ _).1 h.1.1.1, h.1.1.2, h.2, ?_⟩
  intro x y hx hy
  have := h.1.2
  rw [hx, hy] at this
  simpa using this

/-- **C34 is violated for data types**: a change of the scale and the addition or removal of a length are not
noticed. -/
theorem C34_scale_undetected (mode : Mode) :
    ∃ a b : Column, a.scale ≠ b.scale ∧ a.name = b.name ∧ haveSameColumnDefinition mode a b = true ∧
      generateDataType a ≠ generateDataType b :=
  ⟨{ name := lit "price", position := 0, typeName := lit "decimal",
     length := some { valueType := .int, raw := lit "10", intVal := 10 },
     scale := some { valueType := .int, raw := lit "2", intVal := 2 } },
   { name := lit "price", position := 0, typeName := lit "decimal",
     length := some { valueType := .int, raw := lit "10", intVal := 10 },
     scale := some { valueType := .int, raw := lit "4", intVal := 4 } },
   by decide, rfl, by cases mode <;> decide, by decide⟩

theorem C34_missing_length_undetected (mode : Mode) :
    ∃ a b : Column, a.length ≠ b.length ∧ haveSameColumnDefinition mode a b = true ∧
      generateDataType a ≠ generateDataType b :=
  ⟨{ name := lit "name", position := 0, typeName := lit "varchar",
     length := some { valueType := .int, raw := lit "10", intVal := 10 } },
   { name := lit "name", position := 0, typeName := lit "varchar" },
   by decide, by cases mode <;> decide, by decide⟩

/-- **C34.** MySQL columns that count as the same have the same type, signedness, nullability (a primary key
is not null), time zone, `ON UPDATE`, and the charset and collation that the desired one asks for. -/
theorem C34_column_detected (mode : Mode) (cur des : Column) (h : haveSameColumnDefinition mode cur des = true) :
    haveSameDataType mode cur des = true ∧ cur.unsigned = des.unsigned ∧
    (cur.notNull = some true ↔ des.notNull = some true ∨ des.keyOption = .primary) ∧
    cur.timezone = des.timezone ∧ cur.check = none ∧ des.check = none ∧
    (des.charset = [] ∨ cur.charset = des.charset) ∧ (des.collate = [] ∨ cur.collate = des.collate) ∧
    cur.onUpdate = des.onUpdate := by
  unfold haveSameColumnDefinition checkPtrEq at h
  simp only [Bool.and_eq_true, decide_eq_true_eq, Bool.or_eq_true, Option.isNone_iff_eq_none] at h
  obtain ⟨⟨⟨⟨⟨⟨⟨h1, h2⟩, h3⟩, h4⟩, h5⟩, h6⟩, h7⟩, h8⟩ := h
  refine ⟨h1, h2, ?_, h4, h5.1, h5.2, h6, h7, h8⟩
  constructor
  · intro hn
    rw [hn] at h3
    simpa using h3.symm
  · intro hn
    have : (decide (des.notNull = some true) || decide (des.keyOption = .primary)) = true := by simpa using hn
    rw [this] at h3
    simpa using h3

/-- **C34.** Defaults that count as the same have the same text, except that a float of the current schema
may have further characters; no default and `DEFAULT NULL` are the same. -/
theorem C34_default_detected (a b : Option DefaultDefinition) (h : areSameDefaultValue a b = true) :
    match effectiveDefault a, effectiveDefault b with
    | none, none => True
    | some x, some y => x.raw = y.raw ∨ (y.valueType = .float ∧ y.raw <+: x.raw)
    | _, _ => False := by
  unfold areSameDefaultValue at h
  cases ha : effectiveDefault a with
  | none => cases hb : effectiveDefault b with
    | none => trivial
    | some y => rw [ha, hb] at h; simp [areSameValue] at h
  | some x => cases hb : effectiveDefault b with
    | none => rw [ha, hb] at h; simp [areSameValue] at h
    | some y =>
      rw [ha, hb] at h
      simp only [areSameValue] at h
      split at h
      · next hc =>
        simp at hc h
        exact .inr ⟨hc.1, h ▸ List.take_prefix _ _⟩
      · exact .inl (by simpa using h)

/-- **C34 is violated for defaults**: the string `'1'` and the number `1` count as the same default, and so
do the floats `1.59` (current) and `1.5` (desired). -/
theorem C34_default_undetected :
    (∃ a b : DefaultDefinition, areSameDefaultValue (some a) (some b) = true ∧
      a.value.map generateDefaultDefinition ≠ b.value.map generateDefaultDefinition ∧
      a.value.map (·.valueType) ≠ b.value.map (·.valueType)) ∧
    (∃ a b : DefaultDefinition, areSameDefaultValue (some a) (some b) = true ∧
      a.value.map (·.valueType) = some .float ∧ b.value.map (·.valueType) = some .float ∧
      a.value.map (·.raw) ≠ b.value.map (·.raw)) :=
  ⟨⟨{ value := some { valueType := .str, raw := lit "1", strVal := lit "1" } },
    { value := some { valueType := .int, raw := lit "1", intVal := 1 } }, by decide, by decide, by decide⟩,
   ⟨{ value := some { valueType := .float, raw := lit "1.59" } },
    { value := some { valueType := .float, raw := lit "1.5" } }, by decide, rfl, rfl, by decide⟩⟩

/-- **C34.** Indexes that count as the same are alike in uniqueness, primary mark, columns in order with
their directions, condition, included columns and every option of the desired index. -/
theorem C34_index_detected (cur des : Index) (h : areSameIndexes cur des = true) :
    cur.unique = des.unique ∧ cur.primary = des.primary ∧
    List.Forall₂ (fun x y => x.column = y.column ∧ SameDirection x.direction y.direction) cur.columns des.columns ∧
    cur.whereExpr = des.whereExpr ∧ cur.included = des.included ∧
    ∀ o ∈ des.options, ∃ o' ∈ cur.options, o'.optionName = o.optionName ∧ areSameValue o'.value o.value = true := by
  unfold areSameIndexes at h
  simp only [Bool.and_eq_true, decide_eq_true_eq] at h
  obtain ⟨⟨⟨⟨⟨⟨h1, h2⟩, h3⟩, h4⟩, h5⟩, h6⟩, h7⟩ := h
  refine ⟨h1, h2, ?_, h5, h6, ?_⟩
  · refine (zip_all_forall₂ _ _ _ h3 h4).imp ?_
    intro x y hxy
    simp only [Bool.and_eq_true, decide_eq_true_eq] at hxy
    refine ⟨hxy.1, ?_⟩
    have := hxy.2
    unfold normDirection at this
    split at this <;> split at this
    · exact .inl (by simp_all)
    · exact .inr (.inl ⟨by assumption, this.symm⟩)
    · exact .inr (.inr ⟨this, by assumption⟩)
    · exact .inl this
  · intro o ho
    rw [List.all_eq_true] at h7
    have := h7 o ho
    split at this
    · next oa hoa =>
      unfold findIndexOptionByName at hoa
      exact ⟨oa, List.mem_of_find?_eq_some hoa, by simpa using List.find?_some hoa, this⟩
    · cases this

/-- **C34 is violated for indexes**: a changed prefix length of an index column, and an option that the
desired index no longer has, are not noticed. -/
theorem C34_index_undetected :
    (∃ a b : Index, areSameIndexes a b = true ∧ a.columns.map (·.length) ≠ b.columns.map (·.length)) ∧
    (∃ a b : Index, areSameIndexes a b = true ∧ a.options ≠ [] ∧ b.options = []) ∧
    (∃ a b : Index, areSameIndexes a b = true ∧ a.clustered ≠ b.clustered) :=
  ⟨⟨{ name := lit "i", columns := [{ column := lit "a", length := some 10 }] },
    { name := lit "i", columns := [{ column := lit "a", length := some 20 }] }, by decide, by decide⟩,
   ⟨{ name := lit "i", columns := [{ column := lit "a" }],
      options := [{ optionName := lit "fillfactor", value := some { valueType := .int, raw := lit "10", intVal := 10 } }] },
    { name := lit "i", columns := [{ column := lit "a" }] }, by decide, by decide, rfl⟩,
   ⟨{ name := lit "i", columns := [{ column := lit "a" }], clustered := true },
    { name := lit "i", columns := [{ column := lit "a" }] }, by decide, by decide⟩⟩

/-- **C34.** Foreign keys that count as the same have the same actions, where no action is the same as
`NO ACTION` for Postgres and SQL Server. -/
theorem C34_foreign_key_detected (mode : Mode) (a b : ForeignKey) (h : areSameForeignKeys mode a b = true) :
    let norm := fun x : Str => if (mode = .postgres ∨ mode = .mssql) ∧ x = [] then lit "NO ACTION" else x
    norm a.onUpdate = norm b.onUpdate ∧ norm a.onDelete = norm b.onDelete ∧
    a.notForReplication = b.notForReplication := by
  unfold areSameForeignKeys normalizeAction at h
  simpa [and_assoc] using h

/-- **C34 is violated for foreign keys**: a foreign key that refers to another table or has other columns
counts as the same. -/
theorem C34_foreign_key_undetected (mode : Mode) :
    ∃ a b : ForeignKey, a.constraintName = b.constraintName ∧ areSameForeignKeys mode a b = true ∧
      a.referenceName ≠ b.referenceName ∧ a.indexColumns ≠ b.indexColumns :=
  ⟨{ constraintName := lit "fk", indexColumns := [lit "a"], referenceName := lit "t1", referenceColumns := [lit "id"] },
   { constraintName := lit "fk", indexColumns := [lit "b"], referenceName := lit "t2", referenceColumns := [lit "id"] },
   rfl, by cases mode <;> decide, by decide, by decide⟩

/-- **C34.** Checks and identities that count as the same agree in everything that the tool can change. -/
theorem C34_check_detected (a b : Option CheckDefinition) (h : areSameCheckDefinition a b = true) :
    a.map (fun c => (c.definition, c.notForReplication)) = b.map (fun c => (c.definition, c.notForReplication)) := by
  cases a <;> cases b <;> simp_all [areSameCheckDefinition]

theorem C34_identity_detected (a b : Option Identity) (h : areSameIdentityDefinition a b = true) : a = b := by
  cases a with
  | none => cases b <;> simp_all [areSameIdentityDefinition]
  | some x => cases b with
    | none => simp [areSameIdentityDefinition] at h
    | some y => cases x; cases y; simp_all [areSameIdentityDefinition]

/-- **C34.** Policies that count as the same agree in scope and permissiveness up to letter case, and their
conditions agree up to letter case or up to one pair of parentheses. -/
theorem C34_policy_detected (a b : Policy) (h : areSamePolicies a b = true) :
    toLower a.scope = toLower b.scope ∧ toLower a.permissive = toLower b.permissive ∧
    (toLower a.using_ = toLower b.using_ ∨ lit "(" ++ a.using_ ++ lit ")" = b.using_) ∧
    (toLower a.using_ = toLower b.using_ →
      toLower a.withCheck = toLower b.withCheck ∨ lit "(" ++ a.withCheck ++ lit ")" = b.withCheck) := by
  unfold areSamePolicies paren at h
  split at h
  · cases h
  next h1 =>
  split at h
  · cases h
  next h2 =>
  simp only [ne_eq, Decidable.not_not] at h1 h2
  refine ⟨h1, h2, ?_⟩
  split at h
  · next h3 => exact ⟨.inr (by simpa using h), fun h' => absurd h' h3⟩
  next h3 =>
  simp only [ne_eq, Decidable.not_not] at h3
  refine ⟨.inl h3, fun _ => ?_⟩
  split at h
  · exact .inr (by simpa using h)
  next h4 =>
  exact .inl (by simpa using h4)

/-- **C34 is violated for policies**: if the USING conditions differ by the parentheses that Postgres adds,
neither the WITH CHECK condition nor the roles are compared. -/
theorem C34_policy_undetected :
    ∃ a b : Policy, areSamePolicies a b = true ∧ a.roles ≠ b.roles ∧ a.withCheck ≠ b.withCheck :=
  ⟨{ name := lit "p", using_ := lit "a = b", roles := [lit "x"] },
   { name := lit "p", using_ := lit "(a = b)", roles := [lit "y"], withCheck := lit "c = d" },
   by decide +kernel, by decide, by decide⟩

/-- **C34.** Triggers that count as the same agree in time, event, table and, up to spaces and letter case,
in their statements. -/
theorem C34_trigger_detected (a b : Trigger) (h : areSameTriggerDefinition a b = true) :
    a.time = b.time ∧ a.event = b.event ∧ a.tableName = b.tableName ∧
    List.Forall₂ (fun x y => toLower (x.filter (· ≠ ' ')) = toLower (y.filter (· ≠ ' '))) a.body b.body := by
  unfold areSameTriggerDefinition at h
  simp only [Bool.and_eq_true, decide_eq_true_eq] at h
  obtain ⟨⟨⟨⟨h1, h2⟩, h3⟩, h4⟩, h5⟩ := h
  refine ⟨h1, h2, h3, (zip_all_forall₂ _ _ _ h4 h5).imp ?_⟩
  intro x y hxy
  simpa [deleteSpaces] using hxy

/-! #### Exactly what counts as the same

The relations on the right are those of `Verif/Spec/Same.lean`. -/

/-- **C34, exactly.** Data types. -/
theorem C34_data_type_iff (mode : Mode) (a b : Column) : haveSameDataType mode a b = true ↔ SameDataType mode a b :=
  same_data_type_iff mode a b

/-- **C34, exactly.** MySQL columns apart from their defaults. -/
theorem C34_column_iff (mode : Mode) (a b : Column) : haveSameColumnDefinition mode a b = true ↔ SameDefinition mode a b :=
  same_definition_iff mode a b

/-- **C34, exactly.** Defaults. -/
theorem C34_default_iff (a b : Option DefaultDefinition) : areSameDefaultValue a b = true ↔ SameDefault a b :=
  same_default_iff a b

/-- **C34, exactly.** Checks. -/
theorem C34_check_iff (a b : Option CheckDefinition) : areSameCheckDefinition a b = true ↔ SameCheck a b :=
  same_check_iff a b

/-- **C34, exactly.** Identities. -/
theorem C34_identity_iff (a b : Option Identity) : areSameIdentityDefinition a b = true ↔ a = b :=
  same_identity_iff a b

/-- **C34, exactly.** Indexes. -/
theorem C34_index_iff (a b : Index) : areSameIndexes a b = true ↔ SameIndex a b := same_index_iff a b

/-- **C34, exactly.** Primary keys. -/
theorem C34_primary_key_iff (a b : Option Index) : areSamePrimaryKeys a b = true ↔ SameKey a b := same_key_iff a b

/-- **C34, exactly.** Foreign keys of the same name. -/
theorem C34_foreign_key_iff (mode : Mode) (a b : ForeignKey) : areSameForeignKeys mode a b = true ↔ SameForeignKey mode a b :=
  same_foreign_key_iff mode a b

/-- **C34, exactly.** Triggers. -/
theorem C34_trigger_iff (a b : Trigger) : areSameTriggerDefinition a b = true ↔ SameTrigger a b := same_trigger_iff a b

/-- **C34.** Policies that count as the same are the same policy. -/
theorem C34_policy_same (a b : Policy) (h : areSamePolicies a b = true) : SamePolicy a b := same_policy h

/-- **C33 is violated for policies**: the roles are sorted with their letter case and compared without it, so two policies with the
same roles can count as different. -/
theorem C34_role_case_spurious : ∃ a b : Policy, SamePolicy a b ∧ areSamePolicies a b = false :=
  ⟨{ name := lit "p", roles := [lit "B", lit "a"] }, { name := lit "p", roles := [lit "b", lit "A"] },
   ⟨rfl, rfl, .inl rfl, fun _ => .inl rfl, fun _ _ => by decide +kernel⟩, by decide +kernel⟩

/-! ### The in-place normalisation of directions -/

/-- Writing the default direction into the columns of an index does not change the outcome of the
comparison with another index. -/
theorem areSameIndexes_normalized (a b : Index) :
    areSameIndexes a { b with columns := b.columns.map fun c => { c with direction := normDirection c.direction } } =
      areSameIndexes a b ∧
    areSameIndexes { a with columns := a.columns.map fun c => { c with direction := normDirection c.direction } } b =
      areSameIndexes a b := by
  have hn : ∀ d, normDirection (normDirection d) = normDirection d := by
    intro d
    unfold normDirection
    split
    · rfl
    · simp
  constructor
  · unfold areSameIndexes
    simp only [List.length_map, List.zip_map_right, List.all_map]
    congr 1; congr 1; congr 1; congr 1
    congr 1
    funext x
    simp [hn]
  · unfold areSameIndexes
    simp only [List.length_map, List.zip_map_left, List.all_map]
    congr 1; congr 1; congr 1; congr 1
    congr 1
    funext x
    simp [hn]

/-- Nor does it change the text of a generated index. -/
theorem generateAddIndex_normalized (mode : Mode) (t : Str) (i : Index) :
    generateAddIndex mode t { i with columns := i.columns.map fun c => { c with direction := normDirection c.direction } } =
      generateAddIndex mode t i := by
  have h : ∀ c : IndexColumn, indexColumnText mode { c with direction := normDirection c.direction } = indexColumnText mode c := by
    intro c
    have : (normDirection c.direction = descScr) ↔ c.direction = descScr := by
      unfold normDirection
      split
      · next h => rw [h]; decide
      · rfl
    unfold indexColumnText
    simp only [this]
    by_cases hd : c.direction = descScr
    · rw [if_pos hd, if_pos hd, this.2 hd, hd]
    · rw [if_neg hd, if_neg hd]
  unfold generateAddIndex
  simp only [List.map_map]
  congr 1
  have : (indexColumnText mode ∘ fun c : IndexColumn => { c with direction := normDirection c.direction }) = indexColumnText mode := by
    funext c; exact h c
  rw [this]

/-! ### Non-vacuity -/

example : haveSameColumnDefinition .mysql
    { name := lit "id", position := 0, typeName := lit "int", notNull := some true }
    { name := lit "id", position := 3, typeName := lit "integer", keyOption := .primary } = true := by decide
example : areSameIndexes { name := lit "i", columns := [{ column := lit "a", direction := lit "asc" }] }
    { name := lit "i", columns := [{ column := lit "a" }] } = true := by decide
example : areSameIndexes { name := lit "i", columns := [{ column := lit "a", direction := lit "desc" }] }
    { name := lit "i", columns := [{ column := lit "a" }] } = false := by decide
example : areSamePolicies { name := lit "p", roles := [lit "b", lit "a"] } { name := lit "p", roles := [lit "a", lit "b"] } = true := by
  decide +kernel

end Sqldef
