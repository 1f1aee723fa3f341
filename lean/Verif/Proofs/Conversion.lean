import Verif.Spec.Parsed
/-
Lemmas for C51: the conversion of a syntax tree keeps every field.
-/
namespace Sqldef
open Spec

theorem keepsValue_parse (env : Env) (v : SqlVal) : KeepsValue v (parseValue env v) := by
  rcases v with ⟨t, s⟩
  cases t <;> constructor <;> simp [parseValue] <;> constructor

theorem optRel_map {α β : Type} {R : α → β → Prop} (f : α → β) (h : ∀ a, R a (f a)) (o : Option α) :
    OptRel R o (o.map f) := by
  cases o with
  | none => exact .none
  | some a => exact .some (h a)

theorem listRel_map {α β : Type} {R : α → β → Prop} (f : α → β) (h : ∀ a, R a (f a)) (l : List α) :
    ListRel (fun _ => R) l (l.map f) := by
  refine ⟨by simp, fun i a b ha hb => ?_⟩
  rw [List.getElem?_map, ha] at hb
  cases hb; exact h a

theorem listRel_cons {α β : Type} {R : Nat → α → β → Prop} {a : α} {b : β} {as : List α} {bs : List β}
    (h : R 0 a b) (ht : ListRel (fun i => R (i + 1)) as bs) : ListRel R (a :: as) (b :: bs) := by
  refine ⟨by simp [ht.1], fun i x y hx hy => ?_⟩
  cases i with
  | zero => simp at hx hy; subst hx; subst hy; exact h
  | succ i => exact ht.2 i x y (by simpa using hx) (by simpa using hy)

theorem listRel_nil {α β : Type} {R : Nat → α → β → Prop} : ListRel R ([] : List α) ([] : List β) :=
  ⟨rfl, by simp⟩

theorem keepsNumber_parse (env : Env) (v : SqlVal) : KeepsNumber v (parseValue env v).intVal :=
  (keepsValue_parse env v).number

theorem isSome_iff_ne {α : Type} (o : Option α) : o.isSome = true ↔ o ≠ none := by cases o <;> simp

theorem keepsColumn_parse (env : Env) (spec : SqlTableSpec) (i : Nat) (c : SqlColumn) :
    KeepsColumn i c (parseColumn env spec i c) where
  name := rfl
  position := rfl
  type := rfl
  unsigned := rfl
  notNull := rfl
  autoIncrement := rfl
  array := rfl
  default := by
    refine ⟨fun d v hd hv => ?_, fun h => ?_⟩
    · refine ⟨⟨some (parseValue env v), d.constraintName⟩, ?_, ?_, rfl⟩
      · simp [parseColumn, parseDefaultDefinition, hd, hv]
      · rw [hv]; exact .some (keepsValue_parse env v)
    · cases hd : c.type.default with
      | none => simp [parseColumn, parseDefaultDefinition, hd]
      | some d => simp [parseColumn, parseDefaultDefinition, hd, h d hd]
  length := optRel_map _ (keepsValue_parse env) _
  scale := optRel_map _ (keepsValue_parse env) _
  check := optRel_map _ (fun k => ⟨rfl, rfl, rfl⟩) _
  checkNoInherit := rfl
  charset := rfl
  collate := fun h => by simp [parseColumn, normalizeCollate, h]
  timezone := rfl
  key := by
    change KeepsKey c.type.keyOpt (convertKeyOpt c.type.keyOpt)
    cases c.type.keyOpt <;> constructor
  onUpdate := optRel_map _ (keepsValue_parse env) _
  enumValues := rfl
  references := rfl
  identity := optRel_map _ (fun k => ⟨rfl, rfl⟩) _
  sequence := by
    change OptRel _ _ (parseIdentitySequence env c.type.identity)
    cases c.type.identity with
    | none => exact .none
    | some i =>
      refine optRel_map _ (fun s => ?_) i.sequence
      exact ⟨rfl, rfl, rfl, rfl, optRel_map _ (keepsNumber_parse env) _, optRel_map _ (keepsNumber_parse env) _,
        optRel_map _ (keepsNumber_parse env) _, optRel_map _ (keepsNumber_parse env) _,
        optRel_map _ (keepsNumber_parse env) _, isSome_iff_ne _, isSome_iff_ne _, isSome_iff_ne _, isSome_iff_ne _⟩

theorem keepsColumns_parse (env : Env) (spec : SqlTableSpec) (cs : List SqlColumn) (k : Nat) :
    ListRel (fun i => KeepsColumn (k + i)) cs (parseColumns env spec k cs) := by
  induction cs generalizing k with
  | nil => exact listRel_nil
  | cons c cs ih =>
    refine listRel_cons (keepsColumn_parse env spec k c) ?_
    have h := ih (k + 1)
    have e : (fun i => KeepsColumn (k + 1 + i)) = fun i => KeepsColumn (k + (i + 1)) := by
      funext i; congr 1; omega
    rw [e] at h; exact h

theorem keepsLength_parse {v : Option SqlVal} {n : Option Int} (h : parseLength v = .ok n) :
    OptRel KeepsLength v n := by
  unfold parseLength at h
  split at h
  · cases h; exact .none
  · rename_i v
    split at h
    · cases h
    · rename_i ht
      split at h
      · rename_i n hn
        cases h
        exact .some ⟨by simpa using ht, hn⟩
      · cases h

theorem bind_ok_inv {α β : Type} {x : Except Err α} {f : α → Except Err β} {b : β} (h : (x >>= f) = .ok b) :
    ∃ a, x = .ok a ∧ f a = .ok b := by
  cases x with
  | error e => cases h
  | ok a => exact ⟨a, rfl, h⟩

theorem keepsIndexColumns_parse {cs : List SqlIndexColumn} {r : List IndexColumn} (h : parseIndexColumns cs = .ok r) :
    ListRel (fun _ => KeepsIndexColumn) cs r := by
  induction cs generalizing r with
  | nil => cases h; exact listRel_nil
  | cons c cs ih =>
    obtain ⟨n, hn, h⟩ := bind_ok_inv h
    obtain ⟨t, ht, h⟩ := bind_ok_inv h
    cases h
    exact listRel_cons ⟨rfl, keepsLength_parse hn, rfl⟩ (ih ht)

theorem keepsOptions_parse (env : Env) (os : List SqlIndexOption) :
    ListRel (fun _ => KeepsIndexOption) os (parseIndexOptions env os) :=
  listRel_map _ (fun o => ⟨rfl, optRel_map _ (keepsValue_parse env) _⟩) _

theorem keepsPartition_parse (p : Option SqlIndexPartition) : KeepsPartition p (parseIndexPartition p) := by
  cases p <;> exact ⟨rfl, rfl⟩

theorem keepsIndexes_parse (env : Env) {ds : List SqlIndexDef} {r : List Index} (h : parseTableIndexes env ds = .ok r) :
    ListRel (fun _ => KeepsIndexDef) ds r := by
  induction ds generalizing r with
  | nil => cases h; exact listRel_nil
  | cons d ds ih =>
    obtain ⟨cs, hc, h⟩ := bind_ok_inv h
    obtain ⟨t, ht, h⟩ := bind_ok_inv h
    cases h
    exact listRel_cons ⟨rfl, rfl, keepsIndexColumns_parse hc, rfl, rfl, rfl, keepsOptions_parse env _,
      keepsPartition_parse _, rfl, rfl⟩ (ih ht)

theorem keepsForeignKey_parse (k : SqlForeignKey) : KeepsForeignKey k (parseForeignKey k) :=
  ⟨rfl, rfl, rfl, rfl, rfl, rfl, rfl, rfl⟩

theorem keepsTableName_parse (mode : Mode) (t : SqlTableName) : KeepsTableName mode t (normalizedTableName mode t) := by
  refine ⟨fun hm hq => ?_, fun hm hq => ?_, fun hm => ?_⟩
  · simp [normalizedTableName, hm, hq, lit]
  · simp [normalizedTableName, hm, hq]
  · simp [normalizedTableName, hm]

theorem keepsCondition_parse (w : Option SqlWhere) : KeepsCondition w (parseIndexWhere w) := by
  cases w with
  | none => rfl
  | some w =>
    intro h
    refine ⟨fun inner hi => ?_, fun hi => ?_⟩ <;> simp [parseIndexWhere, h, hi]

theorem keepsIndex_parse (env : Env) {d : SqlDDL} {i : Index} (h : parseIndex env d = .ok i) :
    ∃ s, d.indexSpec = some s ∧ KeepsIndexSpec s d.indexCols i := by
  unfold parseIndex at h
  split at h
  · cases h
  · rename_i s hs
    obtain ⟨cs, hc, h⟩ := bind_ok_inv h
    split at h
    · cases h
    cases h
    exact ⟨s, hs, rfl, keepsIndexColumns_parse hc, rfl, rfl, rfl, keepsOptions_parse env _, keepsPartition_parse _,
      keepsCondition_parse _, rfl⟩

theorem keepsPredicate_parse (e : Option SqlExpr) : KeepsPredicate e ((e.map (·.text)).getD []) := by
  cases e <;> rfl

theorem saysTheSame_convert (env : Env) (mode : Mode) (text : Str) (a : SqlDDL) (d : DDL)
    (h : convertStatement env mode text (.ddl a) = .ok d) : SaysTheSame mode text a d := by
  simp only [convertStatement] at h
  split at h
  · rename_i ha
    obtain ⟨t, ht, h⟩ := bind_ok_inv h
    cases h
    unfold parseTable at ht
    split at ht
    · cases ht
    · rename_i spec hs
      split at ht
      · cases ht
      obtain ⟨is, hi, ht⟩ := bind_ok_inv ht
      cases ht
      refine .createTable ha hs (keepsTableName_parse mode _) ?_ (keepsIndexes_parse env hi)
        (listRel_map _ keepsForeignKey_parse _) rfl
      have h := keepsColumns_parse env spec spec.columns 0
      simpa using h
  · split at h
    · rename_i ha
      obtain ⟨i, hi, h⟩ := bind_ok_inv h
      cases h
      obtain ⟨s, hs, hi⟩ := keepsIndex_parse env hi
      exact .createIndex ha hs (keepsTableName_parse mode _) hi
    · split at h
      · rename_i ha
        obtain ⟨i, hi, h⟩ := bind_ok_inv h
        cases h
        obtain ⟨s, hs, hi⟩ := keepsIndex_parse env hi
        exact .addIndex ha hs (keepsTableName_parse mode _) hi
      · split at h
        · rename_i ha
          obtain ⟨i, hi, h⟩ := bind_ok_inv h
          cases h
          obtain ⟨s, hs, hi⟩ := keepsIndex_parse env hi
          exact .addPrimaryKey ha hs (keepsTableName_parse mode _) hi
        · split at h
          · rename_i ha
            split at h
            · cases h
            · rename_i k hk
              cases h
              exact .addForeignKey ha hk (keepsTableName_parse mode _) (keepsForeignKey_parse k)
          · split at h
            · rename_i ha
              split at h
              · cases h
              · rename_i p hp
                split at h
                · cases h
                cases h
                exact .addPolicy ha hp (keepsTableName_parse mode _)
                  ⟨rfl, rfl, rfl, rfl, keepsPredicate_parse _, keepsPredicate_parse _⟩
            · split at h
              · rename_i ha
                split at h
                · cases h
                · rename_i v hv
                  split at h
                  · cases h
                  cases h
                  exact .view ha hv rfl rfl rfl
              · split at h
                · rename_i ha
                  split at h
                  · cases h
                  · rename_i t ht
                    split at h
                    · cases h
                    cases h
                    exact .trigger ha ht rfl rfl rfl rfl rfl rfl
                · cases h

/-- The lengths of the columns of an index are readable. -/
theorem parseIndexColumns_ok {cs : List SqlIndexColumn}
    (h : ∀ c ∈ cs, ∀ v, c.length = some v → ∃ n, KeepsLength v n) : ∃ r, parseIndexColumns cs = .ok r := by
  induction cs with
  | nil => exact ⟨_, rfl⟩
  | cons c cs ih =>
    obtain ⟨r, hr⟩ := ih fun c hc => h c (List.mem_cons_of_mem _ hc)
    have : ∃ n, parseLength c.length = .ok n := by
      cases hl : c.length with
      | none => exact ⟨_, rfl⟩
      | some v =>
        obtain ⟨n, h1, h2⟩ := h c List.mem_cons_self v hl
        exact ⟨some n, by simp [parseLength, h1, h2]⟩
    obtain ⟨n, hn⟩ := this
    exact ⟨_, by simp [parseIndexColumns, hn, hr]; rfl⟩

theorem parseTableIndexes_ok (env : Env) {ds : List SqlIndexDef}
    (h : ∀ d ∈ ds, ∀ c ∈ d.columns, ∀ v, c.length = some v → ∃ n, KeepsLength v n) :
    ∃ r, parseTableIndexes env ds = .ok r := by
  induction ds with
  | nil => exact ⟨_, rfl⟩
  | cons d ds ih =>
    obtain ⟨r, hr⟩ := ih fun d hd => h d (List.mem_cons_of_mem _ hd)
    obtain ⟨cs, hc⟩ := parseIndexColumns_ok (h d List.mem_cons_self)
    exact ⟨_, by simp [parseTableIndexes, hc, hr]; rfl⟩

end Sqldef
