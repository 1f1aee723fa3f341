import Verif.Proofs.Columns
/-! Execution of the column statements of a table in the dialects other than MySQL. -/
namespace Sqldef
open Spec

/-- The statement changes the column called `n`. -/
def AltersColumn (n : Str) : Stmt → Prop
  | .alterType _ m _ | .dropNotNull _ m | .setNotNull _ m | .addIdentity _ m _ _ | .dropIdentity _ m | .setGenerated _ m _
  | .dropDefault _ m | .setDefault _ m _ | .dropCheck _ m _ | .addCheck _ m _ _ _ | .dropDefaultConstraint _ m _
  | .addDefaultConstraint _ m _ _ => m = n
  | _ => False

/-- Effect of a statement on the column it changes; `pk` says whether the column belongs to the primary key. -/
def colEffect (mode : Mode) (pk : Bool) (s : Stmt) (d : Column) : Option Column :=
  match s with
  | .alterType _ _ c => some { d with
      typeName := c.typeName, length := c.length, scale := c.scale, array := c.array, enumValues := c.enumValues }
  | .dropNotNull _ _ => if pk then none else some { d with notNull := some false }
  | .setNotNull _ _ => some { d with notNull := some true }
  | .addIdentity _ _ b s =>
    if d.identity.isSome then none
    else some { d with identity := some { behavior := b, notForReplication := false }, sequence := s }
  | .dropIdentity _ _ => some { d with identity := none, sequence := none }
  | .setGenerated _ _ b =>
    match d.identity with
    | none => none
    | some i => some { d with identity := some { i with behavior := b } }
  | .dropDefault _ _ => some { d with defaultDef := none }
  | .setDefault _ _ v => some { d with defaultDef := some { value := some v } }
  | .dropCheck _ _ k =>
    match d.check with
    | none => none
    | some c => if mode = .mssql ∧ c.constraintName ≠ k then none else some { d with check := none, checkNoInherit := false }
  | .addCheck _ _ k c noInherit =>
    if d.check.isSome then none
    else some { d with check := some { c with constraintName := k }, checkNoInherit := noInherit }
  | .dropDefaultConstraint _ _ k =>
    match d.defaultDef with
    | none => none
    | some e => if e.constraintName ≠ k then none else some { d with defaultDef := none }
  | .addDefaultConstraint _ _ k v =>
    if d.defaultDef.isSome then none else some { d with defaultDef := some { value := some v, constraintName := k } }
  | _ => none

/-- Effect of statements in turn on the column they change. -/
def colEffects (mode : Mode) (pk : Bool) : List Stmt → Column → Option Column
  | [], d => some d
  | s :: l, d => (colEffect mode pk s d).bind (colEffects mode pk l)

theorem colEffects_append (mode : Mode) (pk : Bool) (l m : List Stmt) (d : Column) :
    colEffects mode pk (l ++ m) d = (colEffects mode pk l d).bind (colEffects mode pk m) := by
  induction l generalizing d with
  | nil => rfl
  | cons s l ih =>
    simp only [List.cons_append, colEffects]
    cases colEffect mode pk s d with
    | none => rfl
    | some d' => simp [ih]

theorem colEffect_keeps {mode : Mode} {pk : Bool} {s : Stmt} {d e : Column} (h : colEffect mode pk s d = some e) :
    e.name = d.name ∧ e.keyOption = d.keyOption := by
  unfold colEffect at h
  split at h <;> first
    | (cases h; done)
    | (cases h; exact ⟨rfl, rfl⟩)
    | (split at h <;> first
        | (cases h; done)
        | (cases h; exact ⟨rfl, rfl⟩)
        | (split at h <;> first
            | (cases h; done)
            | (cases h; exact ⟨rfl, rfl⟩)))

theorem alter_column {mode : Mode} {s : Stmt} {n : Str} {t : Table} {c e : Column} (hm : mode ≠ .sqlite3) (hs : AltersColumn n s)
    (hc : t.col n = some c) (he : colEffect mode (inPrimaryKey t c) s c = some e) :
    ∃ t', alter mode s t = some t' ∧ SetCol t t' n e := by
  have hn : e.name = n := (colEffect_keeps he).1.trans (findColumn_mem hc).2
  rw [alter_eq t (fun h => absurd h hm)]
  unfold colEffect at he
  split at he
  case h_13 => cases he
  all_goals
    simp only [AltersColumn] at hs
    subst hs
    simp only [change]
    exact alterColumn_spec hc he hn

theorem inPrimaryKey_set {t t' : Table} (h : OnlyColumns t t') {c c' : Column} (hn : c'.name = c.name) (hk : c'.keyOption = c.keyOption) :
    inPrimaryKey t' c' = inPrimaryKey t c := by
  unfold inPrimaryKey
  rw [h.indexes, hn, hk]

theorem SetCol.trans {a b c : Table} {n : Str} {e f : Column} (h : SetCol a b n e) (g : SetCol b c n f) : SetCol a c n f :=
  ⟨h.toOnlyColumns.trans g.toOnlyColumns, g.names.trans h.names, fun m => by
    rw [g.col, h.col]
    by_cases hm : m = n <;> simp [hm]⟩

theorem SetCol.refl {t : Table} {n : Str} {c : Column} (h : t.col n = some c) : SetCol t t n c :=
  ⟨.refl t, rfl, fun m => by
    by_cases hm : m = n
    · subst hm; rw [if_pos rfl]; exact h
    · rw [if_neg hm]⟩

theorem alters_column {mode : Mode} {l : List Stmt} {n : Str} {t : Table} {c e : Column} (hm : mode ≠ .sqlite3)
    (hs : ∀ s ∈ l, AltersColumn n s) (hc : t.col n = some c) (he : colEffects mode (inPrimaryKey t c) l c = some e) :
    ∃ t', alters mode l t = some t' ∧ SetCol t t' n e := by
  induction l generalizing t c with
  | nil =>
    cases he
    exact ⟨t, rfl, .refl hc⟩
  | cons s l ih =>
    simp only [colEffects] at he
    obtain ⟨f, hf, he⟩ := Option.bind_eq_some_iff.1 he
    obtain ⟨t1, h1, h2⟩ := alter_column hm (hs s (by simp)) hc hf
    have hc1 : t1.col n = some f := by rw [h2.col, if_pos rfl]
    rw [← inPrimaryKey_set h2.toOnlyColumns (colEffect_keeps hf).1 (colEffect_keeps hf).2] at he
    obtain ⟨t2, h3, h4⟩ := ih (fun s' hs' => hs s' (by simp [hs'])) hc1 he
    exact ⟨t2, by simp only [alters, h1, Option.bind_some, h3], h2.trans h4⟩

/-- The column names after the statements for one desired column: new columns come last. -/
def appendNames (x : Table) (_ : Option Str) (c : Column) (l : List Str) : List Str :=
  match x.col c.name with
  | none => l ++ [c.name]
  | some _ => l

/-- What the statements leave of the desired column `c`, where `f cur c` is what becomes of an existing column. -/
def OtherAfter (f : Column → Column → Column) (x : Table) (c e : Column) : Prop :=
  (x.col c.name = none ∧ e = storedNew c) ∨ ∃ cur, x.col c.name = some cur ∧ e = f cur c

theorem other_step {mode : Mode} (hmy : mode ≠ .mysql) (x d : Table) (f : Column → Column → Column)
    (h : ∀ (prev : Option Str) (c cur : Column) (u : List Stmt), c ∈ d.columns → x.col c.name = some cur →
      columnDDLs mode x d prev c = .ok u →
      (u = [] ∧ f cur c = cur) ∨ (mode ≠ .sqlite3 ∧ (∀ s ∈ u, AltersColumn c.name s) ∧
        colEffects mode (inPrimaryKey x cur) u cur = some (f cur c))) :
    StepOk mode x d (OtherAfter f x) (fun _ => false) (appendNames x) := by
  intro P T prev c u hi hcP hp hcd hu
  cases hx : x.col c.name with
  | none =>
    obtain ⟨T1, h1, h2, h3⟩ := hi.addNew hcP hp hu hx rfl (.inl ⟨hx, rfl⟩)
    refine ⟨T1, h1, h2, ?_⟩
    rw [h3, if_neg hmy]
    simp [appendNames, hx, namePlace]
  | some cur =>
    have hTc : T.col c.name = some cur := (hi.other c.name hcP).trans hx
    have : ∃ T1, alters mode u T = some T1 ∧ SetCol T T1 c.name (f cur c) := by
      rcases h prev c cur u hcd hx hu with ⟨rfl, h2⟩ | ⟨hm, h1, h2⟩
      · rw [h2]
        exact ⟨T, rfl, .refl hTc⟩
      · rw [← inPrimaryKey_append hi.indexes newUniques_primary cur] at h2
        exact alters_column hm h1 hTc h2
    obtain ⟨T1, h1, h2⟩ := this
    obtain ⟨T2, g1, g2, g3⟩ := hi.change (n := d.name) (.inr rfl) hcP hx h1 h2.toOnlyColumns (fun m => by rw [h2.names]) (by rw [h2.names]; exact hi.nodup)
      (fun m hm => by rw [h2.col, if_neg hm]) (by rw [h2.col, if_pos rfl]) (.inr ⟨cur, hx, rfl⟩) (by simp)
    refine ⟨T2, by simpa using g1, g2, ?_⟩
    rw [g3, h2.names]
    simp [appendNames, hx]

/-! ### SQLite -/

theorem sqlite_step (x d : Table) : StepOk .sqlite3 x d (OtherAfter (fun cur _ => cur) x) (fun _ => false) (appendNames x) := by
  refine other_step (by decide) x d _ fun prev c cur u hcd hx hu => .inl ⟨?_, rfl⟩
  unfold columnDDLs at hu
  rw [show findColumnByName x.columns c.name = some cur from hx] at hu
  cases hu
  rfl

/-! ### Postgres -/

/-- The type after the statements. -/
def pgTypeAfter (cur c e : Column) : Column :=
  if haveSameDataType .postgres cur c then e
  else { e with typeName := c.typeName, length := c.length, scale := c.scale, array := c.array, enumValues := c.enumValues }

/-- NOT NULL after the statements. -/
def pgNotNullAfter (pk : Bool) (cur c e : Column) : Column :=
  if pk then e
  else if notNull .postgres cur && !notNull .postgres c then { e with notNull := some false }
  else if !notNull .postgres cur && notNull .postgres c then { e with notNull := some true }
  else e

/-- The identity after the statements. -/
def pgIdentityAfter (cur c e : Column) : Column :=
  if areSameIdentityDefinition cur.identity c.identity then e
  else match cur.identity, c.identity with
    | none, some i => { e with identity := some { behavior := i.behavior, notForReplication := false }, sequence := c.sequence }
    | some _, none => { e with identity := none, sequence := none }
    | some j, some i => { e with identity := some { j with behavior := i.behavior } }
    | none, none => e

/-- The default after the statements. -/
def pgDefaultAfter (cur c e : Column) : Column :=
  if areSameDefaultValue cur.defaultDef c.defaultDef then e
  else match c.defaultDef with
    | none => { e with defaultDef := none }
    | some d => { e with defaultDef := some { value := d.value } }

/-- The check after the statements. -/
def pgCheckAfter (d : Table) (cur c e : Column) : Column :=
  if areSameCheckDefinition cur.check c.check ∧ cur.checkNoInherit = c.checkNoInherit then e
  else match c.check with
    | none => if cur.check.isSome then { e with check := none, checkNoInherit := false } else e
    | some k => { e with
        check := some { k with
          constraintName := deleteFirst (lit "public.") d.name ++ lit "_" ++ c.name ++ lit "_check" }
        checkNoInherit := c.checkNoInherit }

/-- An existing column after the statements. -/
def pgAfter (x d : Table) (cur c : Column) : Column :=
  pgCheckAfter d cur c (pgDefaultAfter cur c (pgIdentityAfter cur c (pgNotNullAfter (inPrimaryKey x cur) cur c (pgTypeAfter cur c cur))))

theorem seen_fields {cur c : Column} : (seen cur c).name = c.name ∧ (seen cur c).typeName = c.typeName ∧ (seen cur c).length = c.length ∧
    (seen cur c).scale = c.scale ∧ (seen cur c).array = c.array ∧ (seen cur c).enumValues = c.enumValues ∧
    (seen cur c).notNull = c.notNull ∧ (seen cur c).identity = c.identity ∧ (seen cur c).sequence = c.sequence ∧
    (seen cur c).defaultDef = c.defaultDef ∧ (seen cur c).check = c.check ∧ (seen cur c).checkNoInherit = c.checkNoInherit := by
  unfold seen
  split <;> simp

theorem haveSameDataType_seen {mode : Mode} {cur c : Column} : haveSameDataType mode cur (seen cur c) = haveSameDataType mode cur c := by
  unfold seen
  split <;> rfl

theorem notNull_seen {mode : Mode} {cur c : Column} : notNull mode (seen cur c) = notNull mode c := by
  unfold seen
  split <;> rfl

theorem isPrimaryKey_eq (c : Column) (t : Table) : isPrimaryKey c t = inPrimaryKey t c := rfl

theorem columnDDLs_postgres {x d : Table} {prev : Option Str} {c cur : Column} (hc : x.col c.name = some cur) {l : List Stmt}
    (h : columnDDLs .postgres x d prev c = .ok l) :
    ∃ df, pgDefault x cur c = .ok df ∧
      l = (if !haveSameDataType .postgres cur c then [Stmt.alterType d.name cur.name (seen cur c)] else []) ++
        pgNotNull x d cur c ++ pgIdentity x d cur c ++ df ++ pgCheck d cur c := by
  unfold columnDDLs at h
  rw [show findColumnByName x.columns c.name = some cur from hc] at h
  change postgresColumn x d cur (seen cur c) = .ok l at h
  unfold postgresColumn at h
  obtain ⟨df, hdf, h⟩ := bind_ok.1 h
  cases h
  obtain ⟨h1, -, -, -, -, -, -, h8, h9, h10, h11, h12⟩ := @seen_fields cur c
  refine ⟨df, ?_, ?_⟩
  · unfold pgDefault at hdf ⊢
    rw [h10] at hdf
    exact hdf
  · simp only [pgNotNull, pgIdentity, pgCheck, haveSameDataType_seen, notNull_seen, h1, h8, h9, h11, h12]

theorem pg_step (x d : Table) : StepOk .postgres x d (OtherAfter (pgAfter x d) x) (fun _ => false) (appendNames x) := by
  refine other_step (by decide) x d _ fun prev c cur u hcd hx hu => .inr ⟨by decide, ?_⟩
  have hname : cur.name = c.name := (findColumn_mem hx).2
  obtain ⟨df, hdf, rfl⟩ := columnDDLs_postgres hx hu
  obtain ⟨h1, h2, h3, h4, h5, h6, -⟩ := @seen_fields cur c
  set pk := inPrimaryKey x cur with hpk
  -- the five groups of statements
  have g1 : (∀ s ∈ (if !haveSameDataType .postgres cur c then [Stmt.alterType d.name cur.name (seen cur c)] else []), AltersColumn c.name s) ∧
      colEffects .postgres pk (if !haveSameDataType .postgres cur c then [Stmt.alterType d.name cur.name (seen cur c)] else []) cur =
        some (pgTypeAfter cur c cur) := by
    unfold pgTypeAfter
    cases hs : haveSameDataType .postgres cur c with
    | true => simp [colEffects]
    | false => simp [colEffects, colEffect, AltersColumn, hname, h2, h3, h4, h5, h6]
  have g2 : ∀ e, (∀ s ∈ pgNotNull x d cur c, AltersColumn c.name s) ∧
      colEffects .postgres pk (pgNotNull x d cur c) e = some (pgNotNullAfter pk cur c e) := by
    intro e
    unfold pgNotNull pgNotNullAfter
    rw [isPrimaryKey_eq, ← hpk]
    cases pk with
    | true => simp [colEffects]
    | false =>
      simp only [Bool.not_false, if_true, Bool.false_eq_true, if_false]
      cases notNull .postgres cur <;> cases notNull .postgres c <;>
        simp [colEffects, colEffect, AltersColumn, hname]
  have g3 : ∀ e, e.identity = cur.identity → (∀ s ∈ pgIdentity x d cur c, AltersColumn c.name s) ∧
      colEffects .postgres pk (pgIdentity x d cur c) e = some (pgIdentityAfter cur c e) := by
    intro e he
    unfold pgIdentity pgIdentityAfter
    cases areSameIdentityDefinition cur.identity c.identity with
    | true => simp [colEffects]
    | false =>
      cases hi : cur.identity <;> cases hj : c.identity <;>
        simp [colEffects, colEffect, AltersColumn, hname, he, hi]
  have g4 : ∀ e, (∀ s ∈ df, AltersColumn c.name s) ∧ colEffects .postgres pk df e = some (pgDefaultAfter cur c e) := by
    intro e
    unfold pgDefault at hdf
    unfold pgDefaultAfter
    cases hs : areSameDefaultValue cur.defaultDef c.defaultDef with
    | true => rw [hs] at hdf; cases hdf; simp [colEffects]
    | false =>
      rw [hs] at hdf
      simp only [Bool.not_false, if_true] at hdf
      cases hd : c.defaultDef with
      | none => rw [hd] at hdf; cases hdf; simp [colEffects, colEffect, AltersColumn, hname]
      | some v =>
        rw [hd] at hdf
        simp only at hdf
        cases hv : v.value with
        | none => rw [hv] at hdf; cases hdf
        | some w =>
          rw [hv] at hdf
          obtain ⟨rfl, -⟩ := guardText_ok hdf
          simp [colEffects, colEffect, AltersColumn, hname, hv]
  have g5 : ∀ e, e.check = cur.check → (∀ s ∈ pgCheck d cur c, AltersColumn c.name s) ∧
      colEffects .postgres pk (pgCheck d cur c) e = some (pgCheckAfter d cur c e) := by
    intro e he
    unfold pgCheck pgCheckAfter
    by_cases hs : areSameCheckDefinition cur.check c.check = true ∧ cur.checkNoInherit = c.checkNoInherit
    · rw [if_pos hs, if_neg (by simp [hs.1, hs.2])]
      simp [colEffects]
    · rw [if_neg hs, if_pos (by
        simp only [Bool.or_eq_true, Bool.not_eq_true', decide_eq_true_eq]
        by_cases h : areSameCheckDefinition cur.check c.check = true
        · exact .inr fun h' => hs ⟨h, h'⟩
        · exact .inl (by simpa using h))]
      cases hi : cur.check <;> cases hj : c.check <;>
        simp [colEffects, colEffect, AltersColumn, he, hi]
  have i2 : ∀ e, (pgNotNullAfter pk cur c e).identity = e.identity ∧ (pgNotNullAfter pk cur c e).check = e.check := by
    intro e; unfold pgNotNullAfter; split <;> [skip; split <;> [skip; split]] <;> exact ⟨rfl, rfl⟩
  have i1 : (pgTypeAfter cur c cur).identity = cur.identity ∧ (pgTypeAfter cur c cur).check = cur.check := by
    unfold pgTypeAfter; split <;> exact ⟨rfl, rfl⟩
  have i3 : ∀ e, (pgIdentityAfter cur c e).check = e.check := by
    intro e; unfold pgIdentityAfter; split <;> [skip; split] <;> rfl
  have i4 : ∀ e, (pgDefaultAfter cur c e).check = e.check := by
    intro e; unfold pgDefaultAfter; split <;> [skip; split] <;> rfl
  have k3 := g3 (pgNotNullAfter pk cur c (pgTypeAfter cur c cur)) (by rw [(i2 _).1, i1.1])
  have k5 := g5 (pgDefaultAfter cur c (pgIdentityAfter cur c (pgNotNullAfter pk cur c (pgTypeAfter cur c cur))))
    (by rw [i4, i3, (i2 _).2, i1.2])
  refine ⟨?_, ?_⟩
  · intro s hs
    simp only [List.mem_append] at hs
    rcases hs with (((hs | hs) | hs) | hs) | hs
    · exact g1.1 s hs
    · exact (g2 cur).1 s hs
    · exact k3.1 s hs
    · exact (g4 cur).1 s hs
    · exact k5.1 s hs
  · rw [colEffects_append, colEffects_append, colEffects_append, colEffects_append, g1.2, Option.bind_some, (g2 _).2,
      Option.bind_some, k3.2, Option.bind_some, (g4 _).2, Option.bind_some, k5.2]
    rfl

/-! ### SQL Server -/

/-- The check after the statements. -/
def msCheckAfter (d : Table) (cur c e : Column) : Column :=
  if areSameCheckDefinition cur.check c.check ∧ cur.checkNoInherit = c.checkNoInherit then e
  else match c.check with
    | none => if cur.check.isSome then { e with check := none, checkNoInherit := false } else e
    | some k => { e with
        check := some { k with
          constraintName := if k.constraintName = [] then deleteFirst (lit "dbo.") d.name ++ lit "_" ++ c.name ++ lit "_check"
            else k.constraintName }
        checkNoInherit := false }

/-- The default after the statements. -/
def msDefaultAfter (cur c e : Column) : Column :=
  if areSameDefaultValue cur.defaultDef c.defaultDef then e
  else match c.defaultDef with
    | none => { e with defaultDef := none }
    | some d => { e with defaultDef := some { value := d.value, constraintName := d.constraintName } }

/-- An existing column after the statements. -/
def msAfter (d : Table) (cur c : Column) : Column := msDefaultAfter cur c (msCheckAfter d cur c cur)

theorem columnDDLs_mssql {x d : Table} {prev : Option Str} {c cur : Column} (hc : x.col c.name = some cur) {l : List Stmt}
    (hid : areSameIdentityDefinition cur.identity c.identity = true) (h : columnDDLs .mssql x d prev c = .ok l) :
    ∃ df, mssqlDefault x cur c = .ok df ∧ l = mssqlCheck d cur c ++ df := by
  unfold columnDDLs at h
  rw [show findColumnByName x.columns c.name = some cur from hc] at h
  change mssqlColumn x d cur (seen cur c) = .ok l at h
  unfold mssqlColumn at h
  obtain ⟨i, hi, h⟩ := bind_ok.1 h
  obtain ⟨df, hdf, h⟩ := bind_ok.1 h
  cases h
  obtain ⟨h1, -, -, -, -, -, -, h8, h9, h10, h11, h12⟩ := @seen_fields cur c
  unfold mssqlIdentity at hi
  rw [h8, hid] at hi
  cases hi
  refine ⟨df, ?_, ?_⟩
  · unfold mssqlDefault mssqlDefaultAdd at hdf ⊢
    rw [h10] at hdf
    exact hdf
  · simp only [mssqlCheck, h1, h11, h12, List.append_nil]

theorem ms_step (x d : Table)
    (hid : ∀ c ∈ d.columns, ∀ cur, x.col c.name = some cur → areSameIdentityDefinition cur.identity c.identity = true) :
    StepOk .mssql x d (OtherAfter (msAfter d) x) (fun _ => false) (appendNames x) := by
  refine other_step (by decide) x d _ fun prev c cur u hcd hx hu => .inr ⟨by decide, ?_⟩
  have hname : cur.name = c.name := (findColumn_mem hx).2
  obtain ⟨df, hdf, rfl⟩ := columnDDLs_mssql hx (hid c hcd cur hx) hu
  set pk := inPrimaryKey x cur with hpk
  have g5 : (∀ s ∈ mssqlCheck d cur c, AltersColumn c.name s) ∧
      colEffects .mssql pk (mssqlCheck d cur c) cur = some (msCheckAfter d cur c cur) := by
    unfold mssqlCheck msCheckAfter
    by_cases hs : areSameCheckDefinition cur.check c.check = true ∧ cur.checkNoInherit = c.checkNoInherit
    · rw [if_pos hs, if_neg (by simp [hs.1, hs.2])]
      simp [colEffects]
    · rw [if_neg hs, if_pos (by
        simp only [Bool.or_eq_true, Bool.not_eq_true', decide_eq_true_eq]
        by_cases h : areSameCheckDefinition cur.check c.check = true
        · exact .inr fun h' => hs ⟨h, h'⟩
        · exact .inl (by simpa using h))]
      cases hi : cur.check <;> cases hj : c.check <;>
        simp [colEffects, colEffect, AltersColumn, hi]
  have g4 : ∀ e, e.defaultDef = cur.defaultDef → (∀ s ∈ df, AltersColumn c.name s) ∧
      colEffects .mssql pk df e = some (msDefaultAfter cur c e) := by
    intro e he
    unfold mssqlDefault at hdf
    unfold msDefaultAfter
    cases hs : areSameDefaultValue cur.defaultDef c.defaultDef with
    | true => rw [hs] at hdf; cases hdf; simp [colEffects]
    | false =>
      rw [hs] at hdf
      simp only [Bool.not_false, if_true] at hdf
      obtain ⟨add, hadd, hdf⟩ := bind_ok.1 hdf
      cases hdf
      unfold mssqlDefaultAdd at hadd
      unfold mssqlDefaultDrop
      cases hd : c.defaultDef with
      | none =>
        rw [hd] at hadd; cases hadd
        cases hk : cur.defaultDef with
        | none => rw [hd, hk] at hs; cases hs
        | some k => simp [colEffects, colEffect, AltersColumn, hname, he, hk]
      | some v =>
        rw [hd] at hadd
        simp only at hadd
        cases hv : v.value with
        | none => rw [hv] at hadd; cases hadd
        | some w =>
          rw [hv] at hadd
          obtain ⟨rfl, -⟩ := guardText_ok hadd
          cases hk : cur.defaultDef with
          | none => simp [colEffects, colEffect, AltersColumn, hname, he, hk, ← hv]
          | some k => simp [colEffects, colEffect, AltersColumn, hname, he, hk, ← hv]
  have i5 : (msCheckAfter d cur c cur).defaultDef = cur.defaultDef := by
    unfold msCheckAfter; split <;> [rfl; split] <;> [split; skip] <;> rfl
  refine ⟨?_, ?_⟩
  · intro s hs
    rcases List.mem_append.1 hs with hs | hs
    · exact g5.1 s hs
    · exact (g4 cur rfl).1 s hs
  · rw [colEffects_append, g5.2, Option.bind_some, (g4 _ i5).2]
    rfl

end Sqldef
