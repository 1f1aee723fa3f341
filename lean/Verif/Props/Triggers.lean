import Verif.Proofs.TriggerDump
import Verif.Props.ViewExports
/-
C69: a trigger is understood as it is written, and an exported MySQL database with triggers is a fixed point.
-/
namespace Sqldef
open Spec Written Dumped

/-- **C69.** A text that consists of the tokens of a `CREATE TRIGGER` statement, in whatever layout, is understood as the
statement that it is: its name, its table, when it fires, and each of its statements as a text. -/
theorem C69_trigger_is_understood (mode : Mode) (text : Str) (t : NewTrigger) (h : t.Clear) (semicolon : Bool)
    (hl : Layout mode text (t.tokens ++ given (semicolon = true) [sym ';'])) :
    Sql.parseStrictDDLWithMode mode text = .ok (.ddl t.meaning) := Sql.parse_trigger h semicolon hl

/-- **C69.** It is the definition of a trigger with the statements as they are shown; the schema of its table is not kept. -/
theorem C69_trigger_is_a_definition (fmtFloat : Str → Str) (mode : Mode) (text : Str) (t : NewTrigger) (h : t.Clear) (semicolon : Bool)
    (hl : Layout mode text (t.tokens ++ given (semicolon = true) [sym ';'])) :
    parseDDL (Sql.env fmtFloat) mode text =
      .ok (.trigger { statement := text, name := t.name, tableName := t.table.name, time := toLower (lit t.moment.word),
                      event := toLower (lit t.cause.word), body := t.changes.map Change.text }) :=
  trigger_defined fmtFloat mode text t h semicolon hl

/-! ### What is done about triggers -/

theorem word_moment {a b : Moment} : toLower (lit a.word) = toLower (lit b.word) ↔ a = b := by
  cases a <;> cases b <;> decide

theorem word_cause {a b : Cause} : toLower (lit a.word) = toLower (lit b.word) ↔ a = b := by
  cases a <;> cases b <;> decide

theorem defined_alike (a b : NewTrigger) (x y : Str) : areSameTriggerDefinition (a.defined x) (b.defined y) = true ↔ Alike a b := by
  rw [C34_trigger_iff]
  have body : ∀ (a : NewTrigger) (x : Str), (a.defined x).body.map (fun s => toLower (s.filter (· ≠ ' '))) = a.changes.map Change.bare := by
    intro a x
    unfold NewTrigger.defined
    rw [List.map_map]
    rfl
  constructor
  · rintro ⟨h1, h2, h3, h4⟩
    refine ⟨word_moment.1 h1, word_cause.1 h2, h3, ?_⟩
    rw [← body a x, ← body b y]
    exact h4
  · rintro ⟨h1, h2, h3, h4⟩
    refine ⟨word_moment.2 h1, word_cause.2 h2, h3, ?_⟩
    rw [body a x, body b y]
    exact h4

theorem find_trigger {cs : List NewTrigger} {ws : List Trigger}
    (h : List.Forall₂ (fun t w => ∃ text, w = NewTrigger.defined t text) cs ws) (hn : (cs.map (·.name)).Nodup) (t : NewTrigger) (x : Str) :
    (∃ c, ws.find? (·.name = t.name) = some c ∧ areSameTriggerDefinition c (t.defined x) = false) ↔
      ∃ c ∈ cs, c.name = t.name ∧ ¬ Alike c t := by
  induction h with
  | nil => simp
  | @cons v w cs ws hvw hrest ih =>
    rw [List.map_cons, List.nodup_cons] at hn
    obtain ⟨y, rfl⟩ := hvw
    by_cases hw : v.name = t.name
    · rw [List.find?_cons_of_pos (by show decide (v.name = t.name) = true; simpa using hw)]
      constructor
      · rintro ⟨c, hc, hp⟩
        cases hc
        refine ⟨v, List.mem_cons_self, hw, fun ha => ?_⟩
        rw [(defined_alike v t y x).2 ha] at hp
        cases hp
      · rintro ⟨c, hc, hcn, hp⟩
        rcases List.mem_cons.mp hc with rfl | hc
        · refine ⟨_, rfl, ?_⟩
          rw [Bool.eq_false_iff]
          exact fun he => hp ((defined_alike _ t y x).1 he)
        · refine absurd (List.mem_map_of_mem (f := fun v : NewTrigger => v.name) hc) ?_
          rw [show c.name = v.name from hcn.trans hw.symm]
          exact hn.1
    · rw [List.find?_cons_of_neg (by show ¬ decide (v.name = t.name) = true; simpa using hw), ih hn.2]
      constructor
      · rintro ⟨c, hc, h⟩
        exact ⟨c, List.mem_cons_of_mem _ hc, h⟩
      · rintro ⟨c, hc, h⟩
        rcases List.mem_cons.mp hc with rfl | hc
        · exact absurd h.1 hw
        · exact ⟨c, hc, h⟩

theorem trigger_names {cs : List NewTrigger} {ws : List Trigger} (h : List.Forall₂ (fun t w => ∃ text, w = NewTrigger.defined t text) cs ws) :
    ws.map (·.name) = cs.map (·.name) := by
  induction h with
  | nil => rfl
  | cons h _ ih => obtain ⟨y, rfl⟩ := h; simp [ih, NewTrigger.defined]

/-- **C69.** What is done about a trigger of the desired schema. In MySQL and SQL Server it is created if there is no
trigger of its name. If there is one that is not alike, it is dropped and created in MySQL, and altered in SQL Server. -/
theorem C69_trigger_is_created_iff (fmtFloat : Str → Str) (mode : Mode) (desired current : Str)
    (ss cs : List Written.Statement) (hs : Consists mode desired ss) (hc : Consists mode current cs) (h1 : ∀ s ∈ ss, s.Clear) (h2 : ∀ s ∈ cs, s.Clear)
    (ds cu : List DDL) (hd : parseDDLs (Sql.env fmtFloat) mode desired = .ok ds) (hu : parseDDLs (Sql.env fmtFloat) mode current = .ok cu)
    (ud : UniqueTables ds) (uc : UniqueTables cu) (un : TriggersDiffer (triggersAmong cs))
    (out : List Stmt) (h : diff mode ds cu = .ok out) (t : NewTrigger) (ht : t ∈ triggersAmong ss) :
    ((∃ text, .createTrigger false (t.defined text) ∈ out) ↔
      ((mode = .mysql ∨ mode = .mssql) ∧ ∀ c ∈ triggersAmong cs, c.name ≠ t.name) ∨
      (mode = .mysql ∧ ∃ c ∈ triggersAmong cs, c.name = t.name ∧ ¬ Alike c t)) ∧
    ((∃ text, .createTrigger true (t.defined text) ∈ out) ↔ mode = .mssql ∧ ∃ c ∈ triggersAmong cs, c.name = t.name ∧ ¬ Alike c t) := by
  obtain ⟨ds', hd', hds, -⟩ := C67_file_is_understood fmtFloat mode desired ss hs h1
  obtain ⟨cu', hu', hcu, -⟩ := C67_file_is_understood fmtFloat mode current cs hc h2
  cases hd.symm.trans hd'
  cases hu.symm.trans hu'
  have vd := triggers_of_definitions hds
  have vc := triggers_of_definitions hcu
  obtain ⟨w, hw, text, rfl⟩ := (forall2_mem vd).1 t ht
  have hn : ∀ x, (t.defined x).name ∉ (triggersOf cu).map (·.name) ↔ ∀ c ∈ triggersAmong cs, c.name ≠ t.name := by
    intro x
    rw [trigger_names vc]
    simp [NewTrigger.defined]
  have hx : ∀ x, TriggerDiffers cu (t.defined x) ↔ ∃ c ∈ triggersAmong cs, c.name = t.name ∧ ¬ Alike c t := fun x => find_trigger vc un t x
  constructor
  · constructor
    · rintro ⟨x, hm⟩
      rcases ((C39_create_trigger_iff ud uc h false (t.defined x)).1 hm).2 with ⟨-, h1, h2⟩ | ⟨-, h1, h2⟩ | ⟨h1, -⟩
      · exact .inl ⟨h1, (hn x).1 h2⟩
      · exact .inr ⟨h1, (hx x).1 h2⟩
      · cases h1
    · rintro (⟨h1, h2⟩ | ⟨h1, h2⟩)
      · exact ⟨text, (C39_create_trigger_iff ud uc h false _).2 ⟨hw, .inl ⟨rfl, h1, (hn text).2 h2⟩⟩⟩
      · exact ⟨text, (C39_create_trigger_iff ud uc h false _).2 ⟨hw, .inr (.inl ⟨rfl, h1, (hx text).2 h2⟩)⟩⟩
  · constructor
    · rintro ⟨x, hm⟩
      rcases ((C39_create_trigger_iff ud uc h true (t.defined x)).1 hm).2 with ⟨h1, -⟩ | ⟨h1, -⟩ | ⟨-, h1, h2⟩
      · cases h1
      · cases h1
      · exact ⟨h1, (hx x).1 h2⟩
    · rintro ⟨h1, h2⟩
      exact ⟨text, (C39_create_trigger_iff ud uc h true _).2 ⟨hw, .inr (.inr ⟨rfl, h1, (hx text).2 h2⟩)⟩⟩

/-- **C69.** A trigger is dropped exactly if the database is MySQL and the desired schema has a trigger of this name that is
not like the one there is. Triggers that the desired schema does not have stay. -/
theorem C69_trigger_is_dropped_iff (fmtFloat : Str → Str) (mode : Mode) (desired current : Str)
    (ss cs : List Written.Statement) (hs : Consists mode desired ss) (hc : Consists mode current cs) (h1 : ∀ s ∈ ss, s.Clear) (h2 : ∀ s ∈ cs, s.Clear)
    (ds cu : List DDL) (hd : parseDDLs (Sql.env fmtFloat) mode desired = .ok ds) (hu : parseDDLs (Sql.env fmtFloat) mode current = .ok cu)
    (ud : UniqueTables ds) (uc : UniqueTables cu) (un : TriggersDiffer (triggersAmong cs))
    (out : List Stmt) (h : diff mode ds cu = .ok out) (n : Str) :
    .dropTrigger n ∈ out ↔ mode = .mysql ∧ ∃ t ∈ triggersAmong ss, t.name = n ∧ ∃ c ∈ triggersAmong cs, c.name = t.name ∧ ¬ Alike c t := by
  obtain ⟨ds', hd', hds, -⟩ := C67_file_is_understood fmtFloat mode desired ss hs h1
  obtain ⟨cu', hu', hcu, -⟩ := C67_file_is_understood fmtFloat mode current cs hc h2
  cases hd.symm.trans hd'
  cases hu.symm.trans hu'
  have vd := triggers_of_definitions hds
  have vc := triggers_of_definitions hcu
  rw [C39_drop_trigger_iff ud uc h n]
  refine and_congr_right fun _ => ?_
  constructor
  · rintro ⟨w, hw, rfl, hx⟩
    obtain ⟨t, ht, text, rfl⟩ := (forall2_mem vd).2 w hw
    exact ⟨t, ht, rfl, (find_trigger vc un t text).1 hx⟩
  · rintro ⟨t, ht, rfl, hx⟩
    obtain ⟨w, hw, text, rfl⟩ := (forall2_mem vd).1 t ht
    exact ⟨_, hw, rfl, (find_trigger vc un t text).2 hx⟩

/-! ### MySQL -/

/-- **C69.** The dump of a MySQL database is read without an error, as its tables, its views and its triggers. -/
theorem C69_mysql_dump_is_understood (fmtFloat : Str → Str) {σ : Type} (db : Db σ) (cat : σ → My.Catalog) (s : σ) (ts : List Written.Table)
    (vs : List NewView) (gs : List NewTrigger) (h : MyDatabaseSaysAll (cat s) ts vs gs) (ho : OrderlyTables .mysql ts) :
    ∃ text defs views triggers, dumpDDLs (My.database db cat) s = .ok text ∧
      parseDDLs (Sql.env fmtFloat) .mysql text = .ok (defs ++ views ++ triggers) ∧
      List.Forall₂ (fun t d => SaysTheSame .mysql d.statement (Sentence.meaning (.table t)) d) ts defs ∧
      List.Forall₂ (fun v d => d = .view { statement := d.statement, name := toLower v.name.name, definition := v.query.text }) vs views ∧
      List.Forall₂ (fun g d => d = .trigger (NewTrigger.defined g d.statement)) gs triggers := by
  obtain ⟨text, h1, h2, -, -⟩ := my_everything db cat s h
  obtain ⟨ds', h3, h4, -⟩ := C67_file_is_understood fmtFloat .mysql text _ h2
    (everything_clear (orderly_clear ho) (myViews_clear h.rest.views) (myTriggers_clear h.triggers))
  obtain ⟨both, triggers, g1, g2, rfl⟩ := forall₂_split h4
  obtain ⟨defs, views, g3, g4, rfl⟩ := forall₂_split g1
  exact ⟨text, defs, views, triggers, h1, h3, forall₂_imp (fun _ _ hx => hx.1) (forall₂_unmap (forall₂_unmap g3)), forall₂_unmap g4, forall₂_unmap g2⟩

/-- A run on a database that is described by the statements of the file. -/
theorem run_everything (fmtFloat : Str → Str) {mode : Mode} {σ : Type} {db : Db σ} {s : σ} {xs : List Sentence} {vs : List NewView} {gs : List NewTrigger}
    (hn : ∀ ds, List.Forall₂ (fun s d => SaysTheSame mode d.statement (Sentence.meaning s) d ∧ s.Kind d) xs ds → Normal mode ds)
    (hv : ViewsDiffer vs) (hg : TriggersDiffer gs) (hx : ∀ x ∈ xs, x.Clear ∧ x.InRange) (hq : ∀ v ∈ vs, v.query.Clear) (hb : ∀ g ∈ gs, g.Clear)
    {text : Str} (h1 : dumpDDLs db s = .ok text) (h2 : Consists mode text (everything xs vs gs))
    {fs : Files} {o : Options} (he : o.export_ = false) {file : Str} (hr : readFile fs o.sqlFile = .ok file)
    (hf : Consists mode file (everything xs vs gs)) :
    run (Sql.env fmtFloat) mode db fs o s =
      { events := [.readFile, .print (lit "-- Nothing is modified --\n")], err := none, state := s } := by
  obtain ⟨ds, h3, h4, -⟩ := C67_file_is_understood fmtFloat mode file _ hf (everything_clear hx hq hb)
  have hg := C66_rewriting_changes_nothing fmtFloat mode file text (consists_rewritten hf h2) ds h3 (everything_normal h4 hn hv hg)
  simp only [run, h1, he, hr, hg]
  rfl

/-- **C69.** A file with the tables, the views and the triggers of a MySQL database, written in whatever layout, changes
nothing. -/
theorem C69_mysql_described_schema_changes_nothing (fmtFloat : Str → Str) {σ : Type} (db : Db σ) (cat : σ → My.Catalog) (s : σ)
    (ts : List Written.Table) (vs : List NewView) (gs : List NewTrigger) (h : MyDatabaseSaysAll (cat s) ts vs gs) (ho : OrderlyTables .mysql ts)
    (hd : ViewsDiffer vs) (hg : TriggersDiffer gs)
    (fs : Files) (o : Options) (he : o.export_ = false) (file : Str) (hr : readFile fs o.sqlFile = .ok file)
    (hf : Consists .mysql file (ts.map (fun t => .sentence (.table t)) ++ vs.map .view ++ gs.map .trigger)) :
    run (Sql.env fmtFloat) .mysql (My.database db cat) fs o s =
      { events := [.readFile, .print (lit "-- Nothing is modified --\n")], err := none, state := s } := by
  obtain ⟨text, h1, h2, -, -⟩ := my_everything db cat s h
  refine run_everything fmtFloat (fun _ hx => tables_normal (by decide) ho hx) hd hg (orderly_clear ho) (myViews_clear h.rest.views)
    (myTriggers_clear h.triggers) h1 h2 he hr ?_
  unfold everything
  rw [List.map_map]
  exact hf

/-- **C69.** Applying an export of a MySQL database with views and triggers changes nothing. -/
theorem C69_mysql_export_is_a_fixed_point (fmtFloat : Str → Str) {σ : Type} (db : Db σ) (cat : σ → My.Catalog) (s : σ)
    (ts : List Written.Table) (vs : List NewView) (gs : List NewTrigger) (h : MyDatabaseSaysAll (cat s) ts vs gs) (ho : OrderlyTables .mysql ts)
    (hd : ViewsDiffer vs) (hg : TriggersDiffer gs) (fs fs' : Files) (o o' : Options) (hx : o.export_ = true) (hx' : o'.export_ = false) :
    ∃ text, run (Sql.env fmtFloat) .mysql (My.database db cat) fs o s = { events := [.print text], err := none, state := s } ∧
      (readFile fs' o'.sqlFile = .ok text →
        run (Sql.env fmtFloat) .mysql (My.database db cat) fs' o' s =
          { events := [.readFile, .print (lit "-- Nothing is modified --\n")], err := none, state := s }) := by
  obtain ⟨text, h1, h2, h3, h4⟩ := my_everything db cat s h
  refine ⟨if text = [] then lit "-- No table exists --\n" else text ++ lit ";\n",
    by simp only [run, h1, hx]; rfl, fun hr => ?_⟩
  refine run_everything fmtFloat (fun _ hx => tables_normal (by decide) ho hx) hd hg (orderly_clear ho) (myViews_clear h.rest.views)
    (myTriggers_clear h.triggers) h1 h2 hx' hr ?_
  split
  · rename_i he
    rw [h4 he]
    unfold Consists
    rw [show statementTexts (lit "-- No table exists --\n") = [] by decide +kernel]
    exact .nil
  · exact h3

/-! ### What is lost -/

theorem diff_one_trigger (mode : Mode) {a b : Trigger} (hn : a.name = b.name) (h : areSameTriggerDefinition b a = true) :
    diff mode [.trigger a] [.trigger b] = .ok [] := by
  have hf : findTriggerByName [b] a.name = some b := by simp [findTriggerByName, hn]
  have h1 : ∃ g', stepCreateTrigger { mode := mode, desiredTables := [], currentTables := [], desiredViews := [], currentViews := [], desiredTriggers := [], currentTriggers := [b] } a =
      .ok (g', []) ∧ g'.currentTables = [] ∧ g'.currentViews = [] ∧ g'.desiredTables = [] ∧ g'.desiredViews = [] := by
    unfold stepCreateTrigger
    cases mode <;> simp [hf, h]
  obtain ⟨g', h1, e1, e2, e3, e4⟩ := h1
  change generateDDLs { mode := mode, desiredTables := [], currentTables := [], desiredViews := [], currentViews := [], desiredTriggers := [], currentTriggers := [b] } [.trigger a] = _
  unfold generateDDLs
  rw [steps, step, h1]
  simp only [steps, bind, Except.bind, pure, Except.pure, e1, e2, e3, e4]
  rfl

/-- **C69**, what is lost: spaces and letter case, also those within strings, and the schema of the table. Two triggers that
differ in nothing else count as the same, although they do something else. -/
theorem C69_spaces_and_case_and_schema_are_lost (fmtFloat : Str → Str) (mode : Mode) (desired current : Str) (t c : NewTrigger)
    (hs : Consists mode desired [.trigger t]) (hc : Consists mode current [.trigger c]) (h1 : t.Clear) (h2 : c.Clear)
    (hn : t.name = c.name) (ha : Alike c t) :
    generateIdempotentDDLs (Sql.env fmtFloat) mode desired current = .ok [] := by
  obtain ⟨ds, hd, hds, -⟩ := C67_file_is_understood fmtFloat mode desired _ hs (by simpa [Statement.Clear] using h1)
  obtain ⟨cu, hu, hcu, -⟩ := C67_file_is_understood fmtFloat mode current _ hc (by simpa [Statement.Clear] using h2)
  cases hds with
  | @cons _ d _ _ h1 hnil =>
    cases hnil
    cases hcu with
    | @cons _ e _ _ h2 hnil =>
      cases hnil
      have h1 : d = .trigger _ := h1
      have h2 : e = .trigger _ := h2
      unfold generateIdempotentDDLs
      rw [hd, hu]
      change (diff mode [d] [e] >>= fun l => pure (l.map (Stmt.render mode))) = _
      have e : diff mode [d] [e] = .ok [] := by
        rw [h1, h2]
        exact diff_one_trigger mode hn ((defined_alike c t _ _).2 ha)
      rw [e]
      rfl

/-! ### Examples -/

/-- A trigger of MySQL and one of SQL Server. -/
def exMyTrigger : NewTrigger :=
  { name := lit "ti", table := { name := lit "users" }, moment := .before, cause := .insert,
    body := .insert false true false { name := lit "log" } (some (lit "a", [lit "who"]))
      [.string (lit "New User"), .qualified (lit "NEW") (lit "id")] [[.string (lit "x"), .integer (lit "1")]]
      (some ({ place := { name := lit "a" }, value := .integer (lit "2") }, [])) }

def exMsTrigger : NewTrigger :=
  { name := lit "ti", table := { schema := some (lit "dbo"), name := lit "users" }, moment := .after, cause := .delete,
    body := .delete { name := lit "posts" } (some (.compare .eq (.column (lit "owner")) (.integer (lit "1")))),
    more := some [.update { name := lit "log" } (some { name := lit "l", as := false })
      { place := { name := lit "a" }, value := .integer (lit "2") }
      [{ place := { table := some (lit "l"), name := lit "k" }, value := .integer (lit "3") }]
      (some (.compare .eq (.column (lit "id")) (.integer (lit "4"))))] }

theorem exTrigger_names : ∀ n ∈ [lit "log", lit "a", lit "who", lit "NEW", lit "id", lit "posts", lit "owner", lit "l", lit "k", lit "u", lit "U"], GoodName n := by
  have h : ∀ n ∈ [lit "log", lit "a", lit "who", lit "NEW", lit "id", lit "posts", lit "owner", lit "l", lit "k", lit "u", lit "U"],
      n ≠ [] ∧ ¬ lit "@@" <+: n ∧ ∀ c ∈ n, c.toNat < 65536 := by decide
  exact h

theorem exTrigger_numbers : ∀ n ∈ [lit "1", lit "2", lit "3", lit "4"], GoodInt n := by
  intro n hn
  refine ⟨n, ?_, ?_, .inl rfl⟩
  · revert n; decide
  · revert n; decide

theorem exMyTrigger_clear : exMyTrigger.Clear := by
  have g := exTrigger_names
  have i := exTrigger_numbers
  simp [exMyTrigger, NewTrigger.Clear, NewTrigger.changes, Change.Clear, GoodTable, RowClear, Assign.Clear, Spot.Good, ClearEx, Ex.Proper, Ex.depth, g, i]

theorem exMsTrigger_clear : exMsTrigger.Clear := by
  have g := exTrigger_names
  have i := exTrigger_numbers
  simp [exMsTrigger, NewTrigger.Clear, NewTrigger.changes, Change.Clear, GoodTable, GoodAlias, Assign.Clear, Spot.Good, ClearEx, Ex.Proper, Ex.level, Ex.depth, g, i]

/-- What they are understood as. -/
example : parseDDL (Sql.env id) .mysql (txt "CREATE TRIGGER `ti` BEFORE INSERT ON users FOR EACH ROW INSERT IGNORE log (a, who) VALUES ('New User', NEW.id), ('x', 1) ON DUPLICATE KEY UPDATE a = 2;") =
    .ok (.trigger { statement := txt "CREATE TRIGGER `ti` BEFORE INSERT ON users FOR EACH ROW INSERT IGNORE log (a, who) VALUES ('New User', NEW.id), ('x', 1) ON DUPLICATE KEY UPDATE a = 2;",
                    name := lit "ti", tableName := lit "users", time := lit "before", event := lit "insert",
                    body := [txt "insert ignore into log(a, who) values ('New User', NEW.id), ('x', 1) on duplicate key update a = 2"] }) := by
  rw [C69_trigger_is_a_definition id .mysql _ exMyTrigger exMyTrigger_clear true (layout_of_test [("", "CREATE"), (" ", "TRIGGER"), (" ", "`ti`"), (" ", "BEFORE"), (" ", "INSERT"), (" ", "ON"), (" ", "users"), (" ", "FOR"), (" ", "EACH"), (" ", "ROW"), (" ", "INSERT"), (" ", "IGNORE"), (" ", "log"), (" ", "("), ("", "a"), ("", ","), (" ", "who"), ("", ")"), (" ", "VALUES"), (" ", "("), ("", "'New User'"), ("", ","), (" ", "NEW"), ("", "."), ("", "id"), ("", ")"), ("", ","), (" ", "("), ("", "'x'"), ("", ","), (" ", "1"), ("", ")"), (" ", "ON"), (" ", "DUPLICATE"), (" ", "KEY"), (" ", "UPDATE"), (" ", "a"), (" ", "="), (" ", "2"), ("", ";")] (by decide +kernel))]
  refine congrArg _ (congrArg _ ?_)
  simp only [Trigger.mk.injEq, true_and]
  decide +kernel

example : parseDDL (Sql.env id) .mssql (txt "create trigger ti on dbo.users after delete as delete from posts where owner = 1 update log l set a = 2, l.k = 3 where id = 4") =
    .ok (.trigger { statement := txt "create trigger ti on dbo.users after delete as delete from posts where owner = 1 update log l set a = 2, l.k = 3 where id = 4",
                    name := lit "ti", tableName := lit "users", time := lit "after", event := lit "delete",
                    body := [txt "delete from posts where owner = 1", txt "update log as l set a = 2, l.k = 3 where id = 4"] }) := by
  rw [C69_trigger_is_a_definition id .mssql _ exMsTrigger exMsTrigger_clear false (layout_of_test [("", "create"), (" ", "trigger"), (" ", "ti"), (" ", "on"), (" ", "dbo"), ("", "."), ("", "users"), (" ", "after"), (" ", "delete"), (" ", "as"), (" ", "delete"), (" ", "from"), (" ", "posts"), (" ", "where"), (" ", "owner"), (" ", "="), (" ", "1"), (" ", "update"), (" ", "log"), (" ", "l"), (" ", "set"), (" ", "a"), (" ", "="), (" ", "2"), ("", ","), (" ", "l"), ("", "."), ("", "k"), (" ", "="), (" ", "3"), (" ", "where"), (" ", "id"), (" ", "="), (" ", "4")] (by decide +kernel))]
  refine congrArg _ (congrArg _ ?_)
  simp only [Trigger.mk.injEq, true_and]
  decide +kernel

/-- Triggers that differ in a schema, in the table and in the string that they write. -/
def exSmallTrigger (schema : Option Str) (table s : Str) : NewTrigger :=
  { name := lit "g", table := { schema := schema, name := lit "t" }, moment := .after, cause := .update,
    body := .update { name := table } none { place := { name := lit "a" }, value := .string s } [] none }

theorem exSmallTrigger_clear (schema : Option Str) (s : Str) : (exSmallTrigger schema (lit "u") s).Clear ∧ (exSmallTrigger schema (lit "U") s).Clear := by
  have g := exTrigger_names
  simp [exSmallTrigger, NewTrigger.Clear, NewTrigger.changes, Change.Clear, GoodTable, GoodAlias, Assign.Clear, Spot.Good, ClearEx, Ex.Proper, Ex.depth, g]

theorem exSmallTrigger_consists :
    Consists .mysql (txt "CREATE TRIGGER g AFTER UPDATE ON x.t FOR EACH ROW UPDATE u SET a = 'New User'") [.trigger (exSmallTrigger (some (lit "x")) (lit "u") (lit "New User"))] ∧
    Consists .mysql (txt "create trigger g after update on y.t for each row update U set a='NEWUSER'") [.trigger (exSmallTrigger (some (lit "y")) (lit "U") (lit "NEWUSER"))] ∧
    Consists .mysql (txt "create trigger g after update on t for each row update u set a = 'old'") [.trigger (exSmallTrigger none (lit "u") (lit "old"))] := by
  unfold Consists
  rw [show statementTexts (txt "CREATE TRIGGER g AFTER UPDATE ON x.t FOR EACH ROW UPDATE u SET a = 'New User'") = [txt "CREATE TRIGGER g AFTER UPDATE ON x.t FOR EACH ROW UPDATE u SET a = 'New User'"] by decide +kernel,
    show statementTexts (txt "create trigger g after update on y.t for each row update U set a='NEWUSER'") = [txt "create trigger g after update on y.t for each row update U set a='NEWUSER'"] by decide +kernel,
    show statementTexts (txt "create trigger g after update on t for each row update u set a = 'old'") = [txt "create trigger g after update on t for each row update u set a = 'old'"] by decide +kernel]
  refine ⟨.cons ?_ .nil, .cons ?_ .nil, .cons ?_ .nil⟩
  · exact layout_of_test [("", "CREATE"), (" ", "TRIGGER"), (" ", "g"), (" ", "AFTER"), (" ", "UPDATE"), (" ", "ON"), (" ", "x"), ("", "."), ("", "t"), (" ", "FOR"), (" ", "EACH"), (" ", "ROW"), (" ", "UPDATE"), (" ", "u"), (" ", "SET"), (" ", "a"), (" ", "="), (" ", "'New User'")] (by decide +kernel)
  · exact layout_of_test [("", "create"), (" ", "trigger"), (" ", "g"), (" ", "after"), (" ", "update"), (" ", "on"), (" ", "y"), ("", "."), ("", "t"), (" ", "for"), (" ", "each"), (" ", "row"), (" ", "update"), (" ", "U"), (" ", "set"), (" ", "a"), ("", "="), ("", "'NEWUSER'")] (by decide +kernel)
  · exact layout_of_test [("", "create"), (" ", "trigger"), (" ", "g"), (" ", "after"), (" ", "update"), (" ", "on"), (" ", "t"), (" ", "for"), (" ", "each"), (" ", "row"), (" ", "update"), (" ", "u"), (" ", "set"), (" ", "a"), (" ", "="), (" ", "'old'")] (by decide +kernel)

/-- The trigger stays although it does something else to another table. -/
example : generateIdempotentDDLs (Sql.env id) .mysql (txt "create trigger g after update on y.t for each row update U set a='NEWUSER'") (txt "CREATE TRIGGER g AFTER UPDATE ON x.t FOR EACH ROW UPDATE u SET a = 'New User'") = .ok [] :=
  C69_spaces_and_case_and_schema_are_lost id .mysql _ _ _ _ exSmallTrigger_consists.2.1 exSmallTrigger_consists.1 (exSmallTrigger_clear _ _).2
    (exSmallTrigger_clear _ _).1 rfl ⟨rfl, rfl, rfl, by decide +kernel⟩

/-- The trigger is dropped and created. -/
example : ∃ ds cu out, parseDDLs (Sql.env id) .mysql (txt "create trigger g after update on t for each row update u set a = 'old'") = .ok ds ∧
    parseDDLs (Sql.env id) .mysql (txt "CREATE TRIGGER g AFTER UPDATE ON x.t FOR EACH ROW UPDATE u SET a = 'New User'") = .ok cu ∧ diff .mysql ds cu = .ok out ∧
    .dropTrigger (lit "g") ∈ out ∧ ∃ text, .createTrigger false ((exSmallTrigger none (lit "u") (lit "old")).defined text) ∈ out := by
  obtain ⟨h1, -, h2⟩ := exSmallTrigger_consists
  have c : ∀ x s, ∀ y ∈ [Statement.trigger (exSmallTrigger x (lit "u") s)], y.Clear := by
    intro x s y hy
    rw [List.mem_singleton.mp hy]
    exact (exSmallTrigger_clear _ _).1
  obtain ⟨ds, hd, hds, -⟩ := C67_file_is_understood id .mysql _ _ h2 (c _ _)
  obtain ⟨cu, hu, hcu, -⟩ := C67_file_is_understood id .mysql _ _ h1 (c _ _)
  cases hds with
  | @cons _ d _ _ e1 hnil =>
    cases hnil
    cases hcu with
    | @cons _ c' _ _ e2 hnil =>
      cases hnil
      have e1 : d = .trigger _ := e1
      have e2 : c' = .trigger _ := e2
      have ho : ∃ out, diff .mysql [d] [c'] = .ok out := by
        rw [e1, e2]
        exact ⟨_, rfl⟩
      obtain ⟨out, ho⟩ := ho
      have na : ¬ Alike (exSmallTrigger (some (lit "x")) (lit "u") (lit "New User")) (exSmallTrigger none (lit "u") (lit "old")) := by
        intro h
        have := h.changes
        revert this
        decide +kernel
      refine ⟨_, _, out, hd, hu, ho, ?_, ?_⟩
      · rw [C69_trigger_is_dropped_iff id .mysql _ _ _ _ h2 h1 (c _ _) (c _ _) _ _ hd hu
          (by rw [e1]; exact List.nodup_nil) (by rw [e2]; exact List.nodup_nil) (by unfold TriggersDiffer; decide) out ho]
        exact ⟨rfl, _, List.mem_singleton.mpr rfl, rfl, _, List.mem_singleton.mpr rfl, rfl, na⟩
      · rw [(C69_trigger_is_created_iff id .mysql _ _ _ _ h2 h1 (c _ _) (c _ _) _ _ hd hu
          (by rw [e1]; exact List.nodup_nil) (by rw [e2]; exact List.nodup_nil) (by unfold TriggersDiffer; decide) out ho _ (List.mem_singleton.mpr rfl)).1]
        exact .inr ⟨rfl, _, List.mem_singleton.mpr rfl, rfl, na⟩

/-- A MySQL database with a table, a view and a trigger. -/
def exMyTriggers : My.Catalog :=
  { exMyViews with
    triggers := [{ trigger := lit "g", event := lit "UPDATE", table := lit "t", statement := txt "UPDATE u\n SET a = 'New User'", timing := lit "AFTER" }] }

theorem exMyTriggers_says : MyDatabaseSaysAll exMyTriggers [exPlainTable] [exPlainView] [exSmallTrigger none (lit "u") (lit "New User")] where
  rest := exMyViews_says
  triggers := .cons
    { bare := ⟨bareName_of_test (by decide +kernel), bareName_of_test (by decide +kernel)⟩
      trigger := ⟨rfl, rfl, rfl⟩
      fires := ⟨rfl, rfl⟩
      body := (exSmallTrigger_clear none (lit "New User")).1 _ (List.mem_singleton.mpr rfl)
      text := ⟨layout_of_test [("", "UPDATE"), (" ", "u"), ("\n ", "SET"), (" ", "a"), (" ", "="), (" ", "'New User'")] (by decide +kernel),
        by decide +kernel, by unfold NoComment; decide +kernel, by decide +kernel⟩ } .nil

/-- What is exported can be applied. -/
example (fs fs' : Files) (o o' : Options) (hx : o.export_ = true) (hx' : o'.export_ = false) :
    ∃ text, run (Sql.env id) .mysql (My.database exServer fun _ => exMyTriggers) fs o () = { events := [.print text], err := none, state := () } ∧
      (readFile fs' o'.sqlFile = .ok text → run (Sql.env id) .mysql (My.database exServer fun _ => exMyTriggers) fs' o' () =
        { events := [.readFile, .print (lit "-- Nothing is modified --\n")], err := none, state := () }) :=
  C69_mysql_export_is_a_fixed_point id exServer _ () _ _ _ exMyTriggers_says (exPlainTable_orderly _ (.inl rfl)) (by unfold ViewsDiffer; decide)
    (by unfold TriggersDiffer; decide) fs fs' o o' hx hx'

end Sqldef
