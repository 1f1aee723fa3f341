import Verif.Proofs.MsServer
import Verif.Props.MsAdapter
import Verif.Props.MsObjects
/-
C72: what a SQL Server answers to the queries of the tool is what belongs to the table that is asked about, and the order in
which it answers does not matter.
-/
namespace Sqldef
open Spec Spec.MsServer Written Dumped Ms

/-! ### C72: the queries of the adapter for SQL Server -/

/-- **C72.** The server always has an answer: the tool never follows a missing name, value, identity or definition. -/
theorem C72_server_answers (srv : Server) (hs : Sound srv) : ∃ cat, Answers srv cat := ⟨_, msAnswers_some hs⟩

/-- **C72.** Exactly the tables are listed, each once. -/
theorem C72_tables_are_listed (srv : Server) (cat : Ms.Catalog) (hs : Sound srv) (h : Answers srv cat) :
    cat.tables.Nodup ∧ ∀ t : Str × Str, t ∈ cat.tables ↔ ∃ o, IsTable srv o ∧ (o.schema, o.name) = t :=
  msAnswers_tables h hs

/-- **C72.** A table is described by itself: the answer has exactly its columns, with their own types, defaults, identities
and checks, its indexes with their own columns, and its foreign keys. Nothing is taken from other tables, and nothing appears
twice. -/
theorem C72_table_is_described_by_itself (srv : Server) (cat : Ms.Catalog) (hs : Sound srv) (h : Answers srv cat) (o : SysObject)
    (ho : IsTable srv o) (hp : Simple srv o) :
    (cat.columns o.schema o.name).Perm (ownColumns srv o) ∧ (cat.indexes o.schema o.name).Perm (ownIndexes srv o) ∧
      (cat.indexColumns o.schema o.name).Perm (ownIndexColumns srv o) ∧ (cat.foreignKeys o.schema o.name).Perm (ownForeignKeys srv o) :=
  msAnswers_own h hs ho hp

/-- **C72.** No two columns, no two indexes and no two foreign keys of a table are described under one name. -/
theorem C72_names_are_unique (srv : Server) (cat : Ms.Catalog) (hs : Sound srv) (h : Answers srv cat) (o : SysObject)
    (ho : IsTable srv o) (hp : Simple srv o) : MsOrderly cat o.schema o.name :=
  msAnswers_orderly h hs ho hp

/-- **C72.** Exactly the definitions of the views and of the triggers are listed, each as often as it is there. -/
theorem C72_views_and_triggers_are_listed (srv : Server) (cat : Ms.Catalog) (hs : Sound srv) (h : Answers srv cat) :
    cat.views.Perm (ownViews srv) ∧ cat.triggers.Perm (ownTriggers srv) :=
  msAnswers_views h hs

/-! ### Runs -/

/-- **C72.** A file with the statements that one answer of the server stands for changes nothing, even if the server now
returns tables, columns, indexes, foreign keys, views and triggers in another order: the run ends without an error, executes
nothing, and says that nothing is modified. Only the columns of each index have to come in the same order. -/
theorem C72_described_server_is_left_alone (fmtFloat : Str → Str) {σ : Type} (db : Db σ) (cat : σ → Ms.Catalog) (ha : MsAdapter db cat) (s : σ)
    (srv : Server) (first : Ms.Catalog) (hs : Sound srv) (hp : ∀ o, IsTable srv o → Simple srv o) (hq : Answers srv first)
    (hq' : Answers srv (cat s)) (hk : SameKeyOrder first (cat s)) (ds : List MsDescribed) (vs : List NewView) (gs : List NewTrigger)
    (hn : (first.tables.map (·.2)).Nodup) (hv : ViewsDiffer vs) (hg : TriggersDiffer gs) (h : MsDatabaseSays first ds vs gs)
    (fs : Files) (o : Options) (he : o.export_ = false) (file : Str) (hr : readFile fs o.sqlFile = .ok file)
    (hf : Consists .mssql file ((ds.flatMap MsDescribed.sentences).map .sentence ++ vs.map .view ++ gs.map .trigger)) :
    run (Sql.env fmtFloat) .mssql db fs o s =
      { events := [.readFile, .print (lit "-- Nothing is modified --\n")], err := none, state := s } :=
  msServer_same fmtFloat ha s hs hp hq hq' hk hn hv hg h he hr hf

/-- **C72.** What was exported can be applied: if the file is what `--export` has printed for a database, then a run against
a database with the same tables, views and triggers changes nothing, even if the server now returns the rows in another
order. -/
theorem C72_export_is_a_fixed_point_in_any_order (fmtFloat : Str → Str) {σ τ : Type} (db : Db σ) (db' : Db τ) (cat : σ → Ms.Catalog)
    (cat' : τ → Ms.Catalog) (ha : MsAdapter db cat) (ha' : MsAdapter db' cat') (s : σ) (s' : τ) (srv : Server) (hs : Sound srv)
    (hp : ∀ o, IsTable srv o → Simple srv o) (hq : Answers srv (cat s)) (hq' : Answers srv (cat' s'))
    (hk : SameKeyOrder (cat s) (cat' s')) (ds : List MsDescribed) (vs : List NewView) (gs : List NewTrigger)
    (hn : ((cat s).tables.map (·.2)).Nodup) (hv : ViewsDiffer vs) (hg : TriggersDiffer gs) (h : MsDatabaseSays (cat s) ds vs gs)
    (fs fs' : Files) (o o' : Options) (ho : o.export_ = true) (ho' : o'.export_ = false) :
    ∃ text, run (Sql.env fmtFloat) .mssql db fs o s = { events := [.print text], err := none, state := s } ∧
      (readFile fs' o'.sqlFile = .ok text →
        run (Sql.env fmtFloat) .mssql db' fs' o' s' =
          { events := [.readFile, .print (lit "-- Nothing is modified --\n")], err := none, state := s' }) := by
  obtain ⟨text, h1, -, h2, h5⟩ := ms_everything ha s h
  refine ⟨if text = [] then lit "-- No table exists --\n" else text ++ lit ";\n", by simp only [run, h1, ho]; rfl, fun hr => ?_⟩
  refine msServer_same fmtFloat ha' s' hs hp hq hq' hk hn hv hg h ho' hr ?_
  split
  · rename_i he
    rw [h5 he]
    unfold Consists
    rw [show statementTexts (lit "-- No table exists --\n") = [] by decide +kernel]
    exact .nil
  · exact h2

/-- **C72.** Nothing has to be assumed about the order of the rows if every index has one column in its key. -/
theorem C72_single_keys_are_in_order (srv : Server) (cat cat' : Ms.Catalog) (hs : Sound srv) (hp : ∀ o, IsTable srv o → Simple srv o)
    (h1 : SingleKeys srv) (hq : Answers srv cat) (hq' : Answers srv cat') : SameKeyOrder cat cat' :=
  sameKeyOrder_single hs hp h1 hq hq'

/-! ### A server -/

/-- The system tables of a server with two tables, one of them without a clustered index, a default, a view and a trigger. -/
def exMsServer : Server where
  objects :=
    [{ id := 10, schema := lit "dbo", name := lit "users", kind := lit "U" }, { id := 11, schema := lit "app", name := lit "posts", kind := lit "U" },
     { id := 12, schema := lit "dbo", name := lit "DF_name", kind := lit "D", definition := some (lit "('nobody')") },
     { id := 13, schema := lit "dbo", name := lit "FK_author", kind := lit "F" },
     { id := 14, schema := lit "dbo", name := lit "adults", kind := lit "V",
       definition := some (txt "\n CREATE VIEW dbo.adults AS\n SELECT id, name AS N\n   FROM [dbo].[users]\n  WHERE age > 18;\n") },
     { id := 15, schema := lit "dbo", name := lit "ti", kind := lit "TR",
       definition := some (txt "CREATE TRIGGER ti ON dbo.users\nAFTER DELETE AS\nDELETE FROM posts WHERE owner = 1\nUPDATE log l SET a = 2, l.k = 3 WHERE id = 4;") }]
  columns :=
    [{ objectId := 10, columnId := 1, name := lit "id", userTypeId := 127, maxLength := lit "8", isNullable := false, isIdentity := true },
     { objectId := 10, columnId := 2, name := lit "name", userTypeId := 167, maxLength := lit "40", defaultObjectId := 12 },
     { objectId := 11, columnId := 1, name := lit "id", userTypeId := 127, maxLength := lit "8", isNullable := false },
     { objectId := 10, columnId := 3, name := lit "age", userTypeId := 56, maxLength := lit "4", isNullable := false },
     { objectId := 11, columnId := 2, name := lit "author", userTypeId := 127, maxLength := lit "8" },
     { objectId := 14, columnId := 1, name := lit "id", userTypeId := 127, maxLength := lit "8" }]
  types := [{ userTypeId := 56, name := lit "int" }, { userTypeId := 127, name := lit "bigint" }, { userTypeId := 167, name := lit "varchar" }]
  identities := [{ objectId := 10, columnId := 1, row := { seedValue := lit "1", incrementValue := lit "1", notForReplication := true } }]
  checks :=
    [{ parentObjectId := 10, parentColumnId := 3, row := { name := lit "CK age", definition := lit "([age]>(0))", notForReplication := false } },
     { parentObjectId := 10, parentColumnId := 0, row := { name := lit "CK all", definition := lit "([age]>[id])", notForReplication := false } }]
  indexes :=
    [{ objectId := 10, indexId := 2, name := some (lit "by_age"), isUnique := true, typeDesc := txt "NONCLUSTERED" },
     { objectId := 10, indexId := 1, name := some (lit "PK_users"), isPrimary := true, isUnique := true, typeDesc := lit "CLUSTERED",
       isPadded := true, fillFactor := lit "50" },
     { objectId := 11, indexId := 0, name := none, typeDesc := lit "HEAP" }]
  stats := [{ objectId := 10, statsId := 1 }, { objectId := 10, statsId := 2 }, { objectId := 10, statsId := 3 }, { objectId := 11, statsId := 2 }]
  indexColumns :=
    [{ objectId := 10, indexId := 2, columnId := 2, isIncluded := true }, { objectId := 10, indexId := 2, columnId := 3, isDescending := true },
     { objectId := 10, indexId := 1, columnId := 1 }]
  foreignKeys :=
    [{ id := 13, name := lit "FK_author", parentObjectId := 11, referencedObjectId := 10, updateAction := lit "NO_ACTION", deleteAction := lit "CASCADE" }]
  foreignKeyColumns := [{ constraintObjectId := 13, parentColumnId := 2, referencedColumnId := 1 }]

theorem exMsServer_sound : Sound exMsServer where
  objectIds := by decide +kernel
  objectNames := by decide +kernel
  columnIds := by decide +kernel
  columnNames := by decide +kernel
  typeIds := by decide +kernel
  identityIds := by decide +kernel
  indexIds := by decide +kernel
  statsIds := by decide +kernel
  foreignKeyNames := by decide +kernel
  types := by decide +kernel
  identities := by decide +kernel
  defaults := by decide +kernel
  indexNames := by decide +kernel
  named := by decide +kernel
  stats := by decide +kernel
  numbered := by decide +kernel
  columnsNumbered := by decide +kernel
  indexColumns := by decide +kernel
  foreignKeys := by decide +kernel
  stored := by decide +kernel

theorem exMsServer_simple (o : SysObject) (ho : IsTable exMsServer o) : Simple exMsServer o := by
  have h1 : ∀ o ∈ exMsServer.objects, ((exMsServer.checks.filter fun k => k.parentObjectId = o.id ∧ k.parentColumnId ≠ 0).map (·.parentColumnId)).Nodup := by
    decide +kernel
  have h2 : ∀ f ∈ exMsServer.foreignKeys, (exMsServer.foreignKeyColumns.filter fun c => c.constraintObjectId = f.id).length = 1 := by decide +kernel
  exact ⟨h1 o ho.1, fun f hf _ => List.length_eq_one_iff.mp (h2 f hf)⟩

theorem exMsServer_single : SingleKeys exMsServer := by unfold SingleKeys; decide +kernel

/-- An answer. -/
def exMsAnswer : Ms.Catalog :=
  let cat := msSomeAnswer exMsServer
  { cat with indexColumns := fun schema table => (cat.indexColumns schema table).reverse }

/-- Another answer. -/
def exMsOtherAnswer : Ms.Catalog :=
  let cat := msSomeAnswer exMsServer
  { cat with
    tables := cat.tables.reverse
    columns := fun schema table => (cat.columns schema table).reverse
    indexes := fun schema table => (cat.indexes schema table).reverse }

theorem exMsAnswer_answers : Answers exMsServer exMsAnswer :=
  let h := msAnswers_some exMsServer_sound
  ⟨h.tables, h.columns, h.indexes, fun a b => ((List.reverse_perm _).map _).trans (h.indexColumns a b), h.foreignKeys, h.views, h.triggers⟩

theorem exMsOtherAnswer_answers : Answers exMsServer exMsOtherAnswer :=
  let h := msAnswers_some exMsServer_sound
  ⟨(List.reverse_perm _).trans h.tables, fun a b => ((List.reverse_perm _).map _).trans (h.columns a b),
    fun a b => ((List.reverse_perm _).map _).trans (h.indexes a b), h.indexColumns, h.foreignKeys, h.views, h.triggers⟩

theorem msSays_congr {cat cat' : Ms.Catalog} {schema name : Str} {d : MsDescribed} (h : MsCatalogSays cat schema name d)
    (h1 : cat'.columns schema name = cat.columns schema name) (h2 : cat'.indexes schema name = cat.indexes schema name)
    (h3 : cat'.indexColumns schema name = cat.indexColumns schema name) (h4 : cat'.foreignKeys schema name = cat.foreignKeys schema name) :
    MsCatalogSays cat' schema name d := by
  refine ⟨h.bare, h.ref, ?_, ?_, h.fresh, h.options⟩
  · rw [h1, h2, h3, h4]
    exact h.items
  · rw [h2, h3]
    exact h.index

theorem exMsAnswer_says : MsDatabaseSays exMsAnswer exMsDescribed [exMsView] [exMsTrigger] where
  tables := .cons (msSays_congr exMsUsers_says rfl rfl rfl rfl) (.cons (msSays_congr exMsPosts_says rfl rfl rfl rfl) .nil)
  views := exMsObjects_says.views
  triggers := exMsObjects_says.triggers

/-- The hypotheses of C72 are met by this server: what was exported when it gave the first answer is applied without a change
when it gives the second one. -/
example (fs fs' : Files) (o o' : Options) (hx : o.export_ = true) (hx' : o'.export_ = false) :
    ∃ text, run (Sql.env id) .mssql (msDatabase exMsAnswer) fs o () = { events := [.print text], err := none, state := () } ∧
      (readFile fs' o'.sqlFile = .ok text →
        run (Sql.env id) .mssql (msDatabase exMsOtherAnswer) fs' o' () =
          { events := [.readFile, .print (lit "-- Nothing is modified --\n")], err := none, state := () }) :=
  C72_export_is_a_fixed_point_in_any_order id _ _ _ _ (msDatabase_adapter exMsAnswer) (msDatabase_adapter exMsOtherAnswer) () () exMsServer
    exMsServer_sound exMsServer_simple exMsAnswer_answers exMsOtherAnswer_answers
    (C72_single_keys_are_in_order _ _ _ exMsServer_sound exMsServer_simple exMsServer_single exMsAnswer_answers exMsOtherAnswer_answers)
    exMsDescribed [exMsView] [exMsTrigger] (by decide +kernel) (by unfold ViewsDiffer; decide) (by unfold TriggersDiffer; decide) exMsAnswer_says fs fs' o o' hx hx'

/-- The second answer is written as another text. -/
example : (msDatabase exMsOtherAnswer).dumpTableDDL () (lit "app.posts") = .ok (txt "CREATE TABLE app.posts (
    author bigint,
    id bigint NOT NULL,
    CONSTRAINT [FK_author] FOREIGN KEY ([author]) REFERENCES [users] ([id]) ON UPDATE NO ACTION ON DELETE CASCADE
)") := dumped_of_check (by decide +kernel)

/-! ### Limits -/

/-- **C72, a limit.** A check that is about a whole table is invisible: whatever such checks there are, the server answers
the same. They are in no export, and cannot be compared with a file. -/
theorem C72_checks_of_tables_are_invisible (srv : Server) (hs : Sound srv) (cat : Ms.Catalog) :
    Answers { srv with checks := srv.checks.filter fun k => k.parentColumnId ≠ 0 } cat ↔ Answers srv cat := by
  have e : ∀ schema table, columnsQuery { srv with checks := srv.checks.filter fun k => k.parentColumnId ≠ 0 } schema table =
      columnsQuery srv schema table := by
    intro schema table
    refine List.flatMap_congr fun c hc => List.flatMap_congr fun t _ => ?_
    rw [filter_within fun k _ hk => ?_]
    · rfl
    · simp only [decide_eq_true_eq] at hk ⊢
      rw [hk.2]
      exact hs.columnsNumbered c (List.mem_filter.mp hc).1
  exact ⟨fun h => ⟨h.tables, fun a b => e a b ▸ h.columns a b, h.indexes, h.indexColumns, h.foreignKeys, h.views, h.triggers⟩,
    fun h => ⟨h.tables, fun a b => (e a b).symm ▸ h.columns a b, h.indexes, h.indexColumns, h.foreignKeys, h.views, h.triggers⟩⟩

/-- **C72, a limit.** If the definition of a view or of a trigger is encrypted, the server has no answer that the tool can read:
the definition is missing, and every run fails. -/
theorem C72_encrypted_definitions_cannot_be_read (srv : Server) (o : SysObject) (ho : o ∈ srv.objects) (hk : o.kind = lit "V" ∨ o.kind = lit "TR")
    (hd : o.definition = none) (cat : Ms.Catalog) : ¬ Answers srv cat := by
  intro h
  have key : ∀ {l : List Str} {m : List (Option Str)}, (l.map some).Perm m → none ∉ m := fun hp hm => by
    obtain ⟨_, -, e⟩ := List.mem_map.mp (hp.mem_iff.mpr hm)
    cases e
  rcases hk with hk | hk
  · exact key h.views (List.mem_map.mpr ⟨o, List.mem_filter.mpr ⟨ho, by simpa using hk⟩, hd⟩)
  · exact key h.triggers (List.mem_map.mpr ⟨o, List.mem_filter.mpr ⟨ho, by simpa using hk⟩, hd⟩)

/-- A server with an encrypted view. -/
example (cat : Ms.Catalog) : ¬ Answers { objects := [{ id := 1, schema := lit "dbo", name := lit "v", kind := lit "V" }], columns := [], types := [] } cat :=
  C72_encrypted_definitions_cannot_be_read _ _ List.mem_cons_self (.inl rfl) rfl cat

/-- A server with a key of two columns. -/
def exMsPair : Server where
  objects := [{ id := 1, schema := lit "dbo", name := lit "t", kind := lit "U" }]
  columns := [{ objectId := 1, columnId := 1, name := lit "a", userTypeId := 56, maxLength := lit "4", isNullable := false },
    { objectId := 1, columnId := 2, name := lit "b", userTypeId := 56, maxLength := lit "4", isNullable := false }]
  types := [{ userTypeId := 56, name := lit "int" }]
  indexes := [{ objectId := 1, indexId := 1, name := some (lit "PK_t"), isPrimary := true, isUnique := true, typeDesc := lit "CLUSTERED" }]
  stats := [{ objectId := 1, statsId := 1 }]
  indexColumns := [{ objectId := 1, indexId := 1, columnId := 1 }, { objectId := 1, indexId := 1, columnId := 2 }]

theorem exMsPair_sound : Sound exMsPair where
  objectIds := by decide +kernel
  objectNames := by decide +kernel
  columnIds := by decide +kernel
  columnNames := by decide +kernel
  typeIds := by decide +kernel
  identityIds := by decide +kernel
  indexIds := by decide +kernel
  statsIds := by decide +kernel
  foreignKeyNames := by decide +kernel
  types := by decide +kernel
  identities := by decide +kernel
  defaults := by decide +kernel
  indexNames := by decide +kernel
  named := by decide +kernel
  stats := by decide +kernel
  numbered := by decide +kernel
  columnsNumbered := by decide +kernel
  indexColumns := by decide +kernel
  foreignKeys := by decide +kernel
  stored := by decide +kernel

/-- An answer with the columns of the key in the other order. -/
def exMsPairSwapped : Ms.Catalog :=
  let cat := msSomeAnswer exMsPair
  { cat with indexColumns := fun schema table => (cat.indexColumns schema table).reverse }

theorem exMsPairSwapped_answers : Answers exMsPair exMsPairSwapped :=
  let h := msAnswers_some exMsPair_sound
  ⟨h.tables, h.columns, h.indexes, fun a b => ((List.reverse_perm _).map _).trans (h.indexColumns a b), h.foreignKeys, h.views, h.triggers⟩

/-- **C72, a limit.** Nothing asks the server for the order of the columns of a key. If it returns them in another order, then
the run tries to add the primary key once more, although nothing has changed. -/
theorem C72_order_of_keys_is_not_asked_for : ∃ srv cat cat' text text', Sound srv ∧ (∀ o, IsTable srv o → Simple srv o) ∧
    Answers srv cat ∧ Answers srv cat' ∧ dumpDDLs (msDatabase cat) () = .ok text ∧ dumpDDLs (msDatabase cat') () = .ok text' ∧
      generateIdempotentDDLs (Sql.env id) .mssql text text' = .ok [txt "ALTER TABLE [dbo].[t] ADD CONSTRAINT [PK_t] primary key CLUSTERED ([a], [b]) WITH (pad_index = OFF, fillfactor = 0, ignore_dup_key = OFF, statistics_norecompute = OFF, statistics_incremental = OFF, allow_row_locks = ON, allow_page_locks = ON)"] :=
  ⟨exMsPair, _, exMsPairSwapped, _, _, exMsPair_sound, fun o _ => ⟨by simp [exMsPair], by simp [exMsPair]⟩, msAnswers_some exMsPair_sound,
    exMsPairSwapped_answers, rfl, rfl, ok_of_check (by decide +kernel)⟩

/-- The same server with a table that refers to both columns of the key, and whose column has two checks. -/
def exMsWide : Server :=
  { exMsPair with
    objects := exMsPair.objects ++ [{ id := 2, schema := lit "dbo", name := lit "u", kind := lit "U" }]
    columns := exMsPair.columns ++ [{ objectId := 2, columnId := 1, name := lit "c", userTypeId := 56, maxLength := lit "4" },
      { objectId := 2, columnId := 2, name := lit "d", userTypeId := 56, maxLength := lit "4" }]
    checks := [{ parentObjectId := 2, parentColumnId := 1, row := { name := lit "CK_1", definition := lit "([c]>(0))", notForReplication := false } },
      { parentObjectId := 2, parentColumnId := 1, row := { name := lit "CK_2", definition := lit "([c]<(9))", notForReplication := false } }]
    foreignKeys := [{ id := 3, name := lit "FK_u", parentObjectId := 2, referencedObjectId := 1, updateAction := lit "CASCADE", deleteAction := lit "CASCADE" }]
    foreignKeyColumns := [{ constraintObjectId := 3, parentColumnId := 1, referencedColumnId := 1 },
      { constraintObjectId := 3, parentColumnId := 2, referencedColumnId := 2 }] }

theorem exMsWide_sound : Sound exMsWide where
  objectIds := by decide +kernel
  objectNames := by decide +kernel
  columnIds := by decide +kernel
  columnNames := by decide +kernel
  typeIds := by decide +kernel
  identityIds := by decide +kernel
  indexIds := by decide +kernel
  statsIds := by decide +kernel
  foreignKeyNames := by decide +kernel
  types := by decide +kernel
  identities := by decide +kernel
  defaults := by decide +kernel
  indexNames := by decide +kernel
  named := by decide +kernel
  stats := by decide +kernel
  numbered := by decide +kernel
  columnsNumbered := by decide +kernel
  indexColumns := by decide +kernel
  foreignKeys := by decide +kernel
  stored := by decide +kernel

/-- **C72, a limit.** A foreign key of several columns is shown as several foreign keys of one name, and a column with two checks
is shown twice. -/
theorem C72_rows_are_multiplied : Sound exMsWide ∧ Answers exMsWide (msSomeAnswer exMsWide) ∧
    (msDatabase (msSomeAnswer exMsWide)).dumpTableDDL () (lit "dbo.u") = .ok (txt "CREATE TABLE dbo.u (
    c int CONSTRAINT [CK_1] CHECK ([c]>(0)),
    c int CONSTRAINT [CK_2] CHECK ([c]<(9)),
    d int,
    CONSTRAINT [FK_u] FOREIGN KEY ([c]) REFERENCES [t] ([a]) ON UPDATE CASCADE ON DELETE CASCADE,
    CONSTRAINT [FK_u] FOREIGN KEY ([d]) REFERENCES [t] ([b]) ON UPDATE CASCADE ON DELETE CASCADE
)") := ⟨exMsWide_sound, msAnswers_some exMsWide_sound, dumped_of_check (by decide +kernel)⟩

end Sqldef
