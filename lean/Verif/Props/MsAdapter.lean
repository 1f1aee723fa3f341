import Verif.Proofs.MsNormal
import Verif.Props.StoredText
/-
C63: what the tool says about a SQL Server database is what the catalog of the server says, and applying it changes nothing.
-/
namespace Sqldef
open Spec Written Dumped

/-! ### C63: exports of SQL Server databases -/

/-- **C63.** In whatever order the tool meets the indexes of a table, the text it writes contains exactly the statements that
the catalog stands for: the table with its columns, primary key and foreign keys, and then its index. -/
theorem C63_table_dump_is_what_the_catalog_says (cat : Ms.Catalog) (schema name text : Str) (d : MsDescribed)
    (h : MsCatalogSays cat schema name d) (ht : Ms.IsDump cat (schema ++ lit "." ++ name) text) : Contains .mssql text d.sentences := by
  obtain ⟨texts, h1, h2⟩ := msTable_glued h ht
  exact (contains_texts h1 (forall₂_imp (fun _ _ hx => hx.says) h2)).1

/-- **C63.** The text does not depend on the order in which the tool meets the indexes. -/
theorem C63_table_dump_is_determined (cat : Ms.Catalog) (schema name text text' : Str) (d : MsDescribed)
    (h : MsCatalogSays cat schema name d) (ht : Ms.IsDump cat (schema ++ lit "." ++ name) text)
    (ht' : Ms.IsDump cat (schema ++ lit "." ++ name) text') : text = text' := by
  obtain ⟨_, p, _, -, hp, -, -⟩ := h.items
  have l1 := hp.length_eq ▸ optionList_length p
  have l2 := h.index.length_eq ▸ optionList_length d.index
  rw [msDump_eq (bare_nodot h.bare.1) l1 l2 ht, msDump_eq (bare_nodot h.bare.1) l1 l2 ht']

/-- **C63.** The dump of a whole database is read without an error, as the definitions that the catalog stands for: one for
each statement, of the same kind and with the same content, table by table. -/
theorem C63_dump_is_understood (fmtFloat : Str → Str) {σ : Type} (db : Db σ) (cat : σ → Ms.Catalog) (ha : MsAdapter db cat) (s : σ)
    (ds : List MsDescribed) (h : List.Forall₂ (fun t d => MsCatalogSays (cat s) t.1 t.2 d) (cat s).tables ds)
    (hv : (cat s).views = []) (ht : (cat s).triggers = []) :
    ∃ text defs, dumpDDLs db s = .ok text ∧ parseDDLs (Sql.env fmtFloat) .mssql text = .ok defs ∧
      List.Forall₂ (fun x d => SaysTheSame .mssql d.statement (Sentence.meaning x) d ∧ x.Kind d) (ds.flatMap MsDescribed.sentences) defs := by
  obtain ⟨text, h1, h2, -, -⟩ := msDump_contains ha s h hv ht
  obtain ⟨defs, h3, h4, -⟩ := C57_file_is_understood fmtFloat .mssql text _ h2 (msAll_clear h)
  exact ⟨text, defs, h1, h3, h4⟩

/-- **C63.** Only what the catalog says matters: two databases whose catalogs stand for the same statements are changed in
the same way, whatever schema is desired. -/
theorem C63_only_what_the_catalog_says_matters (fmtFloat : Str → Str) {σ τ : Type} (db : Db σ) (db' : Db τ) (cat : σ → Ms.Catalog)
    (cat' : τ → Ms.Catalog) (ha : MsAdapter db cat) (ha' : MsAdapter db' cat') (s : σ) (s' : τ) (ds : List MsDescribed)
    (h : List.Forall₂ (fun t d => MsCatalogSays (cat s) t.1 t.2 d) (cat s).tables ds)
    (hv : (cat s).views = []) (ht : (cat s).triggers = [])
    (h' : List.Forall₂ (fun t d => MsCatalogSays (cat' s') t.1 t.2 d) (cat' s').tables ds)
    (hv' : (cat' s').views = []) (ht' : (cat' s').triggers = []) :
    ∃ text text', dumpDDLs db s = .ok text ∧ dumpDDLs db' s' = .ok text' ∧
      ∀ desired, generateIdempotentDDLs (Sql.env fmtFloat) .mssql desired text =
        generateIdempotentDDLs (Sql.env fmtFloat) .mssql desired text' := by
  obtain ⟨text, h1, h2, -, -⟩ := msDump_contains ha s h hv ht
  obtain ⟨text', h1', h2', -, -⟩ := msDump_contains ha' s' h' hv' ht'
  exact ⟨text, text', h1, h1', fun desired =>
    C57_layout_of_the_current_schema_is_irrelevant fmtFloat .mssql desired text text' _ h2 h2' (msAll_clear h)⟩

/-- **C63.** A file with the statements that the catalog stands for, written in whatever layout, changes nothing: the run
ends without an error, executes nothing, and says that nothing is modified. -/
theorem C63_described_schema_changes_nothing (fmtFloat : Str → Str) {σ : Type} (db : Db σ) (cat : σ → Ms.Catalog) (ha : MsAdapter db cat)
    (s : σ) (ds : List MsDescribed) (hn : ((cat s).tables.map (·.2)).Nodup) (hv : (cat s).views = []) (ht : (cat s).triggers = [])
    (h : List.Forall₂ (fun t d => MsCatalogSays (cat s) t.1 t.2 d ∧ MsOrderly (cat s) t.1 t.2) (cat s).tables ds)
    (fs : Files) (o : Options) (he : o.export_ = false) (file : Str) (hr : readFile fs o.sqlFile = .ok file)
    (hf : Contains .mssql file (ds.flatMap MsDescribed.sentences)) :
    run (Sql.env fmtFloat) .mssql db fs o s =
      { events := [.readFile, .print (lit "-- Nothing is modified --\n")], err := none, state := s } := by
  have h' := forall₂_imp (fun _ _ hx => And.left hx) h
  obtain ⟨text, h1, h2, -, -⟩ := msDump_contains ha s h' hv ht
  obtain ⟨defs, h3, h4, -⟩ := C57_file_is_understood fmtFloat .mssql file _ hf (msAll_clear h')
  have hg := C57_rewriting_changes_nothing fmtFloat .mssql file text _ hf h2 (msAll_clear h') defs h3 (msDescribed_normal hn h h4)
  simp only [run, h1, he, hr, hg]
  rfl

/-- **C63.** Applying an export changes nothing: if the file is what `--export` has printed for the same database, then the
run ends without an error, executes nothing, and says that nothing is modified. -/
theorem C63_export_is_a_fixed_point (fmtFloat : Str → Str) {σ : Type} (db : Db σ) (cat : σ → Ms.Catalog) (ha : MsAdapter db cat)
    (s : σ) (ds : List MsDescribed) (hn : ((cat s).tables.map (·.2)).Nodup) (hv : (cat s).views = []) (ht : (cat s).triggers = [])
    (h : List.Forall₂ (fun t d => MsCatalogSays (cat s) t.1 t.2 d ∧ MsOrderly (cat s) t.1 t.2) (cat s).tables ds)
    (fs fs' : Files) (o o' : Options) (ho : o.export_ = true) (ho' : o'.export_ = false) :
    ∃ text, run (Sql.env fmtFloat) .mssql db fs o s = { events := [.print text], err := none, state := s } ∧
      (readFile fs' o'.sqlFile = .ok text →
        run (Sql.env fmtFloat) .mssql db fs' o' s =
          { events := [.readFile, .print (lit "-- Nothing is modified --\n")], err := none, state := s }) := by
  have h' := forall₂_imp (fun _ _ hx => And.left hx) h
  obtain ⟨text, h1, -, h2, h5⟩ := msDump_contains ha s h' hv ht
  refine ⟨if text = [] then lit "-- No table exists --\n" else text ++ lit ";\n", by simp only [run, h1, ho]; rfl, fun hr => ?_⟩
  refine C63_described_schema_changes_nothing fmtFloat db cat ha s ds hn hv ht h fs' o' ho' _ hr ?_
  split
  · rename_i he
    rw [h5 he]
    unfold Contains
    rw [show statementTexts (lit "-- No table exists --\n") = [] by decide +kernel]
    exact .nil
  · exact h2

/-! ### A database -/

/-- The rows of a database with two tables. -/
def exMsCatalog : Ms.Catalog where
  tables := [(lit "dbo", lit "users"), (lit "app", lit "posts")]
  columns schema _ :=
    if schema = lit "dbo" then
      [{ name := lit "id", dataType := lit "bigint", length := lit "8", nullable := false,
         identity := some { seedValue := lit "1", incrementValue := lit "1", notForReplication := true } },
       { name := lit "name", dataType := lit "varchar", length := lit "40", nullable := true, defaultName := lit "DF_name",
         defaultVal := lit "('nobody')" },
       { name := lit "age", dataType := lit "int", length := lit "4", nullable := false,
         check := some { name := lit "CK age", definition := lit "([age]>(0))", notForReplication := false } }]
    else
      [{ name := lit "id", dataType := lit "bigint", length := lit "8", nullable := false },
       { name := lit "author", dataType := lit "bigint", length := lit "8", nullable := true }]
  indexes schema _ :=
    if schema = lit "dbo" then
      [{ name := lit "by_age", isPrimary := false, isUnique := true, typeDesc := txt "NONCLUSTERED", padIndex := false, fillfactor := lit "0",
         ignoreDupKey := false, noRecompute := false, incremental := false, rowLocks := true, pageLocks := true },
       { name := lit "PK_users", isPrimary := true, isUnique := true, typeDesc := lit "CLUSTERED", padIndex := true, fillfactor := lit "50",
         ignoreDupKey := false, noRecompute := false, incremental := false, rowLocks := true, pageLocks := true }]
    else []
  indexColumns schema _ :=
    if schema = lit "dbo" then
      [{ indexName := lit "PK_users", columnName := lit "id", isDescending := false, isIncluded := false },
       { indexName := lit "by_age", columnName := lit "age", isDescending := true, isIncluded := false },
       { indexName := lit "by_age", columnName := lit "name", isDescending := false, isIncluded := true }]
    else []
  foreignKeys schema _ :=
    if schema = lit "dbo" then []
    else [{ constraintName := lit "FK_author", columnName := lit "author", foreignTableName := lit "users", foreignColumnName := lit "id",
            foreignUpdateRule := lit "NO_ACTION", foreignDeleteRule := lit "CASCADE", notForReplication := false }]
  views := []
  triggers := []

/-- The options of the index of the example. -/
def exMsOptions (pad : Bool) (fill : String) : IndexOpts :=
  .list (.switch "pad_index" pad)
    [.fillfactor (lit fill), .switch "ignore_dup_key" false, .switch "statistics_norecompute" false,
     .switch "statistics_incremental" false, .switch "allow_row_locks" true, .switch "allow_page_locks" true]

/-- What the rows say. -/
def exMsDescribed : List MsDescribed :=
  [{ table :=
       { name := { schema := some (lit "dbo"), name := lit "users" }
         first := { name := lit "id", type := .integer "bigint" none false false,
                    options := [.notNull, .identity (lit "1") (lit "1"), .notForReplication] }
         rest :=
           [.column { name := lit "name", type := .chars "varchar" (some (lit "40")) .none .none,
                      options := [.default (some (lit "DF_name")) .once (.string (lit "nobody") .none)] },
            .column { name := lit "age", type := .integer "int" none false false,
                      options := [.notNull, .namedCheck (lit "CK age") false
                        (.compare .gt (.column (lit "age")) (.tuple (.integer (lit "0")) []))] },
            .primaryKey { name := lit "PK_users", clustered := some true, first := { name := lit "id" }, options := exMsOptions true "50" }] }
     index := some
       { unique := true, clustered := some false, name := lit "by_age", table := { schema := some (lit "dbo"), name := lit "users" },
         first := { name := lit "age", direction := some false },
         form := .plain (some (lit "name", [])) none (exMsOptions false "0") .none } },
   { table :=
       { name := { schema := some (lit "app"), name := lit "posts" }
         first := { name := lit "id", type := .integer "bigint" none false false, options := [.notNull] }
         rest :=
           [.column { name := lit "author", type := .integer "bigint" none false false },
            .foreignKey { constraint := some (lit "FK_author"), first := lit "author", table := { name := lit "users" }, refFirst := lit "id",
                          actions := .updateDelete .noAction .cascade }] }
     index := none }]

/-- A database that answers the queries of the adapter with the rows of a catalog. -/
def msDatabase (cat : Ms.Catalog) : Db Unit :=
  { exServer with
    tableNames := fun _ => .ok (Ms.tableNames cat)
    dumpTableDDL := fun _ table =>
      let (schema, name) := splitTableName (lit "dbo") table
      .ok (Ms.buildDumpTableDDL table (cat.columns schema name) (Ms.indexDefMap (cat.indexes schema name) (cat.indexColumns schema name))
        ((cat.foreignKeys schema name).map Ms.FkRow.text))
    views := fun _ => .ok (Ms.views cat)
    triggers := fun _ => .ok cat.triggers }

theorem msDatabase_adapter (cat : Ms.Catalog) : MsAdapter (msDatabase cat) fun _ => cat where
  tableNames _ := rfl
  dumpTableDDL _ _ := ⟨_, rfl, _, .refl _, rfl⟩
  views _ := rfl
  triggers _ := rfl

theorem exMsUsers_says : MsCatalogSays exMsCatalog (lit "dbo") (lit "users") exMsDescribed[0] := by
  refine ⟨⟨bareName_of_test (by decide +kernel), bareName_of_test (by decide +kernel)⟩, rfl, ⟨[_, _], some _, [], .cons ?_ (.cons ?_ (.cons ?_ .nil)), .cons ?_ .nil, .nil, rfl⟩,
    .cons ?_ .nil, rfl, rfl⟩
  · exact ⟨bareName_of_test (by decide +kernel), rfl, .plain (name := "bigint") (ty := .integer "bigint" none false false) (by simp [msPlainTypes]) rfl, rfl, _, _, _, .none,
      .identity (i := { seedValue := lit "1", incrementValue := lit "1", notForReplication := true }) ⟨lit "1", by decide, by decide, .inl rfl⟩ ⟨lit "1", by decide, by decide, .inl rfl⟩, .none, rfl⟩
  · exact ⟨bareName_of_test (by decide +kernel), rfl,
      .sized (name := "varchar") (ty := fun n => .chars "varchar" (some n) .none .none) (by simp [msSizedTypes]) rfl ⟨lit "40", by decide, by decide, .inl rfl⟩, rfl, _, _, _,
      .value (w := .once) (v := .string (lit "nobody") .none) (bareName_of_test (by decide +kernel))
        ⟨layout_of_test [("", "("), ("", "'nobody'"), ("", ")")] (by decide +kernel), by decide, by decide⟩, .none, .none, rfl⟩
  · have ha : GoodName (lit "age") := by unfold GoodName; decide
    have h0 : GoodInt (lit "0") := ⟨lit "0", by decide, by decide, .inl rfl⟩
    exact ⟨bareName_of_test (by decide +kernel), rfl, .plain (name := "int") (by simp [msPlainTypes]) rfl, rfl, _, _, _, .none, .none,
      .check (k := { name := lit "CK age", definition := lit "([age]>(0))", notForReplication := false })
        (e := .compare .gt (.column (lit "age")) (.tuple (.integer (lit "0")) [])) ⟨by decide, by decide, by decide⟩ (by unfold GoodName; decide)
        ⟨layout_of_test [("", "("), ("", "[age]"), ("", ">"), ("", "("), ("", "0"), ("", ")"), ("", ")")] (by decide +kernel), by decide, by decide⟩
        (by simp [Ex.Proper, Ex.AllProper, Ex.level, ha, h0]) (by simp [Ex.depth, Ex.depths]), rfl⟩
  · exact ⟨some true, _, _, none, ⟨⟨by decide, by decide, by decide⟩, .inl ⟨rfl, rfl⟩, rfl, by
      intro c hc
      change c ∈ [Ms.IndexColumnRow.mk (lit "PK_users") (lit "id") false false] at hc
      cases List.mem_singleton.mp hc
      exact ⟨by decide, by decide, by decide⟩, rfl, by decide, by decide⟩, rfl⟩
  · exact ⟨some false, _, _, some (lit "name", []), ⟨⟨by decide, by decide, by decide⟩, .inr ⟨rfl, rfl⟩, rfl, by
      intro c hc
      change c ∈ [Ms.IndexColumnRow.mk (lit "by_age") (lit "age") true false, Ms.IndexColumnRow.mk (lit "by_age") (lit "name") false true] at hc
      simp only [List.mem_cons, List.not_mem_nil, or_false] at hc
      rcases hc with rfl | rfl <;> exact ⟨by decide, by decide, by decide⟩, rfl, by decide, by decide⟩, rfl⟩

theorem exMsPosts_says : MsCatalogSays exMsCatalog (lit "app") (lit "posts") exMsDescribed[1] := by
  refine ⟨⟨bareName_of_test (by decide +kernel), bareName_of_test (by decide +kernel)⟩, rfl, ⟨[_], none, [_], .cons ?_ (.cons ?_ .nil), .nil, .cons ?_ .nil, rfl⟩,
    .nil, rfl, rfl⟩
  · exact ⟨bareName_of_test (by decide +kernel), rfl, .plain (name := "bigint") (ty := .integer "bigint" none false false) (by simp [msPlainTypes]) rfl, rfl, _, _, _, .none, .none, .none, rfl⟩
  · exact ⟨bareName_of_test (by decide +kernel), rfl, .plain (name := "bigint") (ty := .integer "bigint" none false false) (by simp [msPlainTypes]) rfl, rfl, _, _, _, .none, .none, .none, rfl⟩
  · exact ⟨⟨⟨by decide, by decide, by decide⟩, ⟨by decide, by decide, by decide⟩, ⟨by decide, by decide, by decide⟩, ⟨by decide, by decide, by decide⟩⟩,
      "NO_ACTION", .noAction, "CASCADE", .cascade, by simp [msActions], by simp [msActions], rfl, rfl, rfl⟩

theorem exMsCatalog_says : List.Forall₂ (fun t d => MsCatalogSays exMsCatalog t.1 t.2 d ∧ MsOrderly exMsCatalog t.1 t.2) exMsCatalog.tables exMsDescribed :=
  .cons ⟨exMsUsers_says, by decide, by decide, by decide⟩ (.cons ⟨exMsPosts_says, by decide, by decide, by decide⟩ .nil)

/-- The hypotheses of C63 are met by this database, and the export is applied to it without a change. -/
example (fs fs' : Files) (o o' : Options) (hx : o.export_ = true) (hx' : o'.export_ = false) :
    ∃ text, run (Sql.env id) .mssql (msDatabase exMsCatalog) fs o () = { events := [.print text], err := none, state := () } ∧
      (readFile fs' o'.sqlFile = .ok text →
        run (Sql.env id) .mssql (msDatabase exMsCatalog) fs' o' () =
          { events := [.readFile, .print (lit "-- Nothing is modified --\n")], err := none, state := () }) :=
  C63_export_is_a_fixed_point id _ _ (msDatabase_adapter exMsCatalog) () exMsDescribed (by decide) rfl rfl exMsCatalog_says fs fs' o o' hx hx'

/-- The dump of the second table. -/
example : (msDatabase exMsCatalog).dumpTableDDL () (lit "app.posts") = .ok (txt "CREATE TABLE app.posts (
    id bigint NOT NULL,
    author bigint,
    CONSTRAINT [FK_author] FOREIGN KEY ([author]) REFERENCES [users] ([id]) ON UPDATE NO ACTION ON DELETE CASCADE
)") := dumped_of_check (by decide +kernel)

/-! ### Limits -/

/-- **C63, a limit.** The length of a column is written for `char`, `varchar`, `binary` and `varbinary` only: the text of a
table does not depend on the length of its other columns, such as those of the type `nvarchar`. -/
theorem C63_other_lengths_are_lost (cat : Ms.Catalog) (length : Str → Str) (table text : Str) (h : Ms.IsDump cat table text) :
    Ms.IsDump { cat with columns := fun s t => (cat.columns s t).map fun c =>
      if c.dataType ∈ [lit "char", lit "varchar", lit "binary", lit "varbinary"] then c else { c with length := length c.length } } table text := by
  obtain ⟨defs, hp, rfl⟩ := h
  refine ⟨defs, hp, ?_⟩
  have key : ∀ cs : List Ms.Column, (cs.map fun c =>
      if c.dataType ∈ [lit "char", lit "varchar", lit "binary", lit "varbinary"] then c else { c with length := length c.length }).map
        (fun c => lit "\n" ++ dumpIndent ++ c.text) = cs.map fun c => lit "\n" ++ dumpIndent ++ c.text := by
    intro cs
    rw [List.map_map]
    refine List.map_congr_left fun c _ => ?_
    simp only [Function.comp]
    split
    · rfl
    · rename_i hn
      have hn : c.dataType ∉ Ms.sizedTypes := hn
      unfold Ms.Column.text
      simp only [if_neg hn]
  unfold Ms.buildDumpTableDDL Ms.createText
  simp only [key]

/-- A catalog with one table `dbo.t`. -/
def oneMsTable (columns : List Ms.Column) (indexes : List Ms.IndexRow) (indexColumns : List Ms.IndexColumnRow) (foreignKeys : List Ms.FkRow) :
    Ms.Catalog :=
  { tables := [(lit "dbo", lit "t")], columns := fun _ _ => columns, indexes := fun _ _ => indexes,
    indexColumns := fun _ _ => indexColumns, foreignKeys := fun _ _ => foreignKeys, views := [], triggers := [] }

/-- An index. -/
def exMsIndex (name : String) : Ms.IndexRow :=
  { name := lit name, isPrimary := false, isUnique := false, typeDesc := txt "NONCLUSTERED", padIndex := false, fillfactor := lit "0",
    ignoreDupKey := false, noRecompute := false, incremental := false, rowLocks := true, pageLocks := true }

/-- A table with two indexes. -/
def exMsTwoIndexes : Ms.Catalog :=
  oneMsTable [{ name := lit "a", dataType := lit "int", length := lit "4", nullable := false }] [exMsIndex "i", exMsIndex "j"]
    [{ indexName := lit "i", columnName := lit "a", isDescending := false, isIncluded := false },
     { indexName := lit "j", columnName := lit "a", isDescending := true, isIncluded := false }] []

/-- The dumps of the table, by the order of its indexes. -/
def exMsTwoDumps : List Str :=
  [[exMsIndex "i", exMsIndex "j"], [exMsIndex "j", exMsIndex "i"]].map fun rows =>
    Ms.buildDumpTableDDL (lit "dbo.t") (exMsTwoIndexes.columns [] [])
      (Ms.indexDefMap rows (exMsTwoIndexes.indexColumns [] [])) []

theorem exMsTwoDumps_unreadable : ∀ text ∈ exMsTwoDumps, (parseDDLs (Sql.env id) .mssql text).toOption.isNone = true := by decide +kernel

/-- **C63, a limit.** A table with two indexes besides its primary key cannot be read: the statements that create them are not
separated in the dump (/repo/adapter/mssql/mssql.go:132-157). Whatever order the indexes have and whatever schema is desired,
the run ends with an error. -/
theorem C63_two_indexes_cannot_be_read (text : Str) (h : Ms.IsDump exMsTwoIndexes (lit "dbo.t") text) (desired : Str) :
    ∃ e, generateIdempotentDDLs (Sql.env id) .mssql desired text = .error e := by
  suffices hm : text ∈ exMsTwoDumps by exact unreadable (by simpa using exMsTwoDumps_unreadable text hm) desired
  obtain ⟨defs, hp, rfl⟩ := h
  have hp : defs.Perm [(Ms.indexDefMap [exMsIndex "i", exMsIndex "j"] (exMsTwoIndexes.indexColumns [] []))[0],
      (Ms.indexDefMap [exMsIndex "i", exMsIndex "j"] (exMsTwoIndexes.indexColumns [] []))[1]] := hp
  have swap : ∀ (l : List Ms.IndexDef) (a b : Ms.IndexDef), l.Perm [a, b] → l = [a, b] ∨ l = [b, a] := by
    intro l a b hl
    have h2 := hl.length_eq
    match l, h2 with
    | [x, y], _ =>
      rcases List.mem_cons.mp (hl.symm.subset (List.mem_cons_self ..)) with rfl | hm
      · exact .inl (by rw [List.singleton_perm_singleton.mp ((List.perm_cons _).mp hl)])
      · cases List.mem_singleton.mp hm
        exact .inr (by rw [List.singleton_perm_singleton.mp ((List.perm_cons _).mp ((List.Perm.swap ..).trans hl))])
  rcases swap _ _ _ hp with rfl | rfl
  · exact List.mem_cons_self ..
  · exact List.mem_cons_of_mem _ (List.mem_cons_self ..)

/-- Tables that the tool cannot read: types that the grammar does not know, names that need brackets, an action of a foreign
key. -/
def unreadableMs : List (List Ms.Column × List Ms.FkRow) :=
  [([{ name := lit "a", dataType := txt "uniqueidentifier", length := lit "16", nullable := true }], []),
   ([{ name := lit "a", dataType := lit "xml", length := lit "-1", nullable := true }], []),
   ([{ name := lit "order", dataType := lit "int", length := lit "4", nullable := true }], []),
   ([{ name := lit "a b", dataType := lit "int", length := lit "4", nullable := true }], []),
   ([{ name := lit "a", dataType := lit "int", length := lit "4", nullable := true }],
    [{ constraintName := lit "f", columnName := lit "a", foreignTableName := lit "u", foreignColumnName := lit "x",
       foreignUpdateRule := lit "NO_ACTION", foreignDeleteRule := lit "SET_DEFAULT", notForReplication := false }])]

theorem unreadableMs_dumps : ∀ t ∈ unreadableMs,
    ((dumpDDLs (msDatabase (oneMsTable t.1 [] [] t.2)) ()).toOption.any fun text =>
      (parseDDLs (Sql.env id) .mssql text).toOption.isNone) = true := by decide +kernel

/-- **C63, a limit.** If a table is one of these, then whatever schema is desired, the run ends with an error, even if the
desired schema leaves the table alone. -/
theorem C63_some_tables_cannot_be_read : ∀ t ∈ unreadableMs,
    ∃ text, dumpDDLs (msDatabase (oneMsTable t.1 [] [] t.2)) () = .ok text ∧
      ∀ desired, ∃ e, generateIdempotentDDLs (Sql.env id) .mssql desired text = .error e := by
  intro t ht
  have := unreadableMs_dumps t ht
  cases hd : dumpDDLs (msDatabase (oneMsTable t.1 [] [] t.2)) () with
  | error e => rw [hd] at this; simp [Except.toOption] at this
  | ok text =>
    rw [hd] at this
    exact ⟨text, rfl, unreadable (by simpa [Except.toOption] using this)⟩

/-- Two tables of the same name in different schemas, with different columns. -/
def exMsTwins : Ms.Catalog :=
  { oneMsTable [] [] [] [] with
    tables := [(lit "dbo", lit "t"), (lit "app", lit "t")]
    columns := fun schema _ =>
      if schema = lit "dbo" then [{ name := lit "a", dataType := lit "int", length := lit "4", nullable := true }]
      else [{ name := lit "b", dataType := lit "int", length := lit "4", nullable := true }] }

/-- **C63, a limit.** Tables of the same name in different schemas are mixed up: the export is read without an error, and
applying it to the same database is to add the column of one table to the other, and to drop it again. -/
theorem C63_schemas_are_mixed_up : ∃ text, dumpDDLs (msDatabase exMsTwins) () = .ok text ∧
    generateIdempotentDDLs (Sql.env id) .mssql text text =
      .ok [txt "ALTER TABLE [dbo].[t] ADD [b] int", txt "ALTER TABLE [dbo].[t] DROP COLUMN [b]"] :=
  ⟨txt "CREATE TABLE dbo.t (
    a int
);

CREATE TABLE app.t (
    b int
)", dumped_of_check (by decide +kernel), ok_of_check (by decide +kernel)⟩

end Sqldef
