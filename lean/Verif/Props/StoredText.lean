import Verif.Proofs.LiteRun
import Verif.Props.Adapter
/-
C59: MySQL and SQLite databases are described as their servers describe them. C60: a SQLite database is brought to the
tables of a file by one run, and then left alone.
-/
namespace Sqldef
open Spec Written Dumped

/-! ### C59: exports of MySQL and SQLite databases -/

/-- **C59.** The dump of a MySQL database is read without an error, as the tables that `show create table` describes, in the
order of the tables. -/
theorem C59_mysql_dump_is_understood (fmtFloat : Str → Str) {σ : Type} (db : Db σ) (cat : σ → My.Catalog) (s : σ) (ts : List Written.Table)
    (h : MyCatalogSays (cat s) ts) (ho : OrderlyTables .mysql ts) :
    ∃ text defs, dumpDDLs (My.database db cat) s = .ok text ∧ parseDDLs (Sql.env fmtFloat) .mysql text = .ok defs ∧
      List.Forall₂ (fun t d => SaysTheSame .mysql d.statement (Sentence.meaning (.table t)) d) ts defs := by
  obtain ⟨texts, h1, h2⟩ := my_dumped db cat s h
  obtain ⟨defs, h3, h4, -⟩ := C57_file_is_understood fmtFloat .mysql _ _ (contains_joined h2).1 (orderly_clear ho)
  exact ⟨_, defs, h1, h3, forall₂_imp (fun _ _ hx => hx.1) (forall₂_unmap h4)⟩

/-- **C59.** A file with the statements by which MySQL describes its tables, written in whatever layout, changes nothing. -/
theorem C59_mysql_described_schema_changes_nothing (fmtFloat : Str → Str) {σ : Type} (db : Db σ) (cat : σ → My.Catalog) (s : σ)
    (ts : List Written.Table) (h : MyCatalogSays (cat s) ts) (ho : OrderlyTables .mysql ts) (fs : Files) (o : Options)
    (he : o.export_ = false) (file : Str) (hr : readFile fs o.sqlFile = .ok file) (hf : Contains .mysql file (ts.map Sentence.table)) :
    run (Sql.env fmtFloat) .mysql (My.database db cat) fs o s =
      { events := [.readFile, .print (lit "-- Nothing is modified --\n")], err := none, state := s } := by
  obtain ⟨texts, h1, h2⟩ := my_dumped db cat s h
  exact run_same (by decide) fmtFloat ho h1 (contains_joined h2).1 he hr hf

/-- **C59.** Applying an export of a MySQL database to it changes nothing. -/
theorem C59_mysql_export_is_a_fixed_point (fmtFloat : Str → Str) {σ : Type} (db : Db σ) (cat : σ → My.Catalog) (s : σ)
    (ts : List Written.Table) (h : MyCatalogSays (cat s) ts) (ho : OrderlyTables .mysql ts)
    (fs fs' : Files) (o o' : Options) (hx : o.export_ = true) (hx' : o'.export_ = false) :
    ∃ text, run (Sql.env fmtFloat) .mysql (My.database db cat) fs o s = { events := [.print text], err := none, state := s } ∧
      (readFile fs' o'.sqlFile = .ok text →
        run (Sql.env fmtFloat) .mysql (My.database db cat) fs' o' s =
          { events := [.readFile, .print (lit "-- Nothing is modified --\n")], err := none, state := s }) := by
  obtain ⟨texts, h1, h2⟩ := my_dumped db cat s h
  exact export_same (by decide) fmtFloat ho h1 h2 fs fs' o o' hx hx'

/-- **C59.** The dump of a SQLite database is read without an error, as the tables that `sqlite_master` keeps, in the order
of the tables. -/
theorem C59_sqlite_dump_is_understood (fmtFloat : Str → Str) {σ : Type} (db : Db σ) (master : σ → List Lite.Object) (s : σ)
    (ts : List Written.Table) (h : LiteCatalogSays (master s) ts) (ho : OrderlyTables .sqlite3 ts) :
    ∃ text defs, dumpDDLs (Lite.database db master) s = .ok text ∧ parseDDLs (Sql.env fmtFloat) .sqlite3 text = .ok defs ∧
      List.Forall₂ (fun t d => SaysTheSame .sqlite3 d.statement (Sentence.meaning (.table t)) d) ts defs := by
  obtain ⟨texts, h1, h2⟩ := lite_dumped db master s h
  obtain ⟨defs, h3, h4, -⟩ := C57_file_is_understood fmtFloat .sqlite3 _ _ (contains_joined h2).1 (orderly_clear ho)
  exact ⟨_, defs, h1, h3, forall₂_imp (fun _ _ hx => hx.1) (forall₂_unmap h4)⟩

/-- **C59.** A file with the statements that SQLite keeps, written in whatever layout and order, changes nothing. -/
theorem C59_sqlite_described_schema_changes_nothing (fmtFloat : Str → Str) {σ : Type} (db : Db σ) (master : σ → List Lite.Object) (s : σ)
    (us ts : List Written.Table) (h : LiteCatalogSays (master s) us) (hp : us.Perm ts) (ho : OrderlyTables .sqlite3 ts) (fs : Files)
    (o : Options) (he : o.export_ = false) (file : Str) (hr : readFile fs o.sqlFile = .ok file)
    (hf : Contains .sqlite3 file (ts.map Sentence.table)) :
    run (Sql.env fmtFloat) .sqlite3 (Lite.database db master) fs o s =
      { events := [.readFile, .print (lit "-- Nothing is modified --\n")], err := none, state := s } := by
  obtain ⟨texts, h1, h2⟩ := lite_dumped db master s h
  have hg := generate_nothing fmtFloat (by decide) hf (contains_joined h2).1 ho hp
  simp only [run, h1, he, hr, hg]
  rfl

/-- **C59.** Applying an export of a SQLite database to it changes nothing. -/
theorem C59_sqlite_export_is_a_fixed_point (fmtFloat : Str → Str) {σ : Type} (db : Db σ) (master : σ → List Lite.Object) (s : σ)
    (ts : List Written.Table) (h : LiteCatalogSays (master s) ts) (ho : OrderlyTables .sqlite3 ts)
    (fs fs' : Files) (o o' : Options) (hx : o.export_ = true) (hx' : o'.export_ = false) :
    ∃ text, run (Sql.env fmtFloat) .sqlite3 (Lite.database db master) fs o s = { events := [.print text], err := none, state := s } ∧
      (readFile fs' o'.sqlFile = .ok text →
        run (Sql.env fmtFloat) .sqlite3 (Lite.database db master) fs' o' s =
          { events := [.readFile, .print (lit "-- Nothing is modified --\n")], err := none, state := s }) := by
  obtain ⟨texts, h1, h2⟩ := lite_dumped db master s h
  exact export_same (by decide) fmtFloat ho h1 h2 fs fs' o o' hx hx'

/-! ### C60: what a run does to the tables -/

/-- **C60.** If the tables of the database that have a name in the file are as in the file, then the run creates the other
tables of the file, with the statements of the file, word for word and in their order, and then drops the tables that are
not in the file, and does nothing else. -/
theorem C60_only_the_difference (fmtFloat : Str → Str) (mode : Mode) (hm : mode ≠ .postgres) (ts us : List Written.Table) (file dump : Str)
    (hf : Contains mode file (ts.map Sentence.table)) (hd : Contains mode dump (us.map Sentence.table))
    (ht : OrderlyTables mode ts) (hu : OrderlyTables mode us)
    (hs : ∀ u ∈ us, ∀ t ∈ ts, u.name.name = t.name.name → u = t) :
    generateIdempotentDDLs (Sql.env fmtFloat) mode file dump = .ok
      (((List.zip (statementTexts file) ts).filter fun p => p.2.name.name ∉ us.map (·.name.name)).map (·.1) ++
       (us.filter fun u => u.name.name ∉ ts.map (·.name.name)).map fun u => lit "DROP TABLE " ++ escapeTableName mode u.name.name) :=
  generate_tables fmtFloat hm hf hd ht hu hs

/-- **C60.** A run on a SQLite database that ends without an error leaves exactly the tables of the file behind. -/
theorem C60_sqlite_tables_of_the_file_are_there (fmtFloat : Str → Str) {σ : Type} (db : Db σ) (master : σ → List Lite.Object)
    (hdb : LiteServer db master) (s : σ) (ts us : List Written.Table) (hu : LiteCatalogSays (master s) us)
    (hou : OrderlyTables .sqlite3 us) (hot : OrderlyTables .sqlite3 ts)
    (hs : ∀ u ∈ us, ∀ t ∈ ts, u.name.name = t.name.name → u = t)
    (hq : ∀ u ∈ us, u.name.name ≠ [] ∧ '`' ∉ u.name.name)
    (hn : ∀ t ∈ ts, t.ifNotExists = false ∧ t.name.schema = none ∧ ¬ Reserved t.name.name)
    (fs : Files) (o : Options) (he : o.export_ = false) (hdry : o.dryRun = false) (hskip : o.skipDrop = false) (file : Str)
    (hr : readFile fs o.sqlFile = .ok file) (hf : Contains .sqlite3 file (ts.map Sentence.table))
    (hc : ∀ x ∈ statementTexts file, NoComment x)
    (herr : (run (Sql.env fmtFloat) .sqlite3 (Lite.database db master) fs o s).err = none) :
    ∃ ws, ws.Perm ts ∧ LiteCatalogSays (master (run (Sql.env fmtFloat) .sqlite3 (Lite.database db master) fs o s).state) ws :=
  lite_run fmtFloat hdb hu hou hot hs hq hn he hdry hskip hr hf hc herr

/-- **C60.** After a run on a SQLite database that ends without an error, the next run with the same statements, in whatever
layout, finds nothing to do. -/
theorem C60_sqlite_second_run_changes_nothing (fmtFloat : Str → Str) {σ : Type} (db : Db σ) (master : σ → List Lite.Object)
    (hdb : LiteServer db master) (s : σ) (ts us : List Written.Table) (hu : LiteCatalogSays (master s) us)
    (hou : OrderlyTables .sqlite3 us) (hot : OrderlyTables .sqlite3 ts)
    (hs : ∀ u ∈ us, ∀ t ∈ ts, u.name.name = t.name.name → u = t)
    (hq : ∀ u ∈ us, u.name.name ≠ [] ∧ '`' ∉ u.name.name)
    (hn : ∀ t ∈ ts, t.ifNotExists = false ∧ t.name.schema = none ∧ ¬ Reserved t.name.name)
    (fs : Files) (o : Options) (he : o.export_ = false) (hdry : o.dryRun = false) (hskip : o.skipDrop = false) (file : Str)
    (hr : readFile fs o.sqlFile = .ok file) (hf : Contains .sqlite3 file (ts.map Sentence.table))
    (hc : ∀ x ∈ statementTexts file, NoComment x) (s' : σ)
    (hrun : ∃ events, run (Sql.env fmtFloat) .sqlite3 (Lite.database db master) fs o s = { events, err := none, state := s' })
    (fs' : Files) (o' : Options) (he' : o'.export_ = false) (file' : Str) (hr' : readFile fs' o'.sqlFile = .ok file')
    (hf' : Contains .sqlite3 file' (ts.map Sentence.table)) :
    run (Sql.env fmtFloat) .sqlite3 (Lite.database db master) fs' o' s' =
      { events := [.readFile, .print (lit "-- Nothing is modified --\n")], err := none, state := s' } := by
  obtain ⟨events, hrun⟩ := hrun
  obtain ⟨ws, hp, hw⟩ := lite_run fmtFloat hdb hu hou hot hs hq hn he hdry hskip hr hf hc (by rw [hrun])
  rw [hrun] at hw
  exact C59_sqlite_described_schema_changes_nothing fmtFloat db master s' ws ts hw hp hot fs' o' he' file' hr' hf'

/-! ### Databases -/

/-- The answers of a MySQL server with two tables. -/
def exMyCatalog : My.Catalog where
  tables := [lit "posts", lit "users"]
  createTable n :=
    if n = lit "users" then txt "CREATE TABLE `users` (
  `id` bigint(20) NOT NULL AUTO_INCREMENT,
  `name` varchar(40) DEFAULT 'nobody',
  PRIMARY KEY (`id`),
  UNIQUE KEY `by_name` (`name`)
) ENGINE=InnoDB DEFAULT CHARSET=latin1"
    else txt "CREATE TABLE `posts` (
  `id` bigint(20) NOT NULL,
  `author` bigint(20) DEFAULT NULL,
  PRIMARY KEY (`id`),
  KEY `author` (`author`),
  CONSTRAINT `posts_ibfk_1` FOREIGN KEY (`author`) REFERENCES `users` (`id`) ON DELETE CASCADE
) ENGINE=InnoDB DEFAULT CHARSET=latin1"
  views := []
  triggers := []

/-- `ENGINE=InnoDB DEFAULT CHARSET=latin1` -/
def exMyOptions : List TableOption :=
  [{ first := .name (lit "ENGINE"), rest := [(true, .name (lit "InnoDB")), (false, .keyword "default"), (false, .keyword "charset"),
      (true, .name (lit "latin1"))] }]

/-- What the answers say. -/
def exMyTables : List Written.Table :=
  [{ name := { name := lit "posts" }, first := { name := lit "id", type := .integer "bigint" (some (lit "20")) false false, options := [.notNull] }
     rest :=
       [.column { name := lit "author", type := .integer "bigint" (some (lit "20")) false false, options := [.default none .none .null] },
        .index { head := .primary, first := { name := lit "id" } },
        .index { head := .plain false (lit "author") none, first := { name := lit "author" } },
        .foreignKey { constraint := some (txt "posts_ibfk_1"), first := lit "author", table := { name := lit "users" }, refFirst := lit "id",
                      actions := .delete .cascade }]
     options := exMyOptions },
   { name := { name := lit "users" }
     first := { name := lit "id", type := .integer "bigint" (some (lit "20")) false false, options := [.notNull, .autoIncrement true] }
     rest :=
       [.column { name := lit "name", type := .chars "varchar" (some (lit "40")) .none .none,
                  options := [.default none .none (.string (lit "nobody") .none)] },
        .index { head := .primary, first := { name := lit "id" } },
        .index { head := .unique (some false) (lit "by_name"), first := { name := lit "name" } }]
     options := exMyOptions }]

theorem exMyPosts_says : TextSays .mysql (exMyCatalog.createTable (lit "posts")) (.table exMyTables[0]) where
  tokens := ok_of_check (by decide +kernel)
  semicolon := by decide +kernel
  comment := by unfold NoComment; decide +kernel
  trimmed := by decide +kernel

theorem exMyUsers_says : TextSays .mysql (exMyCatalog.createTable (lit "users")) (.table exMyTables[1]) where
  tokens := ok_of_check (by decide +kernel)
  semicolon := by decide +kernel
  comment := by unfold NoComment; decide +kernel
  trimmed := by decide +kernel

theorem exMyCatalog_says : MyCatalogSays exMyCatalog exMyTables :=
  ⟨.cons exMyPosts_says (.cons exMyUsers_says .nil), rfl, rfl⟩

theorem exMyTables_orderly : OrderlyTables .mysql exMyTables where
  clear := by
    simp [exMyTables, exMyOptions, Sentence.Clear, Table.Clear, Col.Clear, Ty.Known, ColOption.Clear, integerWords, charWords, clearOptions, Item.Clear,
      IndexOpts.all, TableOption.Known, OptionWord.Known, optionWords, Sentence.InRange, Sentence.indexColumns, Item.indexColumns]
    refine ⟨fun c => ⟨?_, ?_⟩, fun c => ⟨?_, ?_⟩⟩
    all_goals
      rintro rfl n hn
      cases hn
  names := by decide
  tables := by
    intro t ht
    simp only [exMyTables, List.mem_cons, List.not_mem_nil, or_false] at ht
    rcases ht with rfl | rfl
    · exact ⟨by decide +kernel, by decide +kernel, by decide +kernel, by decide +kernel, by decide +kernel, fun _ => by decide +kernel⟩
    · exact ⟨by decide +kernel, by decide +kernel, by decide +kernel, by decide +kernel, by decide +kernel, fun _ => by decide +kernel⟩

/-- The hypotheses of C59 are met by this database, and the export is applied to it without a change. -/
example (fs fs' : Files) (o o' : Options) (hx : o.export_ = true) (hx' : o'.export_ = false) :
    ∃ text, run (Sql.env id) .mysql (My.database exServer fun _ => exMyCatalog) fs o () = { events := [.print text], err := none, state := () } ∧
      (readFile fs' o'.sqlFile = .ok text →
        run (Sql.env id) .mysql (My.database exServer fun _ => exMyCatalog) fs' o' () =
          { events := [.readFile, .print (lit "-- Nothing is modified --\n")], err := none, state := () }) :=
  C59_mysql_export_is_a_fixed_point id exServer (fun _ => exMyCatalog) () exMyTables exMyCatalog_says exMyTables_orderly fs fs' o o' hx hx'

/-- A small SQLite: the rows of `sqlite_master` as they were when the transaction began, and as they are. -/
def exLite : Db (List Lite.Object × List Lite.Object) where
  tableNames _ := .ok []
  dumpTableDDL _ _ := .ok []
  views _ := .ok []
  triggers _ := .ok []
  begin s := (none, (s.2, s.2))
  commit s := (none, s)
  rollback s := (none, (s.1, s.1))
  exec text s :=
    match tokenize .sqlite3 text with
    | .ok (a :: b :: c :: _) =>
      if a = kw "CREATE" ∧ b = kw "TABLE" then
        if c.val ∈ s.2.map (·.tblName) then (some (lit "table already exists"), s)
        else (none, (s.1, s.2 ++ [{ type := lit "table", tblName := c.val, sql := some text }]))
      else if a = kw "DROP" ∧ b = kw "TABLE" then
        if c.val ∈ s.2.map (·.tblName) then (none, (s.1, s.2.filter fun o => o.tblName ≠ c.val))
        else (some (lit "no such table"), s)
      else (some (txt "syntax error"), s)
    | _ => (some (txt "syntax error"), s)

theorem exLite_server : LiteServer exLite (·.2) where
  begins _ := rfl
  commits _ := rfl
  creates := by
    intro s text t ht hi hs he
    have hn : t.name.tokens = [nm t.name.name] := by
      unfold TableRef.tokens
      rw [hs]
      rfl
    obtain ⟨rest, hr⟩ : ∃ rest, (Sentence.table t).tokens = kw "CREATE" :: kw "TABLE" :: nm t.name.name :: rest := by
      simp only [Sentence.tokens, Written.Table.tokens, hi, hn]
      exact ⟨_, rfl⟩
    have hv : (nm t.name.name).val = t.name.name := rfl
    simp only [exLite, ht.tokens, hr, and_self, if_true, hv] at he ⊢
    split at he
    · cases he
    · rename_i hc
      rw [if_neg hc]
      exact ⟨text, [], rfl, ht, by simp⟩
  drops := by
    intro s n h1 h2 ⟨o, ho, _, e⟩ he
    have ht : tokenize .sqlite3 (lit "DROP TABLE `" ++ n ++ lit "`") = .ok [kw "DROP", kw "TABLE", nm n] := by
      refine tokenize_layout ?_
      have hq : Layout .sqlite3 ('`' :: n ++ ['`']) [nm n] := by
        have := lay_spells (mode := .sqlite3) (t := nm n) (rest := []) (.quoted (o := '`') (c := '`') (by decide) h1 (by simp)) lay_end
        rw [doubled_id h2, List.append_nil] at this
        exact this
      have h3 := lay_kw (mode := .sqlite3) "TABLE" (by decide +kernel) (endsWord_space _) (lay_space hq)
      have h4 := lay_kw (mode := .sqlite3) "DROP" (by decide +kernel) (endsWord_space _) (lay_space h3)
      simpa [lit] using h4
    have hne : kw "DROP" ≠ kw "CREATE" := by decide +kernel
    have hm : (nm n).val ∈ s.2.map (·.tblName) := List.mem_map.mpr ⟨o, ho, e⟩
    simp only [exLite, ht, hne, false_and, if_false, and_self, if_true, if_pos hm]
    rfl

/-- The tables of a file for SQLite. -/
def exLiteTables : List Written.Table :=
  [{ name := { name := lit "users" }
     first := { name := lit "id", type := .integer "integer" none false false, options := [.primaryKey, .autoIncrement false] }
     rest := [.column { name := lit "name", type := .text "text" .none .none, options := [.notNull, .default none .none (.string (lit "nobody") .none)] }] },
   { name := { name := lit "posts" }
     first := { name := lit "id", type := .integer "integer" none false false }
     rest :=
       [.column { name := lit "author", type := .integer "integer" none false false, options := [.references (lit "users") (some (lit "id", []))] },
        .index { head := .primary, first := { name := lit "id" }, rest := [{ name := lit "author" }] }] }]

/-- A table that is not in the file. -/
def exLiteOld : Written.Table :=
  { name := { name := lit "old logs" }, first := { name := lit "line", type := .text "text" .none .none } }

def exLiteFile : Str := txt "-- users
create table users (
  id integer primary key autoincrement,
  name text not null default 'nobody'
);

create table posts (
  id integer,
  author integer references users(id),
  primary key (id, author)
);
"

/-- The table of the users and another one, as they were once created, and a table that SQLite needs itself. -/
def exLiteMaster : List Lite.Object :=
  [{ type := lit "table", tblName := lit "old logs", sql := some (txt "CREATE TABLE \"old logs\" (line text)") },
   { type := lit "table", tblName := lit "users",
     sql := some (txt "CREATE TABLE `users` (id INTEGER PRIMARY KEY AUTOINCREMENT, \"name\" TEXT NOT NULL DEFAULT 'nobody')") },
   { type := lit "table", tblName := txt "sqlite_sequence", sql := some (txt "CREATE TABLE sqlite_sequence(name,seq)") },
   { type := lit "index", tblName := lit "users", sql := some (txt "CREATE INDEX by_name ON users (name)") }]

theorem exLiteTables_orderly : OrderlyTables .sqlite3 exLiteTables ∧ OrderlyTables .sqlite3 [exLiteOld, exLiteTables[0]] := by
  constructor
  · constructor
    · simp [exLiteTables, Sentence.Clear, Table.Clear, Col.Clear, Ty.Known, ColOption.Clear, integerWords, textWords, clearOptions, Item.Clear,
        IndexOpts.all, Sentence.InRange, Sentence.indexColumns, Item.indexColumns]
    · decide
    · intro t ht
      simp only [exLiteTables, List.mem_cons, List.not_mem_nil, or_false] at ht
      rcases ht with rfl | rfl
      all_goals exact ⟨by decide +kernel, by decide +kernel, by decide +kernel, by decide +kernel, by decide +kernel, fun h => by cases h⟩
  · constructor
    · simp [exLiteTables, exLiteOld, Sentence.Clear, Table.Clear, Col.Clear, Ty.Known, ColOption.Clear, integerWords, textWords, clearOptions, Item.Clear,
        IndexOpts.all, Sentence.InRange, Sentence.indexColumns, Item.indexColumns]
    · decide
    · intro t ht
      simp only [exLiteTables, List.mem_cons, List.not_mem_nil, or_false, List.getElem_cons_zero] at ht
      rcases ht with rfl | rfl
      all_goals exact ⟨by decide +kernel, by decide +kernel, by decide +kernel, by decide +kernel, by decide +kernel, fun h => by cases h⟩

theorem exLiteMaster_says : LiteCatalogSays exLiteMaster [exLiteOld, exLiteTables[0]] where
  tables := by
    rw [show (exLiteMaster.filter fun o => o.type = lit "table" ∧ ¬ Reserved o.tblName) = exLiteMaster.take 2 from rfl]
    exact .cons ⟨rfl, _, rfl, ok_of_check (by decide +kernel), by decide +kernel, by unfold NoComment; decide +kernel, by decide +kernel⟩
      (.cons ⟨rfl, _, rfl, ok_of_check (by decide +kernel), by decide +kernel, by unfold NoComment; decide +kernel, by decide +kernel⟩ .nil)
  first := by
    intro o ho ht
    simp only [exLiteMaster, List.mem_cons, List.not_mem_nil, or_false] at ho
    rcases ho with rfl | rfl | rfl | rfl
    · rfl
    · rfl
    · rfl
    · exact absurd ht (by decide)
  owned := by
    intro o ho
    simp only [exLiteMaster, List.mem_cons, List.not_mem_nil, or_false] at ho
    rcases ho with rfl | rfl | rfl | rfl
    all_goals simp [exLiteMaster]
  views := by
    intro o ho
    simp only [exLiteMaster, List.mem_cons, List.not_mem_nil, or_false] at ho
    rcases ho with rfl | rfl | rfl | rfl <;> decide

theorem exLiteFile_contains : Contains .sqlite3 exLiteFile (exLiteTables.map Sentence.table) ∧ ∀ x ∈ statementTexts exLiteFile, NoComment x := by
  have e : statementTexts exLiteFile = [txt "create table users (
  id integer primary key autoincrement,
  name text not null default 'nobody'
)", txt "create table posts (
  id integer,
  author integer references users(id),
  primary key (id, author)
)"] := by decide +kernel
  unfold Contains NoComment
  rw [e]
  exact ⟨.cons (ok_of_check (by decide +kernel)) (.cons (ok_of_check (by decide +kernel)) .nil), by decide +kernel⟩

/-- Standard input with the file. -/
def exLiteFiles : Files where
  read _ := .error (txt "no such file")
  stdinIsTerminal := false
  stdin := .ok exLiteFile

def exLiteOptions : Options where
  sqlFile := lit "-"
  dryRun := false
  export_ := false
  skipDrop := false

deriving instance DecidableEq for Lite.Object

theorem outcome_of_check {σ : Type} [DecidableEq σ] {x y : Outcome σ} (h : decide (x.events = y.events ∧ x.err = y.err ∧ x.state = y.state) = true) :
    x = y := by
  obtain ⟨h1, h2, h3⟩ := of_decide_eq_true h
  cases x
  cases y
  simp_all

/-- What the run does: it creates the table of the posts as in the file and drops the other table. -/
theorem exLite_first_run : run (Sql.env id) .sqlite3 (Lite.database exLite (·.2)) exLiteFiles exLiteOptions (exLiteMaster, exLiteMaster) =
    { events := [.readFile, .begin none, .print (txt "-- Apply --\n"),
        .print (txt "create table posts (
  id integer,
  author integer references users(id),
  primary key (id, author)
);
"), .exec (txt "create table posts (
  id integer,
  author integer references users(id),
  primary key (id, author)
)") none, .print (txt "DROP TABLE `old logs`;\n"), .exec (txt "DROP TABLE `old logs`") none, .commit none]
      err := none
      state := (exLiteMaster, exLiteMaster.drop 1 ++ [{ type := lit "table", tblName := lit "posts", sql := some (txt "create table posts (
  id integer,
  author integer references users(id),
  primary key (id, author)
)") }]) } :=
  outcome_of_check (by decide +kernel)

/-- The hypotheses of C60 are met: the second run finds nothing to do. -/
example : run (Sql.env id) .sqlite3 (Lite.database exLite (·.2)) exLiteFiles exLiteOptions
      (run (Sql.env id) .sqlite3 (Lite.database exLite (·.2)) exLiteFiles exLiteOptions (exLiteMaster, exLiteMaster)).state =
    { events := [.readFile, .print (lit "-- Nothing is modified --\n")], err := none,
      state := (run (Sql.env id) .sqlite3 (Lite.database exLite (·.2)) exLiteFiles exLiteOptions (exLiteMaster, exLiteMaster)).state } := by
  refine C60_sqlite_second_run_changes_nothing id exLite (·.2) exLite_server (exLiteMaster, exLiteMaster) exLiteTables
    [exLiteOld, exLiteTables[0]] exLiteMaster_says exLiteTables_orderly.2 exLiteTables_orderly.1 ?_ ?_ ?_
    exLiteFiles exLiteOptions rfl rfl rfl exLiteFile rfl exLiteFile_contains.1 exLiteFile_contains.2 _
    ⟨_, by rw [exLite_first_run]⟩ exLiteFiles exLiteOptions rfl exLiteFile rfl exLiteFile_contains.1
  · intro u hu t ht e
    simp only [exLiteTables, List.mem_cons, List.not_mem_nil, or_false, List.getElem_cons_zero] at hu ht
    rcases hu with rfl | rfl <;> rcases ht with rfl | rfl <;> first | rfl | exact absurd e (by decide)
  · decide
  · decide

/-! ### Limits -/

theorem unreadable {mode : Mode} {text : Str} (h : (parseDDLs (Sql.env id) mode text).toOption = none) (desired : Str) :
    ∃ e, generateIdempotentDDLs (Sql.env id) mode desired text = .error e := by
  cases hd : parseDDLs (Sql.env id) mode desired with
  | error e => exact ⟨e, by unfold generateIdempotentDDLs; rw [hd]; rfl⟩
  | ok ds =>
    cases hc : parseDDLs (Sql.env id) mode text with
    | ok cs => rw [hc] at h; cases h
    | error e => exact ⟨e, by unfold generateIdempotentDDLs; rw [hd, hc]; rfl⟩

/-- Answers of MySQL that the tool cannot read: a column that is computed, a semicolon in a comment, a CHECK of the table, a
partitioned table, an index of an expression, an index or a column that is invisible, a default that is an expression. -/
def unreadableMysql : List Str :=
  [txt "CREATE TABLE `t` (\n  `a` int DEFAULT NULL,\n  `b` int GENERATED ALWAYS AS ((`a` * 2)) VIRTUAL\n) ENGINE=InnoDB",
   txt "CREATE TABLE `t` (\n  `a` int DEFAULT NULL COMMENT 'x;y'\n) ENGINE=InnoDB",
   txt "CREATE TABLE `t` (\n  `a` int DEFAULT NULL,\n  CONSTRAINT `c` CHECK ((`a` > 0))\n) ENGINE=InnoDB",
   txt "CREATE TABLE `t` (\n  `a` int DEFAULT NULL\n) ENGINE=InnoDB\n/*!50100 PARTITION BY HASH (`a`)\nPARTITIONS 4 */",
   txt "CREATE TABLE `t` (\n  `a` int DEFAULT NULL,\n  KEY `k` (((`a` + 1)))\n) ENGINE=InnoDB",
   txt "CREATE TABLE `t` (\n  `a` int DEFAULT NULL,\n  KEY `k` (`a`) /*!80000 INVISIBLE */\n) ENGINE=InnoDB",
   txt "CREATE TABLE `t` (\n  `a` int DEFAULT NULL /*!80023 INVISIBLE */\n) ENGINE=InnoDB",
   txt "CREATE TABLE `t` (\n  `a` varchar(36) DEFAULT (uuid())\n) ENGINE=InnoDB"]

/-- **C59, a limit.** If MySQL describes a table in one of these ways, then whatever schema is desired, the run ends with an
error, even if the desired schema leaves the table alone. -/
theorem C59_some_mysql_tables_cannot_be_read : ∀ text ∈ unreadableMysql,
    dumpDDLs (My.database exServer fun _ => { tables := [lit "t"], createTable := fun _ => text, views := [], triggers := [] }) () = .ok text ∧
      ∀ desired, ∃ e, generateIdempotentDDLs (Sql.env id) .mysql desired text = .error e := by
  have all : ∀ text ∈ unreadableMysql, (parseDDLs (Sql.env id) .mysql text).toOption.isNone = true := by decide +kernel
  exact fun text h => ⟨rfl, unreadable (by simpa using all text h)⟩

/-- Tables of SQLite that the tool cannot read: UNIQUE, FOREIGN KEY and CHECK of the table without a name, columns without a
type, virtual tables. -/
def unreadableSqlite : List Str :=
  [txt "CREATE TABLE t (a integer, b text, UNIQUE (b))", txt "CREATE TABLE t (a integer, FOREIGN KEY (a) REFERENCES u (x))",
   txt "CREATE TABLE t (a integer, CHECK (a > 0))", txt "CREATE TABLE t (a, b)", txt "CREATE VIRTUAL TABLE t USING fts5(a)"]

/-- **C59, a limit.** If SQLite keeps a table in one of these ways, then whatever schema is desired, the run ends with an
error. -/
theorem C59_some_sqlite_tables_cannot_be_read : ∀ text ∈ unreadableSqlite,
    dumpDDLs (Lite.database exServer fun _ => [{ type := lit "table", tblName := lit "t", sql := some text }]) () = .ok text ∧
      ∀ desired, ∃ e, generateIdempotentDDLs (Sql.env id) .sqlite3 desired text = .error e := by
  have all : ∀ text ∈ unreadableSqlite, (parseDDLs (Sql.env id) .sqlite3 text).toOption.isNone = true := by decide +kernel
  exact fun text h => ⟨rfl, unreadable (by simpa using all text h)⟩

/-- **C59, a limit.** The indexes of a SQLite database that are no part of a CREATE TABLE are never seen: with such rows or
without them, the database is described in the same way (if there is no view, and the row of a table comes first). -/
theorem C59_sqlite_indexes_are_invisible {σ : Type} (db : Db σ) (objects : List Lite.Object)
    (hf : ∀ o ∈ objects, o.type = lit "table" → objects.find? (fun p => p.tblName = o.tblName) = some o)
    (hv : ∀ o ∈ objects, o.type ≠ lit "view") (s : σ) :
    dumpDDLs (Lite.database db fun _ => objects) s = dumpDDLs (Lite.database db fun _ => objects.filter fun o => o.type = lit "table") s := by
  have e1 : Lite.tableNames (objects.filter fun o => o.type = lit "table") = Lite.tableNames objects := by
    unfold Lite.tableNames
    rw [List.filter_filter]
    congr 1
    refine List.filter_congr fun o _ => ?_
    by_cases h : o.type = lit "table" <;> simp [h]
  have e2 : ∀ l : List Lite.Object, (∀ o ∈ l, o.type ≠ lit "view") → Lite.views l = [] := by
    intro l hl
    unfold Lite.views
    rw [List.filter_eq_nil_iff.mpr (by simpa using hl)]
    rfl
  have e3 : ∀ n ∈ Lite.tableNames objects, Lite.dumpTableDDL objects n = Lite.dumpTableDDL (objects.filter fun o => o.type = lit "table") n := by
    intro n hn
    unfold Lite.tableNames at hn
    obtain ⟨o, ho, rfl⟩ := List.mem_map.mp hn
    obtain ⟨h1, h2⟩ := List.mem_filter.mp ho
    have h2 := (of_decide_eq_true h2).1
    have h3 := hf o h1 h2
    unfold Lite.dumpTableDDL
    rw [List.find?_filter, h3]
    have : objects.find? (fun p => decide (decide (p.type = lit "table") = true ∧ decide (p.tblName = o.tblName) = true)) = some o := by
      rw [List.find?_eq_some_iff_append] at h3 ⊢
      obtain ⟨h4, as, bs, h5, h6⟩ := h3
      refine ⟨by simp [h2], as, bs, h5, fun a ha => ?_⟩
      have := h6 a ha
      simp only [Bool.not_eq_eq_eq_not, Bool.not_true, decide_eq_false_iff_not, decide_eq_true_eq, not_and] at this ⊢
      exact fun _ => this
    rw [this]
  unfold dumpDDLs
  change (Except.ok (Lite.tableNames objects) >>= _) = (Except.ok (Lite.tableNames (objects.filter _)) >>= _)
  rw [e1]
  have e4 : ∀ l, (∀ n ∈ l, Lite.dumpTableDDL objects n = Lite.dumpTableDDL (objects.filter fun o => o.type = lit "table") n) →
      dumpTables (Lite.database db fun _ => objects) s l =
        dumpTables (Lite.database db fun _ => objects.filter fun o => o.type = lit "table") s l := by
    intro l hl
    induction l with
    | nil => rfl
    | cons n l ih =>
      simp only [dumpTables]
      rw [ih fun m hm => hl m (by simp [hm])]
      rw [show (Lite.database db fun _ => objects).dumpTableDDL s n = Lite.dumpTableDDL objects n from rfl, hl n (by simp)]
      rfl
  have e5 : (Lite.database db fun _ => objects).views s =
      (Lite.database db fun _ => objects.filter fun o => o.type = lit "table").views s := by
    show Except.ok (Lite.views objects) = Except.ok (Lite.views (objects.filter _))
    rw [e2 _ hv, e2 _ fun o ho => hv o (List.mem_filter.mp ho).1]
  simp only [bind, Except.bind, e4 _ e3, e5]
  rfl

/-- **C59, a limit.** So an index of a file for SQLite is created by every run, although it is there, and the run fails. -/
theorem C59_sqlite_index_is_created_again : ∃ text, dumpDDLs (Lite.database exLite (·.2)) (exLiteMaster, exLiteMaster) = .ok text ∧
    generateIdempotentDDLs (Sql.env id) .sqlite3 (exLiteFile ++ txt "CREATE INDEX by_name ON users (name);") text =
      .ok [txt "create table posts (
  id integer,
  author integer references users(id),
  primary key (id, author)
)", txt "CREATE INDEX by_name ON users (name)", txt "DROP TABLE `old logs`"] :=
  ⟨txt "CREATE TABLE \"old logs\" (line text);

CREATE TABLE `users` (id INTEGER PRIMARY KEY AUTOINCREMENT, \"name\" TEXT NOT NULL DEFAULT 'nobody')", dumped_of_check (by decide +kernel),
    ok_of_check (by decide +kernel)⟩

/-- **C59, a limit.** Tables whose name begins with `sqlite` and is longer are not seen, even if SQLite does not keep the name
for itself: whatever the row is, there is no such table in the dump. -/
theorem C59_sqlite_prefix_is_invisible (objects : List Lite.Object) (n : Str) (h : Reserved n) : n ∉ Lite.tableNames objects := by
  intro hn
  unfold Lite.tableNames at hn
  obtain ⟨o, ho, rfl⟩ := List.mem_map.mp hn
  have := of_decide_eq_true (List.mem_filter.mp ho).2
  exact this.2 ((reserved_test _).mpr h)

example : Reserved (lit "sqlites") ∧ Reserved (txt "SQLite files") ∧ ¬ Reserved (lit "sqlite") := by decide

end Sqldef
