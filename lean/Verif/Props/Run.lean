import Mathlib.Data.List.Forall2
import Verif.Spec.Runner
import Verif.Proofs.StrLemmas
/-!
Properties C01-C10: the command as a whole (`/repo/sqldef.go`, `/repo/adapter/database.go`).
All theorems hold for every database (an arbitrary state machine), every behaviour of the SQL
grammar and every content of the files.
-/
namespace Sqldef
open Spec

variable {σ : Type}

theorem kept_eq (skipDrop : Bool) (ddls : List Str) :
    kept skipDrop ddls = ddls.filter fun d => !isSkipped skipDrop d := by
  unfold kept
  congr 1
  funext d
  unfold isSkipped
  have := contains_iff (lit "DROP") d
  cases skipDrop <;> cases hc : contains (lit "DROP") d <;> simp_all

theorem announced_eq (skipDrop : Bool) (d : Str) :
    announced skipDrop d = if isSkipped skipDrop d then showSkipped d else showStmt d := by
  unfold announced isSkipped showSkipped showStmt
  have := contains_iff (lit "DROP") d
  cases skipDrop <;> cases hc : contains (lit "DROP") d <;> simp_all

/-! ### C01 -/

/-- **C01.** With dry-run the command makes no call that can change the database, and the state of the
database is unchanged. -/
theorem C01_dryRun_executes_nothing (env : Env) (mode : Mode) (db : Db σ) (fs : Files) (o : Options) (s : σ)
    (h : o.dryRun = true) :
    (∀ e ∈ (run env mode db fs o s).events, Event.touchesDb e = false) ∧
    (run env mode db fs o s).state = s := by
  unfold run
  simp only [h, if_true]
  split
  · simp
  split
  · simp [Event.touchesDb]
  split
  · simp [Event.touchesDb]
  split
  · simp [Event.touchesDb]
  split
  · simp [Event.touchesDb]
  · simp [showDDLs, showLines, Event.touchesDb]

/-! ### C02 -/

/-- **C02.** With export the only effect is one printed text, the dump (or the message that there is no
table); the file is not read and the database is not touched. -/
theorem C02_export_prints_dump (env : Env) (mode : Mode) (db : Db σ) (fs : Files) (o : Options) (s : σ)
    (h : o.export_ = true) (dump : Str) (hd : dumpDDLs db s = .ok dump) :
    run env mode db fs o s =
      { events := [.print (if dump = [] then lit "-- No table exists --\n" else dump ++ lit ";\n")],
        err := none, state := s } := by
  simp [run, hd, h]

/-- **C02.** The outcome of an export does not depend on the files, on the SQL grammar, on the dialect or
on the other options, also if the dump fails. -/
theorem C02_export_ignores_file (env env' : Env) (mode mode' : Mode) (db : Db σ) (fs fs' : Files)
    (o o' : Options) (s : σ) (h : o.export_ = true) (h' : o'.export_ = true) :
    run env mode db fs o s = run env' mode' db fs' o' s := by
  simp [run, h, h']

/-! ### C04, C05: the trace of an application -/

/-- The events of executing `ddls` successfully. -/
private theorem runLoop_executed_prefix (db : Db σ) (skipDrop : Bool) (ddls : List Str) (s : σ) :
    executed (runLoop db skipDrop ddls s).events <+: ddls.filter (fun d => !isSkipped skipDrop d) := by
  induction ddls generalizing s with
  | nil => simp [runLoop, executed]
  | cons d ds ih =>
    simp only [runLoop]
    split
    · next h => simp [executed, h]; exact ih s
    · next h =>
      have h' : isSkipped skipDrop d = false := by simpa using h
      split
      · next e s' he => simp [executed, h']
      · next s' he => simp [executed, h']; exact ih s'

/-- **C04.** Whatever the database does, the statements executed are a prefix of the generated list
without the skipped ones, in the generated order. -/
theorem C04_executed_prefix (db : Db σ) (ddls : List Str) (skipDrop : Bool) (s : σ) :
    executed (runDDLs db ddls skipDrop s).events <+: kept skipDrop ddls := by
  rw [kept_eq]
  unfold runDDLs
  split
  · simp [executed]
  · simp [executed]; exact runLoop_executed_prefix _ _ _ _

private theorem runLoop_after_failure (db : Db σ) (skipDrop : Bool) (ddls : List Str) (s : σ)
    (pre post : List Event) (sql e : Str)
    (h : (runLoop db skipDrop ddls s).events = pre ++ .exec sql (some e) :: post) :
    (∃ re, post = [.rollback re]) ∧ (runLoop db skipDrop ddls s).err = some (.database e) := by
  induction ddls generalizing s pre with
  | nil =>
    simp only [runLoop] at h
    cases pre with
    | nil => simp at h
    | cons a as => simp at h
  | cons d ds ih =>
    simp only [runLoop] at h ⊢
    split
    · next hs =>
      rw [if_pos hs] at h
      cases pre with
      | nil => simp at h
      | cons a as =>
        simp at h
        exact ih s as h.2
    · next hs =>
      rw [if_neg hs] at h
      revert h
      split
      · next e' s' he =>
        intro h
        match pre with
        | [] => simp at h
        | [a] => simp at h; obtain ⟨rfl, ⟨rfl, rfl⟩, rfl⟩ := h; exact ⟨⟨_, rfl⟩, rfl⟩
        | [a, b] => simp at h
        | a :: b :: c :: r => simp at h
      · next s' he =>
        intro h
        match pre with
        | [] => simp at h
        | [a] => simp at h
        | a :: b :: r => simp at h; exact ih s' r h.2.2

/-- **C04, C05.** After a failing statement there is exactly one more call, the rollback; the error of the
statement is the error of the command. In particular nothing is executed or committed afterwards. -/
theorem C05_failure_rolls_back (db : Db σ) (ddls : List Str) (skipDrop : Bool) (s : σ)
    (pre post : List Event) (sql e : Str)
    (h : (runDDLs db ddls skipDrop s).events = pre ++ .exec sql (some e) :: post) :
    (∃ re, post = [.rollback re]) ∧ (runDDLs db ddls skipDrop s).err = some (.database e) := by
  unfold runDDLs at h ⊢
  split
  · next e' s' hb =>
    rw [hb] at h
    match pre with
    | [] => simp at h
    | a :: r => simp at h
  · next s' hb =>
    rw [hb] at h
    match pre with
    | [] => simp at h
    | [a] => simp at h
    | a :: b :: r => simp at h; exact runLoop_after_failure db skipDrop ddls s' r post sql e h.2.2

/-- The calls to the database when nothing fails: begin, every statement that is not skipped, commit. -/
def Spec.successCalls (skipDrop : Bool) (ddls : List Str) (commitErr : Option Str) : List Event :=
  .begin none :: ((kept skipDrop ddls).map fun d => .exec d none) ++ [.commit commitErr]

private theorem runLoop_success (db : Db σ) (skipDrop : Bool) (ddls : List Str) (s : σ)
    (h : (runLoop db skipDrop ddls s).err = none) :
    ∃ ce, (runLoop db skipDrop ddls s).events.filter Event.touchesDb =
      ((ddls.filter fun d => !isSkipped skipDrop d).map fun d => Event.exec d none) ++ [.commit ce] := by
  induction ddls generalizing s with
  | nil => exact ⟨(db.commit s).1, by simp [runLoop, Event.touchesDb]⟩
  | cons d ds ih =>
    simp only [runLoop] at h ⊢
    split
    · next hs =>
      rw [if_pos hs] at h
      obtain ⟨ce, hce⟩ := ih s h
      exact ⟨ce, by simp [hs, Event.touchesDb, hce]⟩
    · next hs =>
      rw [if_neg hs] at h
      have hs' : isSkipped skipDrop d = false := by simpa using hs
      revert h
      split
      · next e' s' he => intro h; simp at h
      · next s' he =>
        intro h
        obtain ⟨ce, hce⟩ := ih s' h
        exact ⟨ce, by simp [hs', Event.touchesDb, List.filter_cons, hce]⟩

/-- **C05.** If the application reports success, the calls to the database were exactly: begin, all
statements that are not skipped in order and each successful, and one commit at the end. -/
theorem C05_success_commits_once (db : Db σ) (ddls : List Str) (skipDrop : Bool) (s : σ)
    (h : (runDDLs db ddls skipDrop s).err = none) :
    ∃ commitErr, (runDDLs db ddls skipDrop s).events.filter Event.touchesDb =
      Spec.successCalls skipDrop ddls commitErr := by
  unfold runDDLs at h ⊢
  split
  · next e s' hb => rw [hb] at h; simp at h
  · next s' hb =>
    rw [hb] at h
    obtain ⟨ce, hce⟩ := runLoop_success db skipDrop ddls s' h
    exact ⟨ce, by simp [Spec.successCalls, kept_eq, Event.touchesDb, List.filter_cons, hce]⟩

private theorem runLoop_tx {C : Type} (t : TxDb C) (skipDrop : Bool) (ddls : List Str) (c w : C) :
    (runLoop t.toDb skipDrop ddls (c, some w)).state =
      match applyAll t (ddls.filter fun d => !isSkipped skipDrop d) w with
      | none => (c, none)
      | some w' => if t.commitOk w' then (w', none) else (c, none) := by
  induction ddls generalizing w with
  | nil =>
    simp only [runLoop, TxDb.toDb, applyAll, List.filter_nil]
    split <;> rfl
  | cons d ds ih =>
    simp only [runLoop]
    split
    · next hs => simp [hs, ih]
    · next hs =>
      have hs' : isSkipped skipDrop d = false := by simpa using hs
      simp only [hs', Bool.not_false, List.filter_cons_of_pos, applyAll]
      cases ha : t.apply d w with
      | none => simp [TxDb.toDb, ha]
      | some w' =>
        have := ih w'
        simp only [TxDb.toDb, ha, Option.bind] at this ⊢
        exact this

/-- **C05.** On a transactional database the catalogue after an application is either the result of all the
statements (in order, without the skipped ones) or exactly the catalogue before; and no transaction is left
open. -/
theorem C05_all_or_nothing {C : Type} (t : TxDb C) (ddls : List Str) (skipDrop : Bool) (c : C) :
    ((runDDLs t.toDb ddls skipDrop (c, none)).state = (c, none)) ∨
    ∃ c', applyAll t (kept skipDrop ddls) c = some c' ∧
      (runDDLs t.toDb ddls skipDrop (c, none)).state = (c', none) := by
  rw [kept_eq]
  have hb : t.toDb.begin (c, none) = if t.beginOk c then (none, (c, some c)) else (some (lit "begin failed"), (c, none)) := rfl
  unfold runDDLs
  rw [hb]
  by_cases hok : t.beginOk c
  · simp only [hok, if_true]
    rw [runLoop_tx]
    cases applyAll t (ddls.filter fun d => !isSkipped skipDrop d) c with
    | none => simp
    | some c' =>
      by_cases hc : t.commitOk c'
      · right; exact ⟨c', rfl, by simp [hc]⟩
      · left; simp [hc]
  · left; simp [hok]

/-- **C05.** On a transactional database that can begin and commit, the application ends with the result of
all the statements if none of them fails, and with the unchanged catalogue and an error if one of them
fails. -/
theorem C05_commit_iff_all_succeed {C : Type} (t : TxDb C) (ddls : List Str) (skipDrop : Bool) (c : C)
    (hb : t.beginOk c = true) (hc : ∀ c, t.commitOk c = true) :
    match applyAll t (kept skipDrop ddls) c with
    | some c' => (runDDLs t.toDb ddls skipDrop (c, none)).state = (c', none)
    | none => (runDDLs t.toDb ddls skipDrop (c, none)).state = (c, none) := by
  rw [kept_eq]
  have hb' : t.toDb.begin (c, none) = (none, (c, some c)) := by simp [TxDb.toDb, hb]
  unfold runDDLs
  rw [hb']
  simp only [runLoop_tx]
  cases applyAll t (ddls.filter fun d => !isSkipped skipDrop d) c <;> simp [hc]

/-! ### C06 -/

/-- A database on which everything works but the commit. -/
def Spec.commitFails : Db Unit where
  tableNames _ := .ok []
  dumpTableDDL _ _ := .ok []
  views _ := .ok []
  triggers _ := .ok []
  begin s := (none, s)
  exec _ s := (none, s)
  rollback s := (none, s)
  commit s := (some (lit "serialization failure"), s)

/-- **C06 is violated**: there are a database and a list of statements such that the commit fails and the
application nevertheless reports success (`/repo/adapter/database.go:77` discards the error). -/
theorem C06_commit_error_is_lost :
    ∃ (db : Db Unit) (ddls : List Str),
      (∃ m, Event.commit (some m) ∈ (runDDLs db ddls false ()).events) ∧
      (runDDLs db ddls false ()).err = none :=
  ⟨Spec.commitFails, [lit "CREATE TABLE t (id int)"], ⟨lit "serialization failure", by
    simp [runDDLs, runLoop, Spec.commitFails, isSkipped]⟩, by
    simp [runDDLs, runLoop, Spec.commitFails, isSkipped]⟩

/-- **C06, partial.** If the application reports success and no commit of the trace failed, then all the
statements that are not skipped were executed successfully and committed. Missing: the case of a failing
commit, where the code reports success all the same. -/
theorem C06_success_means_committed_partial (db : Db σ) (ddls : List Str) (skipDrop : Bool) (s : σ)
    (h : (runDDLs db ddls skipDrop s).err = none)
    (hc : ∀ m, Event.commit (some m) ∉ (runDDLs db ddls skipDrop s).events) :
    (runDDLs db ddls skipDrop s).events.filter Event.touchesDb =
      .begin none :: ((kept skipDrop ddls).map fun d => .exec d none) ++ [.commit none] := by
  obtain ⟨ce, hce⟩ := C05_success_commits_once db ddls skipDrop s h
  rw [hce]
  cases ce with
  | none => rfl
  | some m =>
    exfalso
    apply hc m
    have : Event.commit (some m) ∈ (runDDLs db ddls skipDrop s).events.filter Event.touchesDb := by
      rw [hce]; simp [Spec.successCalls]
    exact (List.mem_filter.1 this).1

/-! ### C07 -/

private theorem runLoop_printed (db : Db σ) (skipDrop : Bool) (ddls : List Str) (s : σ)
    (h : (runLoop db skipDrop ddls s).err = none) :
    printed (runLoop db skipDrop ddls s).events = printed (showLines skipDrop ddls) := by
  induction ddls generalizing s with
  | nil => simp [runLoop, printed, showLines]
  | cons d ds ih =>
    simp only [runLoop] at h ⊢
    split
    · next hs =>
      rw [if_pos hs] at h
      have := ih s h
      simp [printed, this, showLines, hs]
    · next hs =>
      rw [if_neg hs] at h
      have hs' : isSkipped skipDrop d = false := by simpa using hs
      revert h
      split
      · next e' s' he => intro h; simp at h
      · next s' he =>
        intro h
        have := ih s' h
        simp [printed, this, showLines, hs']

/-- **C07.** If applying reports success, it prints after its header exactly the lines that a dry run with
the same inputs prints after its header. -/
theorem C07_dryRun_shows_apply (env : Env) (mode : Mode) (db : Db σ) (fs : Files) (o : Options) (s : σ)
    (he : o.export_ = false) (ha : o.dryRun = false)
    (hok : (run env mode db fs o s).err = none)
    (hmod : printed (run env mode db fs o s).events ≠ [lit "-- Nothing is modified --\n"]) :
    ∃ lines : List Str,
      printed (run env mode db fs o s).events = lit "-- Apply --\n" :: lines ∧
      printed (run env mode db fs { o with dryRun := true } s).events = lit "-- dry run --\n" :: lines := by
  cases hd : dumpDDLs db s with
  | error m => simp [run, hd] at hok
  | ok dump =>
    cases hf : readFile fs o.sqlFile with
    | error m => simp [run, hd, hf, he] at hok
    | ok desired =>
      cases hg : generateIdempotentDDLs env mode desired dump with
      | error e => simp [run, hd, hf, he, hg] at hok
      | ok ddls =>
        by_cases hn : ddls = []
        · simp [run, hd, hf, he, hg, hn, printed] at hmod
        · cases hb : db.begin s with
          | mk e s' =>
            cases e with
            | some m => simp [run, hd, hf, he, hg, hn, ha, runDDLs, hb] at hok
            | none =>
              simp [run, hd, hf, he, hg, hn, ha, runDDLs, hb] at hok
              refine ⟨printed (showLines o.skipDrop ddls), ?_, ?_⟩
              · simp only [run, hd, hf, he, hg, hn, ha, runDDLs, hb, printed, if_false, Bool.false_eq_true]
                rw [runLoop_printed db o.skipDrop ddls s' hok]
              · simp [run, hd, hf, he, hg, hn, showDDLs, printed]

/-- **C07.** And the statements that such a successful application executes are exactly those that the dry
run shows without the skip mark, in the same order: every line is either `<statement>;` of an executed
statement or `-- Skipped: <statement>;` of a skipped one. -/
theorem C07_lines_are_statements (db : Db σ) (ddls : List Str) (skipDrop : Bool) (s : σ)
    (hok : (runDDLs db ddls skipDrop s).err = none) :
    printed (showDDLs skipDrop ddls) = lit "-- dry run --\n" ::
        ddls.map (announced skipDrop) ∧
    executed (runDDLs db ddls skipDrop s).events = kept skipDrop ddls := by
  constructor
  · rw [show announced skipDrop = fun d => if isSkipped skipDrop d then showSkipped d else showStmt d from
      funext (announced_eq skipDrop)]
    have : ∀ l : List Str, printed (showLines skipDrop l) =
        l.map fun d => if isSkipped skipDrop d then showSkipped d else showStmt d := by
      intro l
      induction l with
      | nil => rfl
      | cons d ds ih => simp only [showLines, List.map_cons, printed] at ih ⊢; rw [ih]
    simp only [showDDLs, printed, this]
  · obtain ⟨ce, hce⟩ := C05_success_commits_once db ddls skipDrop s hok
    have key : ∀ es : List Event, executed es = executed (es.filter Event.touchesDb) := by
      intro es
      induction es with
      | nil => rfl
      | cons e es ih => cases e <;> simp [executed, Event.touchesDb, List.filter_cons, ih]
    have key2 : ∀ l : List Str, ∀ ce, executed (l.map (fun d => Event.exec d none) ++ [.commit ce]) = l := by
      intro l ce
      induction l with
      | nil => rfl
      | cons d ds ih => simp only [List.map_cons, List.cons_append, executed, ih]
    rw [key, hce]
    simp only [Spec.successCalls, List.cons_append, executed, key2]

/-! ### C08 -/

/-- **C08.** If the dump fails, the file cannot be read, or the generation (parsing included) fails, the
command fails, does not touch the database and leaves its state unchanged. -/
theorem C08_invalid_input_changes_nothing (env : Env) (mode : Mode) (db : Db σ) (fs : Files) (o : Options) (s : σ)
    (hx : o.export_ = false)
    (h : (∃ m, dumpDDLs db s = .error m) ∨ (∃ m, readFile fs o.sqlFile = .error m) ∨
      (∃ desired current e, readFile fs o.sqlFile = .ok desired ∧ dumpDDLs db s = .ok current ∧
        generateIdempotentDDLs env mode desired current = .error e)) :
    (run env mode db fs o s).err ≠ none ∧
    (∀ e ∈ (run env mode db fs o s).events, Event.touchesDb e = false) ∧
    (run env mode db fs o s).state = s := by
  unfold run
  split
  · simp
  next dump hd =>
    simp only [hx]
    rcases h with ⟨m, h⟩ | ⟨m, h⟩ | ⟨desired, current, e, h1, h2, h3⟩
    · rw [hd] at h; cases h
    · simp [h, Event.touchesDb]
    · rw [hd] at h2; cases h2
      simp [h1, h3, Event.touchesDb]

/-- **C08.** If the file is to be read from the standard input and that is a terminal, the command fails and changes
nothing. -/
theorem C08_terminal_is_refused (env : Env) (mode : Mode) (db : Db σ) (fs : Files) (o : Options) (s : σ)
    (hx : o.export_ = false) (hp : o.sqlFile = lit "-") (ht : fs.stdinIsTerminal = true) :
    (run env mode db fs o s).err ≠ none ∧
    (∀ e ∈ (run env mode db fs o s).events, Event.touchesDb e = false) ∧
    (run env mode db fs o s).state = s :=
  C08_invalid_input_changes_nothing env mode db fs o s hx
    (.inr (.inl ⟨lit "stdin is not piped", by simp [readFile, hp, ht]⟩))

/-- **C08.** The desired schema is the content of the named file, or of the standard input if the name is `-`. -/
theorem C08_desired_schema_source (fs : Files) (path : Str) :
    (path ≠ lit "-" → readFile fs path = fs.read path) ∧
    (fs.stdinIsTerminal = false → readFile fs (lit "-") = fs.stdin) := by
  constructor
  · intro h; simp [readFile, h]
  · intro h; simp [readFile, h]

/-- **C08.** An error in either schema text is an error of the generation. -/
theorem C08_parse_error_is_error (env : Env) (mode : Mode) (desired current : Str)
    (h : (∃ e, parseDDLs env mode desired = .error e) ∨ (∃ e, parseDDLs env mode current = .error e)) :
    ∃ e, generateIdempotentDDLs env mode desired current = .error e := by
  unfold generateIdempotentDDLs
  rcases h with ⟨e, h⟩ | ⟨e, h⟩
  · exact ⟨e, by simp [h, bind, Except.bind]⟩
  · cases hd : parseDDLs env mode desired with
    | error e' => exact ⟨e', by simp [bind, Except.bind]⟩
    | ok ds => exact ⟨e, by simp [h, bind, Except.bind]⟩

/-! ### C09 -/

/-- **C09.** If the difference is empty, the command prints one message, succeeds, and does not touch the
database. -/
theorem C09_nothing_modified (env : Env) (mode : Mode) (db : Db σ) (fs : Files) (o : Options) (s : σ)
    (hx : o.export_ = false) (desired current : Str)
    (h1 : readFile fs o.sqlFile = .ok desired) (h2 : dumpDDLs db s = .ok current)
    (h3 : generateIdempotentDDLs env mode desired current = .ok []) :
    run env mode db fs o s =
      { events := [.readFile, .print (lit "-- Nothing is modified --\n")], err := none, state := s } := by
  simp [run, h1, h2, h3, hx]

/-! ### C10 -/

private theorem dumpTables_ok (db : Db σ) (s : σ) (names texts : List Str) :
    dumpTables db s names = .ok texts ↔
      List.Forall₂ (fun n t => db.dumpTableDDL s n = .ok t) names texts := by
  induction names generalizing texts with
  | nil =>
    simp only [dumpTables]
    constructor
    · intro h; cases h; exact .nil
    · intro h; cases h; rfl
  | cons n ns ih =>
    simp only [dumpTables, bind, Except.bind]
    cases hn : db.dumpTableDDL s n with
    | error m =>
      simp only [reduceCtorEq, false_iff]
      intro h; cases h with | cons h _ => rw [hn] at h; cases h
    | ok ddl =>
      simp only
      cases hr : dumpTables db s ns with
      | error m =>
        simp only [reduceCtorEq, false_iff]
        intro h; cases h with | cons _ h => rw [(ih _).2 h] at hr; cases hr
      | ok rest =>
        simp only [pure, Except.pure, Except.ok.injEq]
        constructor
        · rintro rfl; exact .cons hn ((ih rest).1 hr)
        · intro h
          cases h with
          | cons h h' =>
            rw [hn] at h; cases h
            rw [(ih _).2 h'] at hr; cases hr; rfl

/-- **C10.** A dump succeeds exactly if the list of tables, the definition of each of them, the views and the
triggers can all be read, and then consists of the definitions of the tables in the listed order, the views
and the triggers, separated by a semicolon and a blank line. -/
theorem C10_dump_complete (db : Db σ) (s : σ) (text : Str) :
    dumpDDLs db s = .ok text ↔
      ∃ names tables views triggers,
        db.tableNames s = .ok names ∧ db.views s = .ok views ∧ db.triggers s = .ok triggers ∧
        List.Forall₂ (fun name ddl => db.dumpTableDDL s name = .ok ddl) names tables ∧
        text = join (lit ";\n\n") (tables ++ views ++ triggers) := by
  unfold dumpDDLs
  cases hn : db.tableNames s with
  | error m => simp [bind, Except.bind]
  | ok names =>
    cases ht : dumpTables db s names with
    | error m =>
      simp only [bind, Except.bind, ht, reduceCtorEq, false_iff]
      rintro ⟨n, t, v, tr, h1, h2, h3, h4, h6⟩
      cases h1
      rw [(dumpTables_ok db s names t).2 h4] at ht
      cases ht
    | ok tables =>
      cases hv : db.views s with
      | error m => simp [bind, Except.bind, ht]
      | ok views =>
        cases htr : db.triggers s with
        | error m => simp [bind, Except.bind, ht]
        | ok triggers =>
          simp only [bind, Except.bind, ht, pure, Except.pure, Except.ok.injEq]
          constructor
          · rintro rfl
            exact ⟨names, tables, views, triggers, rfl, rfl, rfl, (dumpTables_ok db s names tables).1 ht, rfl⟩
          · rintro ⟨n, t, v, tr, h1, h2, h3, h4, h6⟩
            cases h1; cases h2; cases h3
            rw [(dumpTables_ok db s names t).2 h4] at ht; cases ht
            exact h6.symm

/-! ### C03 -/

theorem mentionsDrop_iff (s : Str) : MentionsDrop s ↔ contains (lit "DROP") s = true := by
  rw [contains_iff]
  constructor
  · rintro ⟨a, b, rfl⟩; exact ⟨a, b, rfl⟩
  · rintro ⟨a, b, h⟩; exact ⟨a, b, h.symm⟩

/-- **C03.** With skip-drop no executed statement contains `DROP`. -/
theorem C03_skipDrop_executes_no_drop (db : Db σ) (ddls : List Str) (s : σ) (sql : Str)
    (h : sql ∈ executed (runDDLs db ddls true s).events) : ¬ MentionsDrop sql := by
  have := (C04_executed_prefix db ddls true s).subset h
  rw [kept_eq] at this
  rw [List.mem_filter] at this
  rw [mentionsDrop_iff]
  simpa [isSkipped] using this.2

private theorem drop_head (rest : Str) (t : Str) : MentionsDrop (t ++ (lit "DROP" ++ rest)) :=
  ⟨t, rest, by simp⟩

/-- **C03.** Every statement by which the generator removes something contains `DROP`, in every dialect and
for every name. The only exception is the removal of an index in SQLite, for which the generator emits the
empty statement, which removes nothing. -/
theorem C03_removals_mention_drop (mode : Mode) (st : Stmt) (h : Removes st) :
    MentionsDrop (st.render mode) ∨ (mode = .sqlite3 ∧ ∃ t i, st = .dropIndex t i ∧ st.render mode = []) := by
  have key : ∀ (w : String) (pre post : Str) (tl : Str), lit w = lit "DROP" ++ tl →
      MentionsDrop (pre ++ (lit w ++ post)) := by
    intro w pre post tl hw
    exact ⟨pre, tl ++ post, by simp [hw]⟩
  have key' : ∀ (w : String) (pre post : Str) (hd tl : Str), lit w = hd ++ lit "DROP" ++ tl →
      MentionsDrop (pre ++ (lit w ++ post)) := by
    intro w pre post hd tl hw
    exact ⟨pre ++ hd, tl ++ post, by simp [hw]⟩
  cases h with
  | table t => left; simpa [Stmt.render] using key "DROP TABLE " [] (escapeTableName mode t) (lit " TABLE ") rfl
  | column t c =>
    left; simpa [Stmt.render] using key "DROP COLUMN " (alterTable mode t) (escapeSQLName mode c) (lit " COLUMN ") rfl
  | index t i =>
    cases mode with
    | mysql => left; simpa [Stmt.render, generateDropIndex] using key "DROP INDEX " (alterTable .mysql t) (escapeSQLName .mysql i) (lit " INDEX ") rfl
    | postgres => left; simpa [Stmt.render, generateDropIndex] using key "DROP INDEX " [] (escapeSQLName .postgres i) (lit " INDEX ") rfl
    | mssql => left; simpa [Stmt.render, generateDropIndex] using key "DROP INDEX " [] (escapeSQLName .mssql i ++ (lit " ON " ++ escapeTableName .mssql t)) (lit " INDEX ") rfl
    | sqlite3 => right; exact ⟨rfl, t, i, rfl, by simp [Stmt.render, generateDropIndex]⟩
  | primaryKey t k =>
    left
    simp only [Stmt.render]
    split
    · simpa using key "DROP PRIMARY KEY" (alterTable mode t) [] (lit " PRIMARY KEY") rfl
    · simpa using key "DROP CONSTRAINT " (alterTable mode t) (escapeSQLName mode k) (lit " CONSTRAINT ") rfl
  | foreignKey t k =>
    left
    simp only [Stmt.render]
    split
    · simpa using key "DROP FOREIGN KEY " (alterTable mode t) (escapeSQLName mode k) (lit " FOREIGN KEY ") rfl
    · simpa using key "DROP CONSTRAINT " (alterTable mode t) (escapeSQLName mode k) (lit " CONSTRAINT ") rfl
  | check t c k =>
    left; simpa [Stmt.render] using key "DROP CONSTRAINT " (alterTable mode t) k (lit " CONSTRAINT ") rfl
  | default t c =>
    left
    simpa [Stmt.render] using key' " DROP DEFAULT"
      (alterTable mode t ++ (lit "ALTER COLUMN " ++ escapeSQLName mode c)) [] (lit " ") (lit " DEFAULT") rfl
  | defaultConstraint t c k =>
    left; simpa [Stmt.render] using key "DROP CONSTRAINT " (alterTable mode t) (escapeSQLName mode k) (lit " CONSTRAINT ") rfl
  | notNull t c =>
    left
    simpa [Stmt.render] using key' " DROP NOT NULL"
      (alterTable mode t ++ (lit "ALTER COLUMN " ++ escapeSQLName mode c)) [] (lit " ") (lit " NOT NULL") rfl
  | identity t c =>
    left
    simpa [Stmt.render] using key' " DROP IDENTITY IF EXISTS"
      (alterTable mode t ++ (lit "ALTER COLUMN " ++ escapeSQLName mode c)) [] (lit " ") (lit " IDENTITY IF EXISTS") rfl
  | policy t p =>
    left
    simpa [Stmt.render] using key "DROP POLICY " [] (escapeSQLName mode p ++ (lit " ON " ++ escapeTableName mode t)) (lit " POLICY ") rfl
  | view v => left; simpa [Stmt.render] using key "DROP VIEW " [] (escapeTableName mode v) (lit " VIEW ") rfl
  | trigger t => left; simpa [Stmt.render] using key "DROP TRIGGER " [] (escapeSQLName mode t) (lit " TRIGGER ") rfl

/-- **C03.** With skip-drop, no removal that the generator produced for two schemas is executed (an executed
text that renders a removal is the empty statement). -/
theorem C03_skipDrop_removes_nothing (db : Db σ) (mode : Mode) (stmts : List Stmt) (s : σ) (st : Stmt)
    (_h : st ∈ stmts) (hr : Removes st)
    (hx : st.render mode ∈ executed (runDDLs db (stmts.map (Stmt.render mode)) true s).events) :
    st.render mode = [] := by
  rcases C03_removals_mention_drop mode st hr with h' | ⟨_, _, _, _, h'⟩
  · exact absurd h' (C03_skipDrop_executes_no_drop db _ s _ hx)
  · exact h'

/-- **C03.** With skip-drop, a successful application executes all the statements that do not contain
`DROP`, in order. -/
theorem C03_skipDrop_executes_the_rest (db : Db σ) (ddls : List Str) (s : σ)
    (hok : (runDDLs db ddls true s).err = none) :
    executed (runDDLs db ddls true s).events = ddls.filter (fun d => decide (¬ lit "DROP" <:+: d)) := by
  have := (C07_lines_are_statements db ddls true s hok).2
  simpa [kept] using this

/-- **C03.** Without skip-drop nothing is left out: a successful application executes all the statements. -/
theorem C03_without_skipDrop_everything_is_executed (db : Db σ) (ddls : List Str) (s : σ)
    (hok : (runDDLs db ddls false s).err = none) : executed (runDDLs db ddls false s).events = ddls := by
  have := (C07_lines_are_statements db ddls false s hok).2
  simpa [kept] using this

/-! ### The same at the level of the command -/

/-- The command either does not touch the database at all, or it applies the statements generated from the
file and the dump, with the given skip-drop option. -/
private theorem run_cases (env : Env) (mode : Mode) (db : Db σ) (fs : Files) (o : Options) (s : σ) :
    ((∀ e ∈ (run env mode db fs o s).events, Event.touchesDb e = false) ∧ (run env mode db fs o s).state = s) ∨
    ∃ desired current ddls, readFile fs o.sqlFile = .ok desired ∧ dumpDDLs db s = .ok current ∧
      generateIdempotentDDLs env mode desired current = .ok ddls ∧ ddls ≠ [] ∧
      o.dryRun = false ∧ o.export_ = false ∧
      (run env mode db fs o s).events = .readFile :: (runDDLs db ddls o.skipDrop s).events ∧
      (run env mode db fs o s).err = (runDDLs db ddls o.skipDrop s).err ∧
      (run env mode db fs o s).state = (runDDLs db ddls o.skipDrop s).state := by
  by_cases hdr : o.dryRun = true
  · exact .inl (C01_dryRun_executes_nothing env mode db fs o s hdr)
  · simp only [Bool.not_eq_true] at hdr
    by_cases hx : o.export_ = true
    · left
      cases hd : dumpDDLs db s with
      | error m => simp [run, hd]
      | ok dump => simp [run, hd, hx, Event.touchesDb]
    · simp only [Bool.not_eq_true] at hx
      cases hd : dumpDDLs db s with
      | error m => left; simp [run, hd]
      | ok dump =>
        cases hf : readFile fs o.sqlFile with
        | error m => left; simp [run, hd, hf, hx, Event.touchesDb]
        | ok desired =>
          cases hg : generateIdempotentDDLs env mode desired dump with
          | error e => left; simp [run, hd, hf, hx, hg, Event.touchesDb]
          | ok ddls =>
            by_cases hn : ddls = []
            · left; simp [run, hd, hf, hx, hg, hn, Event.touchesDb]
            · right
              exact ⟨desired, dump, ddls, rfl, rfl, hg, hn, hdr, hx, by simp [run, hd, hf, hx, hg, hn, hdr],
                by simp [run, hd, hf, hx, hg, hn, hdr], by simp [run, hd, hf, hx, hg, hn, hdr]⟩

private theorem executed_of_not_touching (es : List Event) (h : ∀ e ∈ es, Event.touchesDb e = false) :
    executed es = [] := by
  induction es with
  | nil => rfl
  | cons e es ih =>
    have := h e (by simp)
    have ih := ih fun e he => h e (by simp [he])
    cases e <;> simp_all [executed, Event.touchesDb]

/-- **C03.** The command run with skip-drop executes no statement containing `DROP`. -/
theorem C03_command_executes_no_drop (env : Env) (mode : Mode) (db : Db σ) (fs : Files) (o : Options) (s : σ)
    (hsk : o.skipDrop = true) (sql : Str) (h : sql ∈ executed (run env mode db fs o s).events) :
    ¬ MentionsDrop sql := by
  rcases run_cases env mode db fs o s with ⟨h', _⟩ | ⟨_, _, ddls, _, _, _, _, _, _, he, _, _⟩
  · rw [executed_of_not_touching _ h'] at h; simp at h
  · rw [he, hsk] at h
    exact C03_skipDrop_executes_no_drop db ddls s sql h

/-- **C04.** If the command executes anything, it is a prefix of the statements generated from the file and
the dump, in the generated order and without the skipped ones (those containing `DROP`, if skip-drop is
given). -/
theorem C04_command_executes_prefix (env : Env) (mode : Mode) (db : Db σ) (fs : Files) (o : Options) (s : σ)
    (h : executed (run env mode db fs o s).events ≠ []) :
    ∃ desired current ddls, readFile fs o.sqlFile = .ok desired ∧ dumpDDLs db s = .ok current ∧
      generateIdempotentDDLs env mode desired current = .ok ddls ∧
      executed (run env mode db fs o s).events <+:
        kept o.skipDrop ddls := by
  rcases run_cases env mode db fs o s with ⟨h', _⟩ | ⟨des, cur, ddls, h1, h2, h3, _, _, _, he, _, _⟩
  · exact absurd (executed_of_not_touching _ h') h
  · exact ⟨des, cur, ddls, h1, h2, h3, by rw [he]; exact C04_executed_prefix db ddls o.skipDrop s⟩

/-- **C05.** On a transactional database the command leaves the catalogue either exactly as it was or as all
the generated statements (without the skipped ones) make it, and leaves no transaction open. -/
theorem C05_command_all_or_nothing {C : Type} (env : Env) (mode : Mode) (t : TxDb C) (fs : Files)
    (o : Options) (c : C) :
    (run env mode t.toDb fs o (c, none)).state = (c, none) ∨
    ∃ desired current ddls c', readFile fs o.sqlFile = .ok desired ∧ dumpDDLs t.toDb (c, none) = .ok current ∧
      generateIdempotentDDLs env mode desired current = .ok ddls ∧
      applyAll t (kept o.skipDrop ddls) c = some c' ∧
      (run env mode t.toDb fs o (c, none)).state = (c', none) := by
  rcases run_cases env mode t.toDb fs o (c, none) with ⟨_, h⟩ | ⟨des, cur, ddls, h1, h2, h3, _, _, _, _, _, he⟩
  · exact .inl h
  · rw [he]
    rcases C05_all_or_nothing t ddls o.skipDrop c with h | ⟨c', h, h'⟩
    · exact .inl h
    · exact .inr ⟨des, cur, ddls, c', h1, h2, h3, h, h'⟩

/-- **C05.** If a statement executed by the command fails, the only later call is the rollback and the
command reports the error. -/
theorem C05_command_failure_rolls_back (env : Env) (mode : Mode) (db : Db σ) (fs : Files) (o : Options) (s : σ)
    (pre post : List Event) (sql e : Str)
    (h : (run env mode db fs o s).events = pre ++ .exec sql (some e) :: post) :
    (∃ re, post = [.rollback re]) ∧ (run env mode db fs o s).err = some (.database e) := by
  rcases run_cases env mode db fs o s with ⟨h', _⟩ | ⟨des, cur, ddls, h1, h2, h3, _, _, _, he, herr, _⟩
  · have := h' (.exec sql (some e)) (by rw [h]; simp)
    simp [Event.touchesDb] at this
  · rw [he] at h
    rw [herr]
    cases pre with
    | nil => simp at h
    | cons a as => simp at h; exact C05_failure_rolls_back db ddls o.skipDrop s as post sql e h.2

/-- **C06, partial.** If the command, run without dry-run and export, reports success, something was
generated, and no commit failed, then every generated statement that is not skipped was executed
successfully, in order, and then committed. -/
theorem C06_command_success_means_committed_partial (env : Env) (mode : Mode) (db : Db σ) (fs : Files)
    (o : Options) (s : σ) (hdry : o.dryRun = false) (hx : o.export_ = false)
    (desired current : Str) (ddls : List Str)
    (h1 : readFile fs o.sqlFile = .ok desired) (h2 : dumpDDLs db s = .ok current)
    (h3 : generateIdempotentDDLs env mode desired current = .ok ddls) (hne : ddls ≠ [])
    (hok : (run env mode db fs o s).err = none)
    (hc : ∀ m, Event.commit (some m) ∉ (run env mode db fs o s).events) :
    (run env mode db fs o s).events.filter Event.touchesDb =
      .begin none :: ((kept o.skipDrop ddls).map fun d => .exec d none) ++ [.commit none] := by
  have he : (run env mode db fs o s).events = .readFile :: (runDDLs db ddls o.skipDrop s).events := by
    simp [run, h1, h2, h3, hne, hdry, hx]
  have herr : (run env mode db fs o s).err = (runDDLs db ddls o.skipDrop s).err := by
    simp [run, h1, h2, h3, hne, hdry, hx]
  rw [he] at hc ⊢
  rw [herr] at hok
  have := C06_success_means_committed_partial db ddls o.skipDrop s hok fun m hm => hc m (by simp [hm])
  simpa [List.filter_cons, Event.touchesDb, isSkipped] using this

/-! ### Non-vacuity -/

/-- A database with one table on which everything works; its state counts the calls. -/
private def demoDb : Db Nat where
  tableNames _ := .ok [lit "users"]
  dumpTableDDL _ t := .ok (lit "CREATE TABLE " ++ t ++ lit " (id int)")
  views _ := .ok [lit "CREATE VIEW v AS SELECT 1"]
  triggers _ := .ok []
  begin s := (none, s + 1)
  exec sql s := if sql = lit "bad" then (some (lit "syntax error"), s) else (none, s + 1)
  rollback s := (none, s)
  commit s := (none, s + 1)

example : dumpDDLs demoDb 0 = .ok (lit "CREATE TABLE users (id int);\n\nCREATE VIEW v AS SELECT 1") := by
  rfl
example : (runDDLs demoDb [lit "a", lit "DROP TABLE b", lit "c"] true 0).events =
    [.begin none, .print (lit "-- Apply --\n"), .print (lit "a;\n"), .exec (lit "a") none,
     .print (lit "-- Skipped: DROP TABLE b;\n"), .print (lit "c;\n"), .exec (lit "c") none, .commit none] := by
  decide +kernel
example : (runDDLs demoDb [lit "a", lit "bad", lit "c"] false 0).events =
    [.begin none, .print (lit "-- Apply --\n"), .print (lit "a;\n"), .exec (lit "a") none,
     .print (lit "bad;\n"), .exec (lit "bad") (some (lit "syntax error")), .rollback none] := by
  decide +kernel
example : MentionsDrop (Stmt.render .postgres (.dropColumn (lit "public.users") (lit "name"))) := by
  rw [mentionsDrop_iff]; decide +kernel

end Sqldef
