import Verif.Model.Parser
/-
Model of `/repo/sqldef.go` and `/repo/adapter/database.go`.
-/
namespace Sqldef

/-- The database behind `adapter.Database` and `database/sql`: an arbitrary state machine. `σ` is
whatever the server remembers; a call returns its error, if any, and the new state. Reading the
schema returns a value and leaves the state alone (/repo/adapter/database.go:21-27). -/
structure Db (σ : Type) where
  tableNames : σ → Except Str (List Str)
  dumpTableDDL : σ → Str → Except Str Str
  views : σ → Except Str (List Str)
  triggers : σ → Except Str (List Str)
  begin : σ → Option Str × σ
  exec : Str → σ → Option Str × σ
  rollback : σ → Option Str × σ
  commit : σ → Option Str × σ

/-- The observable effects of the command other than its exit status, in order. `err` is the outcome of
the call. -/
inductive Event
  | readFile
  | print (text : Str)
  | begin (err : Option Str)
  | exec (sql : Str) (err : Option Str)
  | rollback (err : Option Str)
  | commit (err : Option Str)
  deriving DecidableEq, Repr

/-- Why the command ended with a non-zero exit status. -/
inductive RunErr
  | dump (msg : Str)
  | file (msg : Str)
  | generate (e : Err)
  | database (msg : Str)
  deriving DecidableEq, Repr

/-- How a call of `RunDDLs` or `Run` ended. -/
structure Outcome (σ : Type) where
  events : List Event
  err : Option RunErr
  state : σ

/-- `fmt.Printf("%s;\n", ddl)`. -/
def showStmt (ddl : Str) : Str := ddl ++ lit ";\n"

/-- `fmt.Printf("-- Skipped: %s;\n", ddl)`. -/
def showSkipped (ddl : Str) : Str := lit "-- Skipped: " ++ ddl ++ lit ";\n"

/-- `skipDrop && strings.Contains(ddl, "DROP")`, /repo/adapter/database.go:67, /repo/sqldef.go:88. -/
def isSkipped (skipDrop : Bool) (ddl : Str) : Bool := skipDrop && contains (lit "DROP") ddl

/-- The loop of `DumpDDLs` over the tables, /repo/adapter/database.go:36-43. -/
def dumpTables {σ : Type} (db : Db σ) (s : σ) : List Str → Except Str (List Str)
  | [] => .ok []
  | t :: ts => do
    let ddl ← db.dumpTableDDL s t
    let rest ← dumpTables db s ts
    return ddl :: rest

/-- `DumpDDLs`, /repo/adapter/database.go:29-58. -/
def dumpDDLs {σ : Type} (db : Db σ) (s : σ) : Except Str Str := do
  let names ← db.tableNames s
  let tables ← dumpTables db s names
  let views ← db.views s
  let triggers ← db.triggers s
  return join (lit ";\n\n") (tables ++ views ++ triggers)

/-- The loop of `RunDDLs` and the commit after it, /repo/adapter/database.go:66-78. The result of
`Rollback` and `Commit` is ignored. -/
def runLoop {σ : Type} (db : Db σ) (skipDrop : Bool) : List Str → σ → Outcome σ
  | [], s =>
    let (e, s) := db.commit s
    { events := [.commit e], err := none, state := s }
  | ddl :: rest, s =>
    if isSkipped skipDrop ddl then
      let o := runLoop db skipDrop rest s
      { o with events := .print (showSkipped ddl) :: o.events }
    else
      match db.exec ddl s with
      | (some e, s) =>
        let (re, s) := db.rollback s
        { events := [.print (showStmt ddl), .exec ddl (some e), .rollback re],
          err := some (.database e), state := s }
      | (none, s) =>
        let o := runLoop db skipDrop rest s
        { o with events := .print (showStmt ddl) :: .exec ddl none :: o.events }

/-- `RunDDLs`, /repo/adapter/database.go:60-79. -/
def runDDLs {σ : Type} (db : Db σ) (ddls : List Str) (skipDrop : Bool) (s : σ) : Outcome σ :=
  match db.begin s with
  | (some e, s) => { events := [.begin (some e)], err := some (.database e), state := s }
  | (none, s) =>
    let o := runLoop db skipDrop ddls s
    { o with events := .begin none :: .print (lit "-- Apply --\n") :: o.events }

/-- The lines printed by `showDDLs` after its header, /repo/sqldef.go:87-93. -/
def showLines (skipDrop : Bool) (ddls : List Str) : List Event :=
  ddls.map fun ddl => .print (if isSkipped skipDrop ddl then showSkipped ddl else showStmt ddl)

/-- `showDDLs`, /repo/sqldef.go:85-94. -/
def showDDLs (skipDrop : Bool) (ddls : List Str) : List Event :=
  .print (lit "-- dry run --\n") :: showLines skipDrop ddls

/-- `Options`, /repo/sqldef.go:14-19. -/
structure Options where
  sqlFile : Str
  dryRun : Bool
  export_ : Bool
  skipDrop : Bool

/-- The files and the standard input of the process. -/
structure Files where
  read : Str → Except Str Str
  stdinIsTerminal : Bool
  stdin : Except Str Str

/-- `readFile`, /repo/sqldef.go:64-83. -/
def readFile (fs : Files) (path : Str) : Except Str Str :=
  if path = lit "-" then
    if fs.stdinIsTerminal then .error (lit "stdin is not piped") else fs.stdin
  else fs.read path

/-- `Run`, /repo/sqldef.go:22-62. -/
def run {σ : Type} (env : Env) (mode : Mode) (db : Db σ) (fs : Files) (o : Options) (s : σ) : Outcome σ :=
  match dumpDDLs db s with
  | .error m => { events := [], err := some (.dump m), state := s }
  | .ok current =>
    if o.export_ then
      { events := [.print (if current = [] then lit "-- No table exists --\n" else current ++ lit ";\n")],
        err := none, state := s }
    else
      match readFile fs o.sqlFile with
      | .error m => { events := [.readFile], err := some (.file m), state := s }
      | .ok desired =>
        match generateIdempotentDDLs env mode desired current with
        | .error e => { events := [.readFile], err := some (.generate e), state := s }
        | .ok ddls =>
          if ddls = [] then
            { events := [.readFile, .print (lit "-- Nothing is modified --\n")], err := none, state := s }
          else if o.dryRun then
            { events := .readFile :: showDDLs o.skipDrop ddls, err := none, state := s }
          else
            let r := runDDLs db ddls o.skipDrop s
            { r with events := .readFile :: r.events }

end Sqldef
