import Verif.Model.Run
/-
Model of the commands in `/repo/cmd` after their flags have been read, and of the address by which the Postgres adapter
connects.

Not modelled: `flags.Parser` (its result is `Flags` and the remaining arguments), the texts of help and version, and the
drivers.
-/
namespace Sqldef

/-- The flags of a command, /repo/cmd/mysqldef/mysqldef.go:22-35, /repo/cmd/psqldef/psqldef.go:22-34,
/repo/cmd/mssqldef/mssqldef.go:22-34, /repo/cmd/sqlite3def/sqlite3def.go:20-27. A flag that the command does not have is never
looked at. -/
structure Flags where
  user : Str
  password : Str
  host : Str
  port : Nat
  socket : Str
  prompt : Bool
  file : Str
  dryRun : Bool
  export_ : Bool
  skipDrop : Bool
  help : Bool
  version : Bool

/-- What the command finds around it: the environment variables, the answer to the prompt, and which paths exist. -/
structure World where
  env : Str → Option Str
  answer : Except Str Str
  pathExists : Str → Bool

/-- `adapter.Config`, /repo/adapter/database.go:10-19. -/
structure Config where
  dbName : Str
  user : Str := []
  password : Str := []
  host : Str := []
  port : Nat := 0
  socket : Str := []

/-- The variable with the password, /repo/cmd/mysqldef/mysqldef.go:72, /repo/cmd/psqldef/psqldef.go:71,
/repo/cmd/mssqldef/mssqldef.go:71. -/
def passwordVariable : Mode → Str
  | .mysql => lit "MYSQL_PWD"
  | .postgres => lit "PGPASSWORD"
  | .mssql => lit "MSSQL_PWD"
  | .sqlite3 => []

/-- The password, /repo/cmd/mysqldef/mysqldef.go:72-84. -/
def choosePassword (mode : Mode) (w : World) (f : Flags) : Except Str Str :=
  let password := match w.env (passwordVariable mode) with
    | some p => p
    | none => f.password
  if f.prompt then w.answer else .ok password

/-- The end of `parseOptions`, /repo/cmd/mysqldef/mysqldef.go:65-95, /repo/cmd/psqldef/psqldef.go:64-96,
/repo/cmd/mssqldef/mssqldef.go:64-93, /repo/cmd/sqlite3def/sqlite3def.go:57-71. (In `sqlite3def`, the socket is the host, which is empty
in either case.) -/
def configure (mode : Mode) (w : World) (f : Flags) (database : Str) : Except Str (Config × Options) :=
  let o : Options := { sqlFile := f.file, dryRun := f.dryRun, export_ := f.export_, skipDrop := f.skipDrop }
  match mode with
  | .sqlite3 => .ok ({ dbName := database }, o)
  | mode =>
    match choosePassword mode w f with
    | .error m => .error m
    | .ok password =>
      let c : Config := { dbName := database, user := f.user, password := password, host := f.host, port := f.port }
      match mode with
      | .mysql => .ok ({ c with socket := f.socket }, o)
      | .postgres => .ok ((if w.pathExists f.host then { c with socket := f.host } else c), o)
      | _ => .ok (c, o)

/-- How a command ended: its exit status, and what it did with which database, if it got so far. -/
structure Ended (σ : Type) where
  status : Nat
  session : Option (Config × Outcome σ)

/-- `main`, /repo/cmd/mysqldef/mysqldef.go:37-107 and its likes, with `connect` for `NewDatabase`. -/
def command {σ : Type} (env : Env) (mode : Mode) (connect : Config → Except Str (Db σ)) (fs : Files) (w : World) (f : Flags)
    (args : List Str) (s : σ) : Ended σ :=
  if f.help then { status := 0, session := none }
  else if f.version then { status := 0, session := none }
  else
    match args with
    | [] => { status := 1, session := none }
    | [database] =>
      match configure mode w f database with
      | .error _ => { status := 1, session := none }
      | .ok (c, o) =>
        match connect c with
        | .error _ => { status := 1, session := none }
        | .ok db =>
          let r := run env mode db fs o s
          { status := if r.err = none then 0 else 1, session := some (c, r) }
    | _ => { status := 1, session := none }

/-! ### The address of a Postgres database -/

/-- The bytes that `url.QueryEscape` leaves alone: letters, digits and `-_.~`. -/
def unreserved (b : UInt8) : Bool :=
  (97 ≤ b && b ≤ 122) || (65 ≤ b && b ≤ 90) || (48 ≤ b && b ≤ 57) || b == 45 || b == 95 || b == 46 || b == 126

/-- A digit of `upperhex`. -/
def upperHex (n : UInt8) : Char := if n < 10 then Char.ofNat (48 + n.toNat) else Char.ofNat (55 + n.toNat)

/-- `url.QueryEscape` for a byte: a space becomes `+`. -/
def escapeByte (b : UInt8) : Str :=
  if unreserved b then [Char.ofNat b.toNat] else if b = 32 then ['+'] else ['%', upperHex (b / 16), upperHex (b % 16)]

/-- `url.QueryEscape` -/
def queryEscape (s : Str) : Str := (s.flatMap String.utf8EncodeChar).flatMap escapeByte

/-- `postgresBuildDSN`, /repo/adapter/postgres/postgres.go:414-436. -/
def postgresDSN (w : World) (c : Config) : Str :=
  let host := if c.socket = [] then c.host ++ lit ":" ++ showInt c.port else c.socket
  let options := (match w.env (lit "PGSSLMODE") with | some v => [lit "sslmode=" ++ v] | none => []) ++
    (match w.env (lit "PGSSLROOTCERT") with | some v => [lit "sslrootcert=" ++ v] | none => [])
  lit "postgres://" ++ queryEscape c.user ++ lit ":" ++ queryEscape c.password ++ lit "@" ++ host ++ lit "/" ++ c.dbName ++ lit "?" ++
    join (lit "&") options

end Sqldef
