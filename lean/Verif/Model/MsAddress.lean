import Verif.Model.Command
/-
Model of `mssqlBuildDSN`, /repo/adapter/mssql/mssql.go:475-486, with the functions of `net/url` that it calls.
-/
namespace Sqldef

/-- `%` and two digits. -/
def percentByte (b : UInt8) : Str := ['%', upperHex (b / 16), upperHex (b % 16)]

/-- The bytes that `url.Userinfo.String` leaves alone: letters, digits, `-_.~` and `$&+,;=`. -/
def keptInUser (b : UInt8) : Bool := unreserved b || b == 36 || b == 38 || b == 43 || b == 44 || b == 59 || b == 61

/-- `url.Userinfo.String` for one of its two parts. -/
def userEscape (s : Str) : Str :=
  (s.flatMap String.utf8EncodeChar).flatMap fun b => if keptInUser b then [Char.ofNat b.toNat] else percentByte b

/-- The bytes that `url.URL.String` leaves alone in the host: letters, digits, `-_.~` and ``!$&'()*+,;=:[]<>"``. -/
def keptInHost (b : UInt8) : Bool :=
  unreserved b || b == 33 || b == 36 || b == 38 || b == 39 || b == 40 || b == 41 || b == 42 || b == 43 || b == 44 || b == 59 || b == 61 ||
    b == 58 || b == 91 || b == 93 || b == 60 || b == 62 || b == 34

/-- The host in `url.URL.String`. -/
def hostEscape (s : Str) : Str :=
  (s.flatMap String.utf8EncodeChar).flatMap fun b => if keptInHost b then [Char.ofNat b.toNat] else percentByte b

/-- `mssqlBuildDSN`, /repo/adapter/mssql/mssql.go:475-486: `url.Values.Encode` for the one value, and `url.URL.String`. -/
def mssqlDSN (c : Config) : Str :=
  lit "sqlserver://" ++ userEscape c.user ++ lit ":" ++ userEscape c.password ++ lit "@" ++ hostEscape (c.host ++ lit ":" ++ showInt c.port) ++
    lit "?database=" ++ queryEscape c.dbName

end Sqldef
