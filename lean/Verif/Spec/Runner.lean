import Verif.Model.Run
/-!
Specification vocabulary for the command: what counts as touching the database, which statements
were executed, which lines were printed, which statements remove something, and what a transactional
database is.
-/
namespace Sqldef.Spec

/-- The event is a call that can change the database. -/
def Event.touchesDb : Event → Bool
  | .begin _ | .exec _ _ | .rollback _ | .commit _ => true
  | .readFile | .print _ => false

/-- The statements sent to the database, in order. -/
def executed : List Event → List Str
  | [] => []
  | .exec sql _ :: es => sql :: executed es
  | _ :: es => executed es

/-- The texts printed on standard output, in order. -/
def printed : List Event → List Str
  | [] => []
  | .print t :: es => t :: printed es
  | _ :: es => printed es

/-- The statement contains the word `DROP` somewhere. -/
def MentionsDrop (sql : Str) : Prop := ∃ before after, sql = before ++ lit "DROP" ++ after

/-- The statements that skip-drop lets through: all of them without the option, those that do not contain `DROP`
with it. -/
def kept (skipDrop : Bool) (ddls : List Str) : List Str :=
  ddls.filter fun d => decide (skipDrop = false ∨ ¬ lit "DROP" <:+: d)

/-- The line that announces a statement. -/
def announced (skipDrop : Bool) (d : Str) : Str :=
  if skipDrop = true ∧ lit "DROP" <:+: d then lit "-- Skipped: " ++ d ++ lit ";\n" else d ++ lit ";\n"

/-- The kinds of generated statements that remove something from the database. -/
inductive Removes : Stmt → Prop
  | table t : Removes (.dropTable t)
  | column t c : Removes (.dropColumn t c)
  | index t i : Removes (.dropIndex t i)
  | primaryKey t k : Removes (.dropPrimaryKey t k)
  | foreignKey t k : Removes (.dropForeignKey t k)
  | check t c k : Removes (.dropCheck t c k)
  | default t c : Removes (.dropDefault t c)
  | defaultConstraint t c k : Removes (.dropDefaultConstraint t c k)
  | notNull t c : Removes (.dropNotNull t c)
  | identity t c : Removes (.dropIdentity t c)
  | policy t p : Removes (.dropPolicy t p)
  | view v : Removes (.dropView v)
  | trigger t : Removes (.dropTrigger t)

/-- A transactional database over catalogues of type `C`: `apply sql c` is the catalogue after the
statement, `none` if the statement fails; the commit can fail too. The state is the committed
catalogue together with the one of the open transaction. -/
structure TxDb (C : Type) where
  apply : Str → C → Option C
  beginOk : C → Bool
  commitOk : C → Bool
  tableNames : C → Except Str (List Str)
  dumpTableDDL : C → Str → Except Str Str
  views : C → Except Str (List Str)
  triggers : C → Except Str (List Str)

/-- The state machine of a transactional database. Rolling back, or failing to commit, discards the
working catalogue. -/
def TxDb.toDb {C : Type} (t : TxDb C) : Db (C × Option C) where
  tableNames s := t.tableNames s.1
  dumpTableDDL s n := t.dumpTableDDL s.1 n
  views s := t.views s.1
  triggers s := t.triggers s.1
  begin s := if t.beginOk s.1 then (none, (s.1, some s.1)) else (some (lit "begin failed"), s)
  exec sql s :=
    match s.2 with
    | none => (some (lit "no transaction"), s)
    | some w =>
      match t.apply sql w with
      | none => (some (lit "statement failed"), s)
      | some w' => (none, (s.1, some w'))
  rollback s := (none, (s.1, none))
  commit s :=
    match s.2 with
    | none => (some (lit "no transaction"), s)
    | some w => if t.commitOk w then (none, (w, none)) else (some (lit "commit failed"), (s.1, none))

/-- Applying statements one after the other; `none` if one of them fails. -/
def applyAll {C : Type} (t : TxDb C) : List Str → C → Option C
  | [], c => some c
  | sql :: rest, c => (t.apply sql c).bind (applyAll t rest)

end Sqldef.Spec
