import Verif.Spec.Query
/-
The language of the statements that a trigger executes, and of the statements that make triggers.  As in Spec/Query.lean:
what can be written, how it is written (as a sequence of tokens), how it is shown (as a text), and when it can be written as
it is.  Nothing here refers to the grammar or its actions.

Not covered: `INSERT ... SELECT`, `INSERT ... SET`, partitions, `ORDER BY` and `LIMIT`, and several tables in `UPDATE` and
`DELETE`.
-/
namespace Sqldef.Spec.Written

/-! ### Assignments -/

/-- A column, with or without the table (or `NEW`, `OLD`) before it. -/
structure Spot where
  table : Option Str := none
  name : Str

def Spot.tokens (p : Spot) : List Token := optionally p.table (fun t => [nm t, sym '.']) ++ [nm p.name]

def Spot.text (p : Spot) : Str := (p.table.map fun t => shownName t ++ lit ".").getD [] ++ shownName p.name

def Spot.Good (p : Spot) : Prop := (∀ t, p.table = some t → GoodName t) ∧ GoodName p.name

/-- `column = expression`. -/
structure Assign where
  place : Spot
  value : Ex

def Assign.tokens (a : Assign) : List Token := a.place.tokens ++ sym '=' :: a.value.tokens

def Assign.text (a : Assign) : Str := a.place.text ++ lit " = " ++ a.value.text

def Assign.Clear (a : Assign) : Prop := a.place.Good ∧ ClearEx a.value

/-! ### Rows -/

/-- A row of values. -/
abbrev RowOf := List Ex

def rowTokens : RowOf → List Token
  | [] => parens []
  | a :: as => parens (listed Ex.tokens a as)

def rowText : RowOf → Str
  | [] => lit "()"
  | a :: as => lit "(" ++ shownList Ex.text a as ++ lit ")"

/-- The parentheses of a row count as those of expressions do. -/
def RowClear (r : RowOf) : Prop := ∀ e ∈ r, e.Proper ∧ e.depth < 199

/-! ### Statements -/

/-- A statement that a trigger executes. -/
inductive Change
  /-- `INSERT` or `REPLACE`, with or without the words `IGNORE` and `INTO`. -/
  | insert (replace ignore into : Bool) (table : TableRef) (columns : Option (Str × List Str)) (row : RowOf) (rows : List RowOf)
      (otherwise : Option (Assign × List Assign))
  | update (table : TableRef) (alias : Option Alias) (first : Assign) (rest : List Assign) (condition : Option Ex)
  | delete (table : TableRef) (condition : Option Ex)

def Change.tokens : Change → List Token
  | .insert replace ignore into t cs r rs o =>
    kw (if replace then "REPLACE" else "INSERT") :: (given (ignore = true) [kw "IGNORE"] ++ given (into = true) [kw "INTO"] ++ t.tokens ++
      optionally cs (fun p => parens (nameTokens p.1 p.2)) ++ kw "VALUES" :: (listed rowTokens r rs ++
        optionally o fun p => kw "ON" :: kw "DUPLICATE" :: kw "KEY" :: kw "UPDATE" :: listed Assign.tokens p.1 p.2))
  | .update t a x xs c =>
    kw "UPDATE" :: (t.tokens ++ optionally a Alias.tokens ++ kw "SET" :: (listed Assign.tokens x xs ++
      optionally c fun e => kw "WHERE" :: e.tokens))
  | .delete t c => kw "DELETE" :: kw "FROM" :: (t.tokens ++ optionally c fun e => kw "WHERE" :: e.tokens)

/-- How a statement is shown. (`INTO` always, and `AS` before every other name.) -/
def Change.text : Change → Str
  | .insert replace ignore _ t cs r rs o =>
    (if replace then lit "replace " else lit "insert ") ++ (if ignore then lit "ignore " else []) ++ lit "into " ++ t.text ++
      (cs.map fun p => lit "(" ++ shownList shownName p.1 p.2 ++ lit ")").getD [] ++ lit " values " ++ shownList rowText r rs ++
      (o.map fun p => lit " on duplicate key update " ++ shownList Assign.text p.1 p.2).getD []
  | .update t a x xs c =>
    lit "update " ++ t.text ++ aliasText a ++ lit " set " ++ shownList Assign.text x xs ++ (c.map fun e => lit " where " ++ e.text).getD []
  | .delete t c => lit "delete from " ++ t.text ++ (c.map fun e => lit " where " ++ e.text).getD []

/-- The table is in order. -/
def GoodTable (t : TableRef) : Prop := (∀ s, t.schema = some s → GoodName s) ∧ GoodName t.name

/-- The statement can be written as it is. -/
def Change.Clear : Change → Prop
  | .insert _ _ _ t cs r rs o => GoodTable t ∧ (∀ p, cs = some p → ∀ n ∈ p.1 :: p.2, GoodName n) ∧ (∀ x ∈ r :: rs, RowClear x) ∧
      ∀ p, o = some p → ∀ x ∈ p.1 :: p.2, x.Clear
  | .update t a x xs c => GoodTable t ∧ GoodAlias a ∧ (∀ y ∈ x :: xs, y.Clear) ∧ ∀ e, c = some e → ClearEx e
  | .delete t c => GoodTable t ∧ ∀ e, c = some e → ClearEx e

/-! ### `CREATE TRIGGER` -/

/-- When a trigger executes its statement. -/
inductive Moment
  | before
  | after
  deriving DecidableEq

def Moment.word : Moment → String
  | .before => "BEFORE"
  | .after => "AFTER"

/-- What makes a trigger execute its statement. -/
inductive Cause
  | insert
  | update
  | delete
  deriving DecidableEq

def Cause.word : Cause → String
  | .insert => "INSERT"
  | .update => "UPDATE"
  | .delete => "DELETE"

/-- A `CREATE TRIGGER` statement: that of MySQL (`FOR EACH ROW` a statement) or that of SQL Server (`AS` statements). -/
structure NewTrigger where
  name : Str
  table : TableRef
  moment : Moment
  cause : Cause
  body : Change
  /-- The form of SQL Server, with more statements. -/
  more : Option (List Change) := none

def NewTrigger.tokens (t : NewTrigger) : List Token :=
  match t.more with
  | none => kw "CREATE" :: kw "TRIGGER" :: nm t.name :: kw t.moment.word :: kw t.cause.word :: kw "ON" :: (t.table.tokens ++
      kw "FOR" :: kw "EACH" :: kw "ROW" :: t.body.tokens)
  | some cs => kw "CREATE" :: kw "TRIGGER" :: nm t.name :: kw "ON" :: (t.table.tokens ++
      kw t.moment.word :: kw t.cause.word :: kw "AS" :: (t.body.tokens ++ cs.flatMap Change.tokens))

/-- All the statements of the trigger. -/
def NewTrigger.changes (t : NewTrigger) : List Change := t.body :: t.more.getD []

/-- What the statement means. -/
def NewTrigger.meaning (t : NewTrigger) : SqlDDL :=
  { action := lit "create trigger",
    trigger := some { name := t.name, tableName := t.table.meaning, time := toLower (lit t.moment.word),
                      event := toLower (lit t.cause.word), body := t.changes.map Change.text } }

/-- The statement can be written as it is. -/
def NewTrigger.Clear (t : NewTrigger) : Prop := ∀ c ∈ t.changes, c.Clear

end Sqldef.Spec.Written
