import Verif.Spec.Written
/-
The language of queries, as they are written after `CREATE VIEW ... AS`, and of the statements that make views.  As in
Spec/Written.lean: what can be written, how it is written (as a sequence of tokens), how it is shown (as a text), and
when it can be written as it is.  Nothing here refers to the grammar or its actions.

Not covered: `UNION`, subqueries, `STRAIGHT_JOIN`, hints, locks, aliases that are strings.
-/
namespace Sqldef.Spec.Written

/-! ### Lists -/

/-- A list with commas. -/
def listed {α : Type} (f : α → List Token) (a : α) (as : List α) : List Token := f a ++ as.flatMap fun x => sym ',' :: f x

/-- A list as it is shown. -/
def shownList {α : Type} (f : α → Str) (a : α) (as : List α) : Str := f a ++ as.flatMap fun x => lit ", " ++ f x

/-! ### What is selected -/

/-- Another name: `name` or `AS name`. -/
structure Alias where
  name : Str
  as : Bool := true

def Alias.tokens (a : Alias) : List Token := given (a.as = true) [kw "AS"] ++ [nm a.name]

/-- An alias is always shown with `as`. -/
def aliasText (a : Option Alias) : Str := (a.map fun a => lit " as " ++ shownName a.name).getD []

/-- The alias is in order. -/
def GoodAlias (a : Option Alias) : Prop := ∀ x, a = some x → GoodName x.name

/-- Something that is selected: `*`, `table.*` or an expression. -/
inductive Picked
  | all
  | allOf (table : Str)
  | value (e : Ex) (alias : Option Alias)

def Picked.tokens : Picked → List Token
  | .all => [sym '*']
  | .allOf t => [nm t, sym '.', sym '*']
  | .value e a => e.tokens ++ optionally a Alias.tokens

def Picked.text : Picked → Str
  | .all => lit "*"
  | .allOf t => shownName t ++ lit ".*"
  | .value e a => e.text ++ aliasText a

/-- An expression that can be written as it is. -/
def ClearEx (e : Ex) : Prop := e.Proper ∧ e.depth < 200

def Picked.Clear : Picked → Prop
  | .all => True
  | .allOf t => GoodName t
  | .value e a => ClearEx e ∧ GoodAlias a

/-! ### Where it is taken from -/

/-- The words between two sources. -/
inductive JoinWord
  | join
  | innerJoin
  | crossJoin
  | leftJoin
  | leftOuterJoin
  | rightJoin
  | rightOuterJoin
  | naturalJoin
  | naturalLeftJoin
  | naturalRightJoin
  deriving DecidableEq

def JoinWord.tokens : JoinWord → List Token
  | .join => [kw "JOIN"]
  | .innerJoin => [kw "INNER", kw "JOIN"]
  | .crossJoin => [kw "CROSS", kw "JOIN"]
  | .leftJoin => [kw "LEFT", kw "JOIN"]
  | .leftOuterJoin => [kw "LEFT", kw "OUTER", kw "JOIN"]
  | .rightJoin => [kw "RIGHT", kw "JOIN"]
  | .rightOuterJoin => [kw "RIGHT", kw "OUTER", kw "JOIN"]
  | .naturalJoin => [kw "NATURAL", kw "JOIN"]
  | .naturalLeftJoin => [kw "NATURAL", kw "LEFT", kw "JOIN"]
  | .naturalRightJoin => [kw "NATURAL", kw "RIGHT", kw "JOIN"]

/-- How the words are shown. (`INNER`, `CROSS` and `OUTER` are lost.) -/
def JoinWord.text : JoinWord → Str
  | .join => lit "join"
  | .innerJoin => lit "join"
  | .crossJoin => lit "join"
  | .leftJoin => lit "left join"
  | .leftOuterJoin => lit "left join"
  | .rightJoin => lit "right join"
  | .rightOuterJoin => lit "right join"
  | .naturalJoin => lit "natural join"
  | .naturalLeftJoin => lit "natural left join"
  | .naturalRightJoin => lit "natural right join"

/-- How two sources belong together. -/
inductive JoinOn
  | none
  | on (e : Ex)
  | columns (first : Str) (rest : List Str)

def JoinOn.tokens : JoinOn → List Token
  | .none => []
  | .on e => kw "ON" :: e.tokens
  | .columns a as => kw "USING" :: parens (nameTokens a as)

def JoinOn.text : JoinOn → Str
  | .none => []
  | .on e => lit " on " ++ e.text
  | .columns a as => lit " using (" ++ shownList shownName a as ++ lit ")"

/-- After the words of an outer join there is a condition, and after those of a natural join there is none. -/
def JoinOn.Fits : JoinOn → JoinWord → Prop
  | .none, w => w ∉ [.leftJoin, .leftOuterJoin, .rightJoin, .rightOuterJoin]
  | .on e, w => w ∉ [.naturalJoin, .naturalLeftJoin, .naturalRightJoin] ∧ e.Proper
  | .columns a as, w => w ∉ [.naturalJoin, .naturalLeftJoin, .naturalRightJoin] ∧ ∀ n ∈ a :: as, GoodName n

def JoinOn.depth : JoinOn → Nat
  | .on e => e.depth
  | _ => 0

/-- A source: a table, a source in parentheses, or two sources. -/
inductive Source
  | table (t : TableRef) (alias : Option Alias)
  | group (s : Source)
  | join (l : Source) (w : JoinWord) (r : Source) (c : JoinOn)

def Source.tokens : Source → List Token
  | .table t a => t.tokens ++ optionally a Alias.tokens
  | .group s => parens s.tokens
  | .join l w r c => l.tokens ++ (w.tokens ++ (r.tokens ++ c.tokens))

/-- A table as it is shown. -/
def TableRef.text (t : TableRef) : Str := (t.schema.map fun s => shownName s ++ lit ".").getD [] ++ shownName t.name

def Source.text : Source → Str
  | .table t a => t.text ++ aliasText a
  | .group s => lit "(" ++ s.text ++ lit ")"
  | .join l w r c => l.text ++ lit " " ++ w.text ++ lit " " ++ r.text ++ c.text

def Source.isJoin : Source → Bool
  | .join _ _ _ _ => true
  | _ => false

/-- The source can be written as it is: what is on the right of the words is one source. -/
def Source.Proper : Source → Prop
  | .table t a => (∀ s, t.schema = some s → GoodName s) ∧ GoodName t.name ∧ GoodAlias a
  | .group s => s.Proper
  | .join l w r c => l.Proper ∧ r.Proper ∧ r.isJoin = false ∧ c.Fits w

def Source.depth : Source → Nat
  | .table _ _ => 0
  | .group s => s.depth + 1
  | .join l _ r c => max l.depth (max r.depth c.depth)

def Source.Clear (s : Source) : Prop := s.Proper ∧ s.depth < 200

/-! ### Order and limit -/

/-- Something to order by, ascending (`some true`), descending (`some false`) or without a direction. -/
structure SortKey where
  e : Ex
  direction : Option Bool := none

def SortKey.tokens (k : SortKey) : List Token := k.e.tokens ++ directionTokens k.direction

/-- How a direction is shown. -/
def directionText (d : Option Bool) : Str := if d = some false then lit " desc" else lit " asc"

/-- The direction is always shown, except after a null and after a call of `rand`. -/
def SortKey.text (k : SortKey) : Str :=
  k.e.text ++ match k.e with
    | .null => []
    | .call f _ => if toLower f = lit "rand" then [] else directionText k.direction
    | _ => directionText k.direction

/-- `LIMIT count`, `LIMIT offset, count` or `LIMIT count OFFSET offset`. -/
inductive LimitPart
  | count (n : Ex)
  | after (offset n : Ex)
  | offset (n offset : Ex)

def LimitPart.tokens : LimitPart → List Token
  | .count n => kw "LIMIT" :: n.tokens
  | .after o n => kw "LIMIT" :: (o.tokens ++ sym ',' :: n.tokens)
  | .offset n o => kw "LIMIT" :: (n.tokens ++ kw "OFFSET" :: o.tokens)

def LimitPart.text : LimitPart → Str
  | .count n => lit " limit " ++ n.text
  | .after o n => lit " limit " ++ o.text ++ lit ", " ++ n.text
  | .offset n o => lit " limit " ++ o.text ++ lit ", " ++ n.text

def LimitPart.Clear : LimitPart → Prop
  | .count n => ClearEx n
  | .after o n => ClearEx o ∧ ClearEx n
  | .offset n o => ClearEx n ∧ ClearEx o

/-! ### Queries -/

/-- A query. -/
structure Query where
  distinct : Bool := false
  first : Picked
  rest : List Picked := []
  sources : Option (Source × List Source) := none
  condition : Option Ex := none
  groups : Option (Ex × List Ex) := none
  having : Option Ex := none
  order : Option (SortKey × List SortKey) := none
  limit : Option LimitPart := none

def Query.tokens (q : Query) : List Token :=
  kw "SELECT" :: (given (q.distinct = true) [kw "DISTINCT"] ++ listed Picked.tokens q.first q.rest ++
    optionally q.sources (fun p => kw "FROM" :: listed Source.tokens p.1 p.2) ++
    optionally q.condition (fun e => kw "WHERE" :: e.tokens) ++
    optionally q.groups (fun p => kw "GROUP" :: kw "BY" :: listed Ex.tokens p.1 p.2) ++
    optionally q.having (fun e => kw "HAVING" :: e.tokens) ++
    optionally q.order (fun p => kw "ORDER" :: kw "BY" :: listed SortKey.tokens p.1 p.2) ++
    optionally q.limit LimitPart.tokens)

/-- How a query is shown. (Without sources, as if taken from `dual`.) -/
def Query.text (q : Query) : Str :=
  lit "select " ++ (if q.distinct then lit "distinct " else []) ++ shownList Picked.text q.first q.rest ++ lit " from " ++
    (q.sources.map fun p => shownList Source.text p.1 p.2).getD (lit "dual") ++
    (q.condition.map fun e => lit " where " ++ e.text).getD [] ++
    (q.groups.map fun p => lit " group by " ++ shownList Ex.text p.1 p.2).getD [] ++
    (q.having.map fun e => lit " having " ++ e.text).getD [] ++
    (q.order.map fun p => lit " order by " ++ shownList SortKey.text p.1 p.2).getD [] ++
    (q.limit.map LimitPart.text).getD []

/-- The query can be written as it is. -/
def Query.Clear (q : Query) : Prop :=
  (∀ x ∈ q.first :: q.rest, x.Clear) ∧
  (∀ p, q.sources = some p → ∀ s ∈ p.1 :: p.2, s.Clear) ∧
  (∀ e, q.condition = some e → ClearEx e) ∧
  (∀ p, q.groups = some p → ∀ e ∈ p.1 :: p.2, ClearEx e) ∧
  (∀ e, q.having = some e → ClearEx e) ∧
  (∀ p, q.order = some p → ∀ k ∈ p.1 :: p.2, ClearEx k.e) ∧
  (∀ l, q.limit = some l → l.Clear)

/-! ### `CREATE VIEW` -/

/-- A `CREATE VIEW` statement. -/
structure NewView where
  orReplace : Bool := false
  name : TableRef
  query : Query

def NewView.tokens (v : NewView) : List Token :=
  kw "CREATE" :: (given (v.orReplace = true) [kw "OR", kw "REPLACE"] ++ kw "VIEW" :: (v.name.tokens ++ kw "AS" :: v.query.tokens))

/-- What the statement means: the name of the view in lower case, without its schema, and its query as it is shown. -/
def NewView.meaning (v : NewView) : SqlDDL :=
  { action := lit "create view", view := some { name := toLower v.name.name, definition := v.query.text } }

end Sqldef.Spec.Written
