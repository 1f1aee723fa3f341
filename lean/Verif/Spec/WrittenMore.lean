import Verif.Spec.Written
/-
The other statements of a schema: `CREATE INDEX`, `ALTER TABLE ... ADD` and `CREATE POLICY`.  As in Spec/Written.lean:
what can be written, how it is written (as a sequence of tokens) and what it means (as a syntax tree).  Nothing here
refers to the grammar or its actions.
-/
namespace Sqldef.Spec.Written

/-! ### `CREATE INDEX` -/

/-- What depends on whether a method of access is named, and where.
`plain`: `ON table (columns) INCLUDE (names) WHERE condition options partition`;
`methodFirst`: `USING method ON table (columns) options`;
`methodLast`: `ON table USING method (columns) WHERE condition options`. -/
inductive IndexForm
  | plain (included : Option (Str × List Str)) (condition : Option Ex) (options : IndexOpts) (partition : Partition)
  | methodFirst (method : Str) (options : IndexOpts)
  | methodLast (method : Str) (condition : Option Ex) (options : IndexOpts)

/-- A `CREATE INDEX` statement. -/
structure NewIndex where
  unique : Bool := false
  clustered : Option Bool := none
  name : Str
  table : TableRef
  first : IndexCol
  rest : List IndexCol := []
  form : IndexForm := .plain none none .none .none

/-- `INCLUDE (names)` -/
def includedTokens (i : Option (Str × List Str)) : List Token :=
  optionally i fun p => kw "INCLUDE" :: parens (nameTokens p.1 p.2)

/-- `WHERE condition` -/
def whereTokens (c : Option Ex) : List Token := optionally c fun e => kw "WHERE" :: e.tokens

def NewIndex.tokens (i : NewIndex) : List Token :=
  let cols := parens (indexColTokens i.first i.rest)
  kw "CREATE" :: (given (i.unique = true) [kw "UNIQUE"] ++ clusteredTokens i.clustered ++ kw "INDEX" :: nm i.name ::
    match i.form with
    | .plain n c o p => kw "ON" :: (i.table.tokens ++ cols ++ includedTokens n ++ whereTokens c ++ o.tokens ++ p.tokens)
    | .methodFirst m o => kw "USING" :: nm m :: kw "ON" :: (i.table.tokens ++ cols ++ o.tokens)
    | .methodLast m c o => kw "ON" :: (i.table.tokens ++ kw "USING" :: nm m :: (cols ++ whereTokens c ++ o.tokens)))

/-- A condition that can be written as it is. -/
def ClearCondition (c : Option Ex) : Prop := ∀ e, c = some e → e.Proper ∧ e.depth < 200

def IndexForm.Clear : IndexForm → Prop
  | .plain _ c o _ => ClearCondition c ∧ ∀ x ∈ o.all, x.Known
  | .methodFirst _ o => ∀ x ∈ o.all, x.Known
  | .methodLast _ c o => ClearCondition c ∧ ∀ x ∈ o.all, x.Known

/-- What a condition means. -/
def whereMeaning (c : Option Ex) : Option SqlWhere := c.map fun e => { isWhere := true, expr := e.meaning }

/-- What the index is, besides its table and its columns.  (The method of access is lost.  Where one is named, so is
`CLUSTERED`; where it is named after the table, so are the options.) -/
def NewIndex.spec (i : NewIndex) : SqlIndexSpec :=
  match i.form with
  | .plain n c o p =>
    { name := i.name, unique := i.unique, clustered := i.clustered.getD true, included := (n.map fun p => p.1 :: p.2).getD [],
      whereClause := whereMeaning c, options := o.all.map IndexOpt.meaning, partition := p.meaning }
  | .methodFirst _ o => { name := i.name, unique := i.unique, options := o.all.map IndexOpt.meaning }
  | .methodLast _ c _ => { name := i.name, unique := i.unique, whereClause := whereMeaning c }

def NewIndex.meaning (i : NewIndex) : SqlDDL :=
  { action := lit "create index", table := i.table.meaning, newName := i.table.meaning, indexSpec := some i.spec,
    indexCols := (i.first :: i.rest).map IndexCol.meaning }

/-! ### `ALTER TABLE ... ADD` -/

/-- What is added to a table. -/
inductive Added
  | index (unique : Bool) (index : Bool) (name : Str) (first : IndexCol) (rest : List IndexCol)
  | primaryKey (name : Str) (first : IndexCol) (rest : List IndexCol)
  | foreignKey (f : Fk)

/-- An `ALTER TABLE ... ADD` statement. -/
structure Alter where
  ignore : Bool := false
  table : TableRef
  added : Added

def Alter.tokens (a : Alter) : List Token :=
  kw "ALTER" :: (given (a.ignore = true) [kw "IGNORE"] ++ kw "TABLE" ::
    match a.added with
    | .index u i n c cs =>
      a.table.tokens ++ kw "ADD" :: (given (u = true) [kw "UNIQUE"] ++ indexWord i :: nm n :: parens (indexColTokens c cs))
    | .primaryKey n c cs =>
      kw "ONLY" :: (a.table.tokens ++ kw "ADD" :: kw "CONSTRAINT" :: nm n :: kw "PRIMARY" :: kw "KEY" :: parens (indexColTokens c cs))
    | .foreignKey f => kw "ONLY" :: (a.table.tokens ++ kw "ADD" :: f.tokens))

def Alter.meaning (a : Alter) : SqlDDL :=
  match a.added with
  | .index u _ n c cs =>
    { action := lit "add index", table := a.table.meaning, newName := a.table.meaning,
      indexSpec := some { name := n, unique := u }, indexCols := (c :: cs).map IndexCol.meaning }
  | .primaryKey n c cs =>
    { action := lit "add primary key", table := a.table.meaning, newName := a.table.meaning,
      indexSpec := some { name := n }, indexCols := (c :: cs).map IndexCol.meaning }
  | .foreignKey f =>
    { action := lit "add foreign key", table := a.table.meaning, newName := a.table.meaning, foreignKey := some f.meaning }

/-! ### `CREATE POLICY` -/

/-- The words after `FOR`. -/
def scopeWords : List String := ["all", "select", "insert", "update", "delete"]

/-- A `CREATE POLICY` statement. -/
structure NewPolicy where
  name : Str
  table : TableRef
  permissive : Option Bool := none
  scope : Option String := none
  first : Str
  rest : List Str := []
  condition : Option Ex := none
  check : Option Ex := none

/-- `PERMISSIVE` or `RESTRICTIVE`. -/
def permissiveWord (p : Bool) : String := if p then "permissive" else "restrictive"

def NewPolicy.tokens (p : NewPolicy) : List Token :=
  kw "CREATE" :: kw "POLICY" :: nm p.name :: kw "ON" :: (p.table.tokens ++
    optionally p.permissive (fun b => [kw "AS", kw (permissiveWord b)]) ++
    optionally p.scope (fun w => [kw "FOR", kw w]) ++ kw "TO" :: (nameTokens p.first p.rest ++
      optionally p.condition (fun e => kw "USING" :: e.tokens) ++ optionally p.check (fun e => kw "WITH" :: kw "CHECK" :: e.tokens)))

def NewPolicy.Clear (p : NewPolicy) : Prop :=
  (∀ w, p.scope = some w → w ∈ scopeWords) ∧ ClearCondition p.condition ∧ ClearCondition p.check

def NewPolicy.meaning (p : NewPolicy) : SqlDDL :=
  { action := lit "create policy", table := p.table.meaning,
    policy := some { name := p.name, permissive := (p.permissive.map fun b => lit (permissiveWord b)).getD [],
                     scope := (p.scope.map fun w => lit w).getD [], to := p.first :: p.rest,
                     using_ := p.condition.map Ex.meaning, withCheck := p.check.map Ex.meaning } }

/-! ### All statements -/

/-- A statement of a schema. -/
inductive Sentence
  | table (t : Table)
  | index (i : NewIndex)
  | alter (a : Alter)
  | policy (p : NewPolicy)

def Sentence.tokens : Sentence → List Token
  | .table t => t.tokens
  | .index i => i.tokens
  | .alter a => a.tokens
  | .policy p => p.tokens

def Sentence.Clear : Sentence → Prop
  | .table t => t.Clear
  | .index i => i.form.Clear
  | .alter _ => True
  | .policy p => p.Clear

def Sentence.meaning : Sentence → SqlDDL
  | .table t => t.meaning
  | .index i => i.meaning
  | .alter a => a.meaning
  | .policy p => p.meaning

end Sqldef.Spec.Written
