import Verif.Model.Ast
/-!
Specification vocabulary: what schema a list of definitions describes.
-/
namespace Sqldef.Spec

/-- The tables created by the definitions, as written in their CREATE TABLE. -/
def created : List DDL → List Table
  | [] => []
  | .createTable _ t :: ds => t :: created ds
  | _ :: ds => created ds

/-- The names of the tables created by the definitions. -/
def createdNames (ds : List DDL) : List Str := (created ds).map (·.name)

/-- The indexes that separate statements define on table `n`. -/
def indexesFor (n : Str) : List DDL → List Index
  | [] => []
  | .createIndex _ t i :: ds => if t = n then i :: indexesFor n ds else indexesFor n ds
  | .addIndex _ t i :: ds => if t = n then i :: indexesFor n ds else indexesFor n ds
  | _ :: ds => indexesFor n ds

/-- The foreign keys that separate statements define on table `n`. -/
def foreignKeysFor (n : Str) : List DDL → List ForeignKey
  | [] => []
  | .addForeignKey _ t f :: ds => if t = n then f :: foreignKeysFor n ds else foreignKeysFor n ds
  | _ :: ds => foreignKeysFor n ds

/-- The policies defined on table `n`. -/
def policiesFor (n : Str) : List DDL → List Policy
  | [] => []
  | .addPolicy _ t p :: ds => if t = n then p :: policiesFor n ds else policiesFor n ds
  | _ :: ds => policiesFor n ds

/-- A column is made primary key by a separate statement (only the first column of the key counts). -/
def markedPrimary (n c : Str) : List DDL → Bool
  | [] => false
  | .addPrimaryKey _ t i :: ds => (t = n && (i.columns.head?.map (·.column)) = some c) || markedPrimary n c ds
  | _ :: ds => markedPrimary n c ds

/-- A table together with what the separate statements define on it. -/
def complete (ds : List DDL) (t : Table) : Table :=
  { t with
    columns := t.columns.map fun c => if markedPrimary t.name c.name ds then { c with keyOption := .primary } else c
    indexes := t.indexes ++ indexesFor t.name ds
    foreignKeys := t.foreignKeys ++ foreignKeysFor t.name ds
    policies := t.policies ++ policiesFor t.name ds }

/-- The tables described by the definitions. -/
def tablesOf (ds : List DDL) : List Table := (created ds).map (complete ds)

/-- The table of the given name described by the definitions. -/
def tableIn (ds : List DDL) (n : Str) : Option Table := (tablesOf ds).find? (·.name = n)

/-- The views described by the definitions. -/
def viewsOf : List DDL → List View
  | [] => []
  | .view v :: ds => v :: viewsOf ds
  | _ :: ds => viewsOf ds

/-- The triggers described by the definitions. -/
def triggersOf : List DDL → List Trigger
  | [] => []
  | .trigger t :: ds => t :: triggersOf ds
  | _ :: ds => triggersOf ds

/-- No table is created twice. -/
def UniqueTables (ds : List DDL) : Prop := (createdNames ds).Nodup

instance (ds : List DDL) : Decidable (UniqueTables ds) := inferInstanceAs (Decidable (createdNames ds).Nodup)

/-- `d` may follow `pre` in a desired schema: its table is created before, and the index, foreign key,
policy or view has not been defined before. -/
def Follows (pre : List DDL) : DDL → Prop
  | .createTable _ _ => True
  | .createIndex _ n i => ∃ t, tableIn pre n = some t ∧ i.name ∉ t.indexes.map (·.name)
  | .addIndex _ n i => ∃ t, tableIn pre n = some t ∧ i.name ∉ t.indexes.map (·.name)
  | .addForeignKey _ n f => ∃ t, tableIn pre n = some t ∧ f.constraintName ∉ t.foreignKeys.map (·.constraintName)
  | .addPolicy _ n p => ∃ t, tableIn pre n = some t ∧ p.name ∉ t.policies.map (·.name)
  | .view v => v.name ∉ (viewsOf pre).map (·.name)
  | .trigger _ => True
  | .addPrimaryKey _ _ _ => False

/-- A well-formed desired schema: every definition may follow the ones before it. -/
def WellFormed (ds : List DDL) : Prop := ∀ pre d post, ds = pre ++ d :: post → Follows pre d

/-- `d` may follow `pre` in a current schema. -/
def FollowsCurrent (pre : List DDL) : DDL → Prop
  | .createTable _ _ => True
  | .createIndex _ n _ => n ∈ createdNames pre
  | .addIndex _ _ _ => False
  | .addForeignKey _ n _ => n ∈ createdNames pre
  | .addPolicy _ n _ => n ∈ createdNames pre
  | .view _ => True
  | .trigger _ => True
  | .addPrimaryKey _ n i => ∃ t, tableIn pre n = some t ∧ (i.columns = [] → t.columns = [])

/-- A well-formed current schema. -/
def WellFormedCurrent (ds : List DDL) : Prop := ∀ pre d post, ds = pre ++ d :: post → FollowsCurrent pre d

end Sqldef.Spec
