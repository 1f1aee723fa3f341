import Verif.Model.MsQuery
import Verif.Spec.MsAdapter
/-
What belongs to a table of a SQL Server.  Nothing here refers to the joins of the queries.
-/
namespace Sqldef.Spec.MsServer
open Ms Dumped

/-- The object is a table. -/
def IsTable (srv : Server) (o : SysObject) : Prop := o ∈ srv.objects ∧ o.kind = lit "U"

/-- The object with this number. -/
def objectOf (srv : Server) (id : Nat) : Option SysObject := srv.objects.find? fun o => o.id = id

/-- The column with this number. -/
def columnOf (srv : Server) (o : Nat) (n : Nat) : Option SysColumn := srv.columns.find? fun c => c.objectId = o ∧ c.columnId = n

/-- The name of the column with this number. -/
def nameOf (srv : Server) (o n : Nat) : Str := (columnOf srv o n).elim [] (·.name)

/-- What the server knows about a column: its own values, its type, its default, its identity and the check on it. -/
def ownColumn (srv : Server) (c : SysColumn) : Ms.Column where
  name := c.name
  dataType := (srv.types.find? fun t => t.userTypeId = c.userTypeId).elim [] (·.name)
  length := c.maxLength
  nullable := c.isNullable
  identity := if c.isIdentity then (srv.identities.find? fun i => i.objectId = c.objectId ∧ i.columnId = c.columnId).map (·.row) else none
  defaultName := if c.defaultObjectId = 0 then [] else (objectOf srv c.defaultObjectId).elim [] (·.name)
  defaultVal := if c.defaultObjectId = 0 then [] else ((objectOf srv c.defaultObjectId).bind (·.definition)).getD []
  check := (srv.checks.find? fun k => k.parentObjectId = c.objectId ∧ k.parentColumnId = c.columnId).map (·.row)

/-- The columns of the table. -/
def ownColumns (srv : Server) (o : SysObject) : List Ms.Column := (srv.columns.filter fun c => c.objectId = o.id).map (ownColumn srv)

/-- What the server knows about an index: its own values and its statistics. -/
def ownIndex (srv : Server) (i : SysIndex) : IndexRow where
  name := i.name.getD []
  isPrimary := i.isPrimary
  isUnique := i.isUnique
  typeDesc := i.typeDesc
  padIndex := i.isPadded
  fillfactor := i.fillFactor
  ignoreDupKey := i.ignoreDupKey
  noRecompute := (srv.stats.find? fun s => s.objectId = i.objectId ∧ s.statsId = i.indexId).elim false (·.noRecompute)
  incremental := (srv.stats.find? fun s => s.objectId = i.objectId ∧ s.statsId = i.indexId).elim false (·.isIncremental)
  rowLocks := i.rowLocks
  pageLocks := i.pageLocks

/-- The indexes of the table. (A table without a clustered index is no index.) -/
def ownIndexes (srv : Server) (o : SysObject) : List IndexRow :=
  (srv.indexes.filter fun i => i.objectId = o.id ∧ i.indexId ≠ 0).map (ownIndex srv)

/-- The index with this number. -/
def indexOf (srv : Server) (o n : Nat) : Option SysIndex := srv.indexes.find? fun i => i.objectId = o ∧ i.indexId = n

/-- A column of an index. -/
def ownIndexColumn (srv : Server) (c : SysIndexColumn) : IndexColumnRow where
  indexName := (indexOf srv c.objectId c.indexId).elim [] fun i => i.name.getD []
  columnName := nameOf srv c.objectId c.columnId
  isDescending := c.isDescending
  isIncluded := c.isIncluded

/-- The columns of the indexes of the table. -/
def ownIndexColumns (srv : Server) (o : SysObject) : List IndexColumnRow :=
  (srv.indexColumns.filter fun c => c.objectId = o.id).map (ownIndexColumn srv)

/-- A foreign key of one column. -/
def ownForeignKey (srv : Server) (f : SysForeignKey) : FkRow where
  constraintName := f.name
  columnName := (srv.foreignKeyColumns.find? fun c => c.constraintObjectId = f.id).elim [] fun c => nameOf srv f.parentObjectId c.parentColumnId
  foreignTableName := (objectOf srv f.referencedObjectId).elim [] (·.name)
  foreignColumnName :=
    (srv.foreignKeyColumns.find? fun c => c.constraintObjectId = f.id).elim [] fun c => nameOf srv f.referencedObjectId c.referencedColumnId
  foreignUpdateRule := f.updateAction
  foreignDeleteRule := f.deleteAction
  notForReplication := f.notForReplication

/-- The foreign keys of the table. -/
def ownForeignKeys (srv : Server) (o : SysObject) : List FkRow :=
  (srv.foreignKeys.filter fun f => f.parentObjectId = o.id).map (ownForeignKey srv)

/-- The definitions of the views. -/
def ownViews (srv : Server) : List Str := (srv.objects.filter fun o => o.kind = lit "V").map fun o => o.definition.getD []

/-- The definitions of the triggers. -/
def ownTriggers (srv : Server) : List Str := (srv.objects.filter fun o => o.kind = lit "TR").map fun o => o.definition.getD []

/-- What SQL Server guarantees: numbers and names are unique, and what rows refer to is there; and no view or trigger is
encrypted. -/
structure Sound (srv : Server) : Prop where
  objectIds : (srv.objects.map (·.id)).Nodup
  objectNames : (srv.objects.map fun o => (o.schema, o.name)).Nodup
  columnIds : (srv.columns.map fun c => (c.objectId, c.columnId)).Nodup
  columnNames : (srv.columns.map fun c => (c.objectId, c.name)).Nodup
  typeIds : (srv.types.map (·.userTypeId)).Nodup
  identityIds : (srv.identities.map fun i => (i.objectId, i.columnId)).Nodup
  indexIds : (srv.indexes.map fun i => (i.objectId, i.indexId)).Nodup
  statsIds : (srv.stats.map fun i => (i.objectId, i.statsId)).Nodup
  foreignKeyNames : (srv.foreignKeys.map fun f => (f.parentObjectId, f.name)).Nodup
  types : ∀ c ∈ srv.columns, ∃ t ∈ srv.types, t.userTypeId = c.userTypeId
  identities : ∀ c ∈ srv.columns, c.isIdentity = true → ∃ i ∈ srv.identities, i.objectId = c.objectId ∧ i.columnId = c.columnId
  defaults : ∀ c ∈ srv.columns, c.defaultObjectId ≠ 0 → ∃ o ∈ srv.objects, o.id = c.defaultObjectId ∧ o.definition ≠ none
  indexNames : ((srv.indexes.filter fun i => i.indexId ≠ 0).map fun i => (i.objectId, i.name)).Nodup
  named : ∀ i ∈ srv.indexes, i.indexId ≠ 0 → i.name ≠ none
  stats : ∀ i ∈ srv.indexes, i.indexId ≠ 0 → ∃ s ∈ srv.stats, s.objectId = i.objectId ∧ s.statsId = i.indexId
  numbered : ∀ s ∈ srv.stats, s.statsId ≠ 0
  columnsNumbered : ∀ c ∈ srv.columns, c.columnId ≠ 0
  indexColumns : ∀ c ∈ srv.indexColumns, c.indexId ≠ 0 ∧ (∃ i ∈ srv.indexes, i.objectId = c.objectId ∧ i.indexId = c.indexId) ∧
    ∃ k ∈ srv.columns, k.objectId = c.objectId ∧ k.columnId = c.columnId
  foreignKeys : ∀ f ∈ srv.foreignKeys, (∃ o ∈ srv.objects, o.id = f.referencedObjectId) ∧
    ∀ c ∈ srv.foreignKeyColumns, c.constraintObjectId = f.id → (∃ k ∈ srv.columns, k.objectId = f.parentObjectId ∧ k.columnId = c.parentColumnId) ∧
      ∃ k ∈ srv.columns, k.objectId = f.referencedObjectId ∧ k.columnId = c.referencedColumnId
  stored : ∀ o ∈ srv.objects, o.kind = lit "V" ∨ o.kind = lit "TR" → o.definition ≠ none

/-- No column of the table has two checks, and the foreign keys of the table have one column each. -/
structure Simple (srv : Server) (o : SysObject) : Prop where
  checks : ((srv.checks.filter fun k => k.parentObjectId = o.id ∧ k.parentColumnId ≠ 0).map (·.parentColumnId)).Nodup
  foreignKeys : ∀ f ∈ srv.foreignKeys, f.parentObjectId = o.id → ∃ c, (srv.foreignKeyColumns.filter fun c => c.constraintObjectId = f.id) = [c]

/-- Both times the server returns the columns of an index in the same order. -/
def SameKeyOrder (cat cat' : Ms.Catalog) : Prop :=
  ∀ t ∈ cat.tables, ∀ r ∈ cat.indexes t.1 t.2, ∀ included : Bool,
    (msColumnsOf (cat'.indexColumns t.1 t.2) r).filter (fun c => c.isIncluded = included) =
      (msColumnsOf (cat.indexColumns t.1 t.2) r).filter (fun c => c.isIncluded = included)

/-- Every index has at most one column in its key, and at most one that is included. -/
def SingleKeys (srv : Server) : Prop :=
  ∀ i ∈ srv.indexes, ∀ included : Bool,
    (srv.indexColumns.filter fun c => c.objectId = i.objectId ∧ c.indexId = i.indexId ∧ c.isIncluded = included).length ≤ 1

end Sqldef.Spec.MsServer
