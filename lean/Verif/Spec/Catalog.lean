import Verif.Spec.Schema
import Verif.Spec.Statements
/-!
Specification vocabulary: what the generated statements do to a database. A database is described by what
it contains under every name. Executing a statement fails (`none`) if it creates something that exists
already, or drops or alters something that does not exist.

Simplifications: the data, the existence of the objects that foreign keys, views and triggers refer to, and
restrictions that depend on the data or on the server version are not considered; dropping a column leaves
the indexes alone.
-/
namespace Sqldef.Spec

/-- The contents of a database. -/
structure Catalog where
  table : Str → Option Table
  view : Str → Option View
  trigger : Str → Option Trigger

/-- The contents of a database with the given schema. -/
def catalogOf (ds : List DDL) : Catalog where
  table := tableIn ds
  view n := (viewsOf ds).find? (·.name = n)
  trigger n := (triggersOf ds).find? (·.name = n)

/-! ### Columns -/

/-- The column `c` belongs to the primary key of `t`. -/
def inPrimaryKey (t : Table) (c : Column) : Bool :=
  c.keyOption = .primary || t.indexes.any fun i => i.primary && i.columns.any (·.column = c.name)

/-- The column `c` is placed behind the column called `p`. -/
def insertAfter (p : Str) (c : Column) : List Column → List Column
  | [] => []
  | d :: ds => if d.name = p then d :: c :: ds else d :: insertAfter p c ds

/-- A new column is placed; `AFTER` fails if there is no such column. -/
def place (p : Place) (c : Column) (cols : List Column) : Option (List Column) :=
  match p with
  | .none => some (cols ++ [c])
  | .first => some (c :: cols)
  | .after q => if q ∈ cols.map (·.name) then some (insertAfter q c cols) else none

/-- What the server remembers of a column definition: the key is `k` whatever the definition says, and the
column is NOT NULL if the definition says so, or if the column belongs to the primary key. -/
def stored (pk : Bool) (k : ColumnKeyOption) (c : Column) : Column :=
  { c with
    keyOption := k
    notNull := if pk || c.notNull = some true || c.keyOption = .primary then some true else c.notNull }

/-- Replaces the column called `n`; fails if there is none. -/
def alterColumn (n : Str) (f : Column → Option Column) (t : Table) : Option Table :=
  match t.columns.find? (·.name = n) with
  | none => none
  | some c =>
    match f c with
    | none => none
    | some c' => some { t with columns := t.columns.map fun d => if d.name = n then c' else d }

/-- The columns of the primary key become NOT NULL. -/
def keyNotNull (t : Table) : Table :=
  { t with columns := t.columns.map fun c => if inPrimaryKey t c then { c with notNull := some true } else c }

/-! ### Statements about a table -/

/-- The names of the indexes other than the primary key. -/
def secondaryNames (t : Table) : List Str := (t.indexes.filter fun i => !i.primary).map (·.name)

/-- SQLite can add and drop columns and create indexes; it knows none of the other ALTER TABLE statements.
(The text of DROP INDEX is empty for SQLite, so nothing happens.) -/
def sqliteKnows : Stmt → Bool
  | .addColumn _ _ _ | .dropColumn _ _ | .user (.createIndex _ _ _) | .dropIndex _ _ => true
  | _ => false

/-- Effect of a statement on an existing table, in a dialect that knows it. -/
def change (mode : Mode) (s : Stmt) (t : Table) : Option Table :=
  match s with
  | .addColumn _ c p =>
    if c.name ∈ t.columns.map (·.name) then none
    else (place p (stored false (if c.keyOption = .primary then .none else c.keyOption) c) t.columns).map
      fun cols => { t with columns := cols }
  | .changeColumn _ old c p =>
    match t.columns.find? (·.name = old) with
    | none => none
    | some cur =>
      let c' := stored (inPrimaryKey t cur) cur.keyOption c
      if c.name ≠ old ∧ c.name ∈ t.columns.map (·.name) then none
      else if p = .none then some { t with columns := t.columns.map fun d => if d.name = old then c' else d }
      else (place p c' (t.columns.filter (·.name ≠ old))).map fun cols => { t with columns := cols }
  | .dropColumn _ n =>
    if n ∈ t.columns.map (·.name) then some { t with columns := t.columns.filter (·.name ≠ n) } else none
  | .alterType _ n c =>
    alterColumn n (fun d => some { d with
      typeName := c.typeName, length := c.length, scale := c.scale, array := c.array,
      enumValues := c.enumValues }) t
  | .dropNotNull _ n =>
    alterColumn n (fun d => if inPrimaryKey t d then none else some { d with notNull := some false }) t
  | .setNotNull _ n => alterColumn n (fun d => some { d with notNull := some true }) t
  | .addIdentity _ n b s =>
    alterColumn n (fun d =>
      if d.identity.isSome then none
      else some { d with identity := some { behavior := b, notForReplication := false }, sequence := s }) t
  | .dropIdentity _ n => alterColumn n (fun d => some { d with identity := none, sequence := none }) t
  | .setGenerated _ n b =>
    alterColumn n (fun d =>
      match d.identity with
      | none => none
      | some i => some { d with identity := some { i with behavior := b } }) t
  | .dropDefault _ n => alterColumn n (fun d => some { d with defaultDef := none }) t
  | .setDefault _ n v => alterColumn n (fun d => some { d with defaultDef := some { value := some v } }) t
  | .dropCheck _ n k =>
    alterColumn n (fun d =>
      match d.check with
      | none => none
      | some c => if mode = .mssql ∧ c.constraintName ≠ k then none
        else some { d with check := none, checkNoInherit := false }) t
  | .addCheck _ n k c noInherit =>
    alterColumn n (fun d =>
      if d.check.isSome then none
      else some { d with check := some { c with constraintName := k }, checkNoInherit := noInherit }) t
  | .dropDefaultConstraint _ n k =>
    alterColumn n (fun d =>
      match d.defaultDef with
      | none => none
      | some e => if e.constraintName ≠ k then none else some { d with defaultDef := none }) t
  | .addDefaultConstraint _ n k v =>
    alterColumn n (fun d =>
      if d.defaultDef.isSome then none
      else some { d with defaultDef := some { value := some v, constraintName := k } }) t
  | .addUniqueKey _ n =>
    if n ∈ t.columns.map (·.name) ∧ n ∉ secondaryNames t then
      some { t with indexes := t.indexes ++ [{ name := n, columns := [{ column := n }], unique := true }] }
    else none
  | .dropPrimaryKey _ _ =>
    if t.primaryKey.isSome then
      some { t with
        columns := t.columns.map fun c => if c.keyOption = .primary then { c with keyOption := .none } else c
        indexes := t.indexes.filter fun i => !i.primary }
    else none
  | .addIndex _ i =>
    if i.primary then
      if t.primaryKey.isSome then none else some (keyNotNull { t with indexes := t.indexes ++ [i] })
    else if i.name ∈ secondaryNames t then none
    else some { t with indexes := t.indexes ++ [i] }
  | .user (.createIndex _ _ i) | .user (.addIndex _ _ i) =>
    if i.name ∈ secondaryNames t then none else some { t with indexes := t.indexes ++ [i] }
  | .dropIndex _ n =>
    -- the text of the statement is empty for SQLite
    if mode = .sqlite3 then some t
    else if n ∈ secondaryNames t then
      some { t with indexes := t.indexes.filter fun i => i.primary || i.name ≠ n }
    else none
  | .addForeignKey _ f =>
    if f.constraintName ∈ t.foreignKeys.map (·.constraintName) then none
    else some { t with foreignKeys := t.foreignKeys ++ [f] }
  | .dropForeignKey _ k =>
    if k ∈ t.foreignKeys.map (·.constraintName) then
      some { t with foreignKeys := t.foreignKeys.filter (·.constraintName ≠ k) }
    else none
  | .user (.addPolicy _ _ p) =>
    if p.name ∈ t.policies.map (·.name) then none else some { t with policies := t.policies ++ [p] }
  | .dropPolicy _ k =>
    if k ∈ t.policies.map (·.name) then some { t with policies := t.policies.filter (·.name ≠ k) } else none
  | _ => none

/-- Effect of a statement on an existing table. -/
def alter (mode : Mode) (s : Stmt) (t : Table) : Option Table :=
  if mode = .sqlite3 ∧ sqliteKnows s = false then none else change mode s t

/-- Effect of a statement on what is called like the table it is about. -/
def execTable (mode : Mode) (s : Stmt) (o : Option Table) : Option (Option Table) :=
  match s, o with
  | .user (.createTable _ t), none => some (some (keyNotNull t))
  | .user (.createTable _ _), some _ => none
  | .dropTable _, some _ => some none
  | _, none => none
  | s, some t => (alter mode s t).map some

/-- Effect of a statement about a view on what is called like the view. -/
def execView (s : Stmt) (o : Option View) : Option (Option View) :=
  match s, o with
  | .user (.view v), none => some (some v)
  | .createView n d, none => some (some { statement := [], name := n, definition := d })
  | .replaceView n d, _ => some (some { statement := [], name := n, definition := d })
  | .dropView _, some _ => some none
  | _, _ => none

/-- Effect of a statement about a trigger on what is called like the trigger. -/
def execTrigger (s : Stmt) (o : Option Trigger) : Option (Option Trigger) :=
  match s, o with
  | .createTrigger _ t, none => some (some t)
  | .createTrigger true t, some _ => some (some t)
  | .dropTrigger _, some _ => some none
  | _, _ => none

/-- The value under one name is replaced. -/
def update {α : Type} (f : Str → α) (n : Str) (a : α) : Str → α := fun m => if m = n then a else f m

/-- Execution of a statement; `none` if it fails. -/
def exec (mode : Mode) (s : Stmt) (c : Catalog) : Option Catalog :=
  match Stmt.table s, Stmt.view s, Stmt.trigger s with
  | some n, _, _ => (execTable mode s (c.table n)).map fun o => { c with table := update c.table n o }
  | none, some n, _ => (execView s (c.view n)).map fun o => { c with view := update c.view n o }
  | none, none, some n => (execTrigger s (c.trigger n)).map fun o => { c with trigger := update c.trigger n o }
  | none, none, none => none

/-- Execution of a script; `none` if a statement fails. -/
def execAll (mode : Mode) : List Stmt → Catalog → Option Catalog
  | [], c => some c
  | s :: l, c => (exec mode s c).bind (execAll mode l)

/-! ### Reading the database again -/

/-- The columns numbered from `i`. -/
def renumber : Int → List Column → List Column
  | _, [] => []
  | i, c :: cs => { c with position := i } :: renumber (i + 1) cs

/-- The schema `ds` is what one reads from a database with the contents `c`: the same tables, views and
triggers, where the columns are numbered in their order. -/
structure Describes (c : Catalog) (ds : List DDL) : Prop where
  unique : UniqueTables ds
  wellFormed : WellFormedCurrent ds
  tables : ∀ n, tableIn ds n = (c.table n).map fun t => { t with columns := renumber 0 t.columns }
  views : ∀ n, (viewsOf ds).find? (·.name = n) = c.view n
  triggers : ∀ n, (triggersOf ds).find? (·.name = n) = c.trigger n

end Sqldef.Spec
