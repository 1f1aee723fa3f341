import Verif.Proofs.Script
import Verif.Props.Parser
import Verif.Spec.Direction
/-!
An empty database is built from the file as it is; an empty file tears the schema down: C53.
-/
namespace Sqldef
open Spec

theorem convert_nil : (created ([] : List DDL)) = [] ∧ tablesOf [] = [] ∧ viewsOf [] = [] ∧ triggersOf [] = [] :=
  ⟨rfl, rfl, rfl, rfl⟩

theorem wellFormedCurrent_nil : WellFormedCurrent [] := by intro a x b e; simp at e

theorem defStmts_empty (mode : Mode) {ds : List DDL} (h : ∀ d ∈ ds, ∀ s n i, d ≠ .addPrimaryKey s n i) :
    concatMapM (defStmts mode [] [] []) ds = .ok (ds.flatMap (buildStatements mode)) := by
  induction ds with
  | nil => rfl
  | cons d ds ih =>
    refine concatMapM_cons_ok.2 ⟨buildStatements mode d, _, ?_, ih fun e he => h e (List.mem_cons_of_mem _ he), rfl⟩
    cases d with
    | addPrimaryKey s n i => exact absurd rfl (h _ List.mem_cons_self s n i)
    | trigger t => cases mode <;> rfl
    | _ => rfl

/-- C53: against an empty database the run is the definitions of the file in their order, each as its author wrote it;
it fails exactly if the file is not well-formed. Nothing is altered or dropped. -/
theorem C53_empty_database (mode : Mode) (desired : List DDL) (hd : UniqueTables desired) (out : List Stmt) :
    diff mode desired [] = .ok out ↔ WellFormed desired ∧ out = desired.flatMap (buildStatements mode) := by
  rw [diff_stateless mode desired [] hd List.nodup_nil]
  have key : WellFormed desired → ∀ d ∈ desired, ∀ s n i, d ≠ .addPrimaryKey s n i := by
    rintro hw d hm s n i rfl
    obtain ⟨a, b, e⟩ := List.append_of_mem hm
    exact hw a _ b e
  constructor
  · rintro ⟨hw, _, x, y, hx, hy, rfl⟩
    refine ⟨hw, ?_⟩
    have e := hx.symm.trans (defStmts_empty mode (key hw))
    cases e
    cases hy
    simp [cleanupViews, viewsOf]
  · rintro ⟨hw, rfl⟩
    exact ⟨hw, wellFormedCurrent_nil, _, [], defStmts_empty mode (key hw), rfl, by simp [cleanupViews, viewsOf]⟩

/-- C53: a file without statements drops every table of the current schema and then every view, in the order of the
current schema, and does nothing else. -/
theorem C53_empty_file (mode : Mode) (current : List DDL) (hc : UniqueTables current) (out : List Stmt) :
    diff mode [] current = .ok out ↔ WellFormedCurrent current ∧
      out = (createdNames current).map (Stmt.dropTable ·) ++ (viewsOf current).map fun v => .dropView v.name := by
  rw [diff_stateless mode [] current List.nodup_nil hc]
  have key : ∀ l : List Table, concatMapM (tableCleanup mode (tablesOf [])) l =
      .ok (l.map fun t => Stmt.dropTable t.name) := by
    intro l
    induction l with
    | nil => rfl
    | cons a l ih => exact concatMapM_cons_ok.2 ⟨[.dropTable a.name], _, rfl, ih, rfl⟩
  have hn : ((tablesOf current).map fun t => Stmt.dropTable t.name) = (createdNames current).map (Stmt.dropTable ·) := by
    rw [← names_tablesOf, List.map_map]; rfl
  have hv : cleanupViews (viewsOf []) (viewsOf current) = (viewsOf current).map fun v => .dropView v.name := by
    rw [cleanupViews, List.filter_eq_self.2]
    intro v _
    rfl
  constructor
  · rintro ⟨_, hw, x, y, hx, hy, rfl⟩
    refine ⟨hw, ?_⟩
    cases hx
    have e := hy.symm.trans (key _)
    cases e
    rw [hn, hv]; rfl
  · rintro ⟨hw, rfl⟩
    exact ⟨wellFormed_nil, hw, [], _, rfl, key _, by rw [hn, hv]; rfl⟩

theorem generate_ok {env : Env} {mode : Mode} {desiredSQL currentSQL : Str} {out : List Str} :
    generateIdempotentDDLs env mode desiredSQL currentSQL = .ok out ↔
      ∃ desired current stmts, parseDDLs env mode desiredSQL = .ok desired ∧ parseDDLs env mode currentSQL = .ok current ∧
        diff mode desired current = .ok stmts ∧ out = stmts.map (Stmt.render mode) := by
  unfold generateIdempotentDDLs
  rw [bind_ok]
  constructor
  · rintro ⟨d, hd, h⟩
    obtain ⟨c, hc, h⟩ := bind_ok.1 h
    obtain ⟨s, hs, h⟩ := bind_ok.1 h
    cases h
    exact ⟨d, c, s, hd, hc, hs, rfl⟩
  · rintro ⟨d, c, s, hd, hc, hs, rfl⟩
    exact ⟨d, hd, bind_ok.2 ⟨c, hc, bind_ok.2 ⟨s, hs, rfl⟩⟩⟩

theorem parseDDLs_blank {env : Env} {mode : Mode} {text : Str} (h : statementTexts text = []) :
    parseDDLs env mode text = .ok [] :=
  (C12_one_definition_per_statement ..).2 (by rw [h]; exact .nil)

theorem render_buildStatements (mode : Mode) {ds : List DDL} (h : ∀ d ∈ ds, PassedOn d) :
    (ds.flatMap (buildStatements mode)).map (Stmt.render mode) = ds.map DDL.statement := by
  induction ds with
  | nil => rfl
  | cons d ds ih =>
    rw [List.flatMap_cons, List.map_append, ih fun e he => h e (List.mem_cons_of_mem _ he)]
    have := h d List.mem_cons_self
    cases d <;> first | rfl | exact absurd this (by simp [PassedOn])

/-- C53: a whole run against an empty database writes the statements of the file itself, character by character and in
their order (for a file of tables, indexes, policies and views). -/
theorem C53_file_is_passed_on (env : Env) (mode : Mode) (file dump : Str) (desired : List DDL)
    (he : statementTexts dump = []) (hp : parseDDLs env mode file = .ok desired) (hd : UniqueTables desired)
    (hw : WellFormed desired) (hk : ∀ d ∈ desired, PassedOn d) :
    generateIdempotentDDLs env mode file dump = .ok (statementTexts file) := by
  rw [generate_ok]
  refine ⟨desired, [], _, hp, parseDDLs_blank he, (C53_empty_database mode desired hd _).2 ⟨hw, rfl⟩, ?_⟩
  rw [render_buildStatements mode hk, C12_texts_are_kept env mode file desired hp]

/-- C53: a whole run with an empty file only drops what the dump describes. -/
theorem C53_teardown (env : Env) (mode : Mode) (file dump : Str) (current : List DDL)
    (he : statementTexts file = []) (hp : parseDDLs env mode dump = .ok current) (hc : UniqueTables current)
    (hw : WellFormedCurrent current) :
    generateIdempotentDDLs env mode file dump = .ok
      ((createdNames current).map (fun n => lit "DROP TABLE " ++ escapeTableName mode n) ++
       (viewsOf current).map fun v => lit "DROP VIEW " ++ escapeTableName mode v.name) := by
  rw [generate_ok]
  refine ⟨[], current, _, parseDDLs_blank he, hp, (C53_empty_file mode current hc _).2 ⟨hw, rfl⟩, ?_⟩
  rw [List.map_append, List.map_map, List.map_map]
  rfl

/-! ### The hypotheses are met -/

def exUsersTable : Table := { name := lit "users", columns := [{ position := 0, name := lit "id", typeName := lit "bigint" }] }
def exBuildFile : List DDL :=
  [.createTable (lit "create table users (id bigint)") exUsersTable,
   .view { statement := lit "create view v as select 1", name := lit "v", definition := lit "select 1" },
   .addForeignKey [] (lit "users") { constraintName := lit "fk", indexColumns := [lit "id"], referenceName := lit "t", referenceColumns := [lit "id"] },
   .trigger { statement := [], name := lit "tr", tableName := lit "users", time := lit "before", event := lit "insert", body := [lit "x"] }]

example : diff .mysql exBuildFile [] = .ok
    [.user (.createTable (lit "create table users (id bigint)") exUsersTable),
     .user (.view { statement := lit "create view v as select 1", name := lit "v", definition := lit "select 1" }),
     .createTrigger false { statement := [], name := lit "tr", tableName := lit "users", time := lit "before", event := lit "insert", body := [lit "x"] }] := by
  decide +kernel
example : diff .mysql [] (exBuildFile.take 2) = .ok [.dropTable (lit "users"), .dropView (lit "v")] := by decide +kernel
example : UniqueTables exBuildFile ∧ UniqueTables (exBuildFile.take 2) ∧ ∀ d ∈ exBuildFile.take 2, PassedOn d := by decide
example : statementTexts (lit " ;\n-- nothing\n ;") = [] := by decide
example : WellFormed exBuildFile :=
  ((C53_empty_database .mysql exBuildFile (by decide) _).1
    (show diff .mysql exBuildFile [] = .ok (exBuildFile.flatMap (buildStatements .mysql)) by decide +kernel)).1

end Sqldef
