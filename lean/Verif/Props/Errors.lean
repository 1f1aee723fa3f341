import Verif.Proofs.Errors
import Verif.Props.Objects
/-!
References to undefined tables and double definitions: C31.

No hypothesis is made about the schemas; in particular a table may be created twice.
-/
namespace Sqldef
open Spec

variable {mode : Mode} {desired current : List DDL}

theorem error_of_not_ok {α : Type} {r : Except Err α} (h : ∀ a, r ≠ .ok a) : ∃ e, r = .error e := by
  cases r with
  | error e => exact ⟨e, rfl⟩
  | ok a => exact absurd rfl (h a)

/-- C31: an index, foreign key or policy for a table that no earlier CREATE TABLE of the desired schema
creates is an error, whatever the current schema is. -/
theorem C31_undefined_table {pre post : List DDL} {d : DDL} {n : Str} (hs : desired = pre ++ d :: post)
    (ht : DDL.table d = some n) (hd : ∀ s t, d ≠ .createTable s t) (hn : n ∉ createdNames pre) :
    ∃ e, diff mode desired current = .error e := by
  refine error_of_not_ok fun out h => ?_
  have hf := wellFormed_of_diff h pre d post hs
  cases d with
  | createTable s t => exact hd s t rfl
  | createIndex _ m _ => cases ht; obtain ⟨t, ht, -⟩ := hf; exact hn (tableIn_some_iff.1 ⟨t, ht⟩)
  | addIndex _ m _ => cases ht; obtain ⟨t, ht, -⟩ := hf; exact hn (tableIn_some_iff.1 ⟨t, ht⟩)
  | addForeignKey _ m _ => cases ht; obtain ⟨t, ht, -⟩ := hf; exact hn (tableIn_some_iff.1 ⟨t, ht⟩)
  | addPolicy _ m _ => cases ht; obtain ⟨t, ht, -⟩ := hf; exact hn (tableIn_some_iff.1 ⟨t, ht⟩)
  | view v => cases ht
  | trigger v => cases ht
  | addPrimaryKey _ _ _ => exact hf

/-- The table is created after the index, or not at all; it exists in the current schema. -/
example : diff .mysql [.createIndex [] (lit "users") (exIdx "i" "id"), exCreate exUsers] [exCreate exUsers] =
    .error (.beforeCreateTable (lit "users")) := by decide +kernel
example : diff .mysql [.createIndex [] (lit "users") (exIdx "i" "id")] [] = .error (.inexistentTable (lit "users")) := by
  decide +kernel

/-- C31: the same for the current schema. -/
theorem C31_current_undefined_table {pre post : List DDL} {d : DDL} {n : Str} (hs : current = pre ++ d :: post)
    (ht : DDL.table d = some n) (hd : ∀ s t, d ≠ .createTable s t) (hn : n ∉ createdNames pre) :
    ∃ e, diff mode desired current = .error e :=
  error_of_not_ok fun _ h => hn ((current_follows_of_diff h pre d post hs).1 n ht hd)

example : diff .mysql [] [.createIndex [] (lit "users") (exIdx "i" "id"), exCreate exUsers] =
    .error (.beforeCreateTable (lit "users")) := by decide +kernel

theorem tableIn_first {pre : List DDL} {n : Str} (h : n ∈ createdNames pre) :
    ∃ t ∈ created pre, t.name = n ∧ tableIn pre n = some (complete pre t) := by
  obtain ⟨x, hx⟩ := tableIn_some_iff.2 h
  obtain ⟨t, ht, hn, rfl⟩ := tableIn_mem hx
  exact ⟨t, ht, hn, hx⟩

/-- C31: an index defined by a separate statement under a name that an earlier separate statement used for
the same table is an error. -/
theorem C31_index_defined_twice {pre mid post : List DDL} {d e : DDL} {n : Str} {i j : Index}
    (hs : desired = pre ++ d :: mid ++ e :: post) (hd : DefinesIndex n i d) (he : DefinesIndex n j e)
    (hij : i.name = j.name) : ∃ er, diff mode desired current = .error er := by
  refine error_of_not_ok fun out h => ?_
  have hf := wellFormed_of_diff h (pre ++ d :: mid) e post hs
  have : ∃ t, tableIn (pre ++ d :: mid) n = some t ∧ j.name ∉ t.indexes.map (·.name) := by
    obtain ⟨s, rfl | rfl⟩ := he <;> exact hf
  obtain ⟨t, ht, hj⟩ := this
  obtain ⟨t', -, hn, rfl⟩ := tableIn_mem ht
  apply hj
  rw [← hij]
  have : i ∈ indexesFor n (pre ++ d :: mid) := mem_indexesFor.2 ⟨d, by simp, hd⟩
  exact List.mem_map_of_mem (by simp [complete, hn, this])

example : diff .postgres [exCreate exUsers, .createIndex [] (lit "users") (exIdx "i" "id"),
    .createIndex [] (lit "users") (exIdx "i" "name")] [] = .error (.doublyCreated (lit "i")) := by decide +kernel

/-- C31: an index defined by a separate statement under a name that the CREATE TABLE of the table uses for
an index is an error. -/
theorem C31_index_of_table_defined_again {pre mid post : List DDL} {s : Str} {t : Table} {e : DDL} {j : Index}
    (hs : desired = pre ++ .createTable s t :: mid ++ e :: post) (he : DefinesIndex t.name j e)
    (hu : UniqueTables desired) (hij : j.name ∈ t.indexes.map (·.name)) : ∃ er, diff mode desired current = .error er := by
  refine error_of_not_ok fun out h => ?_
  have hf := wellFormed_of_diff h (pre ++ .createTable s t :: mid) e post hs
  have : ∃ x, tableIn (pre ++ .createTable s t :: mid) t.name = some x ∧ j.name ∉ x.indexes.map (·.name) := by
    obtain ⟨s, rfl | rfl⟩ := he <;> exact hf
  obtain ⟨x, hx, hj⟩ := this
  have hu' : UniqueTables (pre ++ .createTable s t :: mid) := by
    unfold UniqueTables at *
    rw [hs, createdNames_append] at hu
    exact hu.of_append_left
  have := tableIn_of_created hu' (mem_created.2 ⟨s, by simp⟩ : t ∈ created (pre ++ .createTable s t :: mid))
  rw [this] at hx
  cases hx
  apply hj
  simp only [complete, List.map_append, List.mem_append]
  exact .inl hij

example : diff .postgres [exCreate { exUsers with indexes := [exIdx "i" "id"] },
    .createIndex [] (lit "users") (exIdx "i" "name")] [] = .error (.doublyCreated (lit "i")) := by decide +kernel

/-- C31: a foreign key defined twice by separate statements is an error. -/
theorem C31_foreign_key_defined_twice {pre mid post : List DDL} {s s' n : Str} {f f' : ForeignKey}
    (hs : desired = pre ++ .addForeignKey s n f :: mid ++ .addForeignKey s' n f' :: post)
    (hff : f.constraintName = f'.constraintName) : ∃ er, diff mode desired current = .error er := by
  refine error_of_not_ok fun out h => ?_
  obtain ⟨t, ht, hj⟩ := wellFormed_of_diff h (pre ++ .addForeignKey s n f :: mid) _ post hs
  obtain ⟨t', -, hn, rfl⟩ := tableIn_mem ht
  apply hj
  rw [← hff]
  have : f ∈ foreignKeysFor n (pre ++ .addForeignKey s n f :: mid) := by
    rw [foreignKeysFor_append]; simp [foreignKeysFor]
  exact List.mem_map_of_mem (by simp [complete, hn, this])

example : diff .postgres [exCreate exUsers, .addForeignKey [] (lit "users") (exFk "f" "i"),
    .addForeignKey [] (lit "users") (exFk "f" "j")] [] = .error (.doublyCreated (lit "f")) := by decide +kernel

/-- C31: a policy defined twice on a table is an error. -/
theorem C31_policy_defined_twice {pre mid post : List DDL} {s s' n : Str} {f f' : Policy}
    (hs : desired = pre ++ .addPolicy s n f :: mid ++ .addPolicy s' n f' :: post)
    (hff : f.name = f'.name) : ∃ er, diff mode desired current = .error er := by
  refine error_of_not_ok fun out h => ?_
  obtain ⟨t, ht, hj⟩ := wellFormed_of_diff h (pre ++ .addPolicy s n f :: mid) _ post hs
  obtain ⟨t', -, hn, rfl⟩ := tableIn_mem ht
  apply hj
  rw [← hff]
  have : f ∈ policiesFor n (pre ++ .addPolicy s n f :: mid) := by
    rw [policiesFor_append]; simp [policiesFor]
  exact List.mem_map_of_mem (by simp [complete, hn, this])

example : diff .postgres [exCreate exUsers, .addPolicy [] (lit "users") (exPol "p" []),
    .addPolicy [] (lit "users") (exPol "p" [])] [] = .error (.doublyCreated (lit "p")) := by decide +kernel

/-- C31: a view defined twice is an error. -/
theorem C31_view_defined_twice {pre mid post : List DDL} {v w : View}
    (hs : desired = pre ++ .view v :: mid ++ .view w :: post) (hvw : v.name = w.name) :
    ∃ er, diff mode desired current = .error er := by
  refine error_of_not_ok fun out h => ?_
  have hf : w.name ∉ (viewsOf (pre ++ .view v :: mid)).map (·.name) :=
    wellFormed_of_diff h (pre ++ .view v :: mid) _ post hs
  apply hf
  rw [← hvw, viewsOf_append]
  simp [viewsOf]

example : diff .postgres [.view ⟨[], lit "v", lit "select 1"⟩, .view ⟨[], lit "v", lit "select 2"⟩] [] =
    .error (.doublyCreated (lit "v")) := by decide +kernel

/-- C31 does not hold for the code as far as tables go: a table created twice is accepted. For an empty
database the column of the second definition is added to the first; the next run drops it, twice. -/
theorem C31_table_created_twice_accepted :
    diff .mysql [exCreate exUsers, exCreate exUsers'] [] =
      .ok [.user (exCreate exUsers), .addColumn (lit "users") (exInt "name" 1) (.after (lit "id"))] ∧
    diff .mysql [exCreate exUsers, exCreate exUsers']
        [exCreate { exUsers with columns := [exInt "id" 0, exInt "name" 1, exInt "age" 2] }] =
      .ok [.dropColumn (lit "users") (lit "name"), .dropColumn (lit "users") (lit "name")] := by constructor <;> decide +kernel

/-- C31 does not hold for the code as far as the indexes inside one CREATE TABLE go. -/
theorem C31_index_twice_in_table_accepted :
    diff .mysql [exCreate { exUsers with indexes := [exIdx "i" "id", exIdx "i" "name"] }] [exCreate exUsers] =
      .ok [.addIndex (lit "users") (exIdx "i" "id"), .addIndex (lit "users") (exIdx "i" "name")] := by decide +kernel

end Sqldef
