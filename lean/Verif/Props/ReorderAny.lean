import Verif.Proofs.ReorderAny
/-
C62, continued: statements of any kind, views and triggers included, in any order and in any layout.
-/
namespace Sqldef
open Spec Written

/-- **C62.** Whatever statements the files consist of, in every dialect: if one of them is the other with its statements in
another order and in another layout, and every statement comes after the table it is about, then nothing is changed, in both
directions. -/
theorem C62_any_statements_in_any_order (fmtFloat : Str → Str) (mode : Mode) (file file' : Str) (h : Reordered mode file file') (ds : List DDL)
    (hd : parseDDLs (Sql.env fmtFloat) mode file = .ok ds) (hn : Normal mode ds) :
    ∃ ds', parseDDLs (Sql.env fmtFloat) mode file' = .ok ds' ∧ (WellFormedCurrent ds' →
      generateIdempotentDDLs (Sql.env fmtFloat) mode file file' = .ok [] ∧
      generateIdempotentDDLs (Sql.env fmtFloat) mode file' file = .ok []) := by
  obtain ⟨es, ds', h1, h2, h3⟩ := reordered_understood fmtFloat h hd
  refine ⟨ds', h1, fun hw => ?_⟩
  have hw' := (wellFormedCurrent_sameButText h3).mpr hw
  have hn' := normal_perm h2.symm hn hw'
  have k1 : diff mode ds ds' = .ok [] := by rw [← diff_current mode ds h3, diff_reordered hn hw' h2]
  have k2 : diff mode ds' ds = .ok [] := by
    have hn'' := (normal_sameButText h3).mp hn'
    have : ∃ fs, List.Forall₂ SameButText ds fs ∧ fs.Perm ds' := List.perm_comp_forall₂ h2.symm h3
    obtain ⟨fs, f1, f2⟩ := this
    rw [diff_current mode ds' f1]
    exact diff_reordered hn'' ((wellFormedCurrent_sameButText f1).mp (wellFormedCurrent_of_wellFormed hn.wellFormed hn.noAddIndex)) f2
  unfold generateIdempotentDDLs
  rw [hd, h1]
  constructor
  · change (diff mode ds ds' >>= fun l => pure (l.map (Stmt.render mode))) = _
    rw [k1]
    rfl
  · change (diff mode ds' ds >>= fun l => pure (l.map (Stmt.render mode))) = _
    rw [k2]
    rfl

/-- **C62.** An order that is not possible is refused: whatever the order, there is nothing to be changed, or an error. -/
theorem C62_any_reordering_changes_nothing_or_is_refused (fmtFloat : Str → Str) (mode : Mode) (file file' : Str) (h : Reordered mode file file')
    (ds : List DDL) (hd : parseDDLs (Sql.env fmtFloat) mode file = .ok ds) (hn : Normal mode ds) :
    generateIdempotentDDLs (Sql.env fmtFloat) mode file file' = .ok [] ∨ ∃ e, generateIdempotentDDLs (Sql.env fmtFloat) mode file file' = .error e := by
  obtain ⟨es, ds', h1, h2, h3⟩ := reordered_understood fmtFloat h hd
  have := C62_reordering_changes_nothing_or_is_refused hn h2
  rw [diff_current mode ds h3] at this
  unfold generateIdempotentDDLs
  rw [hd, h1]
  change (diff mode ds ds' >>= fun l => pure (l.map (Stmt.render mode))) = _ ∨ ∃ e, (diff mode ds ds' >>= fun l => pure (l.map (Stmt.render mode))) = _
  rcases this with h | ⟨e, h⟩
  · rw [h]
    exact .inl rfl
  · rw [h]
    exact .inr ⟨e, rfl⟩

/-! ### An example -/

/-- The file `exAnew` of C66 with its statements in the opposite order. -/
def exTurned : Str := txt "create trigger g after insert on t for each row delete from u;
create view v as select a from t where a>1;
create table `t`(a int)"

theorem exTurned_reordered : Reordered .mysql exAny exTurned := by
  refine ⟨statementTexts exAnew, exAny_rewritten, ?_⟩
  rw [show statementTexts exTurned = (statementTexts exAnew).reverse by decide +kernel]
  exact (List.reverse_perm _).symm

def exTurnedDefs : List DDL :=
  [.trigger { statement := txt "create trigger g after insert on t for each row delete from u", name := lit "g", tableName := lit "t",
              time := lit "after", event := lit "insert", body := [txt "delete from u"] },
   .view { statement := txt "create view v as select a from t where a>1", name := lit "v", definition := txt "select a from t where a > 1" },
   .createTable (txt "create table `t`(a int)") { name := lit "t", columns := [{ name := lit "a", position := 0, typeName := lit "int" }] }]

theorem exTurned_parsed : parseDDLs (Sql.env id) .mysql exTurned = .ok exTurnedDefs := ok_of_check (by decide +kernel)

theorem exTurned_wellFormed : WellFormedCurrent exTurnedDefs := by
  have e : ∀ a b c : DDL, [a, b, c] = [] ++ [a] ++ [b] ++ [c] := fun _ _ _ => rfl
  rw [exTurnedDefs, e, wellFormedCurrent_snoc, wellFormedCurrent_snoc, wellFormedCurrent_snoc]
  refine ⟨⟨⟨fun a x b e => by simp at e, ?_⟩, ?_⟩, ?_⟩ <;> simp [FollowsCurrent]

/-- A table, a view and a trigger of MySQL in the opposite order. -/
example : generateIdempotentDDLs (Sql.env id) .mysql exAny exTurned = .ok [] ∧ generateIdempotentDDLs (Sql.env id) .mysql exTurned exAny = .ok [] := by
  obtain ⟨ds', h1, h2⟩ := C62_any_statements_in_any_order id .mysql exAny exTurned exTurned_reordered exAnyDefs exAny_parsed exAny_normal
  cases exTurned_parsed.symm.trans h1
  exact h2 exTurned_wellFormed

end Sqldef
