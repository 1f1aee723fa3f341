import Verif.Proofs.ReorderText
/-
C62: the order in which a schema is written does not matter.
-/
namespace Sqldef
open Spec Written

/-- **C62.** Two schemas of the same definitions in different orders are the same to the tool: as long as every statement of
the reordered one comes after the table it is about, nothing is to be changed from one to the other. -/
theorem C62_order_of_definitions_is_irrelevant {mode : Mode} {ds cs : List DDL} (h : Normal mode ds) (hp : cs.Perm ds)
    (hw : WellFormedCurrent cs) : diff mode ds cs = .ok [] ∧ diff mode cs ds = .ok [] :=
  ⟨diff_reordered h hw hp, diff_reordered (normal_perm hp.symm h hw) (wellFormedCurrent_of_wellFormed h.wellFormed h.noAddIndex) hp.symm⟩

/-- **C62.** If an order is not possible, then it is refused: from a schema to a reordered one either there is nothing to be
changed or there is an error, whatever the order. -/
theorem C62_reordering_changes_nothing_or_is_refused {mode : Mode} {ds cs : List DDL} (h : Normal mode ds) (hp : cs.Perm ds) :
    diff mode ds cs = .ok [] ∨ ∃ e, diff mode ds cs = .error e := by
  cases hd : diff mode ds cs with
  | error e => exact .inr ⟨e, rfl⟩
  | ok out =>
    have hu : UniqueTables cs := by
      unfold UniqueTables createdNames
      exact ((created_perm hp).map _).nodup_iff.mpr h.unique
    obtain ⟨-, hw, -⟩ := (diff_stateless mode ds cs h.unique hu out).1 hd
    rw [diff_reordered h hw hp] at hd
    exact .inl hd.symm

/-- **C62.** The order of the statements in a file is irrelevant, and so is their layout: a file with the same statements,
in any order in which every statement comes after the table it is about, changes nothing, and nothing is changed from it. -/
theorem C62_order_of_statements_is_irrelevant (fmtFloat : Str → Str) (mode : Mode) (file file' : Str) (ss ss' : List Sentence)
    (hp : ss'.Perm ss) (hf : Contains mode file ss) (hf' : Contains mode file' ss') (h : ∀ s ∈ ss, s.Clear ∧ s.InRange)
    (ds ds' : List DDL) (hd : parseDDLs (Sql.env fmtFloat) mode file = .ok ds) (hn : Normal mode ds)
    (hd' : parseDDLs (Sql.env fmtFloat) mode file' = .ok ds') (hw : WellFormedCurrent ds') :
    generateIdempotentDDLs (Sql.env fmtFloat) mode file file' = .ok [] ∧
      generateIdempotentDDLs (Sql.env fmtFloat) mode file' file = .ok [] := by
  refine ⟨reordered_nothing fmtFloat mode hp hf hf' h hd hn hd' hw, ?_⟩
  obtain ⟨cs, c1, c2⟩ := reordered_definitions fmtFloat mode hp hf hf' h hd hd'
  have hpk : ∀ s n i, .addPrimaryKey s n i ∉ cs := fun s n i hm => by
    obtain ⟨pre, post, e⟩ := List.append_of_mem (c1.mem_iff.mp hm)
    exact (hn.wellFormed pre _ post e).elim
  have hn' : Normal mode ds' := normal_same c2 (normal_perm c1.symm hn (wellFormedCurrent_same c2 hw hpk))
  exact reordered_nothing fmtFloat mode hp.symm hf' hf (fun s hs => h s (hp.mem_iff.mp hs)) hd' hn' hd
    (wellFormedCurrent_of_wellFormed hn.wellFormed hn.noAddIndex)

/-! ### Examples -/

/-- The statements of `exWritten` in another order. -/
def exReordered : List Sentence := [exWritten[0], exWritten[3], exWritten[2], exWritten[1]]

def exReorderedFile : Str := txt "create table users (id int not null, name text);
CREATE POLICY mine ON users AS RESTRICTIVE FOR SELECT TO alice USING (id = 7);
ALTER TABLE ONLY users ADD CONSTRAINT fk FOREIGN KEY (id) REFERENCES users (id);
CREATE UNIQUE INDEX by_name ON public.users USING btree (name, id) WHERE (id > 0);
"

theorem exReordered_contains : Contains .postgres exReorderedFile exReordered := by
  unfold Contains
  rw [show statementTexts exReorderedFile = [txt "create table users (id int not null, name text)",
    txt "CREATE POLICY mine ON users AS RESTRICTIVE FOR SELECT TO alice USING (id = 7)",
    txt "ALTER TABLE ONLY users ADD CONSTRAINT fk FOREIGN KEY (id) REFERENCES users (id)",
    txt "CREATE UNIQUE INDEX by_name ON public.users USING btree (name, id) WHERE (id > 0)"] by decide +kernel]
  exact .cons (ok_of_check (by decide +kernel)) (.cons (ok_of_check (by decide +kernel))
    (.cons (ok_of_check (by decide +kernel)) (.cons (ok_of_check (by decide +kernel)) .nil)))

theorem exReordered_perm : exReordered.Perm exWritten :=
  .cons exWritten[0] (.trans (.swap exWritten[2] exWritten[3] [exWritten[1]])
    (.trans (.cons exWritten[2] (.swap exWritten[1] exWritten[3] [])) (.swap exWritten[1] exWritten[2] [exWritten[3]])))

def exReorderedDefs : List DDL :=
  [exWrittenDefs[0].withText (txt "create table users (id int not null, name text)"), exWrittenDefs[3], exWrittenDefs[2], exWrittenDefs[1]]

theorem exReordered_parsed : parseDDLs (Sql.env id) .postgres exReorderedFile = .ok exReorderedDefs :=
  ok_of_check (by decide +kernel)

theorem exReordered_wellFormed : WellFormedCurrent exReorderedDefs := by
  have e : ∀ a b c d : DDL, [a, b, c, d] = [] ++ [a] ++ [b] ++ [c] ++ [d] := fun _ _ _ _ => rfl
  rw [exReorderedDefs, e, wellFormedCurrent_snoc, wellFormedCurrent_snoc, wellFormedCurrent_snoc, wellFormedCurrent_snoc]
  refine ⟨⟨⟨⟨fun a x b e => by simp at e, trivial⟩, ?_⟩, ?_⟩, ?_⟩ <;>
    simp [exWrittenDefs, DDL.withText, FollowsCurrent, createdNames, created]

/-- From the file to the reordered file, and back, there is nothing to change. -/
example : generateIdempotentDDLs (Sql.env id) .postgres exWrittenFile exReorderedFile = .ok [] ∧
    generateIdempotentDDLs (Sql.env id) .postgres exReorderedFile exWrittenFile = .ok [] :=
  C62_order_of_statements_is_irrelevant id .postgres exWrittenFile exReorderedFile exWritten exReordered exReordered_perm exWritten_contains.1
    exReordered_contains exWritten_clear _ _ exWritten_parsed exWritten_normal exReordered_parsed exReordered_wellFormed

/-- With the table at the end the schema is refused. -/
example : ∃ e, diff .postgres exWrittenDefs exWrittenDefs.reverse = .error e := by
  refine (C62_reordering_changes_nothing_or_is_refused exWritten_normal (List.reverse_perm _)).resolve_left fun h => ?_
  have : (diff .postgres exWrittenDefs exWrittenDefs.reverse).toOption = none := by decide +kernel
  rw [h] at this
  cases this

end Sqldef
