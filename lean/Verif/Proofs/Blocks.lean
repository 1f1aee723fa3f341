import Verif.Spec.Normal
import Verif.Proofs.Stateless
import Verif.Proofs.Script
/-
Schemas that are written table by table.
-/
namespace Sqldef
open Spec

/-- The definition is an index, a foreign key or a policy of the table. -/
def OwnedBy (n : Str) : DDL → Prop
  | .createIndex _ m _ => m = n
  | .addForeignKey _ m _ => m = n
  | .addPolicy _ m _ => m = n
  | _ => False

/-- A table with its indexes, foreign keys and policies. -/
structure TableBlock where
  text : Str
  table : Table
  rest : List DDL

def TableBlock.defs (b : TableBlock) : List DDL := .createTable b.text b.table :: b.rest

/-- The table is in normal form. -/
structure NormalBlock (mode : Mode) (b : TableBlock) : Prop where
  owned : ∀ d ∈ b.rest, OwnedBy b.table.name d
  columns : (b.table.columns.map (·.name)).Nodup
  indexes : ((b.table.indexes ++ indexesFor b.table.name b.rest).map (·.name)).Nodup
  options : ∀ i ∈ b.table.indexes ++ indexesFor b.table.name b.rest, (i.options.map (·.optionName)).Nodup
  secondary : ∀ i ∈ indexesFor b.table.name b.rest, i.primary = false
  foreignKeys : ((b.table.foreignKeys ++ foreignKeysFor b.table.name b.rest).map (·.constraintName)).Nodup
  named : ∀ f ∈ b.table.foreignKeys, f.constraintName ≠ []
  policies : ((b.table.policies ++ policiesFor b.table.name b.rest).map (·.name)).Nodup
  mysql : mode = .mysql → ∀ c ∈ b.table.columns, c.check = none ∧ (c.keyOption = .primary → c.notNull = some true)

variable {mode : Mode}

theorem created_owned {n : Str} {ds : List DDL} (h : ∀ d ∈ ds, OwnedBy n d) : created ds = [] := by
  induction ds with
  | nil => rfl
  | cons d ds ih =>
    have h1 := h d (by simp)
    have h2 := ih fun x hx => h x (by simp [hx])
    cases d <;> first | exact h2 | exact absurd h1 (by simp [OwnedBy])

theorem createdNames_block {n : Str} (s : Str) (t : Table) {ds : List DDL} (h : ∀ d ∈ ds, OwnedBy n d) :
    createdNames (.createTable s t :: ds) = [t.name] := by
  simp [createdNames, created, created_owned h]

theorem nodup_middle {α : Type} {l r : List α} {x : α} (h : (l ++ x :: r).Nodup) : x ∉ l := by
  rw [List.nodup_append] at h
  exact fun hm => h.2.2 x hm x (by simp) rfl

/-- Adding a table with what belongs to it. -/
theorem wellFormed_block {pre : List DDL} {b : TableBlock} (hw : WellFormed pre) (hu : UniqueTables pre)
    (hn : b.table.name ∉ createdNames pre) (h : NormalBlock mode b) : WellFormed (pre ++ b.defs) := by
  have fresh := fresh_of_wellFormed hw hn
  suffices key : ∀ done todo, b.rest = done ++ todo → WellFormed (pre ++ .createTable b.text b.table :: done) by
    exact key b.rest [] (by simp)
  intro done
  induction done using List.reverseRecOn with
  | nil => exact fun _ _ => wellFormed_snoc.2 ⟨hw, trivial⟩
  | append_singleton done d ih =>
    intro todo ht
    have hb := ih (d :: todo) (by simpa using ht)
    have e : pre ++ DDL.createTable b.text b.table :: (done ++ [d]) = (pre ++ DDL.createTable b.text b.table :: done) ++ [d] := by simp
    rw [e]
    refine wellFormed_snoc.2 ⟨hb, ?_⟩
    have hown : ∀ x ∈ done, OwnedBy b.table.name x := fun x hx => h.owned x (by rw [ht]; simp [hx])
    have hd : OwnedBy b.table.name d := h.owned d (by rw [ht]; simp)
    have hu' : UniqueTables (pre ++ DDL.createTable b.text b.table :: done) := by
      unfold UniqueTables
      rw [createdNames_append, createdNames_block _ _ hown, List.nodup_append]
      refine ⟨hu, by simp, ?_⟩
      intro a ha c hc
      simp only [List.mem_singleton] at hc
      rintro rfl
      exact hn (hc ▸ ha)
    have hin := tableIn_of_created hu' (t := b.table) (by rw [created_append]; simp [created])
    cases d with
    | createIndex s n i =>
      cases hd
      refine ⟨_, hin, ?_⟩
      have := h.indexes
      rw [ht, indexesFor_append, indexesFor_append] at this
      simp only [indexesFor, if_true, List.map_append, List.map_cons, List.append_assoc, List.cons_append] at this
      rw [← List.append_assoc] at this
      have := nodup_middle this
      simp only [complete, indexesFor_append, indexesFor, fresh, List.nil_append]
      simpa using this
    | addForeignKey s n f =>
      cases hd
      refine ⟨_, hin, ?_⟩
      have := h.foreignKeys
      rw [ht, foreignKeysFor_append, foreignKeysFor_append] at this
      simp only [foreignKeysFor, if_true, List.map_append, List.map_cons, List.append_assoc, List.cons_append] at this
      rw [← List.append_assoc] at this
      have := nodup_middle this
      simp only [complete, foreignKeysFor_append, foreignKeysFor, fresh, List.nil_append]
      simpa using this
    | addPolicy s n p =>
      cases hd
      refine ⟨_, hin, ?_⟩
      have := h.policies
      rw [ht, policiesFor_append, policiesFor_append] at this
      simp only [policiesFor, if_true, List.map_append, List.map_cons, List.append_assoc, List.cons_append] at this
      rw [← List.append_assoc] at this
      have := nodup_middle this
      simp only [complete, policiesFor_append, policiesFor, fresh, List.nil_append]
      simpa using this
    | _ => exact absurd hd (by simp [OwnedBy])

theorem for_owned {n m : Str} (hne : n ≠ m) {ds : List DDL} (h : ∀ d ∈ ds, OwnedBy m d) :
    indexesFor n ds = [] ∧ foreignKeysFor n ds = [] ∧ policiesFor n ds = [] := by
  induction ds with
  | nil => exact ⟨rfl, rfl, rfl⟩
  | cons d ds ih =>
    have h1 := h d (by simp)
    have h2 := ih fun x hx => h x (by simp [hx])
    cases d <;> first
      | (cases h1
         simp [indexesFor, foreignKeysFor, policiesFor, h2, Ne.symm hne])
      | exact absurd h1 (by simp [OwnedBy])

theorem createdNames_blocks {bs : List TableBlock} (h : ∀ b ∈ bs, NormalBlock mode b) :
    createdNames (bs.flatMap TableBlock.defs) = bs.map (·.table.name) := by
  induction bs with
  | nil => rfl
  | cons b bs ih =>
    rw [List.flatMap_cons, createdNames_append, ih fun x hx => h x (by simp [hx])]
    unfold TableBlock.defs
    rw [createdNames_block _ _ (h b (by simp)).owned]
    rfl

theorem for_blocks {bs : List TableBlock} (h : ∀ b ∈ bs, NormalBlock mode b) (hn : (bs.map (·.table.name)).Nodup) {b : TableBlock}
    (hb : b ∈ bs) : indexesFor b.table.name (bs.flatMap TableBlock.defs) = indexesFor b.table.name b.rest ∧
      foreignKeysFor b.table.name (bs.flatMap TableBlock.defs) = foreignKeysFor b.table.name b.rest ∧
      policiesFor b.table.name (bs.flatMap TableBlock.defs) = policiesFor b.table.name b.rest := by
  have none : ∀ (cs : List TableBlock) (n : Str), (∀ c ∈ cs, NormalBlock mode c) → n ∉ cs.map (·.table.name) →
      indexesFor n (cs.flatMap TableBlock.defs) = [] ∧ foreignKeysFor n (cs.flatMap TableBlock.defs) = [] ∧
      policiesFor n (cs.flatMap TableBlock.defs) = [] := by
    intro cs n hc hm
    induction cs with
    | nil => exact ⟨rfl, rfl, rfl⟩
    | cons c cs ih =>
      simp only [List.map_cons, List.mem_cons, not_or] at hm
      obtain ⟨i1, i2, i3⟩ := ih (fun x hx => hc x (by simp [hx])) hm.2
      obtain ⟨o1, o2, o3⟩ := for_owned hm.1 (hc c (by simp)).owned
      simp only [List.flatMap_cons, indexesFor_append, foreignKeysFor_append, policiesFor_append, i1, i2, i3, List.append_nil]
      exact ⟨o1, o2, o3⟩
  obtain ⟨l, r, rfl⟩ := List.append_of_mem hb
  rw [List.map_append, List.map_cons, List.nodup_append] at hn
  have h1 := none l b.table.name (fun x hx => h x (by simp [hx])) (fun hm => hn.2.2 _ hm _ (by simp) rfl)
  have h2 := none r b.table.name (fun x hx => h x (by simp [hx])) (List.nodup_cons.mp hn.2.1).1
  simp only [List.flatMap_append, List.flatMap_cons, indexesFor_append, foreignKeysFor_append, policiesFor_append, h1, h2,
    List.nil_append, List.append_nil]
  exact ⟨rfl, rfl, rfl⟩

theorem triggers_owned {n : Str} {ds : List DDL} (h : ∀ d ∈ ds, OwnedBy n d) : triggersOf ds = [] := by
  induction ds with
  | nil => rfl
  | cons d ds ih =>
    have h1 := h d (by simp)
    have h2 := ih fun x hx => h x (by simp [hx])
    cases d <;> first | exact h2 | exact absurd h1 (by simp [OwnedBy])

/-- A schema that is written table by table is in normal form if each of its tables is, and no table is there twice. -/
theorem normal_of_blocks {bs : List TableBlock} (h : ∀ b ∈ bs, NormalBlock mode b) (hn : (bs.map (·.table.name)).Nodup) :
    Normal mode (bs.flatMap TableBlock.defs) := by
  have hu : UniqueTables (bs.flatMap TableBlock.defs) := by
    unfold UniqueTables
    rw [createdNames_blocks h]
    exact hn
  have mem : ∀ d ∈ bs.flatMap TableBlock.defs, ∃ b ∈ bs, d = .createTable b.text b.table ∨ d ∈ b.rest := by
    intro d hd
    obtain ⟨b, hb, hd⟩ := List.mem_flatMap.mp hd
    exact ⟨b, hb, by simpa [TableBlock.defs] using hd⟩
  refine ⟨hu, ?_, ?_, ?_, ?_⟩
  · clear mem
    induction bs using List.reverseRecOn with
    | nil => exact wellFormed_nil
    | append_singleton bs b ih =>
      rw [List.map_append, List.nodup_append] at hn
      have hbs : ∀ x ∈ bs, NormalBlock mode x := fun x hx => h x (by simp [hx])
      have hu' : UniqueTables (bs.flatMap TableBlock.defs) := by
        unfold UniqueTables
        rw [createdNames_blocks hbs]
        exact hn.1
      rw [List.flatMap_append]
      have := wellFormed_block (ih hbs hn.1 hu') hu' (b := b) (by
        rw [createdNames_blocks hbs]
        exact fun hm => hn.2.2 _ hm _ (by simp) rfl) (h b (by simp))
      simpa using this
  · intro s n i hm
    obtain ⟨b, hb, hd | hd⟩ := mem _ hm
    · cases hd
    · exact absurd ((h b hb).owned _ hd) (by simp [OwnedBy])
  · intro s t hm
    obtain ⟨b, hb, hd | hd⟩ := mem _ hm
    · cases hd
      have n := h b hb
      obtain ⟨e1, e2, e3⟩ := for_blocks h hn hb
      refine ⟨n.columns, ?_, ?_, ?_, ?_, n.named, ?_, n.mysql⟩
      · rw [e1]; exact n.indexes
      · rw [e1]; exact n.options
      · rw [e1]; exact n.secondary
      · rw [e2]; exact n.foreignKeys
      · rw [e3]; exact n.policies
    · exact absurd ((h b hb).owned _ hd) (by simp [OwnedBy])
  · have : triggersOf (bs.flatMap TableBlock.defs) = [] := by
      clear mem hu hn
      induction bs with
      | nil => rfl
      | cons b bs ih =>
        have e : ∀ (a c : List DDL), triggersOf (a ++ c) = triggersOf a ++ triggersOf c := by
          intro a c
          induction a with
          | nil => rfl
          | cons d a ih => cases d <;> simp [triggersOf, ih]
        rw [List.flatMap_cons, e, ih fun x hx => h x (by simp [hx])]
        have := triggers_owned (h b (by simp)).owned
        simp [TableBlock.defs, triggersOf, this]
    rw [this]
    simp

end Sqldef
