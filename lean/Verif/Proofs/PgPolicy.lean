import Verif.Proofs.PgNormal
/-
A policy of a table that is not in the schema `public`.
-/
namespace Sqldef
open Spec Written Dumped

theorem names_updateTable (f : Table → Table) (hf : ∀ t, (f t).name = t.name) (n : Str) : ∀ ts : List Table,
    (updateTable ts n f).map (·.name) = ts.map (·.name)
  | [] => rfl
  | t :: ts => by
    unfold updateTable
    split
    · simp [hf]
    · simp [names_updateTable f hf n ts]

/-- The tables of the policies of a schema that can be converted are in it. -/
theorem convertFrom_policies {ds : List DDL} : ∀ {ts ts' : List Table}, convertFrom ts ds = .ok ts' →
    ∀ s n p, DDL.addPolicy s n p ∈ ds → n ∈ ts.map (·.name) ++ createdNames ds := by
  induction ds with
  | nil => simp
  | cons d ds ih =>
    intro ts ts' h s n p hm
    cases hs : convertStep ts d with
    | error e => rw [convertFrom, hs] at h; cases h
    | ok us =>
      rw [convertFrom, hs] at h
      have key : us.map (·.name) ++ createdNames ds = ts.map (·.name) ++ createdNames (d :: ds) := by
        cases d with
        | createTable x t =>
          cases hs
          simp [createdNames, created]
        | createIndex x t i =>
          simp only [convertStep] at hs
          split at hs
          · cases hs
          · cases hs
            rw [names_updateTable _ (by intro; rfl)]
            rfl
        | addPrimaryKey x t i =>
          simp only [convertStep] at hs
          split at hs
          · cases hs
          · split at hs
            · split at hs
              · cases hs
                rfl
              · cases hs
            · cases hs
              rw [names_updateTable _ (by intro; rfl)]
              rfl
        | addForeignKey x t i =>
          simp only [convertStep] at hs
          split at hs
          · cases hs
          · cases hs
            rw [names_updateTable _ (by intro; rfl)]
            rfl
        | addPolicy x t i =>
          simp only [convertStep] at hs
          split at hs
          · cases hs
          · cases hs
            rw [names_updateTable _ (by intro; rfl)]
            rfl
        | addIndex x t i => cases hs
        | view v => cases hs; rfl
        | trigger v => cases hs; rfl
      rcases List.mem_cons.mp hm with rfl | hm
      · simp only [convertStep] at hs
        split at hs
        · cases hs
        · rename_i t ht
          have := List.find?_some ht
          have h2 := List.mem_of_find?_eq_some ht
          rw [List.mem_append]
          exact .inl (List.mem_map.mpr ⟨t, h2, by simpa using this⟩)
      · rw [← key]
        exact ih h s n p hm

theorem created_of_rest {ss : List Sentence} {ds : List DDL} (h : List.Forall₂ ReadAs ss ds) (hs : ∀ s ∈ ss, ∀ t, s ≠ .table t) :
    createdNames ds = [] := by
  induction h with
  | nil => rfl
  | @cons s d ss ds hd _ ih =>
    have ih := ih fun x hx => hs x (by simp [hx])
    have hs := hs s (by simp)
    obtain ⟨-, hk⟩ := hd
    cases s with
    | table t => exact absurd rfl (hs t)
    | index i => obtain ⟨x, n, f, rfl⟩ := hk; exact ih
    | alter a =>
      unfold Sentence.Kind at hk
      dsimp only at hk
      split at hk <;> obtain ⟨x, n, f, rfl⟩ := hk <;> exact ih
    | policy p => obtain ⟨x, n, f, rfl⟩ := hk; exact ih

theorem described_created {cat : Pg.Catalog} {ts : List (Str × Str)} {ds : List Described}
    (h : List.Forall₂ (fun t d => CatalogSays cat t.1 t.2 d) ts ds) {defs : List DDL}
    (hd : List.Forall₂ ReadAs (ds.flatMap Described.sentences) defs) : createdNames defs = ts.map fun t => t.1 ++ '.' :: t.2 := by
  induction h generalizing defs with
  | nil => cases hd; rfl
  | @cons t d ts ds ht _ ih =>
    rw [List.flatMap_cons] at hd
    obtain ⟨ds1, ds2, h1, h2, rfl⟩ := forall₂_split hd
    rw [createdNames_append, ih h2]
    unfold Described.sentences at h1
    cases h1 with
    | @cons _ c _ ds hc hrest =>
      obtain ⟨text, u, rfl, hn, -⟩ := table_readAs ht.table hc
      have := created_of_rest hrest (by
        intro s hs t e
        subst e
        simp at hs)
      have e : createdNames (DDL.createTable text u :: ds) = u.name :: createdNames ds := rfl
      rw [e, this, hn]
      rfl

theorem forall₂_mem {α β : Type} {R : α → β → Prop} {as : List α} {bs : List β} (h : List.Forall₂ R as bs) {a : α} (ha : a ∈ as) :
    ∃ b ∈ bs, R a b := by
  induction h with
  | nil => cases ha
  | @cons x y xs ys hr _ ih =>
    rcases List.mem_cons.mp ha with rfl | ha
    · exact ⟨y, by simp, hr⟩
    · obtain ⟨b, hb, hr⟩ := ih ha
      exact ⟨b, by simp [hb], hr⟩

theorem described_policy {cat : Pg.Catalog} {ts : List (Str × Str)} {ds : List Described}
    (h : List.Forall₂ (fun t d => CatalogSays cat t.1 t.2 d) ts ds) {defs : List DDL}
    (hd : List.Forall₂ ReadAs (ds.flatMap Described.sentences) defs) {schema name : Str} (ht : (schema, name) ∈ ts)
    (hp : cat.policies schema name ≠ []) : ∃ s p, DDL.addPolicy s (lit "public" ++ '.' :: name) p ∈ defs := by
  obtain ⟨d, hdm, hc⟩ := forall₂_mem h ht
  have hps := hc.policies
  cases hr : cat.policies schema name with
  | nil => exact absurd hr hp
  | cons r rs =>
    simp only [hr] at hps
    generalize hdp : d.policies = ps at hps
    cases hps with
    | @cons _ p _ ps h1 _ =>
      have hm : Sentence.policy p ∈ ds.flatMap Described.sentences :=
        List.mem_flatMap.mpr ⟨d, hdm, by simp [Described.sentences, hdp]⟩
      obtain ⟨x, hx, hre⟩ := forall₂_mem hd hm
      obtain ⟨h3, -⟩ := policies_readAs (rs := [r]) (ps := [p]) (ds := [x]) (.cons h1 .nil) (.cons hre .nil)
      have h4 := h3 x (by simp)
      obtain ⟨-, s, n, f, rfl⟩ := hre
      cases h4
      exact ⟨s, f, hx⟩

theorem dotted_inj {a b c d : Str} (ha : '.' ∉ a) (hc : '.' ∉ c) (h : a ++ '.' :: b = c ++ '.' :: d) : a = c ∧ b = d := by
  have h1 := (splitDot_eq_some (a ++ '.' :: b) a b).2 ⟨rfl, ha⟩
  have h2 := (splitDot_eq_some (a ++ '.' :: b) c d).2 ⟨h, hc⟩
  rw [h1] at h2
  have := Option.some.inj h2
  exact ⟨congrArg Prod.fst this, congrArg Prod.snd this⟩

end Sqldef
