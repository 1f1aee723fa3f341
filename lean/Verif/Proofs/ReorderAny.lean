import Verif.Props.AnyLayout
import Verif.Props.Reorder
/-
Schemas whose statements are in another order and in another layout, whatever statements they consist of.
-/
namespace Sqldef
open Spec

/-! ### Definitions without their texts -/

/-- The definition without its text. -/
abbrev bareDef (d : DDL) : DDL := d.retext fun _ => []

theorem bareDef_eq {a b : DDL} (h : SameButText a b) : bareDef a = bareDef b := by
  unfold bareDef DDL.retext
  rw [← show a.withText b.statement = b from h, withText_withText]

theorem bareDefs_eq {as bs : List DDL} (h : List.Forall₂ SameButText as bs) : as.map bareDef = bs.map bareDef := by
  induction h with
  | nil => rfl
  | cons h _ ih => rw [List.map_cons, List.map_cons, bareDef_eq h, ih]

theorem created_bare (ds : List DDL) : created (ds.map bareDef) = created ds := by
  induction ds with
  | nil => rfl
  | cons d ds ih => cases d <;> simp [bareDef, DDL.retext, DDL.withText, created] at ih ⊢ <;> exact ih

theorem indexesFor_bare (n : Str) (ds : List DDL) : indexesFor n (ds.map bareDef) = indexesFor n ds := by
  induction ds with
  | nil => rfl
  | cons d ds ih => cases d <;> simp [bareDef, DDL.retext, DDL.withText, indexesFor] at ih ⊢ <;> rw [ih]

theorem foreignKeysFor_bare (n : Str) (ds : List DDL) : foreignKeysFor n (ds.map bareDef) = foreignKeysFor n ds := by
  induction ds with
  | nil => rfl
  | cons d ds ih => cases d <;> simp [bareDef, DDL.retext, DDL.withText, foreignKeysFor] at ih ⊢ <;> rw [ih]

theorem policiesFor_bare (n : Str) (ds : List DDL) : policiesFor n (ds.map bareDef) = policiesFor n ds := by
  induction ds with
  | nil => rfl
  | cons d ds ih => cases d <;> simp [bareDef, DDL.retext, DDL.withText, policiesFor] at ih ⊢ <;> rw [ih]

theorem markedPrimary_bare (n c : Str) (ds : List DDL) : markedPrimary n c (ds.map bareDef) = markedPrimary n c ds := by
  induction ds with
  | nil => rfl
  | cons d ds ih => cases d <;> simp [bareDef, DDL.retext, DDL.withText, markedPrimary] at ih ⊢ <;> rw [ih]

theorem viewNames_bare (ds : List DDL) : (viewsOf (ds.map bareDef)).map (·.name) = (viewsOf ds).map (·.name) := by
  induction ds with
  | nil => rfl
  | cons d ds ih => cases d <;> simp [bareDef, DDL.retext, DDL.withText, viewsOf] at ih ⊢ <;> exact ih

theorem triggerNames_bare (ds : List DDL) : (triggersOf (ds.map bareDef)).map (·.name) = (triggersOf ds).map (·.name) := by
  induction ds with
  | nil => rfl
  | cons d ds ih => cases d <;> simp [bareDef, DDL.retext, DDL.withText, triggersOf] at ih ⊢ <;> exact ih

theorem tableIn_bare (ds : List DDL) (n : Str) : tableIn (ds.map bareDef) n = tableIn ds n := by
  unfold tableIn tablesOf
  rw [created_bare]
  congr 1
  refine List.map_congr_left fun t _ => ?_
  simp only [Spec.complete, indexesFor_bare, foreignKeysFor_bare, policiesFor_bare, markedPrimary_bare]

theorem follows_bare (pre : List DDL) (d : DDL) : Follows (pre.map bareDef) (bareDef d) ↔ Follows pre d := by
  cases d <;> simp only [bareDef, DDL.retext, DDL.withText, Follows]
  case view v =>
    have := viewNames_bare pre
    rw [this]
  all_goals
    have := tableIn_bare pre
    simp only [this]

theorem followsCurrent_bare (pre : List DDL) (d : DDL) : FollowsCurrent (pre.map bareDef) (bareDef d) ↔ FollowsCurrent pre d := by
  have h1 := tableIn_bare pre
  have h2 : createdNames (pre.map bareDef) = createdNames pre := by unfold createdNames; rw [created_bare]
  cases d <;> simp only [bareDef, DDL.retext, DDL.withText, FollowsCurrent] <;> simp only [h1, h2]

theorem each_bare {R : List DDL → DDL → Prop} (hr : ∀ pre d, R (pre.map bareDef) (bareDef d) ↔ R pre d) (ds : List DDL) :
    (∀ pre d post, ds.map bareDef = pre ++ d :: post → R pre d) ↔ ∀ pre d post, ds = pre ++ d :: post → R pre d := by
  constructor
  · rintro h pre d post rfl
    exact (hr _ _).mp (h (pre.map bareDef) (bareDef d) (post.map bareDef) (by simp))
  · intro h pre d post e
    obtain ⟨a, b, rfl, rfl, e2⟩ := List.map_eq_append_iff.mp e
    obtain ⟨c, l, rfl, rfl, rfl⟩ := List.map_eq_cons_iff.mp e2
    exact (hr _ _).mpr (h a c l rfl)

theorem wellFormed_bare (ds : List DDL) : WellFormed (ds.map bareDef) ↔ WellFormed ds := each_bare follows_bare ds

theorem wellFormedCurrent_bare (ds : List DDL) : WellFormedCurrent (ds.map bareDef) ↔ WellFormedCurrent ds := each_bare followsCurrent_bare ds

theorem normal_bare {mode : Mode} (ds : List DDL) : Normal mode (ds.map bareDef) ↔ Normal mode ds := by
  have hu : UniqueTables (ds.map bareDef) ↔ UniqueTables ds := by
    unfold UniqueTables createdNames
    rw [created_bare]
  have ht : ∀ t, NormalTable mode (ds.map bareDef) t ↔ NormalTable mode ds t := fun t =>
    ⟨fun h => ⟨h.columns, indexesFor_bare _ ds ▸ h.indexes, indexesFor_bare _ ds ▸ h.options, indexesFor_bare _ ds ▸ h.secondary,
        foreignKeysFor_bare _ ds ▸ h.foreignKeys, h.named, policiesFor_bare _ ds ▸ h.policies, h.mysql⟩,
      fun h => ⟨h.columns, (indexesFor_bare _ ds).symm ▸ h.indexes, (indexesFor_bare _ ds).symm ▸ h.options,
        (indexesFor_bare _ ds).symm ▸ h.secondary, (foreignKeysFor_bare _ ds).symm ▸ h.foreignKeys, h.named,
        (policiesFor_bare _ ds).symm ▸ h.policies, h.mysql⟩⟩
  constructor
  · intro h
    refine ⟨hu.mp h.unique, (wellFormed_bare ds).mp h.wellFormed, fun s n i hm => h.noAddIndex [] n i (List.mem_map.mpr ⟨_, hm, rfl⟩),
      fun s t hm => (ht t).mp (h.tables [] t (List.mem_map.mpr ⟨_, hm, rfl⟩)), by rw [← triggerNames_bare]; exact h.triggers⟩
  · intro h
    refine ⟨hu.mpr h.unique, (wellFormed_bare ds).mpr h.wellFormed, fun s n i hm => ?_, fun s t hm => ?_, by rw [triggerNames_bare]; exact h.triggers⟩
    · obtain ⟨d, hd, e⟩ := List.mem_map.mp hm
      cases d <;> simp only [bareDef, DDL.retext, DDL.withText] at e <;> cases e
      exact h.noAddIndex _ _ _ hd
    · obtain ⟨d, hd, e⟩ := List.mem_map.mp hm
      cases d <;> simp only [bareDef, DDL.retext, DDL.withText] at e <;> cases e
      exact (ht _).mpr (h.tables _ _ hd)

theorem normal_sameButText {mode : Mode} {as bs : List DDL} (h : List.Forall₂ SameButText as bs) : Normal mode as ↔ Normal mode bs := by
  rw [← normal_bare as, bareDefs_eq h, normal_bare]

theorem wellFormedCurrent_sameButText {as bs : List DDL} (h : List.Forall₂ SameButText as bs) : WellFormedCurrent as ↔ WellFormedCurrent bs := by
  rw [← wellFormedCurrent_bare as, bareDefs_eq h, wellFormedCurrent_bare]

/-! ### Files -/

/-- What a file in another order and layout is understood as. -/
theorem reordered_understood (fmtFloat : Str → Str) {mode : Mode} {file file' : Str} (h : Reordered mode file file') {ds : List DDL}
    (hd : parseDDLs (Sql.env fmtFloat) mode file = .ok ds) :
    ∃ es ds', parseDDLs (Sql.env fmtFloat) mode file' = .ok ds' ∧ es.Perm ds ∧ List.Forall₂ SameButText es ds' := by
  obtain ⟨ts, h1, h2⟩ := h
  rw [C12_one_definition_per_statement] at hd
  have key : ∀ (as bs : List Str) (ds : List DDL), List.Forall₂ (SameTokens mode) as bs →
      List.Forall₂ (fun t d => parseDDL (Sql.env fmtFloat) mode t = .ok d) as ds →
      List.Forall₂ (fun t d => ∃ d', parseDDL (Sql.env fmtFloat) mode t = .ok d' ∧ SameButText d d') bs ds := by
    intro as bs ds h
    induction h generalizing ds with
    | nil => intro h; cases h; exact .nil
    | @cons a b as bs hab _ ih =>
      intro h
      cases h with
      | @cons _ d _ ds hd hds =>
      refine .cons ?_ (ih _ hds)
      rcases C66_definition_in_any_layout fmtFloat mode a b hab with ⟨e, h1, h2⟩ | ⟨e, e', h1, -⟩
      · cases hd.symm.trans h1
        exact ⟨_, h2, by unfold SameButText; rw [withText_statement]⟩
      · cases hd.symm.trans h1
  obtain ⟨es, h3, h4⟩ := List.perm_comp_forall₂ h2.symm (key _ _ _ h1 hd)
  have : ∃ ds', List.Forall₂ (fun t d => parseDDL (Sql.env fmtFloat) mode t = .ok d) (statementTexts file') ds' ∧ List.Forall₂ SameButText es ds' := by
    generalize statementTexts file' = l at h3
    clear h4 h2
    induction h3 with
    | nil => exact ⟨[], .nil, .nil⟩
    | cons hx _ ih =>
      obtain ⟨d', p1, p2⟩ := hx
      obtain ⟨ds', q1, q2⟩ := ih
      exact ⟨d' :: ds', .cons p1 q1, .cons p2 q2⟩
  obtain ⟨ds', h5, h6⟩ := this
  exact ⟨es, ds', (C12_one_definition_per_statement _ _ _ _).mpr h5, h4, h6⟩

end Sqldef
