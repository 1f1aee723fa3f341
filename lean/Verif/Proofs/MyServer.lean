import Verif.Spec.MyServer
import Verif.Proofs.AnyOrder
/-
What a MySQL server answers.
-/
namespace Sqldef
open Spec Spec.MyServer

theorem own_unique {srv : My.Server} (hs : MyServer.Sound srv) {r q : My.Relation} (hr : Own srv r) (hq : Own srv q) (h : r.name = q.name) : r = q :=
  List.inj_on_of_nodup_map hs hr.1 hq.1 (by rw [hr.2, hq.2, h])

theorem own_found {srv : My.Server} (hs : MyServer.Sound srv) {r : My.Relation} (hr : Own srv r) :
    srv.relations.find? (fun q => q.database = srv.database ∧ q.name = r.name) = some r := by
  cases h : srv.relations.find? (fun q => q.database = srv.database ∧ q.name = r.name) with
  | none =>
    have := List.find?_eq_none.mp h r hr.1
    simp [hr.2] at this
  | some q =>
    have h1 := List.find?_some h
    have h2 := List.mem_of_find?_eq_some h
    simp only [decide_eq_true_eq] at h1
    rw [own_unique hs ⟨h2, h1.1⟩ hr h1.2]

theorem own_text {srv : My.Server} (hs : MyServer.Sound srv) {r : My.Relation} (hr : Own srv r) : (ownCatalog srv).createTable r.name = r.createTable := by
  simp only [ownCatalog, own_found hs hr]
  rfl

theorem createTableQuery_own {srv : My.Server} (hs : MyServer.Sound srv) {r : My.Relation} (hr : Own srv r) {x : Str}
    (h : x ∈ My.createTableQuery srv r.name) : x = r.createTable := by
  obtain ⟨q, hq, rfl⟩ := List.mem_map.mp h
  obtain ⟨h1, h2⟩ := List.mem_filter.mp hq
  simp only [decide_eq_true_eq] at h2
  rw [own_unique hs ⟨h1, h2.1⟩ hr h2.2]

theorem definitionQuery_own {srv : My.Server} (hs : MyServer.Sound srv) (ha : ViewsApart srv) {r : My.Relation} (hr : Own srv r) (hv : r.type = lit "VIEW") {x : Str}
    (h : x ∈ My.definitionQuery srv r.name) : x = r.definition := by
  obtain ⟨q, hq, rfl⟩ := List.mem_map.mp h
  obtain ⟨h1, h2⟩ := List.mem_filter.mp hq
  simp only [decide_eq_true_eq] at h2
  rw [own_unique hs ⟨h1, ha r hr hv q h1 h2.1 h2.2⟩ hr h2.2]

/-- The answers are the content of the database. -/
theorem answers_own {srv : My.Server} {cat : My.Catalog} (hs : MyServer.Sound srv) (hq : Quotable srv) (ha : ViewsApart srv) (h : My.Answers srv cat) :
    MyListsTheSame (ownCatalog srv) cat where
  tables := h.tables.symm
  texts := by
    intro n hn
    have hn' := h.tables.mem_iff.mpr hn
    obtain ⟨r, hr, rfl⟩ := List.mem_map.mp hn
    obtain ⟨h1, h2⟩ := List.mem_filter.mp hr
    simp only [decide_eq_true_eq] at h2
    have ho : Own srv r := ⟨h1, h2.1⟩
    rw [own_text hs ho]
    exact createTableQuery_own hs ho (h.texts _ hn' (hq r ho).1)
  views := by
    let defOf : Str → Str := fun n => ((srv.relations.find? fun r => r.database = srv.database ∧ r.name = n).map (·.definition)).getD []
    have e1 : cat.views = (cat.views.map (·.1)).map fun n => (n, defOf n) := by
      rw [List.map_map]
      conv_lhs => rw [← List.map_id cat.views]
      refine List.map_congr_left fun v hv => ?_
      obtain ⟨r, hr, hn⟩ := List.mem_map.mp (h.views.mem_iff.mp (List.mem_map_of_mem hv))
      obtain ⟨h1, h2⟩ := List.mem_filter.mp hr
      simp only [decide_eq_true_eq] at h2
      have ho : Own srv r := ⟨h1, h2.1⟩
      have hd := h.definitions v hv (by rw [← hn]; exact (hq r ho).2.1) (by rw [← hn]; exact (hq r ho).2.2)
      rw [← hn] at hd
      have e := definitionQuery_own hs ha ho h2.2 hd
      refine Prod.ext rfl ?_
      simp only [Function.comp, defOf, id]
      rw [← hn, own_found hs ho, e]
      rfl
    have e2 : (ownCatalog srv).views = (My.viewNamesQuery srv).map fun n => (n, defOf n) := by
      unfold ownCatalog My.viewNamesQuery
      rw [List.map_map]
      refine List.map_congr_left fun r hr => ?_
      obtain ⟨h1, h2⟩ := List.mem_filter.mp hr
      simp only [decide_eq_true_eq] at h2
      simp only [Function.comp, defOf]
      rw [own_found hs ⟨h1, h2.1⟩]
      rfl
    rw [e1, e2]
    exact (h.views.map _).symm
  triggers := h.triggers.symm

theorem own_answers {srv : My.Server} (hs : MyServer.Sound srv) : My.Answers srv (ownCatalog srv) where
  tables := .refl _
  texts := by
    intro n hn _
    obtain ⟨r, hr, rfl⟩ := List.mem_map.mp hn
    obtain ⟨h1, h2⟩ := List.mem_filter.mp hr
    simp only [decide_eq_true_eq] at h2
    rw [own_text hs ⟨h1, h2.1⟩]
    exact List.mem_map.mpr ⟨r, List.mem_filter.mpr ⟨h1, by simp [h2.1]⟩, rfl⟩
  views := by
    simp only [ownCatalog, List.map_map]
    exact .refl _
  definitions := by
    intro v hv _ _
    obtain ⟨r, hr, rfl⟩ := List.mem_map.mp hv
    obtain ⟨h1, h2⟩ := List.mem_filter.mp hr
    simp only [decide_eq_true_eq] at h2
    exact List.mem_map.mpr ⟨r, List.mem_filter.mpr ⟨h1, by simp [h2.2]⟩, rfl⟩
  triggers := .refl _

theorem myLists_trans {a b c : My.Catalog} (h : MyListsTheSame a b) (k : MyListsTheSame b c) : MyListsTheSame a c where
  tables := h.tables.trans k.tables
  texts n hn := (k.texts n (h.tables.mem_iff.mp hn)).trans (h.texts n hn)
  views := h.views.trans k.views
  triggers := h.triggers.trans k.triggers

theorem myLists_symm {a b : My.Catalog} (h : MyListsTheSame a b) : MyListsTheSame b a where
  tables := h.tables.symm
  texts n hn := (h.texts n (h.tables.mem_iff.mpr hn)).symm
  views := h.views.symm
  triggers := h.triggers.symm

theorem own_alike {srv srv' : My.Server} (hs : MyServer.Sound srv) (hs' : MyServer.Sound srv') (h : SameDatabase srv srv') :
    MyListsTheSame (ownCatalog srv) (ownCatalog srv') := by
  have part : ∀ {β : Type} (p : Str → Bool) (g : Str × Str × Str × Str → β),
      ((srv.relations.filter fun r => r.database = srv.database ∧ p r.type).map fun r => g (content r)).Perm
        ((srv'.relations.filter fun r => r.database = srv'.database ∧ p r.type).map fun r => g (content r)) := by
    intro β p g
    have e : ∀ s : My.Server, ((s.relations.filter fun r => r.database = s.database ∧ p r.type).map fun r => g (content r)) =
        (((s.relations.filter fun r => r.database = s.database).map content).filter fun c => p c.2.1).map g := by
      intro s
      rw [List.filter_map, List.map_map, List.filter_filter]
      congr 1
      refine List.filter_congr fun r _ => ?_
      simp only [Function.comp, content, Bool.decide_and, Bool.decide_eq_true]
      exact Bool.and_comm _ _
    rw [e, e]
    exact (h.relations.filter _).map _
  refine ⟨?_, ?_, ?_, h.triggers⟩
  · have := part (fun t => decide (t ≠ lit "VIEW")) (·.1)
    simpa [ownCatalog, content] using this
  · intro n hn
    obtain ⟨r, hr, rfl⟩ := List.mem_map.mp hn
    obtain ⟨h1, h2⟩ := List.mem_filter.mp hr
    simp only [decide_eq_true_eq] at h2
    have hm : content r ∈ (srv'.relations.filter fun r => r.database = srv'.database).map content :=
      h.relations.mem_iff.mp (List.mem_map_of_mem (List.mem_filter.mpr ⟨h1, by simpa using h2.1⟩))
    obtain ⟨q, hq, e⟩ := List.mem_map.mp hm
    obtain ⟨h3, h4⟩ := List.mem_filter.mp hq
    have en : q.name = r.name := congrArg (·.1) e
    have et : q.createTable = r.createTable := congrArg (·.2.2.1) e
    rw [own_text hs ⟨h1, h2.1⟩, ← en, own_text hs' ⟨h3, by simpa using h4⟩, et]
  · have := part (fun t => decide (t = lit "VIEW")) (fun c => (c.1, c.2.2.2))
    simpa [ownCatalog, content] using this

end Sqldef
