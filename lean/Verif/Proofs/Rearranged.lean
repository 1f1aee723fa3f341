import Verif.Spec.Rearranged
import Verif.Proofs.ReorderText
import Verif.Props.Agrees
/-
Schemas that differ in the order of their statements and in the order within their tables only.
-/
namespace Sqldef
open Spec

theorem find_perm {α : Type} {key : α → Str} {l m : List α} (h : l.Perm m) (hn : (l.map key).Nodup) (n : Str) :
    m.find? (fun a => key a = n) = l.find? (fun a => key a = n) := by
  induction h with
  | nil => rfl
  | cons x _ ih =>
    simp only [List.map_cons, List.nodup_cons] at hn
    simp only [List.find?_cons, ih hn.2]
  | swap x y l =>
    simp only [List.map_cons, List.nodup_cons, List.mem_cons, not_or] at hn
    simp only [List.find?_cons]
    by_cases h1 : key x = n <;> by_cases h2 : key y = n <;> simp_all
  | trans h1 _ ih1 ih2 => rw [ih2 ((h1.map _).nodup_iff.mp hn), ih1 hn]

theorem find_unplaced (l : List Column) (n : Str) :
    (l.map unplaced).find? (fun c => c.name = n) = (l.find? (fun c => c.name = n)).map unplaced := by
  rw [List.find?_map]
  rfl

theorem unplaced_names (l : List Column) : (l.map unplaced).map (·.name) = l.map (·.name) := by
  rw [List.map_map]; rfl

theorem filter_key_names {p : Column → Bool} (hp : ∀ c, p (unplaced c) = p c) (l : List Column) :
    (l.filter p).map (·.name) = ((l.map unplaced).filter p).map (·.name) := by
  induction l with
  | nil => rfl
  | cons c l ih =>
    simp only [List.map_cons, List.filter_cons, hp]
    split
    · rw [List.map_cons, List.map_cons, ih]; rfl
    · exact ih

theorem perm_atMostOne {α : Type} {l m : List α} (h : l.Perm m) (hl : l.length ≤ 1) : m = l := by
  match l, hl with
  | [], _ => exact h.symm.eq_nil
  | [a], _ => exact List.perm_singleton.mp h.symm
  | a :: b :: l, hl => simp at hl

theorem primaryKey_rearranged {y x : Table} (h : SameUpToOrder y x) (hk : OneKey y) : x.primaryKey = y.primaryKey := by
  have h1 : x.indexes.find? (·.primary) = y.indexes.find? (·.primary) := by
    rw [← List.head?_filter, ← List.head?_filter, perm_atMostOne (h.indexes.filter _) hk.indexes]
  have h2 : (x.columns.filter (·.keyOption = ColumnKeyOption.primary)).map (·.name) =
      (y.columns.filter (·.keyOption = ColumnKeyOption.primary)).map (·.name) := by
    rw [filter_key_names (fun _ => rfl) x.columns, filter_key_names (fun _ => rfl) y.columns]
    have hl : (((y.columns.map unplaced).filter (·.keyOption = ColumnKeyOption.primary)).map (·.name)).length ≤ 1 := by
      rw [← filter_key_names (p := fun c => c.keyOption = ColumnKeyOption.primary) (fun _ => rfl), List.length_map]
      exact hk.columns
    exact perm_atMostOne ((h.columns.filter _).map _) hl
  have h3 : (x.columns.filter (·.keyOption = ColumnKeyOption.primary)).map (fun c => ({ column := c.name } : IndexColumn)) =
      (y.columns.filter (·.keyOption = ColumnKeyOption.primary)).map (fun c => ({ column := c.name } : IndexColumn)) := by
    have := congrArg (List.map fun n => ({ column := n } : IndexColumn)) h2
    simpa only [List.map_map, Function.comp_def] using this
  unfold Table.primaryKey
  rw [h1, h3]

theorem inPrimaryKey_rearranged {y x : Table} (h : SameUpToOrder y x) {a b : Column} (hab : unplaced b = unplaced a) :
    inPrimaryKey x b = inPrimaryKey y a := by
  have hn : b.name = a.name := by simpa [unplaced] using congrArg Column.name hab
  have hk : b.keyOption = a.keyOption := by simpa [unplaced] using congrArg Column.keyOption hab
  unfold inPrimaryKey
  rw [hn, hk, h.indexes.any_eq]

theorem columnAgrees_rearranged {mode : Mode} (hm : mode ≠ .mysql) {y x d : Table} (h : SameUpToOrder y x) {a b c : Column}
    (hab : unplaced b = unplaced a) (ha : ColumnAgrees mode y d a c) : ColumnAgrees mode x d b c := by
  obtain ⟨-, h2, h3⟩ := ha
  have hp := inPrimaryKey_rearranged h hab
  have hb : b = { a with position := b.position } := by
    have : { unplaced b with position := b.position } = { unplaced a with position := b.position } := by rw [hab]
    exact this
  refine ⟨fun e => absurd e hm, fun e => ?_, fun e => ?_⟩
  · obtain ⟨p1, p2, p3, p4, p5, p6⟩ := h2 e
    rw [← hp] at p2
    generalize b.position = q at hb
    subst hb
    exact ⟨⟨p1.name, p1.enumValues, p1.array, p1.length⟩, p2, p3, p4, p5, p6⟩
  · obtain ⟨p1, p2, p3, p4⟩ := h3 e
    generalize b.position = q at hb
    subst hb
    exact ⟨p1, p2, p3, p4⟩

theorem tableAgrees_rearranged {mode : Mode} (hm : mode ≠ .mysql) {ds : List DDL} {y x d : Table} (h : SameUpToOrder y x)
    (hk : OneKey y) (h1 : (y.columns.map (·.name)).Nodup) (h2 : (y.indexes.map (·.name)).Nodup)
    (h3 : (y.foreignKeys.map (·.constraintName)).Nodup) (h4 : (y.policies.map (·.name)).Nodup) (ha : TableAgrees mode ds y d) :
    TableAgrees mode ds x d where
  columns c hc := by
    obtain ⟨cur, e, hcur⟩ := ha.columns c hc
    have := find_perm (key := (·.name)) h.columns (by rw [unplaced_names]; exact h1) c.name
    rw [find_unplaced, find_unplaced, e] at this
    cases e' : x.columns.find? (fun k => k.name = c.name) with
    | none => rw [e'] at this; cases this
    | some cur' =>
      rw [e'] at this
      exact ⟨cur', rfl, columnAgrees_rearranged hm h (Option.some.inj this) hcur⟩
  noOtherColumn cur hc := by
    have h5 : cur.name ∈ x.columns.map (·.name) := List.mem_map_of_mem hc
    rw [← unplaced_names, ← (h.columns.map _).mem_iff, unplaced_names] at h5
    obtain ⟨c, h6, h7⟩ := List.mem_map.mp h5
    rw [← h7]
    exact ha.noOtherColumn c h6
  autoIncrement e := absurd e hm
  noOtherAutoIncrement e := absurd e hm
  key := by rw [primaryKey_rearranged h hk]; exact ha.key
  indexes i hi hp := by rw [find_perm h.indexes h2]; exact ha.indexes i hi hp
  separateIndexes i hi := by rw [find_perm h.indexes h2]; exact ha.separateIndexes i hi
  noOtherIndex j hj := ha.noOtherIndex j (h.indexes.mem_iff.mpr hj)
  foreignKeys f hf := by rw [find_perm h.foreignKeys h3]; exact ha.foreignKeys f hf
  noOtherForeignKey e g hg := ha.noOtherForeignKey e g (h.foreignKeys.mem_iff.mpr hg)
  policies p hp := by rw [find_perm h.policies h4]; exact ha.policies p hp
  noOtherPolicy q hq := ha.noOtherPolicy q (h.policies.mem_iff.mpr hq)

/-- The statements differ in their order and in the order within their tables. -/
theorem rearranged_parts {α : Type} {f : List DDL → List α} (h0 : f [] = []) (h1 : ∀ d ds, f (d :: ds) = f [d] ++ f ds)
    (h2 : ∀ a b, SameButOrder a b → f [a] = f [b]) {as bs : List DDL} (h : List.Forall₂ SameButOrder as bs) : f as = f bs := by
  induction h with
  | nil => rfl
  | @cons a b as bs hab _ ih => rw [h1 a, h1 b, h2 a b hab, ih]

theorem rearranged_indexesFor (n : Str) {as bs : List DDL} (h : List.Forall₂ SameButOrder as bs) : indexesFor n as = indexesFor n bs :=
  rearranged_parts rfl (fun d ds => by cases d <;> simp only [indexesFor] <;> (try split) <;> rfl)
    (fun a b h => by
      cases a <;> cases b <;> simp only [SameButOrder] at h <;> first | rfl | (obtain ⟨rfl, rfl⟩ := h; rfl)) h

theorem rearranged_foreignKeysFor (n : Str) {as bs : List DDL} (h : List.Forall₂ SameButOrder as bs) :
    foreignKeysFor n as = foreignKeysFor n bs :=
  rearranged_parts rfl (fun d ds => by cases d <;> simp only [foreignKeysFor] <;> (try split) <;> rfl)
    (fun a b h => by
      cases a <;> cases b <;> simp only [SameButOrder] at h <;> first | rfl | (obtain ⟨rfl, rfl⟩ := h; rfl)) h

theorem rearranged_policiesFor (n : Str) {as bs : List DDL} (h : List.Forall₂ SameButOrder as bs) :
    policiesFor n as = policiesFor n bs :=
  rearranged_parts rfl (fun d ds => by cases d <;> simp only [policiesFor] <;> (try split) <;> rfl)
    (fun a b h => by
      cases a <;> cases b <;> simp only [SameButOrder] at h <;> first | rfl | (obtain ⟨rfl, rfl⟩ := h; rfl)) h

theorem rearranged_viewsOf {as bs : List DDL} (h : List.Forall₂ SameButOrder as bs) :
    List.Forall₂ (fun v w => w = { v with statement := w.statement }) (viewsOf as) (viewsOf bs) := by
  induction h with
  | nil => exact .nil
  | @cons a b as bs hab _ ih =>
    cases a <;> cases b <;> simp only [SameButOrder] at hab <;> first | exact ih | exact .cons hab ih

theorem rearranged_triggersOf {as bs : List DDL} (h : List.Forall₂ SameButOrder as bs) :
    List.Forall₂ (fun v w => w = { v with statement := w.statement }) (triggersOf as) (triggersOf bs) := by
  induction h with
  | nil => exact .nil
  | @cons a b as bs hab _ ih =>
    cases a <;> cases b <;> simp only [SameButOrder] at hab <;> first | exact ih | exact .cons hab ih

theorem map_forall₂ {α β γ : Type} {R : α → β → Prop} {f : α → γ} {g : β → γ} (hR : ∀ a b, R a b → g b = f a) {as : List α} {bs : List β}
    (h : List.Forall₂ R as bs) : bs.map g = as.map f := by
  induction h with
  | nil => rfl
  | cons hx _ ih => rw [List.map_cons, List.map_cons, hR _ _ hx, ih]

theorem find_named {α : Type} {key : α → Str} {l : List α} (hn : (l.map key).Nodup) {a : α} (ha : a ∈ l) {n : Str} (he : key a = n) :
    l.find? (fun b => key b = n) = some a := by
  induction l with
  | nil => cases ha
  | cons b l ih =>
    simp only [List.map_cons, List.nodup_cons] at hn
    rcases List.mem_cons.mp ha with rfl | ha
    · rw [List.find?_cons_of_pos (by simpa using he)]
    · rw [List.find?_cons_of_neg, ih hn.2 ha]
      intro h
      have h : key b = n := by simpa using h
      exact hn.1 (List.mem_map.mpr ⟨a, ha, he.trans h.symm⟩)

theorem rearranged_created {as bs : List DDL} (h : List.Forall₂ SameButOrder as bs) :
    List.Forall₂ SameUpToOrder (created as) (created bs) := by
  induction h with
  | nil => exact .nil
  | @cons a b as bs hab _ ih =>
    cases a <;> cases b <;> simp only [SameButOrder] at hab <;> first | exact ih | exact .cons hab ih

theorem rearranged_names {as bs : List DDL} (h : List.Forall₂ SameButOrder as bs) : createdNames as = createdNames bs := by
  unfold createdNames
  have := rearranged_created h
  generalize created as = ts at this
  generalize created bs = us at this
  induction this with
  | nil => rfl
  | cons h _ ih => rw [List.map_cons, List.map_cons, h.name, ih]

theorem rearranged_noMarks {as bs : List DDL} (h : List.Forall₂ SameButOrder as bs) (hp : ∀ s n i, .addPrimaryKey s n i ∉ as) :
    ∀ s n i, .addPrimaryKey s n i ∉ bs := by
  intro s n i hm
  obtain ⟨a, ha, hab⟩ := forall₂_partner h hm
  cases a <;> simp only [SameButOrder] at hab
  exact hp _ _ _ ha

theorem noMarks {ds : List DDL} (hp : ∀ s n i, .addPrimaryKey s n i ∉ ds) (n c : Str) : markedPrimary n c ds = false := by
  induction ds with
  | nil => rfl
  | cons d ds ih =>
    have ih := ih fun s n i hm => hp s n i (by simp [hm])
    cases d with
    | addPrimaryKey s n i => exact absurd (by simp) (hp s n i)
    | _ => exact ih

theorem complete_noMarks {ds : List DDL} (hp : ∀ s n i, .addPrimaryKey s n i ∉ ds) (t : Table) : (Spec.complete ds t).columns = t.columns := by
  simp [Spec.complete, noMarks hp]

theorem wellFormed_noMarks {ds : List DDL} (h : WellFormed ds) : ∀ s n i, .addPrimaryKey s n i ∉ ds := by
  intro s n i hm
  obtain ⟨pre, post, e⟩ := List.append_of_mem hm
  exact (h pre _ post e).elim

/-- Schemas that differ in order only. -/
theorem complete_rearranged {ds es cs : List DDL} (hp : ∀ s n i, .addPrimaryKey s n i ∉ ds) (h : List.Forall₂ SameButOrder ds es)
    (hc : es.Perm cs) {t u : Table} (htu : SameUpToOrder t u) : SameUpToOrder (Spec.complete ds t) (Spec.complete cs u) where
  name := htu.name
  columns := by
    rw [complete_noMarks hp, complete_noMarks fun s n i hm => rearranged_noMarks h hp s n i (hc.mem_iff.mpr hm)]
    exact htu.columns
  indexes := by
    show (t.indexes ++ indexesFor t.name ds).Perm (u.indexes ++ indexesFor u.name cs)
    rw [htu.name, rearranged_indexesFor _ h]
    exact htu.indexes.append (indexesFor_perm _ hc)
  foreignKeys := by
    show (t.foreignKeys ++ foreignKeysFor t.name ds).Perm (u.foreignKeys ++ foreignKeysFor u.name cs)
    rw [htu.name, rearranged_foreignKeysFor _ h]
    exact htu.foreignKeys.append (foreignKeysFor_perm _ hc)
  policies := by
    show (t.policies ++ policiesFor t.name ds).Perm (u.policies ++ policiesFor u.name cs)
    rw [htu.name, rearranged_policiesFor _ h]
    exact htu.policies.append (policiesFor_perm _ hc)

theorem forall₂_partner_left {α β : Type} {R : α → β → Prop} {as : List α} {bs : List β} (h : List.Forall₂ R as bs) {a : α} (ha : a ∈ as) :
    ∃ b ∈ bs, R a b :=
  forall₂_partner (List.Forall₂.flip h) ha

theorem diff_rearranged {mode : Mode} (hm : mode ≠ .mysql) {ds es cs : List DDL} (h : Normal mode ds)
    (hk : ∀ s t, .createTable s t ∈ ds → OneKey t) (hr : List.Forall₂ SameButOrder ds es) (hc : es.Perm cs)
    (hw : WellFormedCurrent cs) : diff mode ds cs = .ok [] := by
  have hp := wellFormed_noMarks h.wellFormed
  have hu : UniqueTables cs := by
    unfold UniqueTables
    have := h.unique
    unfold UniqueTables at this
    rw [rearranged_names hr] at this
    exact ((created_perm hc).map _).nodup_iff.mp this
  obtain ⟨-, -, hself⟩ := (C48_no_statements_iff h.unique h.unique).1 (C18_self_diff_is_empty h)
  refine (C48_no_statements_iff h.unique hu).2 ⟨h.wellFormed, hw, ?_⟩
  refine ⟨fun d hd => ?_, fun x hx => ?_, fun v hv => ?_, fun w hw => ?_, fun e t ht => ?_⟩
  · obtain ⟨y, e, hy⟩ := hself.tables d hd
    rw [tableIn_of_created h.unique hd] at e
    cases e
    obtain ⟨u, hu', hdu⟩ := forall₂_partner_left (rearranged_created hr) hd
    have hin := tableIn_of_created hu ((created_perm hc).mem_iff.mp hu')
    rw [hdu.name] at hin
    refine ⟨_, hin, ?_⟩
    obtain ⟨s, hs⟩ := mem_created.1 hd
    have hn := h.tables s d hs
    have hone := hk s d hs
    refine tableAgrees_rearranged hm (complete_rearranged hp hr hc hdu) ⟨?_, ?_⟩ ?_ hn.indexes hn.foreignKeys hn.policies hy
    · have : (indexesFor d.name ds).filter (·.primary) = [] := by
        rw [List.filter_eq_nil_iff]
        intro i hi
        simp [hn.secondary i hi]
      show ((d.indexes ++ indexesFor d.name ds).filter (·.primary)).length ≤ 1
      rw [List.filter_append, this, List.append_nil]
      exact hone.indexes
    · rw [complete_noMarks hp]
      exact hone.columns
    · rw [complete_noMarks hp]
      exact hn.columns
  · obtain ⟨u, hu', rfl⟩ := List.mem_map.mp hx
    show u.name ∈ createdNames ds
    rw [rearranged_names hr]
    exact List.mem_map_of_mem ((created_perm hc).mem_iff.mpr hu')
  · have hr' := rearranged_viewsOf hr
    obtain ⟨w, hw', e⟩ := forall₂_partner_left hr' hv
    have hn : ((viewsOf es).map (·.name)).Nodup := by
      rw [map_forall₂ (f := fun v : View => v.name) (fun a b h => by rw [h]) hr']
      exact viewsOf_nodup h.wellFormed
    refine ⟨w, ?_, by rw [e]⟩
    rw [find_perm (viewsOf_perm hc) hn]
    exact find_named hn hw' (by rw [e])
  · have hr' := rearranged_viewsOf hr
    rw [← map_forall₂ (g := fun v : View => v.name) (fun a b h => by rw [h]) hr']
    exact List.mem_map_of_mem ((viewsOf_perm hc).mem_iff.mpr hw)
  · have hr' := rearranged_triggersOf hr
    obtain ⟨w, hw', e'⟩ := forall₂_partner_left hr' ht
    have hn : ((triggersOf es).map (·.name)).Nodup := by
      rw [map_forall₂ (f := fun v : Trigger => v.name) (fun a b h => by rw [h]) hr']
      exact h.triggers
    refine ⟨w, ?_, by rw [e'], by rw [e'], by rw [e'], by rw [e']⟩
    rw [find_perm (triggersOf_perm hc) hn]
    exact find_named hn hw' (by rw [e'])

theorem wellFormedCurrent_rearranged {ds es : List DDL} (h : List.Forall₂ SameButOrder ds es) (hp : ∀ s n i, .addPrimaryKey s n i ∉ ds)
    (hw : WellFormedCurrent ds) : WellFormedCurrent es := by
  rintro pre' d' post' rfl
  obtain ⟨pre, rest, h1, h2, rfl⟩ := forall₂_pieces (List.Forall₂.flip h)
  cases h2 with
  | @cons _ d _ post hdd _ =>
  have h1 : List.Forall₂ SameButOrder pre pre' := List.Forall₂.flip h1
  have hcur := hw pre d post rfl
  cases d <;> cases d' <;> simp only [SameButOrder] at hdd
  case addPrimaryKey => exact (hp _ _ _ (List.mem_append_right _ List.mem_cons_self)).elim
  case createTable => trivial
  case view => trivial
  case trigger => trivial
  case addIndex => exact hcur
  all_goals
    obtain ⟨rfl, rfl⟩ := hdd
    show _ ∈ createdNames pre'
    rw [← rearranged_names h1]
    exact hcur

end Sqldef
