import Verif.Proofs.Reorder
import Verif.Props.Statements
import Mathlib.Data.List.Perm.Basic
/-
Files that differ in the order and the layout of their statements only.
-/
namespace Sqldef
open Spec Written

/-- The same statements, read from texts in different layouts. -/
theorem texts_same (fmtFloat : Str → Str) (mode : Mode) {ts ts' : List Str} {ss : List Sentence} {ds ds' : List DDL}
    (hf : List.Forall₂ (fun text s => tokenize mode text = .ok s.tokens) ts ss)
    (hf' : List.Forall₂ (fun text s => tokenize mode text = .ok s.tokens) ts' ss) (h : ∀ s ∈ ss, s.Clear ∧ s.InRange)
    (hd : List.Forall₂ (fun t d => parseDDL (Sql.env fmtFloat) mode t = .ok d) ts ds)
    (hd' : List.Forall₂ (fun t d => parseDDL (Sql.env fmtFloat) mode t = .ok d) ts' ds') : List.Forall₂ SameTable ds ds' := by
  induction ss generalizing ts ts' ds ds' with
  | nil =>
    cases hf
    cases hf'
    cases hd
    cases hd'
    exact .nil
  | cons s ss ih =>
    cases hf with
    | @cons t _ ts _ ht hts =>
    cases hf' with
    | @cons t' _ ts' _ ht' hts' =>
    cases hd with
    | @cons _ d _ ds hd hds =>
    cases hd' with
    | @cons _ d' _ ds' hd' hds' =>
    refine .cons ?_ (ih hts hts' (fun s hs => h s (List.mem_cons_of_mem _ hs)) hds hds')
    obtain ⟨hc, hr⟩ := h s List.mem_cons_self
    obtain ⟨e, he, -, hk, -⟩ := C57_statement_is_a_definition fmtFloat mode t s hc false (by simpa [given] using ht) hr
    cases hd.symm.trans he
    have hp := C57_statement_is_understood mode t s hc false (by simpa [given] using ht)
    have hp' := C57_statement_is_understood mode t' s hc false (by simpa [given] using ht')
    have h1 : convertStatement (Sql.env fmtFloat) mode t (.ddl s.meaning) = .ok d := by
      rw [← hd, parseDDL, show (Sql.env fmtFloat).parse mode t = _ from hp]
    have h2 : convertStatement (Sql.env fmtFloat) mode t' (.ddl s.meaning) = .ok d' := by
      rw [← hd', parseDDL, show (Sql.env fmtFloat).parse mode t' = _ from hp']
    cases h2.symm.trans (convert_withText _ mode t t' _ d h1)
    refine ⟨(withText_withText _ _ _).symm, ?_, ?_⟩
    all_goals
      intro v hv
      subst hv
      cases s with
      | alter a => cases e : a.added <;> simp [Sentence.Kind, e] at hk
      | _ => simp [Sentence.Kind] at hk

theorem forall₂_pieces {α β : Type} {R : α → β → Prop} {a b : List α} {cs : List β} (h : List.Forall₂ R (a ++ b) cs) :
    ∃ c d, List.Forall₂ R a c ∧ List.Forall₂ R b d ∧ cs = c ++ d := by
  induction a generalizing cs with
  | nil => exact ⟨[], cs, .nil, h, rfl⟩
  | cons x a ih =>
    cases h with
    | cons h1 h2 =>
      obtain ⟨c, d, h3, h4, rfl⟩ := ih h2
      exact ⟨_, d, .cons h1 h3, h4, rfl⟩

theorem wellFormedCurrent_same {ds ds' : List DDL} (h : List.Forall₂ SameTable ds ds') (hw : WellFormedCurrent ds') (hp : ∀ s n i, .addPrimaryKey s n i ∉ ds) :
    WellFormedCurrent ds := by
  rintro pre d post rfl
  obtain ⟨pre', rest, h1, h2, rfl⟩ : ∃ pre' rest, List.Forall₂ SameTable pre pre' ∧ List.Forall₂ SameTable (d :: post) rest ∧ ds' = pre' ++ rest :=
    forall₂_pieces h
  cases h2 with
  | @cons _ d' _ post' hdd _ =>
  have hcur := hw pre' d' post' rfl
  have hn : createdNames pre = createdNames pre' := by
    clear hw hcur h hp
    unfold createdNames
    induction h1 with
    | nil => rfl
    | @cons a b as bs hab _ ih =>
      obtain ⟨h, hv, ht⟩ := hab
      cases a <;> cases b <;> first | (cases h; done) | (exact absurd rfl (hv _)) | (exact absurd rfl (ht _)) | skip
      case createTable =>
        simp only [DDL.withText, DDL.createTable.injEq, true_and] at h
        subst h
        simp only [created, List.map_cons, ih]
      all_goals exact ih
  obtain ⟨h, hv, ht⟩ := hdd
  cases d <;> cases d' <;> first | (cases h; done) | (exact absurd rfl (hv _)) | (exact absurd rfl (ht _)) | skip
  case createTable => trivial
  case createIndex =>
    simp only [DDL.withText, DDL.createIndex.injEq, true_and] at h
    show _ ∈ createdNames pre
    rw [hn, h.1]
    exact hcur
  case addIndex => exact hcur
  case addPrimaryKey => exact absurd (List.mem_append_right _ List.mem_cons_self) (hp _ _ _)
  case addForeignKey =>
    simp only [DDL.withText, DDL.addForeignKey.injEq, true_and] at h
    show _ ∈ createdNames pre
    rw [hn, h.1]
    exact hcur
  case addPolicy =>
    simp only [DDL.withText, DDL.addPolicy.injEq, true_and] at h
    show _ ∈ createdNames pre
    rw [hn, h.1]
    exact hcur

/-- What the definitions say does not depend on their texts. -/
theorem parts_same {α : Type} {f : List DDL → List α} (h0 : f [] = []) (h1 : ∀ d ds, f (d :: ds) = f [d] ++ f ds)
    (h2 : ∀ a b, SameTable a b → f [a] = f [b]) {as bs : List DDL} (h : List.Forall₂ SameTable as bs) : f as = f bs := by
  induction h with
  | nil => rfl
  | @cons a b as bs hab _ ih => rw [h1 a, h1 b, h2 a b hab, ih]

theorem sameTable_cases {a b : DDL} (h : SameTable a b) :
    (∃ s s' t, a = .createTable s t ∧ b = .createTable s' t) ∨ (∃ s s' n i, a = .createIndex s n i ∧ b = .createIndex s' n i) ∨
    (∃ s s' n i, a = .addIndex s n i ∧ b = .addIndex s' n i) ∨ (∃ s s' n i, a = .addPrimaryKey s n i ∧ b = .addPrimaryKey s' n i) ∨
    (∃ s s' n f, a = .addForeignKey s n f ∧ b = .addForeignKey s' n f) ∨ (∃ s s' n p, a = .addPolicy s n p ∧ b = .addPolicy s' n p) := by
  obtain ⟨h, hv, ht⟩ := h
  cases a <;> cases b <;> first | (cases h; done) | (exact absurd rfl (hv _)) | (exact absurd rfl (ht _)) | skip
  all_goals simp only [DDL.withText, DDL.createTable.injEq, DDL.createIndex.injEq, DDL.addIndex.injEq, DDL.addPrimaryKey.injEq,
    DDL.addForeignKey.injEq, DDL.addPolicy.injEq, true_and] at h
  · subst h; exact .inl ⟨_, _, _, rfl, rfl⟩
  · obtain ⟨rfl, rfl⟩ := h; exact .inr (.inl ⟨_, _, _, _, rfl, rfl⟩)
  · obtain ⟨rfl, rfl⟩ := h; exact .inr (.inr (.inl ⟨_, _, _, _, rfl, rfl⟩))
  · obtain ⟨rfl, rfl⟩ := h; exact .inr (.inr (.inr (.inl ⟨_, _, _, _, rfl, rfl⟩)))
  · obtain ⟨rfl, rfl⟩ := h; exact .inr (.inr (.inr (.inr (.inl ⟨_, _, _, _, rfl, rfl⟩))))
  · obtain ⟨rfl, rfl⟩ := h; exact .inr (.inr (.inr (.inr (.inr ⟨_, _, _, _, rfl, rfl⟩))))

theorem created_same {as bs : List DDL} (h : List.Forall₂ SameTable as bs) : created as = created bs :=
  parts_same rfl (fun d ds => by cases d <;> rfl)
    (fun a b h => by
      rcases sameTable_cases h with ⟨_, _, _, rfl, rfl⟩ | ⟨_, _, _, _, rfl, rfl⟩ | ⟨_, _, _, _, rfl, rfl⟩ | ⟨_, _, _, _, rfl, rfl⟩ | ⟨_, _, _, _, rfl, rfl⟩ | ⟨_, _, _, _, rfl, rfl⟩ <;> rfl) h

theorem indexesFor_same (n : Str) {as bs : List DDL} (h : List.Forall₂ SameTable as bs) : indexesFor n as = indexesFor n bs :=
  parts_same rfl (fun d ds => by cases d <;> simp only [indexesFor] <;> (try split) <;> rfl)
    (fun a b h => by
      rcases sameTable_cases h with ⟨_, _, _, rfl, rfl⟩ | ⟨_, _, _, _, rfl, rfl⟩ | ⟨_, _, _, _, rfl, rfl⟩ | ⟨_, _, _, _, rfl, rfl⟩ | ⟨_, _, _, _, rfl, rfl⟩ | ⟨_, _, _, _, rfl, rfl⟩ <;> rfl) h

theorem foreignKeysFor_same (n : Str) {as bs : List DDL} (h : List.Forall₂ SameTable as bs) : foreignKeysFor n as = foreignKeysFor n bs :=
  parts_same rfl (fun d ds => by cases d <;> simp only [foreignKeysFor] <;> (try split) <;> rfl)
    (fun a b h => by
      rcases sameTable_cases h with ⟨_, _, _, rfl, rfl⟩ | ⟨_, _, _, _, rfl, rfl⟩ | ⟨_, _, _, _, rfl, rfl⟩ | ⟨_, _, _, _, rfl, rfl⟩ | ⟨_, _, _, _, rfl, rfl⟩ | ⟨_, _, _, _, rfl, rfl⟩ <;> rfl) h

theorem policiesFor_same (n : Str) {as bs : List DDL} (h : List.Forall₂ SameTable as bs) : policiesFor n as = policiesFor n bs :=
  parts_same rfl (fun d ds => by cases d <;> simp only [policiesFor] <;> (try split) <;> rfl)
    (fun a b h => by
      rcases sameTable_cases h with ⟨_, _, _, rfl, rfl⟩ | ⟨_, _, _, _, rfl, rfl⟩ | ⟨_, _, _, _, rfl, rfl⟩ | ⟨_, _, _, _, rfl, rfl⟩ | ⟨_, _, _, _, rfl, rfl⟩ | ⟨_, _, _, _, rfl, rfl⟩ <;> rfl) h

theorem triggersOf_same {as bs : List DDL} (h : List.Forall₂ SameTable as bs) : triggersOf as = triggersOf bs :=
  parts_same rfl (fun d ds => by cases d <;> rfl)
    (fun a b h => by
      rcases sameTable_cases h with ⟨_, _, _, rfl, rfl⟩ | ⟨_, _, _, _, rfl, rfl⟩ | ⟨_, _, _, _, rfl, rfl⟩ | ⟨_, _, _, _, rfl, rfl⟩ | ⟨_, _, _, _, rfl, rfl⟩ | ⟨_, _, _, _, rfl, rfl⟩ <;> rfl) h

theorem forall₂_partner {α β : Type} {R : α → β → Prop} {as : List α} {bs : List β} (h : List.Forall₂ R as bs) {b : β} (hb : b ∈ bs) :
    ∃ a ∈ as, R a b := by
  induction h with
  | nil => cases hb
  | @cons a c as bs hac _ ih =>
    rcases List.mem_cons.mp hb with rfl | hb
    · exact ⟨a, by simp, hac⟩
    · obtain ⟨x, hx, hr⟩ := ih hb
      exact ⟨x, by simp [hx], hr⟩

theorem normal_same {mode : Mode} {as bs : List DDL} (h : List.Forall₂ SameTable as bs) (ha : Normal mode as) : Normal mode bs := by
  have hmem : ∀ d ∈ bs, ∃ c ∈ as, SameTable c d := by
    intro d hd
    obtain ⟨c, hc, hcd⟩ := forall₂_partner h hd
    exact ⟨c, hc, hcd⟩
  have hp : ∀ s n i, .addPrimaryKey s n i ∉ as := by
    intro s n i hm
    obtain ⟨pre, post, e⟩ := List.append_of_mem hm
    exact (ha.wellFormed pre _ post e).elim
  have hu : UniqueTables bs := by
    unfold UniqueTables createdNames
    rw [← created_same h]
    exact ha.unique
  have hw : WellFormed bs := by
    rintro pre' d' post' rfl
    obtain ⟨pre, rest, h1, h2, rfl⟩ := forall₂_pieces (List.Forall₂.flip h)
    cases h2 with
    | @cons _ d _ post hdd _ =>
    have h1 : List.Forall₂ SameTable pre pre' := List.Forall₂.flip h1
    have hf := ha.wellFormed pre d post rfl
    have hmark : ∀ n c (l : List DDL), (∀ s n i, .addPrimaryKey s n i ∉ l) → markedPrimary n c l = false := by
      intro n c l hl
      induction l with
      | nil => rfl
      | cons d l ih =>
        have ih := ih fun s n i hm => hl s n i (by simp [hm])
        cases d with
        | addPrimaryKey s n i => exact absurd (by simp) (hl s n i)
        | _ => exact ih
    have hp' : ∀ s n i, .addPrimaryKey s n i ∉ pre' := by
      intro s n i hm
      obtain ⟨c, hc, hcd⟩ := forall₂_partner h1 hm
      rcases sameTable_cases hcd with ⟨_, _, _, rfl, e⟩ | ⟨_, _, _, _, rfl, e⟩ | ⟨_, _, _, _, rfl, e⟩ | ⟨_, _, _, _, rfl, e⟩ | ⟨_, _, _, _, rfl, e⟩ | ⟨_, _, _, _, rfl, e⟩ <;> cases e
      exact hp _ _ _ (List.mem_append_left _ hc)
    have htab : tablesOf pre = tablesOf pre' := by
      unfold tablesOf
      rw [created_same h1]
      refine List.map_congr_left fun t _ => ?_
      simp only [Spec.complete, indexesFor_same _ h1, foreignKeysFor_same _ h1, policiesFor_same _ h1,
        hmark _ _ pre (fun s n i hm => hp s n i (List.mem_append_left _ hm)), hmark _ _ pre' hp']
    have hin : ∀ n, tableIn pre n = tableIn pre' n := fun n => by unfold tableIn; rw [htab]
    rcases sameTable_cases hdd with ⟨_, _, _, rfl, rfl⟩ | ⟨_, _, _, _, rfl, rfl⟩ | ⟨_, _, _, _, rfl, rfl⟩ | ⟨_, _, _, _, rfl, rfl⟩ | ⟨_, _, _, _, rfl, rfl⟩ | ⟨_, _, _, _, rfl, rfl⟩
    · trivial
    all_goals simpa only [Follows, hin] using hf
  refine ⟨hu, hw, ?_, ?_, ?_⟩
  · intro s n i hm
    obtain ⟨c, hc, hcd⟩ := hmem _ hm
    rcases sameTable_cases hcd with ⟨_, _, _, rfl, e⟩ | ⟨_, _, _, _, rfl, e⟩ | ⟨_, _, _, _, rfl, e⟩ | ⟨_, _, _, _, rfl, e⟩ | ⟨_, _, _, _, rfl, e⟩ | ⟨_, _, _, _, rfl, e⟩ <;> cases e
    exact ha.noAddIndex _ _ _ hc
  · intro s t hm
    obtain ⟨c, hc, hcd⟩ := hmem _ hm
    rcases sameTable_cases hcd with ⟨_, _, _, rfl, e⟩ | ⟨_, _, _, _, rfl, e⟩ | ⟨_, _, _, _, rfl, e⟩ | ⟨_, _, _, _, rfl, e⟩ | ⟨_, _, _, _, rfl, e⟩ | ⟨_, _, _, _, rfl, e⟩ <;> cases e
    have := ha.tables _ t hc
    exact ⟨this.columns, by rw [← indexesFor_same _ h]; exact this.indexes, by rw [← indexesFor_same _ h]; exact this.options,
      by rw [← indexesFor_same _ h]; exact this.secondary, by rw [← foreignKeysFor_same _ h]; exact this.foreignKeys, this.named,
      by rw [← policiesFor_same _ h]; exact this.policies, this.mysql⟩
  · rw [← triggersOf_same h]
    exact ha.triggers

/-- The definitions of a file with the same statements in another order and layout are, but for the texts, those of the
first one in another order. -/
theorem reordered_definitions (fmtFloat : Str → Str) (mode : Mode) {file file' : Str} {ss ss' : List Sentence} (hp : ss'.Perm ss)
    (hf : Contains mode file ss) (hf' : Contains mode file' ss') (h : ∀ s ∈ ss, s.Clear ∧ s.InRange) {ds ds' : List DDL}
    (hd : parseDDLs (Sql.env fmtFloat) mode file = .ok ds) (hd' : parseDDLs (Sql.env fmtFloat) mode file' = .ok ds') :
    ∃ cs, cs.Perm ds ∧ List.Forall₂ SameTable cs ds' := by
  rw [C12_one_definition_per_statement] at hd hd'
  unfold Contains at hf hf'
  obtain ⟨ts, h1, h2⟩ := List.perm_comp_forall₂ hp (List.Forall₂.flip hf)
  obtain ⟨cs, h3, h4⟩ := List.perm_comp_forall₂ h2 hd
  exact ⟨cs, h4, texts_same fmtFloat mode (List.Forall₂.flip h1) hf' (fun s hs => h s (hp.mem_iff.mp hs)) h3 hd'⟩

theorem reordered_nothing (fmtFloat : Str → Str) (mode : Mode) {file file' : Str} {ss ss' : List Sentence} (hp : ss'.Perm ss)
    (hf : Contains mode file ss) (hf' : Contains mode file' ss') (h : ∀ s ∈ ss, s.Clear ∧ s.InRange) {ds ds' : List DDL}
    (hd : parseDDLs (Sql.env fmtFloat) mode file = .ok ds) (hn : Normal mode ds)
    (hd' : parseDDLs (Sql.env fmtFloat) mode file' = .ok ds') (hw : WellFormedCurrent ds') :
    generateIdempotentDDLs (Sql.env fmtFloat) mode file file' = .ok [] := by
  obtain ⟨cs, h1, h2⟩ := reordered_definitions fmtFloat mode hp hf hf' h hd hd'
  have hw' : WellFormedCurrent cs := wellFormedCurrent_same h2 hw fun s n i hm => by
    obtain ⟨pre, post, e⟩ := List.append_of_mem (h1.mem_iff.mp hm)
    exact (hn.wellFormed pre _ post e).elim
  unfold generateIdempotentDDLs
  rw [hd, hd']
  change (diff mode ds ds' >>= fun l => pure (l.map (Stmt.render mode))) = _
  rw [← diff_same mode ds h2, diff_reordered hn hw' h1]
  rfl

end Sqldef
