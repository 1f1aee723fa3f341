import Verif.Proofs.Rearranged
/-
Files that differ in the order of their statements, in the order within their CREATE TABLEs and in their layout only.
-/
namespace Sqldef
open Spec Written

/-- What the items contribute. -/
def itemColumns : Item → List SqlColumn
  | .column c => [c.meaning]
  | _ => []

def itemIndexes : Item → List SqlIndexDef
  | .index i => [i.meaning]
  | .primaryKey p => [p.meaning]
  | _ => []

def itemForeignKeys : Item → List SqlForeignKey
  | .foreignKey f => [f.meaning]
  | _ => []

theorem foldl_items (l : List Item) (s : SqlTableSpec) :
    l.foldl Item.apply s = { s with columns := s.columns ++ l.flatMap itemColumns, indexes := s.indexes ++ l.flatMap itemIndexes,
                                    foreignKeys := s.foreignKeys ++ l.flatMap itemForeignKeys } := by
  induction l generalizing s with
  | nil => simp
  | cons i l ih =>
    rw [List.foldl_cons, ih]
    cases i <;> simp [Item.apply, itemColumns, itemIndexes, itemForeignKeys]

theorem spec_items (t : Written.Table) :
    t.spec.columns = t.items.flatMap itemColumns ∧ t.spec.indexes = t.items.flatMap itemIndexes ∧
      t.spec.foreignKeys = t.items.flatMap itemForeignKeys := by
  unfold Table.spec Table.items
  rw [foldl_items]
  simp [itemColumns, itemIndexes, itemForeignKeys]

theorem parseColumns_unplaced (env : Env) {spec spec' : SqlTableSpec} (h : spec'.options = spec.options) (i j : Nat) (cs : List SqlColumn) :
    (parseColumns env spec' i cs).map unplaced = cs.map fun c => unplaced (parseColumn env spec j c) := by
  induction cs generalizing i with
  | nil => rfl
  | cons c cs ih =>
    simp only [parseColumns, List.map_cons, ih]
    congr 1
    simp only [unplaced, parseColumn, normalizeCollate, h]

theorem parseTableIndexes_perm (env : Env) {as bs : List SqlIndexDef} (h : as.Perm bs) :
    ∀ {xs}, parseTableIndexes env as = .ok xs → ∃ ys, parseTableIndexes env bs = .ok ys ∧ xs.Perm ys := by
  induction h with
  | nil => exact fun {xs} h => ⟨xs, h, .refl _⟩
  | cons d _ ih =>
    intro xs h
    simp only [parseTableIndexes] at h ⊢
    cases e1 : parseIndexColumns d.columns with
    | error e => rw [e1] at h; cases h
    | ok c =>
      rw [e1] at h
      rename_i l₁ l₂ _
      cases e2 : parseTableIndexes env l₁ with
      | error e => rw [e2] at h; cases h
      | ok r =>
        rw [e2] at h
        cases h
        obtain ⟨ys, h1, h2⟩ := ih e2
        rw [h1]
        exact ⟨_, rfl, h2.cons _⟩
  | swap x y l =>
    intro xs h
    simp only [parseTableIndexes] at h ⊢
    cases e1 : parseIndexColumns x.columns with
    | error e =>
      rw [e1] at h
      cases e2 : parseIndexColumns y.columns with
      | error e => rw [e2] at h; cases h
      | ok c => rw [e2] at h; cases h
    | ok c =>
      cases e2 : parseIndexColumns y.columns with
      | error e => rw [e2] at h; cases h
      | ok c' =>
        rw [e1, e2] at h
        cases e3 : parseTableIndexes env l with
        | error e => rw [e3] at h; cases h
        | ok r =>
          rw [e3] at h
          cases h
          exact ⟨_, rfl, .swap _ _ _⟩
  | trans _ _ ih1 ih2 =>
    intro xs h
    obtain ⟨ys, h1, h2⟩ := ih1 h
    obtain ⟨zs, h3, h4⟩ := ih2 h1
    exact ⟨zs, h3, h2.trans h4⟩

theorem table_rearranged (env : Env) (mode : Mode) {t u : Written.Table} (hn : u.name = t.name) (hi : t.items.Perm u.items)
    (ho : u.options = t.options) {x y : Table} (hx : parseTable env mode t.meaning = .ok x) (hy : parseTable env mode u.meaning = .ok y) :
    SameUpToOrder x y := by
  obtain ⟨t1, t2, t3⟩ := spec_items t
  obtain ⟨u1, u2, u3⟩ := spec_items u
  simp only [parseTable, Table.meaning] at hx hy
  split at hx
  · cases hx
  split at hy
  · cases hy
  cases e : parseTableIndexes env t.spec.indexes with
  | error e' => rw [e] at hx; cases hx
  | ok xs =>
    obtain ⟨ys, e2, hp⟩ := parseTableIndexes_perm env (bs := u.spec.indexes) (by rw [t2, u2]; exact hi.flatMap_right _) e
    rw [e] at hx
    rw [e2] at hy
    cases hx
    cases hy
    refine ⟨by simp [hn], ?_, hp, ?_, .refl _⟩
    · simp only
      rw [parseColumns_unplaced env rfl 0 0 t.spec.columns,
        parseColumns_unplaced env (spec := { t.spec with options := tableOptionText t.options }) (by simp [ho]) 0 0 u.spec.columns, t1, u1]
      exact (hi.flatMap_right _).map _
    · simp only
      rw [t3, u3]
      exact (hi.flatMap_right _).map _

theorem sameButOrder_of_sameTable {a b : DDL} (h : SameTable a b) : SameButOrder a b := by
  rcases sameTable_cases h with ⟨_, _, _, rfl, rfl⟩ | ⟨_, _, _, _, rfl, rfl⟩ | ⟨_, _, _, _, rfl, rfl⟩ | ⟨_, _, _, _, rfl, rfl⟩ | ⟨_, _, _, _, rfl, rfl⟩ | ⟨_, _, _, _, rfl, rfl⟩
  · exact ⟨rfl, .refl _, .refl _, .refl _, .refl _⟩
  all_goals exact ⟨rfl, rfl⟩

theorem convert_create (env : Env) (mode : Mode) (text : Str) (t : Written.Table) {d : DDL}
    (h : convertStatement env mode text (.ddl t.meaning) = .ok d) : ∃ x, parseTable env mode t.meaning = .ok x ∧ d = .createTable text x := by
  rw [convertStatement] at h
  simp only [show t.meaning.action = lit "create" from rfl, if_true] at h
  cases e : parseTable env mode t.meaning with
  | error e' => rw [e] at h; cases h
  | ok x => rw [e] at h; cases h; exact ⟨x, rfl, rfl⟩

theorem texts_rearranged (fmtFloat : Str → Str) (mode : Mode) {ts ts' : List Str} {ss ss' : List Sentence} {ds ds' : List DDL}
    (hs : List.Forall₂ SameItems ss ss')
    (hf : List.Forall₂ (fun text s => tokenize mode text = .ok s.tokens) ts ss)
    (hf' : List.Forall₂ (fun text s => tokenize mode text = .ok s.tokens) ts' ss') (h : ∀ s ∈ ss, s.Clear ∧ s.InRange)
    (hd : List.Forall₂ (fun t d => parseDDL (Sql.env fmtFloat) mode t = .ok d) ts ds)
    (hd' : List.Forall₂ (fun t d => parseDDL (Sql.env fmtFloat) mode t = .ok d) ts' ds') : List.Forall₂ SameButOrder ds ds' := by
  induction hs generalizing ts ts' ds ds' with
  | nil =>
    cases hf
    cases hf'
    cases hd
    cases hd'
    exact .nil
  | @cons s s' ss ss' hss _ ih =>
    cases hf with
    | @cons t _ ts _ ht hts =>
    cases hf' with
    | @cons t' _ ts' _ ht' hts' =>
    cases hd with
    | @cons _ d _ ds hd hds =>
    cases hd' with
    | @cons _ d' _ ds' hd' hds' =>
    refine .cons ?_ (ih hts hts' (fun s hs => h s (List.mem_cons_of_mem _ hs)) hds hds')
    obtain ⟨hc, hr⟩ := h s List.mem_cons_self
    cases hss with
    | same =>
      have := texts_same fmtFloat mode (.cons ht .nil) (.cons ht' .nil) (by simpa using ⟨hc, hr⟩) (.cons hd .nil) (.cons hd' .nil)
      cases this with
      | cons this _ => exact sameButOrder_of_sameTable this
    | @table a b hn hi ho =>
      have hcb : (Sentence.table b).Clear := by
        have hc : a.Clear := hc
        have hall : ∀ i ∈ a.items, i.Clear := by
          intro i hm
          rcases List.mem_cons.mp hm with rfl | hm
          · exact hc.1
          · exact hc.2.1 i hm
        have hall' : ∀ i ∈ b.items, i.Clear := fun i hm => hall i (hi.mem_iff.mpr hm)
        exact ⟨hall' _ List.mem_cons_self, fun i hm => hall' i (List.mem_cons_of_mem _ hm), by rw [ho]; exact hc.2.2⟩
      have hp := C57_statement_is_understood mode t (.table a) hc false (by simpa [given] using ht)
      have hp' := C57_statement_is_understood mode t' (.table b) hcb false (by simpa [given] using ht')
      have h1 : convertStatement (Sql.env fmtFloat) mode t (.ddl a.meaning) = .ok d := by
        rw [← hd, parseDDL, show (Sql.env fmtFloat).parse mode t = _ from hp]; rfl
      have h2 : convertStatement (Sql.env fmtFloat) mode t' (.ddl b.meaning) = .ok d' := by
        rw [← hd', parseDDL, show (Sql.env fmtFloat).parse mode t' = _ from hp']; rfl
      obtain ⟨x, hx, rfl⟩ := convert_create _ _ _ _ h1
      obtain ⟨y, hy, rfl⟩ := convert_create _ _ _ _ h2
      exact table_rearranged _ _ hn hi ho hx hy

theorem rearranged_nothing (fmtFloat : Str → Str) {mode : Mode} (hm : mode ≠ .mysql) {file file' : Str} {ss rs ss' : List Sentence}
    (hs : List.Forall₂ SameItems ss rs) (hp : rs.Perm ss') (hf : Contains mode file ss) (hf' : Contains mode file' ss')
    (h : ∀ s ∈ ss, s.Clear ∧ s.InRange) {ds ds' : List DDL}
    (hd : parseDDLs (Sql.env fmtFloat) mode file = .ok ds) (hn : Normal mode ds) (hk : ∀ s t, .createTable s t ∈ ds → OneKey t)
    (hd' : parseDDLs (Sql.env fmtFloat) mode file' = .ok ds') (hw : WellFormedCurrent ds') :
    generateIdempotentDDLs (Sql.env fmtFloat) mode file file' = .ok [] := by
  have hd0 := hd
  have hd0' := hd'
  rw [C12_one_definition_per_statement] at hd hd'
  unfold Contains at hf hf'
  obtain ⟨ts, h1, h2⟩ := List.perm_comp_forall₂ hp (List.Forall₂.flip hf')
  obtain ⟨es, h3, h4⟩ := List.perm_comp_forall₂ h2 hd'
  have hr := texts_rearranged fmtFloat mode hs hf (List.Forall₂.flip h1) h hd h3
  unfold generateIdempotentDDLs
  rw [hd0, hd0']
  change (diff mode ds ds' >>= fun l => pure (l.map (Stmt.render mode))) = _
  rw [diff_rearranged hm hn hk hr h4 hw]
  rfl

end Sqldef
