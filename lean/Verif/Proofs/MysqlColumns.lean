import Verif.Proofs.Columns
/-! Execution of the column statements of a MySQL table. -/
namespace Sqldef
open Spec

/-- A desired column needs a unique key. -/
def needsUnique (x : Table) (c : Column) : Bool :=
  match x.col c.name with
  | none => false
  | some cur => c.keyOption.isUnique && !cur.keyOption.isUnique && (findIndexByName x.indexes c.name).isNone

/-- The names of the columns after the statement for one desired column. -/
def stepNames (x d : Table) (prev : Option Str) (c : Column) (l : List Str) : List Str :=
  match x.col c.name with
  | none => namePlace (placeAfter prev) c.name l
  | some cur => if changeOrder x d cur c then namePlace (placeAfter prev) c.name (l.filter (· ≠ c.name)) else l

/-- The column `e` is what the column statements make of the desired column `c`. -/
def MysqlAfter (x : Table) (c e : Column) : Prop :=
  (x.col c.name = none ∧
    e = storedNew c) ∨
  ∃ cur, x.col c.name = some cur ∧
    ((e = cur ∧ haveSameColumnDefinition .mysql cur c = true ∧ areSameDefaultValue cur.defaultDef c.defaultDef = true) ∨
     e = stored (inPrimaryKey x cur) cur.keyOption (seen cur c))

theorem seen_same {cur c : Column} : haveSameColumnDefinition .mysql cur (seen cur c) = haveSameColumnDefinition .mysql cur c ∧
    (seen cur c).defaultDef = c.defaultDef := by
  unfold seen
  split <;> exact ⟨rfl, rfl⟩

theorem changeOrder_seen {x d : Table} {cur c : Column} : changeOrder x d cur (seen cur c) = changeOrder x d cur c := by
  unfold seen
  split <;> rfl

theorem columnDDLs_mysql {x d : Table} {prev : Option Str} {c cur : Column} (hc : x.col c.name = some cur) {l : List Stmt}
    (h : columnDDLs .mysql x d prev c = .ok l) :
    ∃ ch, l = ch ++ (if needsUnique x c then [Stmt.addUniqueKey d.name c.name] else []) ∧
      ((ch = [] ∧ changeOrder x d cur c = false ∧ haveSameColumnDefinition .mysql cur c = true ∧
          areSameDefaultValue cur.defaultDef c.defaultDef = true) ∨
       ch = [.changeColumn d.name c.name (seen cur c) (if changeOrder x d cur c then placeAfter prev else .none)]) := by
  have hname : cur.name = c.name := (findColumn_mem hc).2
  unfold columnDDLs at h
  rw [show findColumnByName x.columns c.name = some cur from hc] at h
  simp only [mysqlColumn] at h
  obtain ⟨ch, hch, h⟩ := bind_ok.1 h
  cases h
  change mysqlChange x d prev cur (seen cur c) = .ok ch at hch
  refine ⟨ch, ?_, ?_⟩
  · congr 1
    change mysqlUnique x d cur (seen cur c) = _
    simp only [mysqlUnique, needsUnique, hc, seen_name]
    have : (seen cur c).keyOption = c.keyOption := by unfold seen; split <;> rfl
    rw [this]
  · simp only [mysqlChange] at hch
    split at hch
    · obtain ⟨rfl, -⟩ := guardText_ok hch
      right
      rw [changeOrder_seen, hname]
    · next hne =>
      cases hch
      left
      simp only [Bool.or_eq_true, Bool.not_eq_true', not_or, Bool.not_eq_true, Bool.not_eq_false, seen_same.1, seen_same.2,
        changeOrder_seen] at hne
      exact ⟨rfl, hne.2, hne.1.1, hne.1.2⟩

theorem mysql_step (x d : Table) : StepOk .mysql x d (MysqlAfter x) (needsUnique x) (stepNames x d) := by
  intro P T prev c u hi hcP hp hcd hu
  have hpT : ∀ q, placeAfter prev = .after q → q ∈ T.names ∧ q ≠ c.name := by
    intro q hq
    have := hp q (placeAfter_after hq)
    exact ⟨(hi.mem q).2 (.inr this), fun e => hcP (e ▸ this)⟩
  have hTc := hi.other c.name hcP
  cases hx : x.col c.name with
  | none =>
    obtain ⟨T1, h1, h2, h3⟩ := hi.addNew hcP hp hu hx (by simp only [needsUnique, hx]) (.inl ⟨hx, rfl⟩)
    refine ⟨T1, h1, h2, ?_⟩
    rw [h3]
    simp [stepNames, hx]
  | some cur =>
    obtain ⟨ch, rfl, hch⟩ := columnDDLs_mysql hx hu
    -- change
    have hchange : ∃ T1, alters .mysql ch T = some T1 ∧ OnlyColumns T T1 ∧
        T1.names = stepNames x d prev c T.names ∧ (∀ m, m ≠ c.name → T1.col m = T.col m) ∧
        ∃ e, T1.col c.name = some e ∧ MysqlAfter x c e := by
      rcases hch with ⟨rfl, h1, h2, h3⟩ | rfl
      · refine ⟨T, rfl, .refl T, ?_, fun _ _ => rfl, cur, hTc.trans hx, .inr ⟨cur, hx, .inl ⟨rfl, h2, h3⟩⟩⟩
        simp [stepNames, hx, h1]
      · have hpk : inPrimaryKey T cur = inPrimaryKey x cur := inPrimaryKey_append hi.indexes newUniques_primary cur
        have hTc' : T.col (seen cur c).name = some cur := by rw [seen_name]; exact hTc.trans hx
        obtain ⟨T1, h1, h2⟩ := changeColumn_spec (mode := .mysql) (n := d.name) (c := seen cur c) (cur := cur)
          (p := if changeOrder x d cur c then placeAfter prev else .none) (t := T) hTc' (by decide) (by
            intro q hq
            split at hq
            · rw [seen_name]; exact hpT q hq
            · cases hq)
        rw [seen_name] at h1
        refine ⟨T1, ?_, h2.toOnlyColumns, ?_, ?_, _, ?_, .inr ⟨cur, hx, .inr rfl⟩⟩
        · simp only [alters, h1, Option.bind_some]
        · rw [h2.names]
          simp only [stepNames, hx, stored, seen_name]
          by_cases hco : changeOrder x d cur c = true
          · simp only [hco, if_true]
            rw [if_neg]
            cases prev <;> simp [placeAfter]
          · simp [hco]
        · intro m hm
          rw [h2.col, if_neg (by simpa [stored] using hm)]
        · rw [h2.col, if_pos (by simp [stored]), hpk]
    obtain ⟨T1, h1, honly, hnames, hother, e, he, hafter⟩ := hchange
    have hmemT1 : ∀ m, m ∈ T1.names ↔ m ∈ T.names := by
      intro m
      rw [hnames]
      simp only [stepNames, hx]
      split
      · rw [mem_namePlace, List.mem_filter]
        · constructor
          · rintro (rfl | h)
            · exact mem_of_col (hTc.trans hx)
            · exact h.1
          · intro h
            by_cases hm : m = c.name
            · exact .inl hm
            · exact .inr ⟨h, by simpa using hm⟩
        · intro q hq
          rw [List.mem_filter]
          exact ⟨(hpT q hq).1, by simpa using (hpT q hq).2⟩
      · rfl
    have hnd : T1.names.Nodup := by
      rw [hnames]
      simp only [stepNames, hx]
      split
      · exact nodup_namePlace (List.Nodup.sublist List.filter_sublist hi.nodup) (by simp)
      · exact hi.nodup
    obtain ⟨T2, g1, g2, g3⟩ := hi.change (n := d.name) (.inl (by decide)) hcP hx h1 honly hmemT1 hnd hother he hafter (by
      intro hn
      simp only [needsUnique, hx, Bool.and_eq_true, Option.isNone_iff_eq_none] at hn
      exact hn.2)
    exact ⟨T2, g1, g2, g3.trans hnames⟩

end Sqldef
