import Verif.Proofs.Shapes
import Verif.Spec.Crash
/-!
The texts inside the generated statements are texts that the code computed without an error: `textOf`
(`Verif.Model.Render`) never stands for a missing text.
-/
namespace Sqldef
open Spec

/-- If the call succeeds, all its statements are written. -/
def Writes (mode : Mode) (r : Except Err (List Stmt)) : Prop := ∀ l, r = .ok l → ∀ s ∈ l, s.Written mode

theorem writes_ok {mode : Mode} {l : List Stmt} (h : ∀ s ∈ l, s.Written mode) : Writes mode (.ok l) := by
  intro l' hl; cases hl; exact h

theorem writes_nil {mode : Mode} : Writes mode (.ok []) := writes_ok (by simp)

theorem writes_error {mode : Mode} (e : Err) : Writes mode (.error e) := by intro l h; cases h

theorem writes_bind {mode : Mode} {α : Type} {x : Except Err α} {f : α → Except Err (List Stmt)}
    (h : ∀ a, x = .ok a → Writes mode (f a)) : Writes mode (x >>= f) := by
  intro l hl
  obtain ⟨a, ha, hl⟩ := bind_ok.1 hl
  exact h a ha l hl

theorem writes_guardText {mode : Mode} {t : Except Err Str} {s : Stmt} (h : ∀ u, t = .ok u → s.Written mode) :
    Writes mode (guardText t s) := by
  intro l hl
  obtain ⟨rfl, u, hu⟩ := guardText_ok hl
  intro s' hs'
  simp at hs'; subst hs'
  exact h u hu

theorem written_guardText {mode : Mode} {t : Except Err Str} {s s' : Stmt} {l : List Stmt} (hl : guardText t s = .ok l)
    (hs : s' ∈ l) (h : ∀ u, t = .ok u → s.Written mode) : s'.Written mode := writes_guardText h l hl s' hs

theorem writes_concatMapM {mode : Mode} {α : Type} {f : α → Except Err (List Stmt)} {l : List α}
    (h : ∀ a ∈ l, Writes mode (f a)) : Writes mode (concatMapM f l) := by
  induction l with
  | nil => exact writes_nil
  | cons a l ih =>
    refine writes_bind fun x hx => writes_bind fun y hy => writes_ok fun s hs => ?_
    rcases List.mem_append.1 hs with hs | hs
    · exact h a (by simp) x hx s hs
    · exact ih (fun b hb => h b (by simp [hb])) y hy s hs

theorem writes_columnDDLs (mode : Mode) (x d : Table) (prev : Option Str) (c : Column) :
    Writes mode (columnDDLs mode x d prev c) := by
  unfold columnDDLs
  split
  · exact writes_guardText fun u hu => ⟨u, hu⟩
  · next cur _ =>
    simp only
    generalize (if cur.autoIncrement = true then c else { c with autoIncrement := false }) = c' at *
    cases mode with
    | mysql =>
      refine writes_bind fun l hl => writes_ok fun s hs => ?_
      rcases List.mem_append.1 hs with hs | hs
      · unfold mysqlChange at hl
        simp only at hl
        split at hl
        · exact written_guardText hl hs fun u hu => ⟨u, hu⟩
        · cases hl; simp at hs
      · unfold mysqlUnique at hs
        split at hs
        · simp at hs; subst hs; trivial
        · simp at hs
    | postgres =>
      refine writes_bind fun l hl => writes_ok fun s hs => ?_
      simp only [List.mem_append] at hs
      rcases hs with (((hs | hs) | hs) | hs) | hs
      · split at hs <;> simp at hs; subst hs; trivial
      · unfold pgNotNull at hs
        split at hs
        · split at hs
          · simp at hs; subst hs; trivial
          · split at hs <;> simp at hs; subst hs; trivial
        · simp at hs
      · unfold pgIdentity at hs
        split at hs
        · split at hs <;> simp at hs <;> subst hs <;> trivial
        · simp at hs
      · unfold pgDefault at hl
        split at hl
        · split at hl
          · cases hl; simp at hs; subst hs; trivial
          · split at hl
            · cases hl
            · exact written_guardText hl hs fun u hu => ⟨u, hu⟩
        · cases hl; simp at hs
      · unfold pgCheck at hs
        split at hs
        · simp only [List.mem_append] at hs
          rcases hs with hs | hs
          · split at hs <;> simp at hs; subst hs; trivial
          · split at hs <;> simp at hs; subst hs; trivial
        · simp at hs
    | mssql =>
      refine writes_bind fun l hl => writes_bind fun m hm => writes_ok fun s hs => ?_
      simp only [List.mem_append] at hs
      rcases hs with (hs | hs) | hs
      · unfold mssqlCheck at hs
        split at hs
        · simp only [List.mem_append] at hs
          rcases hs with hs | hs
          · split at hs <;> simp at hs; subst hs; trivial
          · split at hs <;> simp at hs; subst hs; trivial
        · simp at hs
      · unfold mssqlIdentity at hl
        split at hl
        · obtain ⟨n, hn, hl⟩ := bind_ok.1 hl
          cases hl
          rcases List.mem_append.1 hs with hs | hs
          · unfold mssqlIdentityDrop at hs
            split at hs <;> simp at hs; subst hs; trivial
          · unfold mssqlIdentityAdd at hn
            split at hn
            · cases hn; simp at hs
            · exact written_guardText hn hs fun u hu => ⟨u, hu⟩
        · cases hl; simp at hs
      · unfold mssqlDefault at hm
        split at hm
        · obtain ⟨n, hn, hm⟩ := bind_ok.1 hm
          cases hm
          rcases List.mem_append.1 hs with hs | hs
          · unfold mssqlDefaultDrop at hs
            split at hs <;> simp at hs; subst hs; trivial
          · unfold mssqlDefaultAdd at hn
            split at hn
            · cases hn; simp at hs
            · split at hn
              · cases hn
              · exact written_guardText hn hs fun u hu => ⟨u, hu⟩
        · cases hm; simp at hs
    | sqlite3 => exact writes_nil

theorem writes_createTable (mode : Mode) (x d : Table) : Writes mode (generateDDLsForCreateTable mode x d) := by
  refine writes_bind fun a ha => writes_bind fun b hb => writes_bind fun p hp => writes_bind fun i hi =>
    writes_bind fun ai hai => writes_bind fun f hf => writes_ok fun s hs => ?_
  simp only [List.mem_append] at hs
  rcases hs with ((((hs | hs) | hs) | hs) | hs) | hs
  · exact writes_concatMapM (fun _ _ => writes_columnDDLs mode x d _ _) a ha s hs
  · unfold removeAutoIncrement at hb
    split at hb
    · refine writes_concatMapM (fun c _ => ?_) b hb s hs
      split
      · exact writes_guardText fun u hu => ⟨u, hu⟩
      · exact writes_nil
    · cases hb; simp at hs
  · unfold primaryKeyDDLs at hp
    split at hp
    · obtain ⟨q, hq, hp⟩ := bind_ok.1 hp
      obtain ⟨r, hr, hp⟩ := bind_ok.1 hp
      cases hp
      rcases List.mem_append.1 hs with hs | hs
      · unfold dropPrimaryKeyDDLs at hq
        split at hq
        · cases hq; simp at hs
        · split at hq
          · cases hq; simp at hs; subst hs; trivial
          · split at hq
            · cases hq
            · cases hq; simp at hs; subst hs; trivial
          · cases hq; simp at hs
      · unfold addPrimaryKeyDDLs at hr
        split at hr
        · cases hr; simp at hs
        · exact written_guardText hr hs fun u hu => ⟨u, hu⟩
    · cases hp; simp at hs
  · refine writes_concatMapM (fun j _ => ?_) i hi s hs
    unfold tableIndexDDLs
    split
    · exact writes_nil
    · split
      · split
        · refine writes_bind fun l hl => writes_ok fun s hs => ?_
          rcases List.mem_cons.1 hs with rfl | hs
          · trivial
          · exact written_guardText hl hs fun u hu => ⟨u, hu⟩
        · exact writes_nil
      · exact writes_guardText fun u hu => ⟨u, hu⟩
  · unfold addAutoIncrement at hai
    split at hai
    · refine writes_concatMapM (fun c _ => ?_) ai hai s hs
      split
      · exact writes_guardText fun u hu => ⟨u, hu⟩
      · exact writes_nil
    · cases hai; simp at hs
  · refine writes_concatMapM (fun j _ => ?_) f hf s hs
    unfold tableForeignKeyDDLs
    split
    · exact writes_error _
    · split
      · split
        · refine writes_ok fun s hs => ?_
          split at hs
          · simp at hs; subst hs; trivial
          · simp at hs; rcases hs with rfl | rfl <;> trivial
        · exact writes_nil
      · refine writes_ok fun s hs => ?_
        simp at hs; subst hs; trivial

/-- If the step succeeds, its statements are written. -/
theorem writes_step {g g' : Gen} {d : DDL} {x : List Stmt} (h : step g d = .ok (g', x)) :
    g'.mode = g.mode ∧ ∀ s ∈ x, s.Written g.mode := by
  have index : ∀ {d : DDL} {n : Str} {i : Index}, stepCreateIndex g d n i = .ok (g', x) →
      g'.mode = g.mode ∧ ∀ s ∈ x, s.Written g.mode := by
    intro d n i h
    simp only [stepCreateIndex] at h
    split at h
    · cases h
    · split at h
      · cases h
      · split at h
        · cases h
        · cases h
          refine ⟨rfl, fun s hs => ?_⟩
          split at hs
          · simp at hs; subst hs; trivial
          · split at hs
            · simp at hs; rcases hs with rfl | rfl <;> trivial
            · simp at hs
  cases d with
  | createTable s t =>
    simp only [step, stepCreateTable] at h
    split at h
    · obtain ⟨l, hl, h⟩ := bind_ok.1 h
      cases h
      exact ⟨rfl, writes_createTable _ _ _ _ hl⟩
    · cases h; exact ⟨rfl, fun s hs => by simp at hs; subst hs; trivial⟩
  | createIndex s n i => exact index h
  | addIndex s n i => exact index h
  | addForeignKey s n f =>
    simp only [step, stepAddForeignKey] at h
    split at h
    · cases h
    · split at h
      · cases h
      · cases h; exact ⟨rfl, by simp⟩
  | addPolicy s n p =>
    simp only [step, stepCreatePolicy] at h
    split at h
    · cases h
    · split at h
      · cases h
      · split at h
        · cases h
        · cases h
          refine ⟨rfl, fun s hs => ?_⟩
          split at hs
          · simp at hs; subst hs; trivial
          · split at hs
            · simp at hs; rcases hs with rfl | rfl <;> trivial
            · simp at hs
  | view v =>
    simp only [step, stepCreateView] at h
    split at h
    · cases h
    · cases h
      refine ⟨rfl, fun s hs => ?_⟩
      split at hs
      · simp at hs; subst hs; trivial
      · split at hs
        · split at hs
          · simp at hs; rcases hs with rfl | rfl <;> trivial
          · simp at hs; subst hs; trivial
        · simp at hs
  | trigger t =>
    simp only [step, stepCreateTrigger] at h
    split at h
    · cases h
      refine ⟨rfl, fun s hs => ?_⟩
      split at hs
      · simp at hs; subst hs; trivial
      · split at hs <;> simp at hs; subst hs; trivial
    · cases h
      refine ⟨rfl, fun s hs => ?_⟩
      split at hs
      · simp at hs; subst hs; trivial
      · split at hs
        · simp at hs; rcases hs with rfl | rfl <;> trivial
        · simp at hs
    · cases h; exact ⟨rfl, by simp⟩
  | addPrimaryKey s n i => cases h

theorem writes_steps {g g' : Gen} {ds : List DDL} {x : List Stmt} (h : steps g ds = .ok (g', x)) :
    g'.mode = g.mode ∧ ∀ s ∈ x, s.Written g.mode := by
  induction ds generalizing g x with
  | nil => cases h; simp
  | cons d ds ih =>
    obtain ⟨⟨g1, x1⟩, h1, h⟩ := bind_ok.1 h
    obtain ⟨⟨g2, x2⟩, h2, h⟩ := bind_ok.1 h
    cases h
    obtain ⟨hm, h1⟩ := writes_step h1
    obtain ⟨hm2, h2⟩ := ih h2
    refine ⟨hm2.trans hm, fun s hs => ?_⟩
    rcases List.mem_append.1 hs with hs | hs
    · exact h1 s hs
    · rw [← hm]; exact h2 s hs

theorem writes_cleanupTable (mode : Mode) (x d : Table) : Writes mode (cleanupTable mode x d) := by
  refine writes_bind fun l hl => writes_ok fun s hs => ?_
  simp only [List.mem_append] at hs
  rcases hs with ((hs | hs) | hs) | hs
  · obtain ⟨f, -, hs⟩ := List.mem_flatMap.1 hs
    unfold absentForeignKey at hs
    split at hs
    · simp at hs; subst hs; trivial
    · split at hs <;> simp at hs; subst hs; trivial
    · split at hs <;> simp at hs; subst hs; trivial
    · simp at hs
  · refine writes_concatMapM (fun i _ => ?_) l hl s hs
    unfold absentIndex
    have drop : ∀ t n : Str, Writes mode (.ok [.dropIndex t n]) := fun t n => writes_ok (by simp [Stmt.Written])
    split
    · split
      · split
        · exact writes_ok (by simp [Stmt.Written])
        · exact writes_nil
      · split
        · exact writes_error _
        · split
          · exact writes_error _
          · exact writes_nil
    · split
      · split
        · split
          · exact drop _ _
          · exact writes_error _
        · split
          · exact writes_nil
          · exact drop _ _
      · exact drop _ _
  · obtain ⟨c, -, hs⟩ := List.mem_flatMap.1 hs
    unfold absentColumn at hs
    rcases List.mem_append.1 hs with hs | hs
    · split at hs
      · obtain ⟨k, -, hk⟩ := List.mem_filterMap.1 hs
        split at hk
        · cases hk
        · split at hk <;> cases hk; trivial
      · simp at hs
    · simp at hs; subst hs; trivial
  · obtain ⟨p, -, rfl⟩ := List.mem_map.1 hs
    trivial

theorem writes_cleanupTables (mode : Mode) (dts rem ts : List Table) : Writes mode (cleanupTables mode dts rem ts) := by
  induction ts generalizing rem with
  | nil => exact writes_nil
  | cons t ts ih =>
    unfold cleanupTables
    split
    · refine writes_bind fun r _ => writes_bind fun l hl => writes_ok fun s hs => ?_
      rcases List.mem_cons.1 hs with rfl | hs
      · trivial
      · exact ih r l hl s hs
    · refine writes_bind fun a ha => writes_bind fun l hl => writes_ok fun s hs => ?_
      rcases List.mem_append.1 hs with hs | hs
      · exact writes_cleanupTable mode _ _ a ha s hs
      · exact ih rem l hl s hs

/-- Every generated statement is written completely. -/
theorem diff_wellformed {mode : Mode} {desired current : List DDL} {out : List Stmt}
    (h : diff mode desired current = .ok out) : ∀ s ∈ out, s.Written mode := by
  obtain ⟨ts, -, h⟩ := bind_ok.1 h
  obtain ⟨⟨g', x⟩, hs, h⟩ := bind_ok.1 h
  obtain ⟨c, hc, h⟩ := bind_ok.1 h
  cases h
  obtain ⟨hm, hx⟩ := writes_steps hs
  simp only at hm
  intro s hs'
  simp only [List.mem_append] at hs'
  rcases hs' with (hs' | hs') | hs'
  · exact hx s hs'
  · have := writes_cleanupTables _ _ _ _ c hc s hs'
    rwa [hm] at this
  · unfold cleanupViews at hs'
    obtain ⟨v, -, rfl⟩ := List.mem_map.1 hs'
    trivial

end Sqldef
