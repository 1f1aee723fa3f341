import Verif.Spec.TriggerRows
import Verif.Proofs.ViewDump
/-
Dumps with triggers.
-/
namespace Sqldef
open Spec Written Dumped

/-! ### Triggers in a schema in normal form -/

theorem createdNames_triggers (ds : List DDL) (vs : List Trigger) : createdNames (ds ++ vs.map DDL.trigger) = createdNames ds := by
  have : createdNames (vs.map DDL.trigger) = [] := by
    induction vs with
    | nil => rfl
    | cons v vs ih => exact ih
  rw [createdNames_append, this, List.append_nil]

theorem for_triggers (n : Str) (ds : List DDL) (vs : List Trigger) :
    indexesFor n (ds ++ vs.map DDL.trigger) = indexesFor n ds ∧ foreignKeysFor n (ds ++ vs.map DDL.trigger) = foreignKeysFor n ds ∧
    policiesFor n (ds ++ vs.map DDL.trigger) = policiesFor n ds ∧ triggersOf (ds ++ vs.map DDL.trigger) = triggersOf ds ++ vs := by
  have h0 : indexesFor n (vs.map DDL.trigger) = [] ∧ foreignKeysFor n (vs.map DDL.trigger) = [] ∧ policiesFor n (vs.map DDL.trigger) = [] ∧
      triggersOf (vs.map DDL.trigger) = vs := by
    induction vs with
    | nil => exact ⟨rfl, rfl, rfl, rfl⟩
    | cons v vs ih =>
      refine ⟨ih.1, ih.2.1, ih.2.2.1, ?_⟩
      simp [triggersOf, ih.2.2.2]
  induction ds with
  | nil => exact h0
  | cons d ds ih =>
    cases d <;> simp_all [indexesFor, foreignKeysFor, policiesFor, triggersOf]

/-- A schema in normal form, with triggers whose names are different. -/
theorem normal_triggers {mode : Mode} {ds : List DDL} {vs : List Trigger} (h : Normal mode ds) (h0 : triggersOf ds = [])
    (hv : (vs.map (·.name)).Nodup) : Normal mode (ds ++ vs.map DDL.trigger) := by
  constructor
  · unfold UniqueTables
    rw [createdNames_triggers]
    exact h.unique
  · intro pre d post e
    have : (∃ post', ds = pre ++ d :: post') ∨ ∃ w, d = .trigger w := by
      rcases List.append_eq_append_iff.mp e with ⟨as, h1, h2⟩ | ⟨bs, h1, h2⟩
      · right
        obtain ⟨us, ws, e1, e2, e3⟩ := List.map_eq_append_iff.mp h2
        obtain ⟨w, ws', rfl, e4, e5⟩ := List.map_eq_cons_iff.mp e3
        exact ⟨w, e4.symm⟩
      · cases bs with
        | nil =>
          right
          rw [List.nil_append] at h2
          obtain ⟨w, ws', rfl, e4, e5⟩ := List.map_eq_cons_iff.mp h2.symm
          exact ⟨w, e4.symm⟩
        | cons b bs =>
          left
          rw [List.cons_append] at h2
          injection h2 with h2 h3
          subst h2
          exact ⟨bs, h1⟩
    rcases this with ⟨post', e⟩ | ⟨w, rfl⟩
    · exact h.wellFormed pre d post' e
    · trivial
  · intro s n i hm
    rcases List.mem_append.mp hm with hm | hm
    · exact h.noAddIndex s n i hm
    · simp at hm
  · intro s t hm
    rcases List.mem_append.mp hm with hm | hm
    · have ht := h.tables s t hm
      obtain ⟨e1, e2, e3, -⟩ := for_triggers t.name ds vs
      exact ⟨ht.columns, by rw [e1]; exact ht.indexes, by rw [e1]; exact ht.options, by rw [e1]; exact ht.secondary,
        by rw [e2]; exact ht.foreignKeys, ht.named, by rw [e3]; exact ht.policies, ht.mysql⟩
    · simp at hm
  · rw [(for_triggers [] ds vs).2.2.2, h0]
    exact hv

theorem kind_no_trigger {s : Sentence} {d : DDL} (h : s.Kind d) : ∀ v, d ≠ .trigger v := by
  rintro v rfl
  unfold Sentence.Kind at h
  cases s with
  | table t => obtain ⟨_, _, h⟩ := h; cases h
  | index i => obtain ⟨_, _, _, h⟩ := h; cases h
  | policy p => obtain ⟨_, _, _, h⟩ := h; cases h
  | alter a =>
    simp only at h
    split at h <;> · obtain ⟨_, _, _, h⟩ := h; cases h

/-- The triggers among the statements. -/
def Spec.Written.triggersAmong : List Written.Statement → List NewTrigger
  | [] => []
  | .trigger t :: ss => t :: triggersAmong ss
  | .view _ :: ss => triggersAmong ss
  | .sentence _ :: ss => triggersAmong ss

/-- The definitions of the triggers are those of the statements. -/
theorem triggers_of_definitions {mode : Mode} {ss : List Written.Statement} {ds : List DDL} (h : List.Forall₂ (fun s d => s.DefinedAs mode d) ss ds) :
    List.Forall₂ (fun t w => ∃ text, w = NewTrigger.defined t text) (triggersAmong ss) (triggersOf ds) := by
  induction h with
  | nil => exact .nil
  | @cons s d ss ds hs _ ih =>
    cases s with
    | trigger t =>
      have hs : d = .trigger _ := hs
      rw [hs]
      exact .cons ⟨_, rfl⟩ ih
    | view v =>
      have hs : d = .view _ := hs
      rw [hs]
      exact ih
    | sentence s =>
      have hv := kind_no_trigger hs.2
      cases d with
      | trigger v => exact absurd rfl (hv v)
      | _ => exact ih

/-- Tables and what belongs to them, then views, then triggers. -/
def everything (xs : List Sentence) (vs : List NewView) (gs : List NewTrigger) : List Written.Statement :=
  (xs.map Statement.sentence ++ vs.map Statement.view) ++ gs.map Statement.trigger

theorem defined_triggers {mode : Mode} {gs : List NewTrigger} {ds : List DDL}
    (h : List.Forall₂ (fun g d => Statement.DefinedAs mode (.trigger g) d) gs ds) :
    ∃ ws : List Trigger, ds = ws.map DDL.trigger ∧ ws.map (·.name) = gs.map (·.name) := by
  induction h with
  | nil => exact ⟨[], rfl, rfl⟩
  | @cons g d gs ds h _ ih =>
    obtain ⟨ws, rfl, hw⟩ := ih
    have h : d = .trigger _ := h
    exact ⟨g.defined d.statement :: ws, by rw [List.map_cons, ← h], by simp [hw, NewTrigger.defined]⟩

theorem everything_normal {mode : Mode} {xs : List Sentence} {vs : List NewView} {gs : List NewTrigger} {ds : List DDL}
    (hd : List.Forall₂ (fun s d => Statement.DefinedAs mode s d) (everything xs vs gs) ds)
    (hn : ∀ ds, List.Forall₂ (fun s d => SaysTheSame mode d.statement (Sentence.meaning s) d ∧ s.Kind d) xs ds → Normal mode ds)
    (hv : ViewsDiffer vs) (hg : TriggersDiffer gs) : Normal mode ds := by
  obtain ⟨ds1, ds2, g1, g2, rfl⟩ := forall₂_split hd
  obtain ⟨ws, rfl, hw⟩ := defined_triggers (forall₂_unmap g2)
  refine normal_triggers (mixed_normal g1 hn hv) ?_ (by rw [hw]; exact hg)
  have h := triggers_of_definitions g1
  have e : triggersAmong (xs.map Statement.sentence ++ vs.map Statement.view) = [] := by
    have e0 : triggersAmong (vs.map Statement.view) = [] := by
      clear h g1 hd hv
      induction vs with
      | nil => rfl
      | cons v vs ih => exact ih
    clear h g1 hd hn
    induction xs with
    | nil => exact e0
    | cons x xs ih => exact ih
  rw [e] at h
  cases h' : triggersOf ds1 with
  | nil => rfl
  | cons a l => rw [h'] at h; cases h

theorem everything_clear {xs : List Sentence} {vs : List NewView} {gs : List NewTrigger} (hx : ∀ x ∈ xs, x.Clear ∧ x.InRange)
    (hq : ∀ v ∈ vs, v.query.Clear) (hg : ∀ g ∈ gs, g.Clear) : ∀ s ∈ everything xs vs gs, s.Clear := by
  intro s hs
  rcases List.mem_append.mp hs with hs | hs
  · exact mixed_clear hx hq s hs
  · obtain ⟨x, hm, rfl⟩ := List.mem_map.mp hs; exact hg x hm

/-! ### Files with empty statements -/

theorem consists_glued_some {mode : Mode} {texts : List Str} {file : Str} {ss : List Written.Statement} (hg : Glued texts file)
    (h : List.Forall₂ (Renders mode) (texts.filter (· ≠ [])) ss) : Consists mode file ss ∧ Consists mode (file ++ lit ";\n") ss := by
  have hall : ∀ t ∈ texts.filter (· ≠ []), ';' ∉ t ∧ NoComment t ∧ trimSpace t = t := by
    clear hg
    generalize texts.filter (· ≠ []) = ts at h
    induction h with
    | nil => simp
    | @cons _ s _ _ hs _ ih =>
      intro t ht
      rcases List.mem_cons.mp ht with rfl | ht
      · exact ⟨hs.semicolon, hs.comment, hs.trimmed⟩
      · exact ih t ht
  have hall : ∀ t ∈ texts, ';' ∉ t ∧ NoComment t ∧ trimSpace t = t := by
    intro t ht
    by_cases he : t = []
    · subst he
      exact ⟨by simp, noComment_nil, rfl⟩
    · exact hall t (List.mem_filter.mpr ⟨ht, by simpa using he⟩)
  have e1 : (texts.map trimSpace).filter (· ≠ []) = texts.filter (· ≠ []) := by
    rw [List.map_congr_left (g := id) (fun t ht => (hall t ht).2.2), List.map_id]
  have hc : List.Forall₂ (fun t s => Layout mode t (Statement.tokens s)) (texts.filter (· ≠ [])) ss :=
    forall₂_imp (fun _ _ hs => hs.layout) h
  constructor
  · unfold Consists
    rw [statementTexts_glued hg (fun t ht => (hall t ht).1) (fun t ht => (hall t ht).2.1), e1]
    exact hc
  · unfold Consists
    have hb : Blank ['\n'] := by
      intro c hc
      simp only [List.mem_singleton] at hc
      subst hc
      decide
    have hg' := glued_append hg hb (.one [])
    have e : file ++ ';' :: (['\n'] ++ []) = file ++ lit ";\n" := rfl
    rw [e] at hg'
    rw [statementTexts_glued hg' ?_ ?_, List.map_append, List.filter_append, e1]
    · have : (List.map trimSpace [[]]).filter (· ≠ []) = [] := by decide
      rw [this, List.append_nil]
      exact hc
    · intro t ht
      rcases List.mem_append.mp ht with ht | ht
      · exact (hall t ht).1
      · simp only [List.mem_singleton] at ht
        simp [ht]
    · intro t ht
      rcases List.mem_append.mp ht with ht | ht
      · exact (hall t ht).2.1
      · simp only [List.mem_singleton] at ht
        subst ht
        exact noComment_nil

theorem consists_files_some {mode : Mode} {ps : List (List Str × Str)} (hg : ∀ p ∈ ps, Glued p.1 p.2) {ss : List Written.Statement}
    (h : List.Forall₂ (Renders mode) ((ps.flatMap (·.1)).filter (· ≠ [])) ss) :
    Consists mode (join (lit ";\n\n") (ps.map (·.2))) ss ∧ Consists mode (join (lit ";\n\n") (ps.map (·.2)) ++ lit ";\n") ss ∧
      (join (lit ";\n\n") (ps.map (·.2)) = [] → ss = []) := by
  cases ps with
  | nil =>
    cases h
    refine ⟨?_, ?_, fun _ => rfl⟩
    · unfold Consists
      rw [show statementTexts (join (lit ";\n\n") (([] : List (List Str × Str)).map (·.2))) = [] by decide +kernel]
      exact .nil
    · unfold Consists
      rw [show statementTexts (join (lit ";\n\n") (([] : List (List Str × Str)).map (·.2)) ++ lit ";\n") = [] by decide +kernel]
      exact .nil
  | cons p ps =>
    have hg := glued_files (w := ['\n', '\n']) (by
      intro c hc
      simp only [List.mem_cons, List.not_mem_nil, or_false, or_self] at hc
      subst hc
      decide) hg
    obtain ⟨c1, c2⟩ := consists_glued_some hg h
    refine ⟨c1, c2, fun e => ?_⟩
    have e' : join (';' :: ['\n', '\n']) ((p :: ps).map (·.2)) = [] := e
    rw [e'] at c1
    unfold Consists at c1
    rw [show statementTexts [] = [] by decide +kernel] at c1
    cases c1
    rfl

/-! ### The text of a trigger -/

/-- What comes before the statement of a trigger does not make a comment of it. -/
theorem noComment_prefix {c : Char} {a b : Str} (hc : c ≠ '-') (ha : '\n' ∉ c :: a) (h : NoComment b) : NoComment (c :: a ++ b) := by
  obtain ⟨init, last, first, rest, e1, e2, e3⟩ := splitOn_append '\n' (c :: a) b
  rw [splitOn_no_sep '\n' (c :: a) ha] at e1
  have e1' : ([] : List Str) ++ [c :: a] = init ++ [last] := e1
  obtain ⟨rfl, e4⟩ := List.append_inj' e1' rfl
  injection e4 with e4
  subst e4
  intro l hl
  unfold lines at hl
  rw [e3, List.nil_append] at hl
  rcases List.mem_cons.mp hl with rfl | hl
  · rintro ⟨r, e⟩
    rw [List.cons_append] at e
    injection e with e
    exact hc e
  · exact h l (by unfold lines; rw [e2]; exact List.mem_cons_of_mem _ hl)

/-- The text of a trigger without its semicolon. -/
def triggerLine (r : My.TriggerRow) : Str :=
  lit "CREATE TRIGGER " ++ r.trigger ++ lit " " ++ r.timing ++ lit " " ++ r.event ++ lit " ON " ++ r.table ++ lit " FOR EACH ROW " ++
    r.statement

theorem moment_plain (m : Moment) : plainWord (lit m.word) = true ∧ Quiet (lit m.word) := by
  unfold Quiet
  cases m <;> decide

theorem cause_plain (m : Cause) : plainWord (lit m.word) = true ∧ Quiet (lit m.word) := by
  unfold Quiet
  cases m <;> decide

theorem change_tokens_ne (c : Change) : c.tokens ≠ [] := by
  cases c <;> simp [Change.tokens]

theorem my_trigger_stands {r : My.TriggerRow} {t : NewTrigger} (h : MyTriggerSays r t) : TextStands .mysql (triggerLine r) t.tokens := by
  obtain ⟨name, table, moment, cause, body, more⟩ := t
  obtain ⟨e1, e2, e3⟩ := h.trigger
  obtain ⟨f1, f2⟩ := h.fires
  simp only at e1 e2 e3 f1 f2
  subst e1 e2 e3
  have ht := h.text
  have hb := h.bare
  obtain ⟨rt, re, rb, rs, rm⟩ := r
  simp only at f1 f2 hb ht
  subst f1 f2
  have hq : Quiet (lit "CREATE TRIGGER " ++ rt ++ lit " " ++ lit moment.word ++ lit " " ++ lit cause.word ++ lit " ON " ++ rb ++ lit " FOR EACH ROW ") := by
    refine quiet_append (quiet_append (quiet_append (quiet_append (quiet_append (quiet_append (quiet_append (quiet_append ?_ (bare_quiet hb.1)) ?_)
      (moment_plain moment).2) ?_) (cause_plain cause).2) ?_) (bare_quiet hb.2)) ?_ <;> · unfold Quiet; decide
  have hne : rs ≠ [] := stands_ne (change_tokens_ne body) ht
  refine ⟨?_, ?_, ?_, trimSpace_id ?_ ?_⟩
  · have h1 := follow_append (follow_spaced (mode := .mysql) (ws := ["FOR", "EACH", "ROW"]) (by decide)) (follow_part ht.layout)
    have h2 := follow_append (follow_part (lay_bare (mode := .mysql) hb.2)) h1
    have h3 := follow_append (follow_spaced (mode := .mysql) (ws := [moment.word, cause.word, "ON"])
      (by simp [(moment_plain moment).1, (cause_plain cause).1]; decide)) h2
    have h4 := follow_append (follow_part (lay_bare (mode := .mysql) hb.1)) h3
    have h5 := follow_append (follow_spaced (mode := .mysql) (ws := ["TRIGGER"]) (by decide)) h4
    have h6 := lay_kw (mode := .mysql) "CREATE" (by decide) (endsWord_space _) (layout_of_follow h5)
    have e : lit "CREATE" ++ (spaced ["TRIGGER"] ++ (' ' :: rt ++ (spaced [moment.word, cause.word, "ON"] ++ (' ' :: rb ++
        (spaced ["FOR", "EACH", "ROW"] ++ ' ' :: rs))))) = triggerLine ⟨rt, lit cause.word, rb, rs, lit moment.word⟩ := by
      simp [triggerLine, spaced, lit]
    have h7 := e ▸ h6
    exact h7
  · unfold triggerLine
    simp only [List.mem_append, not_or]
    have := hq.1
    simp only [List.mem_append, not_or] at this
    exact ⟨this, ht.semicolon⟩
  · have hn := hq.2
    have := noComment_prefix (c := 'C') (a := lit "REATE TRIGGER " ++ rt ++ lit " " ++ lit moment.word ++ lit " " ++ lit cause.word ++ lit " ON " ++ rb ++
      lit " FOR EACH ROW ") (by decide) hn ht.comment
    exact this
  · intro c hc
    simp [triggerLine, lit] at hc
    subst hc
    decide
  · intro c hc
    unfold triggerLine at hc
    rw [List.getLast?_append_of_ne_nil _ hne] at hc
    exact trimSpace_last ht.trimmed c hc

theorem myTriggers_clear {rs : List My.TriggerRow} {gs : List NewTrigger} (h : List.Forall₂ MyTriggerSays rs gs) : ∀ g ∈ gs, g.Clear := by
  intro g hg
  obtain ⟨r, -, h⟩ := (forall2_mem h).2 g hg
  intro c hc
  unfold NewTrigger.changes at hc
  rw [h.trigger.2.2] at hc
  rw [List.mem_singleton.mp hc]
  exact h.body

theorem dump_all_of {σ : Type} {db : Db σ} {s : σ} {names texts views triggers : List Str} (h1 : db.tableNames s = .ok names)
    (h2 : dumpTables db s names = .ok texts) (h3 : db.views s = .ok views) (h4 : db.triggers s = .ok triggers) :
    dumpDDLs db s = .ok (join (lit ";\n\n") (texts ++ views ++ triggers)) := by
  unfold dumpDDLs
  rw [h1, h3, h4]
  change (dumpTables db s names >>= _) = _
  rw [h2]
  rfl

theorem my_everything {σ : Type} (db : Db σ) (cat : σ → My.Catalog) (s : σ) {ts : List Written.Table} {vs : List NewView} {gs : List NewTrigger}
    (h : MyDatabaseSaysAll (cat s) ts vs gs) : ∃ text, dumpDDLs (My.database db cat) s = .ok text ∧
      Consists .mysql text (everything (ts.map Sentence.table) vs gs) ∧ Consists .mysql (text ++ lit ";\n") (everything (ts.map Sentence.table) vs gs) ∧
      (text = [] → everything (ts.map Sentence.table) vs gs = []) := by
  have key : List.Forall₂ (fun n t => ∃ text, (My.database db cat).dumpTableDDL s n = .ok text ∧ TextStands .mysql text (Written.Table.tokens t))
      (cat s).tables ts := forall₂_imp (fun n t hx => ⟨_, rfl, hx⟩) h.rest.tables
  obtain ⟨texts, h1, h2⟩ := dumpTables_any key
  let ps : List (List Str × Str) := (texts ++ (cat s).views.map My.viewText).map fun t => ([t], t)
  let qs : List (List Str × Str) := (cat s).triggers.map fun r => ([triggerLine r, []], triggerLine r ++ [';'])
  have hd : dumpDDLs (My.database db cat) s = .ok (join (lit ";\n\n") ((ps ++ qs).map (·.2))) := by
    have e : (ps ++ qs).map (·.2) = texts ++ (cat s).views.map My.viewText ++ (cat s).triggers.map My.TriggerRow.text := by
      simp [ps, qs, Function.comp_def, triggerLine, My.TriggerRow.text, lit]
    rw [e]
    exact dump_all_of rfl h1 rfl rfl
  refine ⟨_, hd, consists_files_some ?_ ?_⟩
  · intro p hp
    rcases List.mem_append.mp hp with hp | hp
    · obtain ⟨t, -, rfl⟩ := List.mem_map.mp hp
      exact .one _
    · obtain ⟨r, -, rfl⟩ := List.mem_map.mp hp
      exact .cons (w := []) (by intro c hc; cases hc) (.one [])
  · rw [List.flatMap_append, List.filter_append]
    have hboth : List.Forall₂ (Renders .mysql) (texts ++ (cat s).views.map My.viewText) ((ts.map Sentence.table).map Statement.sentence ++ vs.map Statement.view) := by
      refine forall₂_both ?_ ?_
      · rw [List.map_map]
        have := forall₂_map (f := id) (g := Statement.sentence ∘ Sentence.table) (R := Renders .mysql) (forall₂_imp (fun n t hx => hx) h2)
        rwa [List.map_id] at this
      · exact forall₂_map (forall₂_imp (fun _ _ hx => my_view_stands hx) h.rest.views)
    refine forall₂_both ?_ ?_
    · have e : (ps.flatMap (·.1)).filter (· ≠ []) = texts ++ (cat s).views.map My.viewText := by
        have e0 : ps.flatMap (·.1) = texts ++ (cat s).views.map My.viewText := by
          simp only [ps]
          generalize texts ++ (cat s).views.map My.viewText = l
          induction l with
          | nil => rfl
          | cons t l ih => rw [List.map_cons, List.flatMap_cons, ih]; rfl
        rw [e0, List.filter_eq_self]
        intro t ht
        obtain ⟨x, -, hx⟩ := (forall2_mem hboth).1 t ht
        simpa using stands_ne (statement_tokens_ne x) hx
      rw [e]
      exact hboth
    · have hg := h.triggers
      simp only [qs]
      clear hd h
      clear qs
      generalize (cat s).triggers = l at hg
      induction hg with
      | nil => exact .nil
      | @cons r g rs gs hr _ ih =>
        have hs := my_trigger_stands hr
        have hne := stands_ne (statement_tokens_ne (.trigger g)) hs
        rw [List.map_cons, List.flatMap_cons, List.filter_append, List.map_cons]
        have e : [triggerLine r, []].filter (· ≠ []) = [triggerLine r] := by
          rw [List.filter_cons_of_pos (by simpa using hne)]
          rfl
        rw [e]
        exact .cons hs ih

end Sqldef
