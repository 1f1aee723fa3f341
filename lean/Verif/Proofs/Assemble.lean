import Verif.Proofs.Converge
/-! New tables, views and triggers, and the execution of the whole script. -/
namespace Sqldef
open Spec

variable {mode : Mode} {desired current : List DDL} {out x y : List Stmt}

/-! ### New tables -/

theorem adds_run {α : Type} {key : α → Str} {same : α → α → Bool} {D L : List α} (h : ((L ++ D).map key).Nodup) :
    runOps key (D.flatMap (syncOps key same [])) L = some (L ++ D) := by
  induction D generalizing L with
  | nil => simp [runOps]
  | cons a D ih =>
    have ha : key a ∉ L.map key := by
      intro hm
      rw [List.map_append, List.nodup_append] at h
      exact h.2.2 _ hm _ (by simp) rfl
    have hs : syncOps key same [] a = [.add a] := rfl
    rw [List.flatMap_cons, hs]
    simp only [List.cons_append, List.nil_append, runOps, runOp, if_neg ha, Option.bind_some]
    have := ih (L := L ++ [a]) (by simpa using h)
    simpa using this

theorem keyNotNull_key (t : Table) {T : Table} (hc : T.columns = (keyNotNull t).columns) (hp : T.prim = t.prim) :
    T.primaryKey = t.primaryKey := by
  cases hx : t.prim with
  | cons i l => rw [primaryKey_prim (hp.trans hx), primaryKey_prim hx]
  | nil =>
    rw [primaryKey_noPrim (hp.trans hx), primaryKey_noPrim hx, hc]
    have hk : ∀ (f : Column → Column) (_ : ∀ c, (f c).keyOption = c.keyOption) (l : List Column),
        (l.map f).filter (fun c : Column => decide (c.keyOption = .primary)) =
        (l.filter fun c : Column => decide (c.keyOption = .primary)).map f := by
      intro f hf l
      rw [List.filter_map]
      congr 1
      refine List.filter_congr fun c _ => ?_
      simp only [Function.comp_apply, hf]
    have hk := hk (fun c => if inPrimaryKey t c then { c with notNull := some true } else c)
      (by intro c; split <;> rfl)
    simp only [keyNotNull, hk, List.map_eq_nil_iff, List.map_map]
    congr 2
    congr 1
    refine List.map_congr_left fun c _ => ?_
    simp only [Function.comp_apply]
    split <;> rfl

/-- The table that a CREATE TABLE and the separate definitions create. -/
structure NewTable (desired : List DDL) (t T : Table) : Prop where
  name : T.name = t.name
  columns : T.columns = (keyNotNull t).columns
  prim : T.prim = t.prim
  sec : T.sec = (complete desired t).sec
  foreignKeys : T.foreignKeys = t.foreignKeys
  policies : T.policies = (complete desired t).policies

theorem new_run (h : Script mode desired current out x y) (hs : Supported mode desired current) {s : Str} {t : Table}
    (ht : .createTable s t ∈ desired) (hc : tableIn current t.name = none) :
    ∃ T, runTable mode (out.filter fun s => decide (Stmt.table s = some t.name)) none = some (some T) ∧
      ReachedTable mode t (complete desired t) T ∧ NewTable desired t T := by
  obtain ⟨rest, r, hrest, hr, ho⟩ := h.new_parts ht hc
  rw [ho]
  have htc : t ∈ created desired := mem_created.2 ⟨s, ht⟩
  obtain ⟨hD, hpol⟩ := hs.desiredTidy t htc
  have hsep := hs.separate t htc
  have hDsec : (complete desired t).sec = t.sec ++ indexesFor t.name desired := by
    simp only [Table.sec, complete, List.filter_append]
    congr 1
    exact List.filter_eq_self.2 fun i hi => by simp [hsep i hi]
  have hDpol : (complete desired t).policies = policiesFor t.name desired := by simp [complete, hpol]
  have hcur : findTableByName (tablesOf current) t.name = none := hc
  have hsec0 : (keyNotNull t).sec = t.sec := rfl
  have hpol0 : (keyNotNull t).policies = [] := hpol
  obtain ⟨T, h1, h2, h3, h4⟩ := rest_run (mode := mode) hcur (fun e he => (hrest.about e he).2)
    (by rw [hrest.indexes]; exact hsep) (by intro i _ z hz; cases hz)
    (by
      intro hm
      refine ⟨fun i _ z c hz => (by cases hz), (by rw [hrest.policies]; exact (hs.sqlite hm).2 t htc), ?_⟩
      rintro e he s' m i rfl
      have := (hs.sqlite hm).1 _ (hrest.about _ he).1
      simp [isAddIndex] at this)
    hr (t := keyNotNull t) (Li := t.sec ++ indexesFor t.name desired) (Lp := policiesFor t.name desired)
    (by
      rw [hrest.indexes, hsec0]
      refine adds_run ?_
      rw [← hDsec]; exact hD.indexes)
    (by
      rw [hrest.policies, hpol0]
      have := adds_run (key := fun p : Policy => p.name) (same := areSamePolicies) (L := []) (D := policiesFor t.name desired)
        (by rw [List.nil_append, ← hDpol]; exact hD.policies)
      exact this)
  have hcols : T.columns = (keyNotNull t).columns := h2.columns
  have hnames : T.columns.map (·.name) = t.columns.map (·.name) := by
    rw [hcols]
    simp only [keyNotNull, List.map_map]
    refine List.map_congr_left fun c _ => ?_
    simp only [Function.comp_apply]
    split <;> rfl
  have hTsec : T.sec = (complete desired t).sec := h3.trans hDsec.symm
  have hDc := complete_columns h.wd t
  refine ⟨T, ?_, ?_, ?_⟩
  · simp only [runTable, execTable, Option.bind_some]
    exact runTable_alters h1
  · refine
      { name := h2.name, columns := by rw [hnames, hDc], key := .inl ?_, indexes := ?_, indexNames := ?_,
        noOtherIndex := ?_, foreignKeys := ?_, foreignKeyNames := ?_, noOtherForeignKey := ?_, policies := ?_,
        policyNames := ?_ }
    · rw [complete_key h.wd hsep]
      exact keyNotNull_key t hcols h2.prim
    · intro i hi hp
      have : i ∈ T.sec := by rw [hTsec]; exact mem_sec.2 ⟨hi, hp⟩
      exact ⟨i, (mem_sec.1 this).1, hp, rfl, .inl rfl⟩
    · have : secondaryNames T = secondaryNames (complete desired t) := congrArg (List.map fun i : Index => i.name) hTsec
      rw [this]; exact hD.indexes
    · intro j hj hp
      left
      have : j ∈ (complete desired t).sec := by rw [← hTsec]; exact mem_sec.2 ⟨hj, hp⟩
      exact List.mem_map_of_mem this
    · intro f hf
      have : T.foreignKeys = t.foreignKeys := h2.foreignKeys
      exact ⟨f, by rw [this]; exact hf, rfl, .inl rfl⟩
    · rw [h2.foreignKeys]
      refine List.Nodup.sublist ?_ hD.foreignKeys
      simp only [complete, List.map_append]
      exact List.sublist_append_left _ _
    · intro g hg
      left
      rw [h2.foreignKeys] at hg
      have hg : g ∈ t.foreignKeys := hg
      exact List.mem_map_of_mem (by simp [complete, hg])
    · intro p hp
      rw [hDpol] at hp
      exact ⟨p, by rw [h4]; exact hp, rfl, .inl rfl⟩
    · rw [h4, hDpol]
  · exact ⟨h2.name, hcols, h2.prim, hTsec, h2.foreignKeys, h4.trans hDpol.symm⟩

/-! ### All tables -/

/-- The table `T` after the script. -/
inductive TableAfter (mode : Mode) (desired current : List DDL) (t T : Table) : Prop
  | new (h : tableIn current t.name = none) (hn : NewTable desired t T)
  | shared (x : Table) (l v : List Stmt) (h : tableIn current t.name = some x)
    (hl : generateDDLsForCreateTable mode x t = .ok l) (hv : cleanupTable mode x (complete desired t) = .ok v)
    (hf : Fits mode desired x t (complete desired t))
    (hfin : Final mode x t (complete desired t) (AfterCol mode x t) (uniques mode x) (ordering mode x t) T)

theorem tables_run (h : Script mode desired current out x y) (hs : Supported mode desired current) (n : Str) :
    ∃ o, runTable mode (out.filter fun s => decide (Stmt.table s = some n)) (tableIn current n) = some o ∧
      (n ∉ createdNames desired → o = none) ∧
      ∀ t ∈ created desired, t.name = n → ∃ T, o = some T ∧ ReachedTable mode t (complete desired t) T ∧
        TableAfter mode desired current t T := by
  by_cases hn : n ∈ createdNames desired
  · obtain ⟨s, t, ht, rfl⟩ := mem_createdNames.1 hn
    have huniq : ∀ t' ∈ created desired, t'.name = t.name → t' = t := by
      intro t' ht' he
      have h1 := look_unique (key := fun t : Table => t.name) h.ud (mem_created.2 ⟨s, ht⟩) (n := t.name) rfl
      have h2 := look_unique (key := fun t : Table => t.name) h.ud ht' he
      exact Option.some.inj (h2.symm.trans h1)
    have key : ∃ T, runTable mode (out.filter fun s => decide (Stmt.table s = some t.name)) (tableIn current t.name) = some (some T) ∧
        ReachedTable mode t (complete desired t) T ∧ TableAfter mode desired current t T := by
      cases hc : tableIn current t.name with
      | none =>
        obtain ⟨T, h1, h2, h3⟩ := new_run h hs ht hc
        exact ⟨T, h1, h2, .new hc h3⟩
      | some c =>
        obtain ⟨rest, l, r, v, hrest, hl, hr, hv, ho⟩ := h.shared_parts ht hc
        have htc : t ∈ created desired := mem_created.2 ⟨s, ht⟩
        have hcm := tableIn_mem_tablesOf hc
        have hcn := tableIn_name hc
        have hf := fits_of_supported h.wd hs htc hcm hcn
        obtain ⟨T, hT1, hT2⟩ := shared_final hf hcn (complete_columns h.wd t) rfl (fun f hf => by simp [complete, hf])
          (by simp [complete, hf.noPols]) hc hrest hl hr hv
        refine ⟨T, ?_, ?_, .shared c l v hc hl hv hf hT2⟩
        · rw [ho]; exact runTable_alters hT1
        · exact reached_shared hf (hs.currentTidy c hcm) (hs.desiredTidy t htc).1 hcn.symm (complete_columns h.wd t)
            (complete_key h.wd (hs.separate t htc)) (fun i hi => by simp [complete, hi]) (fun f hf => by simp [complete, hf])
            (hs.tables t htc c hcm hcn) hT2
    obtain ⟨T, h1, h2⟩ := key
    refine ⟨some T, h1, fun hno => absurd hn hno, ?_⟩
    intro t' ht' he
    obtain rfl := huniq t' ht' he
    exact ⟨T, rfl, h2⟩
  · have hd : tableIn desired n = none := tableIn_none.2 hn
    have hnone : ∀ t ∈ created desired, t.name ≠ n := by
      intro t ht he
      exact hn (he ▸ List.mem_map_of_mem ht)
    refine ⟨none, ?_, fun _ => rfl, fun t ht he => absurd he (hnone t ht)⟩
    cases hc : tableIn current n with
    | none => rw [h.no_parts hd hc]; rfl
    | some c => rw [h.obsolete_parts hd hc]; rfl

/-! ### Views and triggers -/

/-- The view a definition defines. -/
def definedView : DDL → Option Str
  | .view v => some v.name
  | _ => none

/-- The trigger a definition defines. -/
def definedTrigger : DDL → Option Str
  | .trigger t => some t.name
  | _ => none

theorem defStmts_view {cur : List Table} {cv : List View} {ct : List Trigger} {d : DDL} {l : List Stmt}
    (h : defStmts mode cur cv ct d = .ok l) : ∀ s ∈ l, Stmt.view s = definedView d ∧ Stmt.trigger s = definedTrigger d := by
  intro s hs
  have ht := defStmts_table h s hs
  have hnone : ∀ n, DDL.table d = some n → Stmt.view s = none ∧ Stmt.trigger s = none := fun n hn => view_of_table (ht.trans hn)
  cases d with
  | view v =>
    have := defStmts_shape h hs
    cases this <;> first | exact ⟨rfl, rfl⟩ | cases ht
  | trigger t =>
    have := defStmts_shape h hs
    cases this <;> first | exact ⟨rfl, rfl⟩ | cases ht
  | _ => exact hnone _ rfl

theorem filter_parts {α : Type} {f : α → Except Err (List Stmt)} {g : α → Option Str} {k : Stmt → Option Str}
    (hg : ∀ a l, f a = .ok l → ∀ s ∈ l, k s = g a) {l : List α} {r : List Stmt}
    (h : concatMapM f l = .ok r) (n : Str) :
    concatMapM f (l.filter fun a => decide (g a = some n)) = .ok (r.filter fun s => decide (k s = some n)) := by
  induction l generalizing r with
  | nil => cases h; rfl
  | cons a l ih =>
    obtain ⟨x, y, hx, hy, rfl⟩ := concatMapM_cons_ok.1 h
    rw [List.filter_append]
    by_cases hn : g a = some n
    · have hx' : x.filter (fun s => decide (k s = some n)) = x := by
        rw [List.filter_eq_self]
        intro s hs
        rw [hg a x hx s hs, hn]; simp
      rw [List.filter_cons_of_pos (by simp [hn]), hx']
      exact concatMapM_cons_ok.2 ⟨x, _, hx, ih hy, rfl⟩
    · have hx' : x.filter (fun s => decide (k s = some n)) = [] := by
        rw [List.filter_eq_nil_iff]
        intro s hs
        rw [hg a x hx s hs]; simp [hn]
      rw [List.filter_cons_of_neg (by simp [hn]), hx', List.nil_append]
      exact ih hy

theorem clean_no_view (h : Script mode desired current out x y) :
    ∀ s ∈ y, Stmt.view s = none ∧ Stmt.trigger s = none := by
  intro s hs
  obtain ⟨t, _, l, hl, hs⟩ := (mem_concatMapM h.clean s).1 hs
  exact view_of_table (tableCleanup_table hl s hs)

/-- The desired definitions of a view. -/
theorem filter_view (ds : List DDL) (n : Str) :
    (ds.filter fun d => decide (definedView d = some n)) = ((viewsOf ds).filter fun v => decide (v.name = n)).map DDL.view := by
  induction ds with
  | nil => rfl
  | cons d ds ih =>
    cases d with
    | view v =>
      by_cases h : v.name = n
      · rw [List.filter_cons_of_pos (by simp [definedView, h]), ih]
        simp [viewsOf, h]
      · rw [List.filter_cons_of_neg (by simp [definedView, h]), ih]
        simp [viewsOf, h]
    | _ => rw [List.filter_cons_of_neg (by simp [definedView]), ih]; rfl

theorem filter_trigger (ds : List DDL) (n : Str) :
    (ds.filter fun d => decide (definedTrigger d = some n)) = ((triggersOf ds).filter fun v => decide (v.name = n)).map DDL.trigger := by
  induction ds with
  | nil => rfl
  | cons d ds ih =>
    cases d with
    | trigger v =>
      by_cases h : v.name = n
      · rw [List.filter_cons_of_pos (by simp [definedTrigger, h]), ih]
        simp [triggersOf, h]
      · rw [List.filter_cons_of_neg (by simp [definedTrigger, h]), ih]
        simp [triggersOf, h]
    | _ => rw [List.filter_cons_of_neg (by simp [definedTrigger]), ih]; rfl

/-- A well-formed schema defines no view twice. -/
theorem views_nodup {ds : List DDL} (h : WellFormed ds) : ((viewsOf ds).map (·.name)).Nodup := by
  induction ds using List.reverseRecOn with
  | nil => simp [viewsOf]
  | append_singleton ds d ih =>
    have h1 := ih (wellFormed_prefix h)
    have h2 := h ds d [] rfl
    rw [viewsOf_append]
    cases d with
    | view v => simp only [viewsOf]; exact nodup_add h1 h2
    | _ => simpa [viewsOf] using h1

theorem nodup_filter_look {α : Type} {key : α → Str} {l : List α} (hn : (l.map key).Nodup) (n : Str) :
    (l.filter fun a => decide (key a = n)) = (look key l n).toList := by
  cases hl : look key l n with
  | none =>
    rw [Option.toList_none, List.filter_eq_nil_iff]
    intro a ha he
    exact look_none.1 hl (List.mem_map.2 ⟨a, ha, by simpa using he⟩)
  | some a =>
    obtain ⟨ha, he⟩ := look_mem hl
    rw [Option.toList_some]
    exact filter_singleton (key := key) hn ha (by simpa using he) fun b _ hb => by rw [he]; simpa using hb

theorem views_run (h : Script mode desired current out x y) (hs : Supported mode desired current) (n : Str) :
    ∃ o, runView (out.filter fun s => decide (Stmt.view s = some n)) ((viewsOf current).find? (·.name = n)) = some o ∧
      (n ∉ (viewsOf desired).map (·.name) → o = none) ∧
      ∀ v ∈ viewsOf desired, v.name = n → ∃ w, o = some w ∧ w.name = v.name ∧ toLower w.definition = toLower v.definition := by
  have hdefs := filter_parts (k := Stmt.view) (fun a l hl s hs => (defStmts_view hl s hs).1) h.defs n
  rw [filter_view, nodup_filter_look (key := fun v : View => v.name) (views_nodup h.wd) n] at hdefs
  have hy : y.filter (fun s => decide (Stmt.view s = some n)) = [] := by
    rw [List.filter_eq_nil_iff]
    intro s hs'
    simp [(clean_no_view h s hs').1]
  have hcl : (cleanupViews (viewsOf desired) (viewsOf current)).filter (fun s => decide (Stmt.view s = some n)) =
      if n ∈ (viewsOf desired).map (·.name) then [] else (look (·.name) (viewsOf current) n).toList.map fun v => .dropView v.name := by
    rw [← nodup_filter_look hs.views]
    unfold cleanupViews
    rw [List.filter_map, List.filter_filter]
    split
    · next hm =>
      rw [List.map_eq_nil_iff, List.filter_eq_nil_iff]
      intro v _
      simp only [Function.comp_apply, Bool.and_eq_true, not_and]
      intro hv
      simp only [Stmt.view, Option.some.injEq, decide_eq_true_eq] at hv
      rw [hv]
      intro hno
      simp only [Bool.not_eq_true', not_containsString] at hno
      exact hno hm
    · next hm =>
      congr 1
      refine List.filter_congr fun v _ => ?_
      simp only [Function.comp_apply, Stmt.view, Option.some.injEq]
      by_cases hv : v.name = n
      · have : containsString ((viewsOf desired).map (·.name)) v.name = false := by rw [not_containsString, hv]; exact hm
        rw [hv] at this
        have this : containsString (viewNames (viewsOf desired)) n = false := this
        simp [hv, this]
      · simp [hv]
  rw [h.out_eq, List.filter_append, List.filter_append, hy, hcl, List.append_nil]
  show ∃ o, runView _ (look (·.name) (viewsOf current) n) = some o ∧ _
  by_cases hm : n ∈ (viewsOf desired).map (·.name)
  · rw [if_pos hm, List.append_nil]
    obtain ⟨v, hv⟩ := Option.isSome_iff_exists.1 (look_isSome.2 hm)
    rw [hv] at hdefs
    obtain ⟨hv1, hv2⟩ := look_mem hv
    simp only [Option.toList_some, List.map_cons, List.map_nil] at hdefs
    obtain ⟨a, b, ha, hb, he⟩ := concatMapM_cons_ok.1 hdefs
    cases hb
    rw [List.append_nil] at he
    rw [he]
    simp only [defStmts, Except.ok.injEq] at ha
    have huniq : ∀ v' ∈ viewsOf desired, v'.name = n → v' = v := by
      intro v' h1 h2
      have := look_unique (key := fun v : View => v.name) (views_nodup h.wd) h1 h2
      exact Option.some.inj (this.symm.trans hv)
    have key : ∃ w, runView a (look (·.name) (viewsOf current) n) = some (some w) ∧ w.name = v.name ∧
        toLower w.definition = toLower v.definition := by
      rw [← ha]
      unfold viewStmts
      have hfv : findViewByName (viewsOf current) v.name = look (·.name) (viewsOf current) n := by rw [hv2]; rfl
      rw [hfv]
      cases hl : look (·.name) (viewsOf current) n with
      | none => exact ⟨v, rfl, rfl, rfl⟩
      | some c =>
        have hcn := (look_mem hl).2
        simp only
        split
        · split
          · exact ⟨_, rfl, rfl, rfl⟩
          · exact ⟨_, rfl, rfl, rfl⟩
        · next hsame => exact ⟨c, rfl, hcn.trans hv2.symm, by simpa using hsame⟩
    obtain ⟨w, h1, h2, h3⟩ := key
    refine ⟨some w, h1, fun hno => absurd hm hno, ?_⟩
    intro v' hv' he'
    obtain rfl := huniq v' hv' he'
    exact ⟨w, rfl, h2, h3⟩
  · rw [if_neg hm]
    rw [look_none.2 hm] at hdefs
    simp only [Option.toList_none, List.map_nil, concatMapM] at hdefs
    have hnil := (Except.ok.inj hdefs).symm
    rw [hnil, List.nil_append]
    refine ⟨none, ?_, fun _ => rfl, fun v hv he => absurd (List.mem_map.2 ⟨v, hv, he⟩) hm⟩
    cases hl : look (·.name) (viewsOf current) n with
    | none => rfl
    | some c => rfl

theorem triggers_run (h : Script mode desired current out x y) (hs : Supported mode desired current) (n : Str) :
    ∃ o, runTrigger (out.filter fun s => decide (Stmt.trigger s = some n)) ((triggersOf current).find? (·.name = n)) = some o ∧
      ((mode = .mysql ∨ mode = .mssql) → ∀ t ∈ triggersOf desired, t.name = n →
        ∃ u, o = some u ∧ (u = t ∨ areSameTriggerDefinition u t = true)) := by
  have hdefs := filter_parts (k := Stmt.trigger) (fun a l hl s hs => (defStmts_view hl s hs).2) h.defs n
  rw [filter_trigger, nodup_filter_look (key := fun v : Trigger => v.name) hs.triggers n] at hdefs
  have hy : y.filter (fun s => decide (Stmt.trigger s = some n)) = [] := by
    rw [List.filter_eq_nil_iff]
    intro s hs'
    simp [(clean_no_view h s hs').2]
  have hcl : (cleanupViews (viewsOf desired) (viewsOf current)).filter (fun s => decide (Stmt.trigger s = some n)) = [] := by
    rw [List.filter_eq_nil_iff]
    intro s hs'
    unfold cleanupViews at hs'
    obtain ⟨v, -, rfl⟩ := List.mem_map.1 hs'
    simp [Stmt.trigger]
  rw [h.out_eq, List.filter_append, List.filter_append, hy, hcl, List.append_nil, List.append_nil]
  show ∃ o, runTrigger _ (look (·.name) (triggersOf current) n) = some o ∧ _
  cases hv : look (·.name) (triggersOf desired) n with
  | none =>
    rw [hv] at hdefs
    simp only [Option.toList_none, List.map_nil, concatMapM] at hdefs
    have hnil := (Except.ok.inj hdefs).symm
    rw [hnil]
    exact ⟨_, rfl, fun _ t ht he => absurd (List.mem_map.2 ⟨t, ht, he⟩) (look_none.1 hv)⟩
  | some t =>
    rw [hv] at hdefs
    obtain ⟨hv1, hv2⟩ := look_mem hv
    simp only [Option.toList_some, List.map_cons, List.map_nil] at hdefs
    obtain ⟨a, b, ha, hb, he⟩ := concatMapM_cons_ok.1 hdefs
    cases hb
    rw [List.append_nil] at he
    rw [he]
    simp only [defStmts, Except.ok.injEq] at ha
    have huniq : ∀ v' ∈ triggersOf desired, v'.name = n → v' = t := by
      intro v' h1 h2
      have := look_unique (key := fun v : Trigger => v.name) hs.triggers h1 h2
      exact Option.some.inj (this.symm.trans hv)
    have key : ∃ o, runTrigger a (look (·.name) (triggersOf current) n) = some o ∧ ((mode = .mysql ∨ mode = .mssql) →
        ∃ u, o = some u ∧ (u = t ∨ areSameTriggerDefinition u t = true)) := by
      rw [← ha]
      unfold triggerStmts
      have hfv : findTriggerByName (triggersOf current) t.name = look (·.name) (triggersOf current) n := by rw [hv2]; rfl
      rw [hfv]
      cases mode with
      | mssql =>
        cases hl : look (·.name) (triggersOf current) n with
        | none => exact ⟨some t, rfl, fun _ => ⟨t, rfl, .inl rfl⟩⟩
        | some c =>
          simp only
          split
          · next hsame => exact ⟨some c, rfl, fun _ => ⟨c, rfl, .inr hsame⟩⟩
          · exact ⟨some t, rfl, fun _ => ⟨t, rfl, .inl rfl⟩⟩
      | mysql =>
        cases hl : look (·.name) (triggersOf current) n with
        | none => exact ⟨some t, rfl, fun _ => ⟨t, rfl, .inl rfl⟩⟩
        | some c =>
          simp only
          split
          · next hsame => exact ⟨some c, rfl, fun _ => ⟨c, rfl, .inr hsame⟩⟩
          · exact ⟨some t, rfl, fun _ => ⟨t, rfl, .inl rfl⟩⟩
      | postgres => exact ⟨_, rfl, by rintro (h | h) <;> cases h⟩
      | sqlite3 => exact ⟨_, rfl, by rintro (h | h) <;> cases h⟩
    obtain ⟨o, h1, h2⟩ := key
    refine ⟨o, h1, fun hm t' ht' he' => ?_⟩
    obtain rfl := huniq t' ht' he'
    exact h2 hm

/-- The whole script runs and reaches the desired schema. -/
theorem script_after (h : Script mode desired current out x y) (hs : Supported mode desired current) :
    ∃ c, execAll mode out (catalogOf current) = some c ∧ Reached mode desired c ∧
      ∀ t ∈ created desired, ∃ T, c.table t.name = some T ∧ TableAfter mode desired current t T := by
  choose ft ht1 ht2 ht3 using tables_run h hs
  choose fv hv1 hv2 hv3 using views_run h hs
  choose fr hr1 hr2 using triggers_run h hs
  refine ⟨⟨ft, fv, fr⟩, execAll_parts mode out _ _ ht1 hv1 hr1, ?_, fun t ht => ?_⟩
  rotate_left
  · obtain ⟨T, h1, -, h2⟩ := ht3 t.name t ht rfl
    exact ⟨T, h1, h2⟩
  refine { tables := fun n => ⟨?_, ?_⟩,
           table := fun t ht => (ht3 t.name t ht rfl).imp fun T h => ⟨h.1, h.2.1⟩, views := fun n => ⟨?_, ?_⟩,
           view := fun v hv => hv3 v.name v hv rfl, trigger := fun hm t ht => (by simpa only [same_trigger_iff] using hr2 t.name hm t ht rfl) }
  · rintro ⟨T, hT⟩
    by_contra hn
    have := ht2 n hn
    simp only at hT
    rw [this] at hT
    cases hT
  · intro hn
    obtain ⟨t, ht, he⟩ := List.mem_map.1 hn
    obtain ⟨T, hT, -⟩ := ht3 n t ht he
    exact ⟨T, hT⟩
  · rintro ⟨T, hT⟩
    by_contra hn
    have := hv2 n hn
    simp only at hT
    rw [this] at hT
    cases hT
  · intro hn
    obtain ⟨t, ht, he⟩ := List.mem_map.1 hn
    obtain ⟨T, hT, -⟩ := hv3 n t ht he
    exact ⟨T, hT⟩

theorem script_reaches (h : Script mode desired current out x y) (hs : Supported mode desired current) :
    ∃ c, execAll mode out (catalogOf current) = some c ∧ Reached mode desired c :=
  (script_after h hs).imp fun _ h => ⟨h.1, h.2.1⟩

end Sqldef
