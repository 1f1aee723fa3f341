import Verif.Spec.MsObjects
import Verif.Proofs.MsNormal
import Verif.Proofs.TriggerDump
/-
Dumps of SQL Server databases with views and triggers.
-/
namespace Sqldef
open Spec Written Dumped

theorem onOneLine_last {body : Str} (hb : trimSpace body = body) (c : Char) (hc : (onOneLine body).getLast? = some c) : isSpace c = false := by
  rcases List.eq_nil_or_concat body with rfl | ⟨r, d, rfl⟩
  · cases hc
  · have hsp := trimSpace_last hb d (by simp)
    have h1 : d ≠ ' ' := by rintro rfl; revert hsp; decide
    have h2 : d ≠ '\n' := by rintro rfl; revert hsp; decide
    have e : onOneLine (r.concat d) = onOneLine r ++ [d] := by
      unfold onOneLine
      rw [List.concat_eq_append, List.filter_append, List.filter_cons_of_pos (by simpa using h2), List.filter_nil,
        squeeze_before (by simpa using h1)]
      simp [squeezeSpaces, h1]
    rw [e] at hc
    simp at hc
    subst hc
    exact hsp

theorem trimSpace_first {s : Str} (h : trimSpace s = s) (c : Char) (hc : s.head? = some c) : isSpace c = false := by
  cases hs : isSpace c with
  | false => rfl
  | true =>
    exfalso
    cases s with
    | nil => cases hc
    | cons d s =>
      injection hc with hc
      subst hc
      have hl : (trimSpace (d :: s)).length ≤ s.length := by
        unfold trimSpace trimRight trimLeft
        rw [List.length_reverse, List.dropWhile_cons_of_pos hs]
        refine Nat.le_trans (List.dropWhile_sublist _).length_le ?_
        rw [List.length_reverse]
        exact (List.dropWhile_sublist _).length_le
      rw [h, List.length_cons] at hl
      omega

theorem onOneLine_first {body : Str} (hb : trimSpace body = body) (c : Char) (hc : (onOneLine body).head? = some c) : isSpace c = false := by
  cases body with
  | nil => cases hc
  | cons d r =>
    have hsp := trimSpace_first hb d rfl
    have h1 : d ≠ ' ' := by rintro rfl; revert hsp; decide
    have h2 : d ≠ '\n' := by rintro rfl; revert hsp; decide
    have e : onOneLine (d :: r) = d :: squeezeSpaces false (r.filter (· ≠ '\n')) := by
      unfold onOneLine
      rw [List.filter_cons_of_pos (by simpa using h2)]
      simp [squeezeSpaces, h1]
    rw [e] at hc
    injection hc with hc
    subst hc
    exact hsp

/-- A text that begins with the word `CREATE` does not begin with a comment. -/
theorem create_no_dash {mode : Mode} {text : Str} {ts : List Token} (h : Layout mode text (kw "CREATE" :: ts)) (r : Str) : text ≠ '-' :: r := by
  rintro e
  generalize hk : kw "CREATE" = k at h
  cases h with
  | @cons w a rest _ _ hw hs _ =>
    cases w with
    | cons c w =>
      rw [List.cons_append, List.cons_append] at e
      injection e with e
      have := hw c (by simp)
      rw [e] at this
      revert this
      decide
    | nil =>
      rw [List.nil_append] at e
      cases hs with
      | keyword hword =>
        obtain ⟨⟨c, s, rfl, hc, -⟩, -⟩ := hword
        rw [List.cons_append] at e
        injection e with e
        subst e
        revert hc
        decide
      | operator hm =>
        subst hk
        revert hm
        have : ∀ p ∈ operators, p.2.1 ≠ kw "CREATE" := by decide +kernel
        exact fun hm => this _ hm rfl
      | bare => cases hk
      | quoted => cases hk
      | string => cases hk
      | digits => cases hk
      | negative => cases hk
      | fraction => cases hk
      | bits => cases hk
      | mark => cases hk
      | dot => cases hk
      | bracket => cases hk
      | cast => exact absurd hk (by decide)

theorem ms_view_stands {definition : Str} {v : NewView} (h : MsViewSays definition v) : TextStands .mssql (viewText definition) v.tokens := by
  obtain ⟨body, hd, ht, hs, hb⟩ := h.text
  have hw : viewText definition = onOneLine body := by
    unfold viewText onOneLine
    congr 1
    rcases hd with e | e
    · rw [e]
      unfold trimSuffix
      rw [if_neg]
      intro hx
      have := List.isSuffixOf_iff_suffix.mp hx
      exact hs (List.mem_of_mem_filter (this.subset (by simp [lit])))
    · rw [e, List.filter_append]
      exact trimSuffix_append (lit ";") _
  obtain ⟨hl, -⟩ := tidy_layout ht
  rw [hw]
  refine ⟨hl, fun hm => hs (onOneLine_mem hm).1, noComment_line (fun hm => (onOneLine_mem hm).2 rfl) fun r => ?_,
    trimSpace_id (onOneLine_first hb) (onOneLine_last hb)⟩
  unfold NewView.tokens at hl
  exact create_no_dash hl _

/-- The pieces of a definition of a trigger. -/
theorem ms_trigger_pieces {definition : Str} {t : NewTrigger} (h : MsTriggerSays definition t) :
    ∃ texts, Glued texts definition ∧ ∃ body, texts.filter (· ≠ []) = [body] ∧ Renders .mssql body (.trigger t) := by
  obtain ⟨body, hd, hs⟩ := h.text
  have hne := stands_ne (statement_tokens_ne (.trigger t)) hs
  rcases hd with rfl | rfl
  · exact ⟨[definition], .one _, definition, by rw [List.filter_cons_of_pos (by simpa using hne)]; rfl, hs⟩
  · exact ⟨[body, []], .cons (w := []) (by intro c hc; cases hc) (.one []), body, by rw [List.filter_cons_of_pos (by simpa using hne)]; rfl, hs⟩

theorem msViews_clear {rs : List Str} {vs : List NewView} (h : List.Forall₂ MsViewSays rs vs) : ∀ v ∈ vs, v.query.Clear := fun v hv => by
  obtain ⟨_, -, h⟩ := (forall2_mem h).2 v hv
  exact h.query

theorem msTriggers_clear {rs : List Str} {gs : List NewTrigger} (h : List.Forall₂ MsTriggerSays rs gs) : ∀ g ∈ gs, g.Clear := fun v hv => by
  obtain ⟨_, -, h⟩ := (forall2_mem h).2 v hv
  exact h.body

theorem renders_ne {mode : Mode} {texts : List Str} {ss : List Written.Statement} (h : List.Forall₂ (Renders mode) texts ss) :
    texts.filter (· ≠ []) = texts := by
  rw [List.filter_eq_self]
  intro t ht
  obtain ⟨x, -, hx⟩ := (forall2_mem h).1 t ht
  simpa using stands_ne (statement_tokens_ne x) hx

theorem ms_everything {σ : Type} {db : Db σ} {cat : σ → Ms.Catalog} (ha : MsAdapter db cat) (s : σ) {ds : List MsDescribed} {vs : List NewView}
    {gs : List NewTrigger} (h : MsDatabaseSays (cat s) ds vs gs) : ∃ text, dumpDDLs db s = .ok text ∧
      Consists .mssql text (everything (ds.flatMap MsDescribed.sentences) vs gs) ∧
      Consists .mssql (text ++ lit ";\n") (everything (ds.flatMap MsDescribed.sentences) vs gs) ∧
      (text = [] → everything (ds.flatMap MsDescribed.sentences) vs gs = []) := by
  obtain ⟨ps, h1, h2, -, h4⟩ := msTables_glued ha s h.tables
  obtain ⟨rs, r1, r2, r3⟩ : ∃ rs : List (List Str × Str), rs.map (·.2) = (cat s).triggers ∧ (∀ p ∈ rs, Glued p.1 p.2) ∧
      List.Forall₂ (Renders .mssql) ((rs.flatMap (·.1)).filter (· ≠ [])) (gs.map Statement.trigger) := by
    have hg := h.triggers
    clear h h1 h4
    generalize (cat s).triggers = l at hg
    induction hg with
    | nil => exact ⟨[], rfl, by simp, .nil⟩
    | @cons d g l gs hd _ ih =>
      obtain ⟨rs, r1, r2, r3⟩ := ih
      obtain ⟨texts, t1, body, t2, t3⟩ := ms_trigger_pieces hd
      refine ⟨(texts, d) :: rs, by rw [List.map_cons, r1], ?_, ?_⟩
      · intro p hp
        rcases List.mem_cons.mp hp with rfl | hp
        · exact t1
        · exact r2 p hp
      · rw [List.flatMap_cons, List.filter_append, t2]
        exact .cons t3 r3
  let qs : List (List Str × Str) := (cat s).views.map fun d => ([viewText d], viewText d)
  have hd : dumpDDLs db s = .ok (join (lit ";\n\n") ((ps ++ qs ++ rs).map (·.2))) := by
    have e : (ps ++ qs ++ rs).map (·.2) = ps.map (·.2) ++ Ms.views (cat s) ++ (cat s).triggers := by
      rw [List.map_append, List.map_append, r1]
      simp [qs, Ms.views, Function.comp_def]
    rw [e]
    exact dump_all_of (ha.tableNames s) h1 (ha.views s) (ha.triggers s)
  refine ⟨_, hd, consists_files_some ?_ ?_⟩
  · intro p hp
    rcases List.mem_append.mp hp with hp | hp
    · rcases List.mem_append.mp hp with hp | hp
      · exact h2 p hp
      · obtain ⟨t, -, rfl⟩ := List.mem_map.mp hp
        exact .one _
    · exact r2 p hp
  · rw [List.flatMap_append, List.filter_append, List.flatMap_append, List.filter_append]
    refine forall₂_both (forall₂_both ?_ ?_) r3
    · have h5 : List.Forall₂ (Renders .mssql) (ps.flatMap (·.1)) ((ds.flatMap MsDescribed.sentences).map Statement.sentence) := by
        have := forall₂_map (f := id) (g := Statement.sentence) (R := Renders .mssql)
          (forall₂_imp (fun t s hx => ⟨hx.layout, hx.semicolon, hx.comment, hx.trimmed⟩) h4)
        rwa [List.map_id] at this
      rw [renders_ne h5]
      exact h5
    · have h5 : List.Forall₂ (Renders .mssql) ((cat s).views.map viewText) (vs.map Statement.view) :=
        forall₂_map (forall₂_imp (fun _ _ hx => ms_view_stands hx) h.views)
      have e : qs.flatMap (·.1) = (cat s).views.map viewText := by
        simp only [qs]
        clear hd h5 h
        clear qs
        generalize (cat s).views = l
        induction l with
        | nil => rfl
        | cons v l ih => rw [List.map_cons, List.flatMap_cons, ih]; rfl
      rw [e, renders_ne h5]
      exact h5

theorem filter_dropWhile {p q : Char → Bool} (h : ∀ c, p c = false → q c = true) (s : Str) : (s.dropWhile q).filter p = (s.filter p).dropWhile q := by
  induction s with
  | nil => rfl
  | cons c s ih =>
    cases hq : q c with
    | true =>
      rw [List.dropWhile_cons_of_pos hq, ih]
      cases hp : p c with
      | true => rw [List.filter_cons_of_pos hp, List.dropWhile_cons_of_pos hq]
      | false => rw [List.filter_cons_of_neg (by simp [hp])]
    | false =>
      have hp : p c = true := by
        cases hp : p c with
        | true => rfl
        | false => rw [h c hp] at hq; cases hq
      rw [List.dropWhile_cons_of_neg (by simp [hq]), List.filter_cons_of_pos hp, List.dropWhile_cons_of_neg (by simp [hq])]

/-- Characters that are spaces can be taken away before trimming. -/
theorem trimSpace_filter {p : Char → Bool} (h : ∀ c, p c = false → isSpace c = true) (s : Str) : (trimSpace s).filter p = trimSpace (s.filter p) := by
  unfold trimSpace trimRight trimLeft
  rw [List.filter_reverse, filter_dropWhile h, List.filter_reverse, filter_dropWhile h]

/-- A fact about every element of the first list. -/
theorem forall₂_with {α β : Type} {R : α → β → Prop} {P : α → Prop} {as : List α} {bs : List β} (h : List.Forall₂ R as bs) (hp : ∀ a ∈ as, P a) :
    List.Forall₂ (fun a b => R a b ∧ P a) as bs := by
  induction h with
  | nil => exact .nil
  | cons h _ ih => exact .cons ⟨h, hp _ (List.mem_cons_self ..)⟩ (ih fun a ha => hp a (List.mem_cons_of_mem _ ha))

end Sqldef
