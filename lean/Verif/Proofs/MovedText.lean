import Verif.Proofs.Moved
import Verif.Proofs.ListedText
import Verif.Proofs.MsServer
/-
The order of the columns as well, in descriptions of a database as text.
-/
namespace Sqldef
open Spec Spec.MsServer Dumped Written Ms

theorem scripts_moved (fmtFloat : Str → Str) {mode : Mode} (hm : mode ≠ .mysql) {text text' : Str} {ss rs ss' : List Written.Statement}
    (hs : List.Forall₂ SameStatement ss rs) (hp : rs.Perm ss') (hf : Consists mode text ss) (hf' : Consists mode text' ss')
    (h : ∀ s ∈ ss, s.Clear) {ds ds' : List DDL}
    (hd : parseDDLs (Sql.env fmtFloat) mode text = .ok ds) (hn : Normal mode ds) (hk : ∀ s t, .createTable s t ∈ ds → OneKey t)
    (hd' : parseDDLs (Sql.env fmtFloat) mode text' = .ok ds') (hw : WellFormedCurrent ds')
    {desired : Str} {des : List DDL} (hdes : parseDDLs (Sql.env fmtFloat) mode desired = .ok des) (hu : UniqueTables des) {out : List Str}
    (ho : generateIdempotentDDLs (Sql.env fmtFloat) mode desired text = .ok out) :
    ∃ out', generateIdempotentDDLs (Sql.env fmtFloat) mode desired text' = .ok out' ∧ SameButRemovals mode out out' := by
  have hd0 := hd
  have hd0' := hd'
  rw [C12_one_definition_per_statement] at hd hd'
  unfold Consists at hf hf'
  obtain ⟨ts, h1, h2⟩ := List.perm_comp_forall₂ hp (List.Forall₂.flip hf')
  obtain ⟨es, h3, h4⟩ := List.perm_comp_forall₂ h2 hd'
  have hr := layouts_rearranged fmtFloat mode hs hf (List.Forall₂.flip h1) h hd h3
  obtain ⟨des', cur, stmts, k1, k2, k3, rfl⟩ := generate_ok_iff.mp ho
  cases hdes.symm.trans k1
  cases hd0.symm.trans k2
  obtain ⟨same, rest, rest', e, m1, m2, m3⟩ := diff_current_moved hm hu hn hk hr h4 hw k3
  refine ⟨_, generate_ok_iff.mpr ⟨des, ds', _, hdes, hd0', m1, rfl⟩, same.map (Stmt.render mode), rest, rest', m3, m2, ?_, ?_⟩
  · rw [e, List.map_append]
  · rw [List.map_append]

theorem msServers_alike (fmtFloat : Str → Str) {σ τ : Type} {db : Db σ} {db' : Db τ} {cat : σ → Ms.Catalog} {cat' : τ → Ms.Catalog}
    (ha : MsAdapter db cat) (ha' : MsAdapter db' cat') (s : σ) (s' : τ) {srv : Server} (hs : Sound srv)
    (hp : ∀ o, IsTable srv o → Simple srv o) (hq0 : Answers srv (cat s)) (hq : Answers srv (cat' s')) (hk : SameKeyOrder (cat s) (cat' s'))
    {ds : List MsDescribed} {vs : List NewView} {gs : List NewTrigger} (hn : ((cat s).tables.map (·.2)).Nodup)
    (hv : ViewsDiffer vs) (hg : TriggersDiffer gs) (h : MsDatabaseSays (cat s) ds vs gs) :
    ∃ text text', dumpDDLs db s = .ok text ∧ dumpDDLs db' s' = .ok text' ∧
      ∀ (desired : Str) (des : List DDL) (script : List Str), parseDDLs (Sql.env fmtFloat) .mssql desired = .ok des → UniqueTables des →
        generateIdempotentDDLs (Sql.env fmtFloat) .mssql desired text = .ok script →
        ∃ script', generateIdempotentDDLs (Sql.env fmtFloat) .mssql desired text' = .ok script' ∧ SameButRemovals .mssql script script' := by
  have orderly : ∀ {c : Ms.Catalog}, Answers srv c → ∀ t ∈ c.tables, MsOrderly c t.1 t.2 := fun hc t ht => by
    obtain ⟨o, ho, rfl⟩ := (msAnswers_tables hc hs).2 t |>.mp ht
    exact msAnswers_orderly hc hs ho (hp o ho)
  have hpt : (cat' s').tables.Perm (cat s).tables := hq.tables.trans hq0.tables.symm
  have hpv : (cat' s').views.Perm (cat s).views := (msAnswers_views hq hs).1.trans (msAnswers_views hq0 hs).1.symm
  have hpg : (cat' s').triggers.Perm (cat s).triggers := (msAnswers_views hq hs).2.trans (msAnswers_views hq0 hs).2.symm
  obtain ⟨ds1, h1, h2⟩ := msServer_reordered hs hp hq0 hq hk (fun _ h => h) h.tables
  obtain ⟨ds2, h3, h4⟩ := List.perm_comp_forall₂ hpt h1
  obtain ⟨vs2, h5, h6⟩ := List.perm_comp_forall₂ hpv h.views
  obtain ⟨gs2, h7, h8⟩ := List.perm_comp_forall₂ hpg h.triggers
  have h' : MsDatabaseSays (cat' s') ds2 vs2 gs2 := ⟨h3, h5, h7⟩
  have hv' : ViewsDiffer vs2 := (h6.map _).nodup_iff.mpr hv
  have hg' : TriggersDiffer gs2 := (h8.map _).nodup_iff.mpr hg
  have hc := everything_clear (msAll_clear h.tables) (msViews_clear h.views) (msTriggers_clear h.triggers)
  have hc' := everything_clear (msAll_clear h'.tables) (msViews_clear h'.views) (msTriggers_clear h'.triggers)
  obtain ⟨text, t1, t2, -, -⟩ := ms_everything ha s h
  obtain ⟨text', u1, u2, -, -⟩ := ms_everything ha' s' h'
  obtain ⟨defs, f1, f2, -⟩ := C67_file_is_understood fmtFloat .mssql text _ t2 hc
  obtain ⟨defs', g1, g2, -⟩ := C67_file_is_understood fmtFloat .mssql text' _ u2 hc'
  have hnorm := everything_normal f2 (fun _ hx => msDescribed_normal hn (forall₂_with h.tables (orderly hq0)) hx) hv hg
  have hnorm' := everything_normal g2
    (fun _ hx => msDescribed_normal ((hpt.map _).nodup_iff.mpr hn) (forall₂_with h'.tables (orderly hq)) hx) hv' hg'
  have hone : ∀ x u, DDL.createTable x u ∈ defs → OneKey u := by
    obtain ⟨ds3, k1, k2⟩ := everything_tables f2
    exact fun x u hu => msAll_oneKey h.tables k1 x u (k2 x u hu)
  refine ⟨text, text', t1, u1, fun desired des script p1 p2 p3 => ?_⟩
  exact scripts_moved fmtFloat (by decide) (everything_same vs gs h2) (everything_perm (h4.symm.flatMap_right _) h6.symm h8.symm) t2 u2 hc f1 hnorm
    hone g1 (wellFormedCurrent_of_wellFormed hnorm'.wellFormed hnorm'.noAddIndex) p1 p2 p3

end Sqldef
