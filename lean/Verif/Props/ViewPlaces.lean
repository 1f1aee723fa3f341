import Verif.Spec.ViewPlaces
import Verif.Proofs.LiteViews
import Verif.Props.ViewExports
/-
C80: a view is dropped and replaced where it is.
-/
namespace Sqldef
open Spec Written Token

theorem place_of_plain (mode : Mode) {n : Str} (h : '.' ∉ n) : escapeTableName mode n = viewPlace mode { name := n } := by
  have := (splitDot_eq_none n).mpr h
  cases mode <;> simp [escapeTableName, viewPlace, escapeSQLName, this, lit]

theorem place_of_default {mode : Mode} {v : TableRef} (h : InDefaultSchema mode v) : escapeTableName mode v.name = viewPlace mode v := by
  rw [place_of_plain mode h.dot]
  cases mode with
  | postgres => rcases h.postgres rfl with e | e <;> simp [viewPlace, e]
  | mssql => rcases h.mssql rfl with e | e <;> simp [viewPlace, e]
  | mysql => rfl
  | sqlite3 => rfl

theorem place_injective {mode : Mode} {v w : TableRef} (hv : InDefaultSchema mode v) (hw : InDefaultSchema mode w)
    (h : viewPlace mode v = viewPlace mode w) : v.name = w.name := by
  rw [← place_of_default hv, ← place_of_default hw, place_of_plain mode hv.dot, place_of_plain mode hw.dot] at h
  cases mode <;> simpa [viewPlace, lit] using h

theorem normal_nil (mode : Mode) : Normal mode [] := by
  refine ⟨List.nodup_nil, ?_, fun _ _ _ h => (by cases h), fun _ _ h => (by cases h), List.nodup_nil⟩
  intro pre d post h
  simp at h

/-- **C80**, for views in the schema that is meant if none is given: every DROP VIEW of a script names a view of the database that the file does
not mention or, for SQLite and SQL Server, wants with another query; and every CREATE OR REPLACE VIEW names a view of the file that is in the
database with another query. -/
theorem C80_views_are_changed_where_they_are_partial (fmtFloat : Str → Str) (mode : Mode) (desired current : Str)
    (ss cs : List Written.Statement) (hs : Consists mode desired ss) (hc : Consists mode current cs) (h1 : ∀ s ∈ ss, s.Clear) (h2 : ∀ s ∈ cs, s.Clear)
    (ds cu : List DDL) (hd : parseDDLs (Sql.env fmtFloat) mode desired = .ok ds) (hu : parseDDLs (Sql.env fmtFloat) mode current = .ok cu)
    (ud : UniqueTables ds) (uc : UniqueTables cu) (un : ((viewsAmong cs).map fun v => toLower v.name.name).Nodup)
    (hv : ∀ v ∈ viewsAmong ss, InDefaultSchema mode v.name) (hw : ∀ w ∈ viewsAmong cs, InDefaultSchema mode w.name)
    (out : List Stmt) (h : diff mode ds cu = .ok out) :
    (∀ n, .dropView n ∈ out → ∃ w ∈ viewsAmong cs, Stmt.render mode (.dropView n) = lit "DROP VIEW " ++ viewPlace mode w.name ∧
      ((∀ v ∈ viewsAmong ss, viewPlace mode v.name ≠ viewPlace mode w.name) ∨ (mode = .sqlite3 ∨ mode = .mssql) ∧
        ∃ v ∈ viewsAmong ss, viewPlace mode v.name = viewPlace mode w.name ∧ toLower v.query.text ≠ toLower w.query.text)) ∧
    (∀ n q, .replaceView n q ∈ out → ∃ v ∈ viewsAmong ss,
      Stmt.render mode (.replaceView n q) = lit "CREATE OR REPLACE VIEW " ++ viewPlace mode v.name ++ lit " AS " ++ v.query.text ∧
      ∃ w ∈ viewsAmong cs, viewPlace mode v.name = viewPlace mode w.name ∧ toLower v.query.text ≠ toLower w.query.text) := by
  obtain ⟨ds', hd', hds, -⟩ := C67_file_is_understood fmtFloat mode desired ss hs h1
  obtain ⟨cu', hu', hcu, -⟩ := C67_file_is_understood fmtFloat mode current cs hc h2
  cases hd.symm.trans hd'
  cases hu.symm.trans hu'
  have vd := views_of_definitions hds
  have vc := views_of_definitions hcu
  constructor
  · intro n hn
    rcases (C38_drop_view_iff ud uc h n).mp hn with ⟨h3, h4⟩ | ⟨h3, v, hv', rfl, hx⟩
    · obtain ⟨x, hx, rfl⟩ := List.mem_map.mp h3
      obtain ⟨w, hw', e1, e2⟩ := (forall2_mem vc).2 x hx
      rw [(hw w hw').small] at e1
      refine ⟨w, hw', ?_, .inl ?_⟩
      · simp only [Stmt.render, e1, place_of_default (hw w hw')]
      · intro v hv' e
        obtain ⟨y, hy, e3, -⟩ := (forall2_mem vd).1 v hv'
        rw [(hv v hv').small] at e3
        refine h4 (List.mem_map.mpr ⟨y, hy, ?_⟩)
        rw [e3, e1]
        exact place_injective (hv v hv') (hw w hw') e
    · obtain ⟨a, ha, e1, e2⟩ := (forall2_mem vd).2 v hv'
      obtain ⟨w, hw', e3, e4⟩ := (find_view vc un v.name fun d => toLower d ≠ toLower v.definition).1 hx
      rw [(hw w hw').small] at e3
      rw [(hv a ha).small] at e1
      refine ⟨w, hw', ?_, .inr ⟨h3, a, ha, ?_, ?_⟩⟩
      · simp only [Stmt.render, ← e3, place_of_default (hw w hw')]
      · rw [← place_of_default (hv a ha), ← place_of_default (hw w hw'), ← e1, ← e3]
      · rw [← e2]
        exact fun e => e4 e.symm
  · intro n q hn
    obtain ⟨-, v, hv', rfl, rfl, hx⟩ := (C38_replace_view_iff ud uc h n q).mp hn
    obtain ⟨a, ha, e1, e2⟩ := (forall2_mem vd).2 v hv'
    obtain ⟨w, hw', e3, e4⟩ := (find_view vc un v.name fun d => toLower d ≠ toLower v.definition).1 hx
    rw [(hw w hw').small] at e3
    rw [(hv a ha).small] at e1
    refine ⟨a, ha, ?_, w, hw', ?_, ?_⟩
    · simp only [Stmt.render, e1, e2, place_of_default (hv a ha)]
    · rw [← place_of_default (hv a ha), ← place_of_default (hw w hw'), ← e1, ← e3]
    · rw [← e2]
      exact fun e => e4 e.symm

/-- **C80** fails for views in other schemas: for Postgres and SQL Server, if the database has a view that the file does not mention, the script
drops a view of this name in the schema `public` or `dbo`, whatever schema the view is in. -/
theorem C80_drops_in_the_default_schema (fmtFloat : Str → Str) (mode : Mode) (desired current : Str)
    (ss cs : List Written.Statement) (hs : Consists mode desired ss) (hc : Consists mode current cs) (h1 : ∀ s ∈ ss, s.Clear) (h2 : ∀ s ∈ cs, s.Clear)
    (ds cu : List DDL) (hd : parseDDLs (Sql.env fmtFloat) mode desired = .ok ds) (hu : parseDDLs (Sql.env fmtFloat) mode current = .ok cu)
    (ud : UniqueTables ds) (uc : UniqueTables cu) (script : List Str) (h : generateIdempotentDDLs (Sql.env fmtFloat) mode desired current = .ok script)
    (schema : Option Str) (n : Str) (hn : toLower n = n ∧ '.' ∉ n) (hw : ∃ w ∈ viewsAmong cs, w.name = { schema, name := n })
    (hv : ∀ v ∈ viewsAmong ss, toLower v.name.name ≠ n) :
    lit "DROP VIEW " ++ viewPlace mode { schema := none, name := n } ∈ script := by
  obtain ⟨ds', hd', hds, -⟩ := C67_file_is_understood fmtFloat mode desired ss hs h1
  obtain ⟨cu', hu', hcu, -⟩ := C67_file_is_understood fmtFloat mode current cs hc h2
  cases hd.symm.trans hd'
  cases hu.symm.trans hu'
  have vd := views_of_definitions hds
  have vc := views_of_definitions hcu
  unfold generateIdempotentDDLs at h
  rw [hd, hu] at h
  change (diff mode ds cu >>= fun l => pure (l.map (Stmt.render mode))) = _ at h
  cases ho : diff mode ds cu with
  | error e => rw [ho] at h; cases h
  | ok out =>
  rw [ho] at h
  cases h
  obtain ⟨w, hw, e⟩ := hw
  refine List.mem_map.mpr ⟨.dropView n, (C38_drop_view_iff ud uc ho n).mpr (.inl ⟨?_, ?_⟩), ?_⟩
  · obtain ⟨x, hx, e1, -⟩ := (forall2_mem vc).1 w hw
    exact List.mem_map.mpr ⟨x, hx, by rw [e1, e]; exact hn.1⟩
  · intro hm
    obtain ⟨x, hx, e1⟩ := List.mem_map.mp hm
    obtain ⟨v, hv', e2, -⟩ := (forall2_mem vd).2 x hx
    exact hv v hv' (by rw [← e2, e1])
  · simp only [Stmt.render, place_of_plain mode hn.2]

/-- **C80** fails for views in other schemas: a view of the file is not created if the database has a view of the same name with the same query
in another schema. -/
theorem C80_view_of_another_schema_counts (fmtFloat : Str → Str) (mode : Mode) (desired current : Str) (v w : NewView)
    (hs : Consists mode desired [.view v]) (hc : Consists mode current [.view w]) (h1 : v.query.Clear) (h2 : w.query.Clear)
    (hn : toLower v.name.name = toLower w.name.name) (hq : v.query.text = w.query.text) :
    generateIdempotentDDLs (Sql.env fmtFloat) mode desired current = .ok [] := by
  have one : ∀ {file : Str} {v : NewView}, Consists mode file [.view v] → v.query.Clear →
      ∃ text, parseDDLs (Sql.env fmtFloat) mode file = .ok (mixedDefs [] [{ statement := text, name := toLower v.name.name, definition := v.query.text }]) ∧
        Normal mode (mixedDefs [] [{ statement := text, name := toLower v.name.name, definition := v.query.text }]) := by
    intro file v hf hq
    obtain ⟨ds, p1, p2, -⟩ := C67_file_is_understood fmtFloat mode file _ hf (by
      intro s hs
      rw [List.mem_singleton.mp hs]
      exact hq)
    have hN : Normal mode ds := mixed_normal (xs := []) (vs := [v]) p2 (fun ds hx => by
      cases hx
      exact normal_nil mode) (by unfold ViewsDiffer; simp)
    cases p2 with
    | @cons _ d _ l hx hl =>
      cases hl
      have hx : d = .view _ := hx
      rw [hx] at p1 hN
      exact ⟨_, p1, hN⟩
  obtain ⟨t1, p1, n1⟩ := one hs h1
  obtain ⟨t2, p2, n2⟩ := one hc h2
  unfold generateIdempotentDDLs
  rw [p1, p2]
  simp only [bind, Except.bind]
  rw [diff_mixed n1 n2 (by simp) (by simp [hq])]
  simp [hn]
  rfl

/-! ### An example -/

/-- A Postgres database with a view in the schema `archive`. -/
def exArchive : Written.Statement := .view { exLiteView with name := { schema := some (lit "archive"), name := lit "v" } }

/-- The view in the schema `public`. -/
def exPublic : Written.Statement := .view { exLiteView with name := { schema := some (lit "public"), name := lit "v" } }

theorem exArchive_consists : Consists .postgres (txt "CREATE VIEW archive.v AS SELECT t.a x FROM t") [exArchive] ∧
    Consists .postgres (txt "CREATE VIEW public.v AS SELECT t.a x FROM t;") [exPublic] := by
  unfold Consists
  rw [show statementTexts (txt "CREATE VIEW archive.v AS SELECT t.a x FROM t") = [txt "CREATE VIEW archive.v AS SELECT t.a x FROM t"] by decide +kernel,
    show statementTexts (txt "CREATE VIEW public.v AS SELECT t.a x FROM t;") = [txt "CREATE VIEW public.v AS SELECT t.a x FROM t"] by decide +kernel]
  refine ⟨.cons ?_ .nil, .cons ?_ .nil⟩
  · exact layout_of_test [("", "CREATE"), (" ", "VIEW"), (" ", "archive"), ("", "."), ("", "v"), (" ", "AS"), (" ", "SELECT"), (" ", "t"), ("", "."), ("", "a"), (" ", "x"), (" ", "FROM"), (" ", "t")] (by decide +kernel)
  · exact layout_of_test [("", "CREATE"), (" ", "VIEW"), (" ", "public"), ("", "."), ("", "v"), (" ", "AS"), (" ", "SELECT"), (" ", "t"), ("", "."), ("", "a"), (" ", "x"), (" ", "FROM"), (" ", "t")] (by decide +kernel)

/-- The view of the file is never created. -/
example : generateIdempotentDDLs (Sql.env id) .postgres (txt "CREATE VIEW public.v AS SELECT t.a x FROM t;")
    (txt "CREATE VIEW archive.v AS SELECT t.a x FROM t") = .ok [] :=
  C80_view_of_another_schema_counts id .postgres _ _ _ _ exArchive_consists.2 exArchive_consists.1 exLiteView_clear exLiteView_clear rfl rfl

/-- With an empty file, the view of the schema `public` is dropped, which is not there. -/
example (script : List Str) (h : generateIdempotentDDLs (Sql.env id) .postgres [] (txt "CREATE VIEW archive.v AS SELECT t.a x FROM t") = .ok script) :
    txt "DROP VIEW \"public\".\"v\"" ∈ script := by
  obtain ⟨cu, hu, hcu, -⟩ := C67_file_is_understood id .postgres _ _ exArchive_consists.1 (by
    intro s hs
    rw [List.mem_singleton.mp hs]
    exact exLiteView_clear)
  refine C80_drops_in_the_default_schema id .postgres [] _ [] [exArchive] .nil exArchive_consists.1 (by simp) (by
    intro s hs
    rw [List.mem_singleton.mp hs]
    exact exLiteView_clear) [] cu (by decide +kernel) hu List.nodup_nil ?_ script h (some (lit "archive")) (lit "v") (by decide)
    ⟨_, List.mem_singleton.mpr rfl, rfl⟩ (by simp [viewsAmong])
  cases hcu with
  | @cons _ d _ l hx hl =>
    cases hl
    have hx : d = .view _ := hx
    rw [hx]
    exact List.nodup_nil

/-- The same view with another query. -/
def exOtherView : NewView :=
  { name := { name := lit "v" }, query := { first := .value (.qualified (lit "t") (lit "a")) none, sources := some (.table { name := lit "t" } none, []) } }

theorem exOtherView_clear : exOtherView.query.Clear := by
  have g : ∀ n ∈ [lit "t", lit "a"], GoodName n := by
    have h : ∀ n ∈ [lit "t", lit "a"], n ≠ [] ∧ ¬ lit "@@" <+: n ∧ ∀ c ∈ n, c.toNat < 65536 := by decide
    exact h
  simp [exOtherView, Query.Clear, Picked.Clear, ClearEx, GoodAlias, Source.Clear, Source.Proper, Source.depth, Ex.Proper, Ex.depth, g]

/-- The hypotheses of the positive part are met by the view in the schema `public` and another query for it: what is replaced is the view of
the file. -/
example : ∃ (ds cu : List DDL) (out : List Stmt) (n q : Str), parseDDLs (Sql.env id) .postgres (txt "CREATE VIEW v AS SELECT t.a FROM t") = .ok ds ∧
    parseDDLs (Sql.env id) .postgres (txt "CREATE VIEW public.v AS SELECT t.a x FROM t;") = .ok cu ∧ diff .postgres ds cu = .ok out ∧
    .replaceView n q ∈ out ∧ Stmt.render .postgres (.replaceView n q) = txt "CREATE OR REPLACE VIEW \"public\".\"v\" AS " ++ exOtherView.query.text := by
  have c1 : Consists .postgres (txt "CREATE VIEW v AS SELECT t.a FROM t") [.view exOtherView] := by
    unfold Consists
    rw [show statementTexts (txt "CREATE VIEW v AS SELECT t.a FROM t") = [txt "CREATE VIEW v AS SELECT t.a FROM t"] by decide +kernel]
    exact .cons (layout_of_test [("", "CREATE"), (" ", "VIEW"), (" ", "v"), (" ", "AS"), (" ", "SELECT"), (" ", "t"), ("", "."), ("", "a"), (" ", "FROM"), (" ", "t")]
      (by decide +kernel)) .nil
  have k1 : ∀ s ∈ [Written.Statement.view exOtherView], s.Clear := by
    intro s hs
    rw [List.mem_singleton.mp hs]
    exact exOtherView_clear
  have k2 : ∀ s ∈ [exPublic], s.Clear := by
    intro s hs
    rw [List.mem_singleton.mp hs]
    exact exLiteView_clear
  obtain ⟨ds, hd, hds, -⟩ := C67_file_is_understood id .postgres _ _ c1 k1
  obtain ⟨cu, hu, hcu, -⟩ := C67_file_is_understood id .postgres _ _ exArchive_consists.2 k2
  obtain ⟨a, rfl⟩ : ∃ a, ds = [.view { statement := a, name := lit "v", definition := exOtherView.query.text }] := by
    cases hds with
    | @cons _ d _ l hx hl => cases hl; exact ⟨_, congrArg (· :: []) hx⟩
  obtain ⟨b, rfl⟩ : ∃ b, cu = [.view { statement := b, name := lit "v", definition := exLiteView.query.text }] := by
    cases hcu with
    | @cons _ d _ l hx hl => cases hl; exact ⟨_, congrArg (· :: []) hx⟩
  have hout : diff .postgres [.view { statement := a, name := lit "v", definition := exOtherView.query.text }]
      [.view { statement := b, name := lit "v", definition := exLiteView.query.text }] = .ok [.replaceView (lit "v") exOtherView.query.text] := rfl
  have := (C80_views_are_changed_where_they_are_partial id .postgres _ _ _ _ c1 exArchive_consists.2 k1 k2 _ _ hd hu List.nodup_nil List.nodup_nil
    (by decide) (by
      intro v hv
      rw [show v = exOtherView from List.mem_singleton.mp hv]
      exact ⟨by decide, by decide, fun _ => .inl rfl, fun h => by cases h⟩) (by
      intro v hv
      rw [show v.name = { schema := some (lit "public"), name := lit "v" } by rw [List.mem_singleton.mp hv]]
      exact ⟨by decide, by decide, fun _ => .inr rfl, fun h => by cases h⟩) _ hout).2 (lit "v") _ (List.mem_singleton.mpr rfl)
  obtain ⟨v, hv, hr, -⟩ := this
  rw [show v = exOtherView from List.mem_singleton.mp hv] at hr
  exact ⟨_, _, _, _, _, hd, hu, hout, List.mem_singleton.mpr rfl, hr⟩

end Sqldef
