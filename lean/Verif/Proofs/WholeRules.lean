import Verif.Proofs.WholeLemmas

/-! Generated by tools/whole.py: every rule keeps the classes of its symbols. -/
namespace Sqldef.Sql
open Go Spec
variable {m : Mode} {t : Bool}

theorem keeps4 : Keeps m t (4, .stmt, [.sel]) := by
  intro d h
  obtain ⟨h1, -⟩ := h
  show Holds m t .stmt (rule4 d)
  intro a ha; cases ha
theorem keeps5 : Keeps m t (5, .stmt, [.stmt]) := by
  intro d h
  obtain ⟨h1, -⟩ := h
  show Holds m t .stmt (d 1)
  exact h1
theorem keeps6 : Keeps m t (6, .stmt, [.dml]) := by
  intro d h
  obtain ⟨h1, -⟩ := h
  show Holds m t .stmt (d 1)
  obtain ⟨x, hx, _⟩ := h1; intro a ha; rw [hx] at ha; cases ha
theorem keeps7 : Keeps m t (7, .stmt, [.dml]) := by
  intro d h
  obtain ⟨h1, -⟩ := h
  show Holds m t .stmt (d 1)
  obtain ⟨x, hx, _⟩ := h1; intro a ha; rw [hx] at ha; cases ha
theorem keeps8 : Keeps m t (8, .stmt, [.dml]) := by
  intro d h
  obtain ⟨h1, -⟩ := h
  show Holds m t .stmt (d 1)
  obtain ⟨x, hx, _⟩ := h1; intro a ha; rw [hx] at ha; cases ha
theorem keeps9 : Keeps m t (9, .stmt, [.stmt]) := by
  intro d h
  obtain ⟨h1, -⟩ := h
  show Holds m t .stmt (d 1)
  exact h1
theorem keeps10 : Keeps m t (10, .stmt, [.stmt]) := by
  intro d h
  obtain ⟨h1, -⟩ := h
  show Holds m t .stmt (d 1)
  exact h1
theorem keeps11 : Keeps m t (11, .stmt, [.stmt]) := by
  intro d h
  obtain ⟨h1, -⟩ := h
  show Holds m t .stmt (d 1)
  exact h1
theorem keeps12 : Keeps m t (12, .stmt, [.stmt]) := by
  intro d h
  obtain ⟨h1, -⟩ := h
  show Holds m t .stmt (d 1)
  exact h1
theorem keeps13 : Keeps m t (13, .stmt, [.stmt]) := by
  intro d h
  obtain ⟨h1, -⟩ := h
  show Holds m t .stmt (d 1)
  exact h1
theorem keeps14 : Keeps m t (14, .stmt, [.stmt]) := by
  intro d h
  obtain ⟨h1, -⟩ := h
  show Holds m t .stmt (d 1)
  exact h1
theorem keeps15 : Keeps m t (15, .stmt, [.stmt]) := by
  intro d h
  obtain ⟨h1, -⟩ := h
  show Holds m t .stmt (d 1)
  exact h1
theorem keeps16 : Keeps m t (16, .stmt, [.stmt]) := by
  intro d h
  obtain ⟨h1, -⟩ := h
  show Holds m t .stmt (d 1)
  exact h1
theorem keeps17 : Keeps m t (17, .stmt, [.stmt]) := by
  intro d h
  obtain ⟨h1, -⟩ := h
  show Holds m t .stmt (d 1)
  exact h1
theorem keeps18 : Keeps m t (18, .stmt, [.stmt]) := by
  intro d h
  obtain ⟨h1, -⟩ := h
  show Holds m t .stmt (d 1)
  exact h1
theorem keeps19 : Keeps m t (19, .stmt, [.stmt]) := by
  intro d h
  obtain ⟨h1, -⟩ := h
  show Holds m t .stmt (d 1)
  exact h1
theorem keeps20 : Keeps m t (20, .stmt, [.stmt]) := by
  intro d h
  obtain ⟨h1, -⟩ := h
  show Holds m t .stmt (d 1)
  exact h1
theorem keeps21 : Keeps m t (21, .stmt, [.stmt]) := by
  intro d h
  obtain ⟨h1, -⟩ := h
  show Holds m t .stmt (d 1)
  exact h1
theorem keeps22 : Keeps m t (22, .sel, [.sel, .orders, .limit]) := by
  intro d h
  obtain ⟨h1, h2, h3, -⟩ := h
  show Holds m t .sel (rule22 d)
  show Fine t (cat _); parts; exact ⟨h1, fine_prefixed h2, h3⟩
theorem keeps23 : Keeps m t (23, .sel, [.sel, .any, .sel, .orders, .limit]) := by
  intro d h
  obtain ⟨h1, -, h3, h4, h5, -⟩ := h
  show Holds m t .sel (rule23 d)
  exact fine_union h1 h3 h4 h5
theorem keeps24 : Keeps m t (24, .sel, [.any, .any, .any, .any, .expr]) := by
  intro d h
  obtain ⟨-, -, -, -, h5, -⟩ := h
  show Holds m t .sel (rule24 d)
  exact fine_select (all_one (by show Fine t (cat _); parts; exact h5.text)) (all_one (by show Fine t (cat _); parts)) none_fine all_none none_fine
theorem keeps25 : Keeps m t (25, .stmt, [.any, .any, .selExpr]) := by
  intro d h
  obtain ⟨-, -, h3, -⟩ := h
  show Holds m t .stmt (rule25 d)
  first
  | (intro a ha; cases ha; done)
  | (intro a ha; have ha := Statement.ddl.inj ha; subst ha; exact whole_plain (by dsimp only; decide))
theorem keeps26 : Keeps m t (26, .sel, [.any, .any, .any, .any, .any, .selExprs, .tabExprs, .clause, .exprs, .optExpr]) := by
  intro d h
  obtain ⟨-, -, -, -, -, h6, h7, h8, h9, h10, -⟩ := h
  show Holds m t .sel (rule26 d)
  exact fine_select h6 h7 (clause_fine h8) h9 h10
theorem keeps27 : Keeps m t (27, .sel, [.sel]) := by
  intro d h
  obtain ⟨h1, -⟩ := h
  show Holds m t .sel (rule27 d)
  exact h1
theorem keeps28 : Keeps m t (28, .sel, [.any, .sel]) := by
  intro d h
  obtain ⟨-, h2, -⟩ := h
  show Holds m t .sel (rule28 d)
  show Fine t (cat _); parts; exact h2
theorem keeps29 : Keeps m t (29, .sel, [.sel]) := by
  intro d h
  obtain ⟨h1, -⟩ := h
  show Holds m t .sel (rule29 d)
  exact h1
theorem keeps30 : Keeps m t (30, .sel, [.any, .sel]) := by
  intro d h
  obtain ⟨-, h2, -⟩ := h
  show Holds m t .sel (rule30 d)
  show Fine t (cat _); parts; exact h2
theorem keeps31 : Keeps m t (31, .dml, [.any, .any, .any, .any, .any, .ins, .updates]) := by
  intro d h
  obtain ⟨-, -, -, -, -, h6, h7, -⟩ := h
  show Holds m t .dml (rule31 d)
  exact ⟨_, rfl, fine_insert h6 h7⟩
theorem keeps32 : Keeps m t (32, .dml, [.any, .any, .any, .any, .any, .any, .updates, .updates]) := by
  intro d h
  obtain ⟨-, -, -, -, -, -, h7, h8, -⟩ := h
  show Holds m t .dml (rule32 d)
  exact ⟨_, rfl, fine_insert (fine_values (all_one (by simpa using (show ∀ u ∈ (d 7).updateExprs, Fine t u.E.fmt from h7)))) h8⟩
theorem keeps35 : Keeps m t (35, .dml, [.any, .any, .tabExprs, .any, .updates, .clause, .orders, .limit]) := by
  intro d h
  obtain ⟨-, -, h3, -, h5, h6, h7, h8, -⟩ := h
  show Holds m t .dml (rule35 d)
  exact ⟨_, rfl, fine_update h3 h5 (clause_fine h6) h7 h8⟩
theorem keeps36 : Keeps m t (36, .dml, [.any, .any, .any, .any, .any, .clause, .orders, .limit]) := by
  intro d h
  obtain ⟨-, -, -, -, -, h6, h7, h8, -⟩ := h
  show Holds m t .dml (rule36 d)
  exact ⟨_, rfl, fine_delete (all_one (by show Fine t (cat _); parts)) (clause_fine h6) h7 h8⟩
theorem keeps37 : Keeps m t (37, .dml, [.any, .any, .any, .any, .using, .tabExprs, .clause]) := by
  intro d h
  obtain ⟨-, -, -, -, h5, h6, h7, -⟩ := h
  show Holds m t .dml (rule37 d)
  exact ⟨_, rfl, fine_delete h6 (clause_fine h7) all_none (by simp)⟩
theorem keeps38 : Keeps m t (38, .dml, [.any, .any, .any, .any, .tabExprs, .clause]) := by
  intro d h
  obtain ⟨-, -, -, -, h5, h6, -⟩ := h
  show Holds m t .dml (rule38 d)
  exact ⟨_, rfl, fine_delete h5 (clause_fine h6) all_none (by simp)⟩
theorem keeps45 : Keeps m t (45, .stmt, []) := by
  intro d h
  show Holds m t .stmt (rule45 d)
  first
  | (intro a ha; cases ha; done)
  | (intro a ha; have ha := Statement.ddl.inj ha; subst ha; exact whole_plain (by dsimp only; decide))
theorem keeps46 : Keeps m t (46, .stmt, []) := by
  intro d h
  show Holds m t .stmt (rule46 d)
  first
  | (intro a ha; cases ha; done)
  | (intro a ha; have ha := Statement.ddl.inj ha; subst ha; exact whole_plain (by dsimp only; decide))
theorem keeps47 : Keeps m t (47, .stmt, []) := by
  intro d h
  show Holds m t .stmt (rule47 d)
  first
  | (intro a ha; cases ha; done)
  | (intro a ha; have ha := Statement.ddl.inj ha; subst ha; exact whole_plain (by dsimp only; decide))
theorem keeps48 : Keeps m t (48, .stmt, []) := by
  intro d h
  show Holds m t .stmt (rule48 d)
  first
  | (intro a ha; cases ha; done)
  | (intro a ha; have ha := Statement.ddl.inj ha; subst ha; exact whole_plain (by dsimp only; decide))
theorem keeps60 : Keeps m t (60, .stmt, [.tablePrefix, .table]) := by
  intro d h
  obtain ⟨h1, h2, -⟩ := h
  show Holds m t .stmt (rule60 d)
  intro a ha; have ha := Statement.ddl.inj ha; subst ha; exact whole_table h1 rfl h2.1 h2.2
theorem keeps61 : Keeps m t (61, .stmt, [.any, .any, .any, .any, .any, .any, .any, .any, .indexCols, .any, .any, .clause, .options]) := by
  intro d h
  obtain ⟨-, -, -, -, -, -, -, -, h9, -, -, h12, h13, -⟩ := h
  show Holds m t .stmt (rule61 d)
  intro a ha; have ha := Statement.ddl.inj ha; subst ha; exact whole_index (.inl rfl) h9 fun s w hs hw => by cases hs; exact where_whole h12 hw
theorem keeps62 : Keeps m t (62, .stmt, [.any, .any, .any, .any, .any, .using, .any, .any, .any, .any, .indexCols, .any, .options]) := by
  intro d h
  obtain ⟨-, -, -, -, -, h6, -, -, -, -, h11, -, h13, -⟩ := h
  show Holds m t .stmt (rule62 d)
  intro a ha; have ha := Statement.ddl.inj ha; subst ha; exact whole_index (.inl rfl) h11 fun s w hs hw => by cases hs; cases hw
theorem keeps63 : Keeps m t (63, .stmt, [.any, .any, .any, .any, .any, .any, .any, .using, .any, .any, .indexCols, .any, .clause, .options]) := by
  intro d h
  obtain ⟨-, -, -, -, -, -, -, h8, -, -, h11, -, h13, h14, -⟩ := h
  show Holds m t .stmt (rule63 d)
  intro a ha; have ha := Statement.ddl.inj ha; subst ha; exact whole_index (.inl rfl) h11 fun s w hs hw => by cases hs; exact where_whole h13 hw
theorem keeps64 : Keeps m t (64, .stmt, [.any, .any, .rendered, .any, .any, .sel]) := by
  intro d h
  obtain ⟨-, -, h3, -, -, h6, -⟩ := h
  show Holds m t .stmt (rule64 d)
  intro a ha; have ha := Statement.ddl.inj ha; subst ha; exact whole_view rfl rfl (view_whole (h6 h3))
theorem keeps65 : Keeps m t (65, .stmt, []) := by
  intro d h
  show Holds m t .stmt (rule65 d)
  first
  | (intro a ha; cases ha; done)
  | (intro a ha; have ha := Statement.ddl.inj ha; subst ha; exact whole_plain (by dsimp only; decide))
theorem keeps66 : Keeps m t (66, .stmt, []) := by
  intro d h
  show Holds m t .stmt (rule66 d)
  first
  | (intro a ha; cases ha; done)
  | (intro a ha; have ha := Statement.ddl.inj ha; subst ha; exact whole_plain (by dsimp only; decide))
theorem keeps67 : Keeps m t (67, .stmt, []) := by
  intro d h
  show Holds m t .stmt (rule67 d)
  first
  | (intro a ha; cases ha; done)
  | (intro a ha; have ha := Statement.ddl.inj ha; subst ha; exact whole_plain (by dsimp only; decide))
theorem keeps68 : Keeps m t (68, .stmt, [.any, .rendered, .any, .any, .any, .any, .any, .any, .any, .optExpr, .optExpr]) := by
  intro d h
  obtain ⟨-, h2, -, -, -, -, -, -, -, h10, h11, -⟩ := h
  show Holds m t .stmt (rule68 d)
  intro a ha; have ha := Statement.ddl.inj ha; subst ha; exact whole_policy rfl rfl (fun e he => sql_whole (fun x hx => h10 x hx h2) he) fun e he => sql_whole (fun x hx => h11 x hx h2) he
theorem keeps69 : Keeps m t (69, .stmt, [.any, .rendered, .any, .any, .any, .any, .any, .any, .any, .any, .dml]) := by
  intro d h
  obtain ⟨-, h2, -, -, -, -, -, -, -, -, h11, -⟩ := h
  show Holds m t .stmt (rule69 d)
  intro a ha; have ha := Statement.ddl.inj ha; subst ha; subst h2; exact whole_trigger rfl rfl (trigger_whole (all_one (dml_fine h11)))
theorem keeps70 : Keeps m t (70, .stmt, [.any, .rendered, .any, .any, .any, .any, .any, .any, .body]) := by
  intro d h
  obtain ⟨-, h2, -, -, -, -, -, -, h9, -⟩ := h
  show Holds m t .stmt (rule70 d)
  intro a ha; have ha := Statement.ddl.inj ha; subst ha; subst h2; exact whole_trigger rfl rfl (trigger_whole h9)
theorem keeps76 : Keeps m t (76, .body, [.dml]) := by
  intro d h
  obtain ⟨h1, -⟩ := h
  show Holds m t .body (rule76 d)
  exact all_one (dml_fine h1)
theorem keeps77 : Keeps m t (77, .body, [.body, .dml]) := by
  intro d h
  obtain ⟨h1, h2, -⟩ := h
  show Holds m t .body (rule77 d)
  exact all_snoc h1 (dml_fine h2)
theorem keeps78 : Keeps m t (78, .dml, [.dml]) := by
  intro d h
  obtain ⟨h1, -⟩ := h
  show Holds m t .dml (rule78 d)
  exact h1
theorem keeps79 : Keeps m t (79, .dml, [.dml]) := by
  intro d h
  obtain ⟨h1, -⟩ := h
  show Holds m t .dml (d 1)
  exact h1
theorem keeps80 : Keeps m t (80, .dml, [.dml]) := by
  intro d h
  obtain ⟨h1, -⟩ := h
  show Holds m t .dml (d 1)
  exact h1
theorem keeps90 : Keeps m t (90, .optExpr, []) := by
  intro d h
  show Holds m t .optExpr (rule90 d)
  exact none_fine
theorem keeps91 : Keeps m t (91, .optExpr, [.using, .expr]) := by
  intro d h
  obtain ⟨h1, h2, -⟩ := h
  show Holds m t .optExpr (rule91 d)
  exact h2.some
theorem keeps92 : Keeps m t (92, .optExpr, []) := by
  intro d h
  show Holds m t .optExpr (rule92 d)
  exact none_fine
theorem keeps93 : Keeps m t (93, .optExpr, [.any, .rendered, .expr]) := by
  intro d h
  obtain ⟨-, h2, h3, -⟩ := h
  show Holds m t .optExpr (rule93 d)
  exact h3.some
theorem keeps106 : Keeps m t (106, .tablePrefix, []) := by
  intro d h
  show Holds m t .tablePrefix (rule106 d)
  rfl
theorem keeps107 : Keeps m t (107, .table, [.any, .table]) := by
  intro d h
  obtain ⟨-, h2, -⟩ := h
  show Holds m t .table (rule107 d)
  exact h2
theorem keeps108 : Keeps m t (108, .table, [.column]) := by
  intro d h
  obtain ⟨h1, -⟩ := h
  show Holds m t .table (rule108 d)
  exact ⟨all_one h1, all_none⟩
theorem keeps109 : Keeps m t (109, .table, [.table, .any, .column]) := by
  intro d h
  obtain ⟨h1, -, h3, -⟩ := h
  show Holds m t .table (rule109 d)
  exact ⟨all_snoc h1.1 h3, h1.2⟩
theorem keeps110 : Keeps m t (110, .table, [.table, .any, .indexDef]) := by
  intro d h
  obtain ⟨h1, -, h3, -⟩ := h
  show Holds m t .table (rule110 d)
  exact ⟨h1.1, all_snoc h1.2 h3⟩
theorem keeps111 : Keeps m t (111, .table, [.table]) := by
  intro d h
  obtain ⟨h1, -⟩ := h
  show Holds m t .table (rule111 d)
  exact h1
theorem keeps112 : Keeps m t (112, .table, [.table, .any, .indexDef]) := by
  intro d h
  obtain ⟨h1, -, h3, -⟩ := h
  show Holds m t .table (rule112 d)
  exact ⟨h1.1, all_snoc h1.2 h3⟩
theorem keeps113 : Keeps m t (113, .column, [.any, .colType]) := by
  intro d h
  obtain ⟨-, h2, -⟩ := h
  show Holds m t .column (rule113 d)
  exact h2
theorem keeps114 : Keeps m t (114, .plainType, [.plainType]) := by
  intro d h
  obtain ⟨h1, -⟩ := h
  show Holds m t .plainType (rule114 d)
  exact h1
theorem keeps115 : Keeps m t (115, .plainType, [.plainType]) := by
  intro d h
  obtain ⟨h1, -⟩ := h
  show Holds m t .plainType (d 1)
  exact h1
theorem keeps116 : Keeps m t (116, .plainType, [.plainType]) := by
  intro d h
  obtain ⟨h1, -⟩ := h
  show Holds m t .plainType (d 1)
  exact h1
theorem keeps117 : Keeps m t (117, .plainType, [.plainType]) := by
  intro d h
  obtain ⟨h1, -⟩ := h
  show Holds m t .plainType (d 1)
  exact h1
theorem keeps118 : Keeps m t (118, .plainType, [.plainType]) := by
  intro d h
  obtain ⟨h1, -⟩ := h
  show Holds m t .plainType (d 1)
  exact h1
theorem keeps119 : Keeps m t (119, .colType, [.plainType]) := by
  intro d h
  obtain ⟨h1, -⟩ := h
  show Holds m t .colType (rule119 d)
  exact ⟨fun i s hi => (by cases hi), fun k hk => by rw [show (rule119 d).columnType.check = _ from h1] at hk; cases hk⟩
theorem keeps120 : Keeps m t (120, .colType, [.colType]) := by
  intro d h
  obtain ⟨h1, -⟩ := h
  show Holds m t .colType (rule120 d)
  exact ⟨h1.identity, h1.check⟩
theorem keeps121 : Keeps m t (121, .colType, [.colType]) := by
  intro d h
  obtain ⟨h1, -⟩ := h
  show Holds m t .colType (rule121 d)
  exact ⟨h1.identity, h1.check⟩
theorem keeps122 : Keeps m t (122, .colType, [.colType]) := by
  intro d h
  obtain ⟨h1, -⟩ := h
  show Holds m t .colType (rule122 d)
  exact ⟨h1.identity, h1.check⟩
theorem keeps123 : Keeps m t (123, .colType, [.colType]) := by
  intro d h
  obtain ⟨h1, -⟩ := h
  show Holds m t .colType (rule123 d)
  exact ⟨h1.identity, h1.check⟩
theorem keeps124 : Keeps m t (124, .colType, [.colType]) := by
  intro d h
  obtain ⟨h1, -⟩ := h
  show Holds m t .colType (rule124 d)
  exact ⟨h1.identity, h1.check⟩
theorem keeps125 : Keeps m t (125, .colType, [.colType]) := by
  intro d h
  obtain ⟨h1, -⟩ := h
  show Holds m t .colType (rule125 d)
  exact ⟨h1.identity, h1.check⟩
theorem keeps126 : Keeps m t (126, .colType, [.colType]) := by
  intro d h
  obtain ⟨h1, -⟩ := h
  show Holds m t .colType (rule126 d)
  exact ⟨h1.identity, h1.check⟩
theorem keeps127 : Keeps m t (127, .colType, [.colType]) := by
  intro d h
  obtain ⟨h1, -⟩ := h
  show Holds m t .colType (rule127 d)
  exact ⟨h1.identity, h1.check⟩
theorem keeps128 : Keeps m t (128, .colType, [.colType]) := by
  intro d h
  obtain ⟨h1, -⟩ := h
  show Holds m t .colType (rule128 d)
  exact ⟨h1.identity, h1.check⟩
theorem keeps129 : Keeps m t (129, .colType, [.colType]) := by
  intro d h
  obtain ⟨h1, -⟩ := h
  show Holds m t .colType (rule129 d)
  exact ⟨h1.identity, h1.check⟩
theorem keeps130 : Keeps m t (130, .colType, [.colType]) := by
  intro d h
  obtain ⟨h1, -⟩ := h
  show Holds m t .colType (rule130 d)
  exact ⟨h1.identity, h1.check⟩
theorem keeps131 : Keeps m t (131, .colType, [.colType, .rendered, .any, .any, .expr]) := by
  intro d h
  obtain ⟨h1, h2, -, -, h5, -⟩ := h
  show Holds m t .colType (rule131 d)
  exact ⟨h1.identity, fun k hk => check_whole (fun _ => rfl) (h5.clause h2) hk⟩
theorem keeps132 : Keeps m t (132, .colType, [.colType, .any, .any, .rendered, .any, .any, .expr]) := by
  intro d h
  obtain ⟨h1, -, -, h4, -, -, h7, -⟩ := h
  show Holds m t .colType (rule132 d)
  exact ⟨h1.identity, fun k hk => check_whole (fun _ => rfl) (h7.clause h4) hk⟩
theorem keeps133 : Keeps m t (133, .colType, [.colType]) := by
  intro d h
  obtain ⟨h1, -⟩ := h
  show Holds m t .colType (rule133 d)
  exact ⟨h1.identity, h1.check⟩
theorem keeps134 : Keeps m t (134, .colType, [.colType]) := by
  intro d h
  obtain ⟨h1, -⟩ := h
  show Holds m t .colType (rule134 d)
  exact ⟨h1.identity, h1.check⟩
theorem keeps135 : Keeps m t (135, .colType, [.colType]) := by
  intro d h
  obtain ⟨h1, -⟩ := h
  show Holds m t .colType (rule135 d)
  exact ⟨h1.identity, h1.check⟩
theorem keeps136 : Keeps m t (136, .colType, [.colType, .any, .behavior]) := by
  intro d h
  obtain ⟨h1, -, h3, -⟩ := h
  show Holds m t .colType (rule136 d)
  exact ⟨fun i s hi hs => (by cases hi; cases hs), h1.check⟩
theorem keeps137 : Keeps m t (137, .colType, [.colType, .any, .behavior]) := by
  intro d h
  obtain ⟨h1, -, h3, -⟩ := h
  show Holds m t .colType (rule137 d)
  exact ⟨fun i s hi hs => by cases hi; exact .inl h3, h1.check⟩
theorem keeps138 : Keeps m t (138, .colType, [.colType, .any, .any, .integral, .any, .integral]) := by
  intro d h
  obtain ⟨h1, -, -, h4, -, h6, -⟩ := h
  show Holds m t .colType (rule138 d)
  exact ⟨fun i s hi hs => by cases hi; cases hs; exact .inr ⟨nofun, nofun⟩, h1.check⟩
theorem keeps139 : Keeps m t (139, .colType, [.colType, .any, .any, .replication]) := by
  intro d h
  obtain ⟨h1, -, -, h4, -⟩ := h
  show Holds m t .colType (rule139 d)
  exact h4.elim
theorem keeps151 : Keeps m t (151, .behavior, [.word]) := by
  intro d h
  obtain ⟨h1, -⟩ := h
  show Holds m t .behavior (rule151 d)
  exact h1
theorem keeps152 : Keeps m t (152, .behavior, []) := by
  intro d h
  show Holds m t .behavior (rule152 d)
  show _ ++ lit " " ++ _ ≠ []; simp [lit]
theorem keeps180 : Keeps m t (180, .plainType, [.plainType, .length]) := by
  intro d h
  obtain ⟨h1, h2, -⟩ := h
  show Holds m t .plainType (rule180 d)
  exact h1
theorem keeps181 : Keeps m t (181, .plainType, [.plainType]) := by
  intro d h
  obtain ⟨h1, -⟩ := h
  show Holds m t .plainType (rule181 d)
  exact h1
theorem keeps182 : Keeps m t (182, .plainType, []) := by
  intro d h
  show Holds m t .plainType (rule182 d)
  rfl
theorem keeps183 : Keeps m t (183, .plainType, []) := by
  intro d h
  show Holds m t .plainType (rule183 d)
  rfl
theorem keeps184 : Keeps m t (184, .plainType, []) := by
  intro d h
  show Holds m t .plainType (rule184 d)
  rfl
theorem keeps185 : Keeps m t (185, .plainType, []) := by
  intro d h
  show Holds m t .plainType (rule185 d)
  rfl
theorem keeps186 : Keeps m t (186, .plainType, []) := by
  intro d h
  show Holds m t .plainType (rule186 d)
  rfl
theorem keeps187 : Keeps m t (187, .plainType, []) := by
  intro d h
  show Holds m t .plainType (rule187 d)
  rfl
theorem keeps188 : Keeps m t (188, .plainType, []) := by
  intro d h
  show Holds m t .plainType (rule188 d)
  rfl
theorem keeps189 : Keeps m t (189, .plainType, []) := by
  intro d h
  show Holds m t .plainType (rule189 d)
  rfl
theorem keeps190 : Keeps m t (190, .plainType, []) := by
  intro d h
  show Holds m t .plainType (rule190 d)
  rfl
theorem keeps191 : Keeps m t (191, .plainType, []) := by
  intro d h
  show Holds m t .plainType (rule191 d)
  rfl
theorem keeps192 : Keeps m t (192, .plainType, []) := by
  intro d h
  show Holds m t .plainType (rule192 d)
  rfl
theorem keeps193 : Keeps m t (193, .plainType, []) := by
  intro d h
  show Holds m t .plainType (rule193 d)
  rfl
theorem keeps194 : Keeps m t (194, .plainType, []) := by
  intro d h
  show Holds m t .plainType (rule194 d)
  rfl
theorem keeps195 : Keeps m t (195, .plainType, []) := by
  intro d h
  show Holds m t .plainType (rule195 d)
  rfl
theorem keeps196 : Keeps m t (196, .plainType, [.any, .lengths]) := by
  intro d h
  obtain ⟨-, h2, -⟩ := h
  show Holds m t .plainType (rule196 d)
  rfl
theorem keeps197 : Keeps m t (197, .plainType, [.any, .lengths]) := by
  intro d h
  obtain ⟨-, h2, -⟩ := h
  show Holds m t .plainType (rule197 d)
  rfl
theorem keeps198 : Keeps m t (198, .plainType, []) := by
  intro d h
  show Holds m t .plainType (rule198 d)
  rfl
theorem keeps199 : Keeps m t (199, .plainType, []) := by
  intro d h
  show Holds m t .plainType (rule199 d)
  rfl
theorem keeps200 : Keeps m t (200, .plainType, []) := by
  intro d h
  show Holds m t .plainType (rule200 d)
  rfl
theorem keeps201 : Keeps m t (201, .plainType, [.any, .length]) := by
  intro d h
  obtain ⟨-, h2, -⟩ := h
  show Holds m t .plainType (rule201 d)
  rfl
theorem keeps202 : Keeps m t (202, .plainType, [.any, .length]) := by
  intro d h
  obtain ⟨-, h2, -⟩ := h
  show Holds m t .plainType (rule202 d)
  rfl
theorem keeps203 : Keeps m t (203, .plainType, [.any, .length]) := by
  intro d h
  obtain ⟨-, h2, -⟩ := h
  show Holds m t .plainType (rule203 d)
  rfl
theorem keeps204 : Keeps m t (204, .plainType, []) := by
  intro d h
  show Holds m t .plainType (rule204 d)
  rfl
theorem keeps205 : Keeps m t (205, .plainType, [.any, .length]) := by
  intro d h
  obtain ⟨-, h2, -⟩ := h
  show Holds m t .plainType (rule205 d)
  rfl
theorem keeps206 : Keeps m t (206, .plainType, []) := by
  intro d h
  show Holds m t .plainType (rule206 d)
  rfl
theorem keeps207 : Keeps m t (207, .plainType, []) := by
  intro d h
  show Holds m t .plainType (rule207 d)
  rfl
theorem keeps208 : Keeps m t (208, .plainType, []) := by
  intro d h
  show Holds m t .plainType (rule208 d)
  rfl
theorem keeps209 : Keeps m t (209, .plainType, []) := by
  intro d h
  show Holds m t .plainType (rule209 d)
  rfl
theorem keeps210 : Keeps m t (210, .plainType, [.any, .length]) := by
  intro d h
  obtain ⟨-, h2, -⟩ := h
  show Holds m t .plainType (rule210 d)
  rfl
theorem keeps211 : Keeps m t (211, .plainType, [.any, .length]) := by
  intro d h
  obtain ⟨-, h2, -⟩ := h
  show Holds m t .plainType (rule211 d)
  rfl
theorem keeps212 : Keeps m t (212, .plainType, [.any, .length]) := by
  intro d h
  obtain ⟨-, h2, -⟩ := h
  show Holds m t .plainType (rule212 d)
  rfl
theorem keeps213 : Keeps m t (213, .plainType, [.any, .length]) := by
  intro d h
  obtain ⟨-, h2, -⟩ := h
  show Holds m t .plainType (rule213 d)
  rfl
theorem keeps214 : Keeps m t (214, .plainType, [.any, .length]) := by
  intro d h
  obtain ⟨-, h2, -⟩ := h
  show Holds m t .plainType (rule214 d)
  rfl
theorem keeps215 : Keeps m t (215, .plainType, []) := by
  intro d h
  show Holds m t .plainType (rule215 d)
  rfl
theorem keeps216 : Keeps m t (216, .plainType, [.any, .any, .length]) := by
  intro d h
  obtain ⟨-, -, h3, -⟩ := h
  show Holds m t .plainType (rule216 d)
  rfl
theorem keeps217 : Keeps m t (217, .plainType, [.any, .length]) := by
  intro d h
  obtain ⟨-, h2, -⟩ := h
  show Holds m t .plainType (rule217 d)
  rfl
theorem keeps218 : Keeps m t (218, .plainType, [.any, .length]) := by
  intro d h
  obtain ⟨-, h2, -⟩ := h
  show Holds m t .plainType (rule218 d)
  rfl
theorem keeps219 : Keeps m t (219, .plainType, []) := by
  intro d h
  show Holds m t .plainType (rule219 d)
  rfl
theorem keeps220 : Keeps m t (220, .plainType, []) := by
  intro d h
  show Holds m t .plainType (rule220 d)
  rfl
theorem keeps221 : Keeps m t (221, .plainType, []) := by
  intro d h
  show Holds m t .plainType (rule221 d)
  rfl
theorem keeps222 : Keeps m t (222, .plainType, []) := by
  intro d h
  show Holds m t .plainType (rule222 d)
  rfl
theorem keeps223 : Keeps m t (223, .plainType, []) := by
  intro d h
  show Holds m t .plainType (rule223 d)
  rfl
theorem keeps224 : Keeps m t (224, .plainType, []) := by
  intro d h
  show Holds m t .plainType (rule224 d)
  rfl
theorem keeps225 : Keeps m t (225, .plainType, []) := by
  intro d h
  show Holds m t .plainType (rule225 d)
  rfl
theorem keeps226 : Keeps m t (226, .plainType, []) := by
  intro d h
  show Holds m t .plainType (rule226 d)
  rfl
theorem keeps227 : Keeps m t (227, .plainType, []) := by
  intro d h
  show Holds m t .plainType (rule227 d)
  rfl
theorem keeps228 : Keeps m t (228, .plainType, []) := by
  intro d h
  show Holds m t .plainType (rule228 d)
  rfl
theorem keeps229 : Keeps m t (229, .plainType, []) := by
  intro d h
  show Holds m t .plainType (rule229 d)
  rfl
theorem keeps230 : Keeps m t (230, .plainType, []) := by
  intro d h
  show Holds m t .plainType (rule230 d)
  rfl
theorem keeps231 : Keeps m t (231, .plainType, []) := by
  intro d h
  show Holds m t .plainType (rule231 d)
  rfl
theorem keeps232 : Keeps m t (232, .plainType, []) := by
  intro d h
  show Holds m t .plainType (rule232 d)
  rfl
theorem keeps233 : Keeps m t (233, .plainType, []) := by
  intro d h
  show Holds m t .plainType (rule233 d)
  rfl
theorem keeps234 : Keeps m t (234, .plainType, []) := by
  intro d h
  show Holds m t .plainType (rule234 d)
  rfl
theorem keeps235 : Keeps m t (235, .plainType, []) := by
  intro d h
  show Holds m t .plainType (rule235 d)
  rfl
theorem keeps236 : Keeps m t (236, .plainType, []) := by
  intro d h
  show Holds m t .plainType (rule236 d)
  rfl
theorem keeps237 : Keeps m t (237, .plainType, []) := by
  intro d h
  show Holds m t .plainType (rule237 d)
  rfl
theorem keeps238 : Keeps m t (238, .plainType, []) := by
  intro d h
  show Holds m t .plainType (rule238 d)
  rfl
theorem keeps239 : Keeps m t (239, .plainType, []) := by
  intro d h
  show Holds m t .plainType (rule239 d)
  rfl
theorem keeps240 : Keeps m t (240, .plainType, []) := by
  intro d h
  show Holds m t .plainType (rule240 d)
  rfl
theorem keeps243 : Keeps m t (243, .length, []) := by
  intro d h
  show Holds m t .length (rule243 d)
  exact none_written
theorem keeps244 : Keeps m t (244, .length, [.any, .integral]) := by
  intro d h
  obtain ⟨-, h2, -⟩ := h
  show Holds m t .length (rule244 d)
  exact int_written
theorem keeps247 : Keeps m t (247, .lengths, []) := by
  intro d h
  show Holds m t .lengths (rule247 d)
  exact ⟨none_written, none_written⟩
theorem keeps248 : Keeps m t (248, .lengths, [.any, .integral]) := by
  intro d h
  obtain ⟨-, h2, -⟩ := h
  show Holds m t .lengths (rule248 d)
  exact ⟨int_written, none_written⟩
theorem keeps249 : Keeps m t (249, .lengths, [.any, .integral, .any, .integral]) := by
  intro d h
  obtain ⟨-, h2, -, h4, -⟩ := h
  show Holds m t .lengths (rule249 d)
  exact ⟨int_written, int_written⟩
theorem keeps266 : Keeps m t (266, .indexDef, [.any, .any, .indexCols, .any, .options]) := by
  intro d h
  obtain ⟨-, -, h3, -, h5, -⟩ := h
  show Holds m t .indexDef (rule266 d)
  exact ⟨h3, h5⟩
theorem keeps267 : Keeps m t (267, .options, []) := by
  intro d h
  show Holds m t .options (rule267 d)
  exact fun _ => all_none
theorem keeps268 : Keeps m t (268, .options, [.options]) := by
  intro d h
  obtain ⟨h1, -⟩ := h
  show Holds m t .options (rule268 d)
  exact h1
theorem keeps269 : Keeps m t (269, .options, [.any, .any, .options]) := by
  intro d h
  obtain ⟨-, -, h3, -⟩ := h
  show Holds m t .options (rule269 d)
  exact h3
theorem keeps270 : Keeps m t (270, .options, [.option]) := by
  intro d h
  obtain ⟨h1, -⟩ := h
  show Holds m t .options (rule270 d)
  exact h1
theorem keeps271 : Keeps m t (271, .options, [.options, .option]) := by
  intro d h
  obtain ⟨h1, h2, -⟩ := h
  show Holds m t .options (rule271 d)
  exact options_snoc h1 h2
theorem keeps272 : Keeps m t (272, .options, [.option]) := by
  intro d h
  obtain ⟨h1, -⟩ := h
  show Holds m t .options (rule272 d)
  exact h1
theorem keeps273 : Keeps m t (273, .options, [.options, .any, .option]) := by
  intro d h
  obtain ⟨h1, -, h3, -⟩ := h
  show Holds m t .options (rule273 d)
  exact options_snoc h1 h3
theorem keeps274 : Keeps m t (274, .option, [.using]) := by
  intro d h
  obtain ⟨h1, -⟩ := h
  show Holds m t .option (rule274 d)
  exact fun hm => (hm.elim h1.1 h1.2).elim
theorem keeps275 : Keeps m t (275, .option, [.any, .any, .integral]) := by
  intro d h
  obtain ⟨-, -, h3, -⟩ := h
  show Holds m t .option (rule275 d)
  exact options_one nofun
theorem keeps276 : Keeps m t (276, .option, []) := by
  intro d h
  show Holds m t .option (rule276 d)
  exact options_one nofun
theorem keeps277 : Keeps m t (277, .option, []) := by
  intro d h
  show Holds m t .option (rule277 d)
  exact options_one nofun
theorem keeps278 : Keeps m t (278, .option, [.any, .any, .onOff]) := by
  intro d h
  obtain ⟨-, -, h3, -⟩ := h
  show Holds m t .option (rule278 d)
  exact options_one h3
theorem keeps279 : Keeps m t (279, .option, [.any, .any, .integral]) := by
  intro d h
  obtain ⟨-, -, h3, -⟩ := h
  show Holds m t .option (rule279 d)
  exact options_one nofun
theorem keeps280 : Keeps m t (280, .option, [.any, .any, .onOff]) := by
  intro d h
  obtain ⟨-, -, h3, -⟩ := h
  show Holds m t .option (rule280 d)
  exact options_one h3
theorem keeps281 : Keeps m t (281, .option, [.any, .any, .onOff]) := by
  intro d h
  obtain ⟨-, -, h3, -⟩ := h
  show Holds m t .option (rule281 d)
  exact options_one h3
theorem keeps282 : Keeps m t (282, .option, [.any, .any, .onOff]) := by
  intro d h
  obtain ⟨-, -, h3, -⟩ := h
  show Holds m t .option (rule282 d)
  exact options_one h3
theorem keeps283 : Keeps m t (283, .option, [.any, .any, .onOff]) := by
  intro d h
  obtain ⟨-, -, h3, -⟩ := h
  show Holds m t .option (rule283 d)
  exact options_one h3
theorem keeps284 : Keeps m t (284, .option, [.any, .any, .onOff]) := by
  intro d h
  obtain ⟨-, -, h3, -⟩ := h
  show Holds m t .option (rule284 d)
  exact options_one h3
theorem keeps287 : Keeps m t (287, .onOff, []) := by
  intro d h
  show Holds m t .onOff (rule287 d)
  exact nofun
theorem keeps288 : Keeps m t (288, .onOff, []) := by
  intro d h
  show Holds m t .onOff (rule288 d)
  exact nofun
theorem keeps302 : Keeps m t (302, .indexCols, []) := by
  intro d h
  show Holds m t .indexCols (rule302 d)
  exact List.cons_ne_nil _ _
theorem keeps303 : Keeps m t (303, .indexCols, [.indexCols]) := by
  intro d h
  obtain ⟨h1, -⟩ := h
  show Holds m t .indexCols (rule303 d)
  show _ ++ [_] ≠ []; simp
theorem keeps316 : Keeps m t (316, .indexDef, [.any, .any, .any, .any, .any, .any, .indexCols, .any, .options]) := by
  intro d h
  obtain ⟨-, -, -, -, -, -, h7, -, h9, -⟩ := h
  show Holds m t .indexDef (rule316 d)
  exact ⟨h7, h9⟩
theorem keeps335 : Keeps m t (335, .stmt, []) := by
  intro d h
  show Holds m t .stmt (rule335 d)
  first
  | (intro a ha; cases ha; done)
  | (intro a ha; have ha := Statement.ddl.inj ha; subst ha; exact whole_plain (by dsimp only; decide))
theorem keeps336 : Keeps m t (336, .stmt, [.any, .any, .any, .any, .any, .any, .any, .any, .any, .indexCols]) := by
  intro d h
  obtain ⟨-, -, -, -, -, -, -, -, -, h10, -⟩ := h
  show Holds m t .stmt (rule336 d)
  intro a ha; have ha := Statement.ddl.inj ha; subst ha; exact whole_index (.inr (.inl rfl)) h10 fun s w hs hw => by cases hs; cases hw
theorem keeps337 : Keeps m t (337, .stmt, [.any, .any, .any, .any, .any, .any, .any, .any, .any, .any, .any, .indexCols]) := by
  intro d h
  obtain ⟨-, -, -, -, -, -, -, -, -, -, -, h12, -⟩ := h
  show Holds m t .stmt (rule337 d)
  intro a ha; have ha := Statement.ddl.inj ha; subst ha; exact whole_index (.inr (.inr rfl)) h12 fun s w hs hw => by cases hs; cases hw
theorem keeps338 : Keeps m t (338, .stmt, []) := by
  intro d h
  show Holds m t .stmt (rule338 d)
  intro a ha; have ha := Statement.ddl.inj ha; subst ha; exact whole_foreignKey rfl nofun
theorem keeps339 : Keeps m t (339, .stmt, []) := by
  intro d h
  show Holds m t .stmt (rule339 d)
  first
  | (intro a ha; cases ha; done)
  | (intro a ha; have ha := Statement.ddl.inj ha; subst ha; exact whole_plain (by dsimp only; decide))
theorem keeps340 : Keeps m t (340, .stmt, []) := by
  intro d h
  show Holds m t .stmt (rule340 d)
  first
  | (intro a ha; cases ha; done)
  | (intro a ha; have ha := Statement.ddl.inj ha; subst ha; exact whole_plain (by dsimp only; decide))
theorem keeps341 : Keeps m t (341, .stmt, []) := by
  intro d h
  show Holds m t .stmt (rule341 d)
  first
  | (intro a ha; cases ha; done)
  | (intro a ha; have ha := Statement.ddl.inj ha; subst ha; exact whole_plain (by dsimp only; decide))
theorem keeps342 : Keeps m t (342, .stmt, []) := by
  intro d h
  show Holds m t .stmt (rule342 d)
  first
  | (intro a ha; cases ha; done)
  | (intro a ha; have ha := Statement.ddl.inj ha; subst ha; exact whole_plain (by dsimp only; decide))
theorem keeps343 : Keeps m t (343, .stmt, []) := by
  intro d h
  show Holds m t .stmt (rule343 d)
  first
  | (intro a ha; cases ha; done)
  | (intro a ha; have ha := Statement.ddl.inj ha; subst ha; exact whole_plain (by dsimp only; decide))
theorem keeps344 : Keeps m t (344, .stmt, []) := by
  intro d h
  show Holds m t .stmt (rule344 d)
  first
  | (intro a ha; cases ha; done)
  | (intro a ha; have ha := Statement.ddl.inj ha; subst ha; exact whole_plain (by dsimp only; decide))
theorem keeps345 : Keeps m t (345, .stmt, [.any, .rendered]) := by
  intro d h
  obtain ⟨-, h2, -⟩ := h
  show Holds m t .stmt (rule345 d)
  first
  | (intro a ha; cases ha; done)
  | (intro a ha; have ha := Statement.ddl.inj ha; subst ha; exact whole_plain (by dsimp only; decide))
theorem keeps346 : Keeps m t (346, .stmt, []) := by
  intro d h
  show Holds m t .stmt (rule346 d)
  first
  | (intro a ha; cases ha; done)
  | (intro a ha; have ha := Statement.ddl.inj ha; subst ha; exact whole_plain (by dsimp only; decide))
theorem keeps372 : Keeps m t (372, .stmt, []) := by
  intro d h
  show Holds m t .stmt (rule372 d)
  first
  | (intro a ha; cases ha; done)
  | (intro a ha; have ha := Statement.ddl.inj ha; subst ha; exact whole_plain (by dsimp only; decide))
theorem keeps373 : Keeps m t (373, .stmt, []) := by
  intro d h
  show Holds m t .stmt (rule373 d)
  first
  | (intro a ha; cases ha; done)
  | (intro a ha; have ha := Statement.ddl.inj ha; subst ha; exact whole_plain (by dsimp only; decide))
theorem keeps374 : Keeps m t (374, .stmt, []) := by
  intro d h
  show Holds m t .stmt (rule374 d)
  first
  | (intro a ha; cases ha; done)
  | (intro a ha; have ha := Statement.ddl.inj ha; subst ha; exact whole_plain (by dsimp only; decide))
theorem keeps375 : Keeps m t (375, .stmt, [.any, .rendered]) := by
  intro d h
  obtain ⟨-, h2, -⟩ := h
  show Holds m t .stmt (rule375 d)
  first
  | (intro a ha; cases ha; done)
  | (intro a ha; have ha := Statement.ddl.inj ha; subst ha; exact whole_plain (by dsimp only; decide))
theorem keeps376 : Keeps m t (376, .stmt, []) := by
  intro d h
  show Holds m t .stmt (rule376 d)
  first
  | (intro a ha; cases ha; done)
  | (intro a ha; have ha := Statement.ddl.inj ha; subst ha; exact whole_plain (by dsimp only; decide))
theorem keeps377 : Keeps m t (377, .stmt, []) := by
  intro d h
  show Holds m t .stmt (rule377 d)
  first
  | (intro a ha; cases ha; done)
  | (intro a ha; have ha := Statement.ddl.inj ha; subst ha; exact whole_plain (by dsimp only; decide))
theorem keeps378 : Keeps m t (378, .stmt, []) := by
  intro d h
  show Holds m t .stmt (rule378 d)
  first
  | (intro a ha; cases ha; done)
  | (intro a ha; have ha := Statement.ddl.inj ha; subst ha; exact whole_plain (by dsimp only; decide))
theorem keeps379 : Keeps m t (379, .stmt, []) := by
  intro d h
  show Holds m t .stmt (rule379 d)
  first
  | (intro a ha; cases ha; done)
  | (intro a ha; have ha := Statement.ddl.inj ha; subst ha; exact whole_plain (by dsimp only; decide))
theorem keeps380 : Keeps m t (380, .stmt, []) := by
  intro d h
  show Holds m t .stmt (rule380 d)
  first
  | (intro a ha; cases ha; done)
  | (intro a ha; have ha := Statement.ddl.inj ha; subst ha; exact whole_plain (by dsimp only; decide))
theorem keeps381 : Keeps m t (381, .stmt, []) := by
  intro d h
  show Holds m t .stmt (rule381 d)
  first
  | (intro a ha; cases ha; done)
  | (intro a ha; have ha := Statement.ddl.inj ha; subst ha; exact whole_plain (by dsimp only; decide))
theorem keeps382 : Keeps m t (382, .stmt, []) := by
  intro d h
  show Holds m t .stmt (rule382 d)
  first
  | (intro a ha; cases ha; done)
  | (intro a ha; have ha := Statement.ddl.inj ha; subst ha; exact whole_plain (by dsimp only; decide))
theorem keeps383 : Keeps m t (383, .stmt, []) := by
  intro d h
  show Holds m t .stmt (rule383 d)
  first
  | (intro a ha; cases ha; done)
  | (intro a ha; have ha := Statement.ddl.inj ha; subst ha; exact whole_plain (by dsimp only; decide))
theorem keeps384 : Keeps m t (384, .stmt, []) := by
  intro d h
  show Holds m t .stmt (rule384 d)
  first
  | (intro a ha; cases ha; done)
  | (intro a ha; have ha := Statement.ddl.inj ha; subst ha; exact whole_plain (by dsimp only; decide))
theorem keeps385 : Keeps m t (385, .stmt, []) := by
  intro d h
  show Holds m t .stmt (rule385 d)
  first
  | (intro a ha; cases ha; done)
  | (intro a ha; have ha := Statement.ddl.inj ha; subst ha; exact whole_plain (by dsimp only; decide))
theorem keeps386 : Keeps m t (386, .stmt, []) := by
  intro d h
  show Holds m t .stmt (rule386 d)
  first
  | (intro a ha; cases ha; done)
  | (intro a ha; have ha := Statement.ddl.inj ha; subst ha; exact whole_plain (by dsimp only; decide))
theorem keeps387 : Keeps m t (387, .stmt, [.any, .any, .rendered]) := by
  intro d h
  obtain ⟨-, -, h3, -⟩ := h
  show Holds m t .stmt (rule387 d)
  first
  | (intro a ha; cases ha; done)
  | (intro a ha; have ha := Statement.ddl.inj ha; subst ha; exact whole_plain (by dsimp only; decide))
theorem keeps388 : Keeps m t (388, .stmt, [.any, .any, .rendered]) := by
  intro d h
  obtain ⟨-, -, h3, -⟩ := h
  show Holds m t .stmt (rule388 d)
  first
  | (intro a ha; cases ha; done)
  | (intro a ha; have ha := Statement.ddl.inj ha; subst ha; exact whole_plain (by dsimp only; decide))
theorem keeps389 : Keeps m t (389, .stmt, []) := by
  intro d h
  show Holds m t .stmt (rule389 d)
  first
  | (intro a ha; cases ha; done)
  | (intro a ha; have ha := Statement.ddl.inj ha; subst ha; exact whole_plain (by dsimp only; decide))
theorem keeps390 : Keeps m t (390, .stmt, []) := by
  intro d h
  show Holds m t .stmt (rule390 d)
  first
  | (intro a ha; cases ha; done)
  | (intro a ha; have ha := Statement.ddl.inj ha; subst ha; exact whole_plain (by dsimp only; decide))
theorem keeps391 : Keeps m t (391, .stmt, []) := by
  intro d h
  show Holds m t .stmt (rule391 d)
  first
  | (intro a ha; cases ha; done)
  | (intro a ha; have ha := Statement.ddl.inj ha; subst ha; exact whole_plain (by dsimp only; decide))
theorem keeps392 : Keeps m t (392, .stmt, []) := by
  intro d h
  show Holds m t .stmt (rule392 d)
  first
  | (intro a ha; cases ha; done)
  | (intro a ha; have ha := Statement.ddl.inj ha; subst ha; exact whole_plain (by dsimp only; decide))
theorem keeps393 : Keeps m t (393, .stmt, []) := by
  intro d h
  show Holds m t .stmt (rule393 d)
  first
  | (intro a ha; cases ha; done)
  | (intro a ha; have ha := Statement.ddl.inj ha; subst ha; exact whole_plain (by dsimp only; decide))
theorem keeps394 : Keeps m t (394, .stmt, []) := by
  intro d h
  show Holds m t .stmt (rule394 d)
  first
  | (intro a ha; cases ha; done)
  | (intro a ha; have ha := Statement.ddl.inj ha; subst ha; exact whole_plain (by dsimp only; decide))
theorem keeps395 : Keeps m t (395, .stmt, []) := by
  intro d h
  show Holds m t .stmt (rule395 d)
  first
  | (intro a ha; cases ha; done)
  | (intro a ha; have ha := Statement.ddl.inj ha; subst ha; exact whole_plain (by dsimp only; decide))
theorem keeps396 : Keeps m t (396, .stmt, []) := by
  intro d h
  show Holds m t .stmt (rule396 d)
  first
  | (intro a ha; cases ha; done)
  | (intro a ha; have ha := Statement.ddl.inj ha; subst ha; exact whole_plain (by dsimp only; decide))
theorem keeps397 : Keeps m t (397, .stmt, []) := by
  intro d h
  show Holds m t .stmt (rule397 d)
  first
  | (intro a ha; cases ha; done)
  | (intro a ha; have ha := Statement.ddl.inj ha; subst ha; exact whole_plain (by dsimp only; decide))
theorem keeps398 : Keeps m t (398, .stmt, []) := by
  intro d h
  show Holds m t .stmt (rule398 d)
  first
  | (intro a ha; cases ha; done)
  | (intro a ha; have ha := Statement.ddl.inj ha; subst ha; exact whole_plain (by dsimp only; decide))
theorem keeps399 : Keeps m t (399, .stmt, []) := by
  intro d h
  show Holds m t .stmt (rule399 d)
  first
  | (intro a ha; cases ha; done)
  | (intro a ha; have ha := Statement.ddl.inj ha; subst ha; exact whole_plain (by dsimp only; decide))
theorem keeps400 : Keeps m t (400, .stmt, []) := by
  intro d h
  show Holds m t .stmt (rule400 d)
  first
  | (intro a ha; cases ha; done)
  | (intro a ha; have ha := Statement.ddl.inj ha; subst ha; exact whole_plain (by dsimp only; decide))
theorem keeps401 : Keeps m t (401, .stmt, []) := by
  intro d h
  show Holds m t .stmt (rule401 d)
  first
  | (intro a ha; cases ha; done)
  | (intro a ha; have ha := Statement.ddl.inj ha; subst ha; exact whole_plain (by dsimp only; decide))
theorem keeps402 : Keeps m t (402, .stmt, []) := by
  intro d h
  show Holds m t .stmt (rule402 d)
  first
  | (intro a ha; cases ha; done)
  | (intro a ha; have ha := Statement.ddl.inj ha; subst ha; exact whole_plain (by dsimp only; decide))
theorem keeps403 : Keeps m t (403, .stmt, []) := by
  intro d h
  show Holds m t .stmt (rule403 d)
  first
  | (intro a ha; cases ha; done)
  | (intro a ha; have ha := Statement.ddl.inj ha; subst ha; exact whole_plain (by dsimp only; decide))
theorem keeps419 : Keeps m t (419, .stmt, []) := by
  intro d h
  show Holds m t .stmt (rule419 d)
  first
  | (intro a ha; cases ha; done)
  | (intro a ha; have ha := Statement.ddl.inj ha; subst ha; exact whole_plain (by dsimp only; decide))
theorem keeps420 : Keeps m t (420, .stmt, []) := by
  intro d h
  show Holds m t .stmt (rule420 d)
  first
  | (intro a ha; cases ha; done)
  | (intro a ha; have ha := Statement.ddl.inj ha; subst ha; exact whole_plain (by dsimp only; decide))
theorem keeps421 : Keeps m t (421, .stmt, []) := by
  intro d h
  show Holds m t .stmt (rule421 d)
  first
  | (intro a ha; cases ha; done)
  | (intro a ha; have ha := Statement.ddl.inj ha; subst ha; exact whole_plain (by dsimp only; decide))
theorem keeps422 : Keeps m t (422, .stmt, []) := by
  intro d h
  show Holds m t .stmt (rule422 d)
  first
  | (intro a ha; cases ha; done)
  | (intro a ha; have ha := Statement.ddl.inj ha; subst ha; exact whole_plain (by dsimp only; decide))
theorem keeps423 : Keeps m t (423, .stmt, []) := by
  intro d h
  show Holds m t .stmt (rule423 d)
  first
  | (intro a ha; cases ha; done)
  | (intro a ha; have ha := Statement.ddl.inj ha; subst ha; exact whole_plain (by dsimp only; decide))
theorem keeps424 : Keeps m t (424, .stmt, []) := by
  intro d h
  show Holds m t .stmt (rule424 d)
  first
  | (intro a ha; cases ha; done)
  | (intro a ha; have ha := Statement.ddl.inj ha; subst ha; exact whole_plain (by dsimp only; decide))
theorem keeps425 : Keeps m t (425, .stmt, []) := by
  intro d h
  show Holds m t .stmt (rule425 d)
  first
  | (intro a ha; cases ha; done)
  | (intro a ha; have ha := Statement.ddl.inj ha; subst ha; exact whole_plain (by dsimp only; decide))
theorem keeps426 : Keeps m t (426, .stmt, []) := by
  intro d h
  show Holds m t .stmt (rule426 d)
  first
  | (intro a ha; cases ha; done)
  | (intro a ha; have ha := Statement.ddl.inj ha; subst ha; exact whole_plain (by dsimp only; decide))
theorem keeps427 : Keeps m t (427, .stmt, []) := by
  intro d h
  show Holds m t .stmt (rule427 d)
  first
  | (intro a ha; cases ha; done)
  | (intro a ha; have ha := Statement.ddl.inj ha; subst ha; exact whole_plain (by dsimp only; decide))
theorem keeps428 : Keeps m t (428, .stmt, []) := by
  intro d h
  show Holds m t .stmt (rule428 d)
  first
  | (intro a ha; cases ha; done)
  | (intro a ha; have ha := Statement.ddl.inj ha; subst ha; exact whole_plain (by dsimp only; decide))
theorem keeps429 : Keeps m t (429, .stmt, []) := by
  intro d h
  show Holds m t .stmt (rule429 d)
  first
  | (intro a ha; cases ha; done)
  | (intro a ha; have ha := Statement.ddl.inj ha; subst ha; exact whole_plain (by dsimp only; decide))
theorem keeps444 : Keeps m t (444, .selExprs, []) := by
  intro d h
  show Holds m t .selExprs (rule444 d)
  exact all_none
theorem keeps445 : Keeps m t (445, .selExprs, [.selExprs]) := by
  intro d h
  obtain ⟨h1, -⟩ := h
  show Holds m t .selExprs (rule445 d)
  exact h1
theorem keeps446 : Keeps m t (446, .selExprs, [.selExpr]) := by
  intro d h
  obtain ⟨h1, -⟩ := h
  show Holds m t .selExprs (rule446 d)
  exact all_one h1
theorem keeps447 : Keeps m t (447, .selExprs, [.selExprs, .any, .selExpr]) := by
  intro d h
  obtain ⟨h1, -, h3, -⟩ := h
  show Holds m t .selExprs (rule447 d)
  exact all_snoc h1 h3
theorem keeps448 : Keeps m t (448, .selExpr, []) := by
  intro d h
  show Holds m t .selExpr (rule448 d)
  exact fun _ => rfl
theorem keeps449 : Keeps m t (449, .selExpr, [.expr]) := by
  intro d h
  obtain ⟨h1, -⟩ := h
  show Holds m t .selExpr (rule449 d)
  show Fine t (cat _); parts; exact h1.text
theorem keeps450 : Keeps m t (450, .selExpr, []) := by
  intro d h
  show Holds m t .selExpr (rule450 d)
  exact fun _ => rfl
theorem keeps451 : Keeps m t (451, .selExpr, []) := by
  intro d h
  show Holds m t .selExpr (rule451 d)
  exact fun _ => rfl
theorem keeps457 : Keeps m t (457, .tabExprs, []) := by
  intro d h
  show Holds m t .tabExprs (rule457 d)
  exact all_one (by show Fine t (cat _); parts)
theorem keeps458 : Keeps m t (458, .tabExprs, [.any, .tabExprs]) := by
  intro d h
  obtain ⟨-, h2, -⟩ := h
  show Holds m t .tabExprs (rule458 d)
  exact h2
theorem keeps459 : Keeps m t (459, .tabExprs, [.tabExpr]) := by
  intro d h
  obtain ⟨h1, -⟩ := h
  show Holds m t .tabExprs (rule459 d)
  exact all_one h1
theorem keeps460 : Keeps m t (460, .tabExprs, [.tabExprs, .any, .tabExpr]) := by
  intro d h
  obtain ⟨h1, -, h3, -⟩ := h
  show Holds m t .tabExprs (rule460 d)
  exact all_snoc h1 h3
theorem keeps461 : Keeps m t (461, .tabExpr, [.tabExpr]) := by
  intro d h
  obtain ⟨h1, -⟩ := h
  show Holds m t .tabExpr (d 1)
  exact h1
theorem keeps462 : Keeps m t (462, .tabExpr, [.tabExpr]) := by
  intro d h
  obtain ⟨h1, -⟩ := h
  show Holds m t .tabExpr (d 1)
  exact h1
theorem keeps463 : Keeps m t (463, .tabExpr, [.aliased]) := by
  intro d h
  obtain ⟨h1, -⟩ := h
  show Holds m t .tabExpr (rule463 d)
  exact h1
theorem keeps464 : Keeps m t (464, .tabExpr, [.subquery]) := by
  intro d h
  obtain ⟨h1, -⟩ := h
  show Holds m t .tabExpr (rule464 d)
  show Fine t (cat _); parts; exact h1
theorem keeps465 : Keeps m t (465, .tabExpr, [.any, .tabExprs]) := by
  intro d h
  obtain ⟨-, h2, -⟩ := h
  show Holds m t .tabExpr (rule465 d)
  show Fine t (cat _); parts; exact h2
theorem keeps466 : Keeps m t (466, .aliased, []) := by
  intro d h
  show Holds m t .aliased (rule466 d)
  show Fine t (cat _); parts
theorem keeps467 : Keeps m t (467, .aliased, []) := by
  intro d h
  show Holds m t .aliased (rule467 d)
  show Fine t (cat _); parts
theorem keeps473 : Keeps m t (473, .tabExpr, [.tabExpr, .any, .tabExpr, .join]) := by
  intro d h
  obtain ⟨h1, -, h3, h4, -⟩ := h
  show Holds m t .tabExpr (rule473 d)
  show Fine t (cat _); parts; exact ⟨h1, h3, h4⟩
theorem keeps474 : Keeps m t (474, .tabExpr, [.tabExpr, .any, .tabExpr, .join]) := by
  intro d h
  obtain ⟨h1, -, h3, h4, -⟩ := h
  show Holds m t .tabExpr (rule474 d)
  show Fine t (cat _); parts; exact ⟨h1, h3, h4⟩
theorem keeps475 : Keeps m t (475, .tabExpr, [.tabExpr, .any, .tabExpr, .join]) := by
  intro d h
  obtain ⟨h1, -, h3, h4, -⟩ := h
  show Holds m t .tabExpr (rule475 d)
  show Fine t (cat _); parts; exact ⟨h1, h3, h4⟩
theorem keeps476 : Keeps m t (476, .tabExpr, [.tabExpr, .any, .tabExpr]) := by
  intro d h
  obtain ⟨h1, -, h3, -⟩ := h
  show Holds m t .tabExpr (rule476 d)
  show Fine t (cat _); parts; exact ⟨h1, h3⟩
theorem keeps477 : Keeps m t (477, .join, [.any, .expr]) := by
  intro d h
  obtain ⟨-, h2, -⟩ := h
  show Holds m t .join (rule477 d)
  exact fine_joinOn h2.some
theorem keeps478 : Keeps m t (478, .join, [.using]) := by
  intro d h
  obtain ⟨h1, -⟩ := h
  show Holds m t .join (rule478 d)
  exact fine_joinOn none_fine
theorem keeps479 : Keeps m t (479, .join, []) := by
  intro d h
  show Holds m t .join (rule479 d)
  exact fine_joinOn none_fine
theorem keeps480 : Keeps m t (480, .join, [.join]) := by
  intro d h
  obtain ⟨h1, -⟩ := h
  show Holds m t .join (rule480 d)
  exact h1
theorem keeps481 : Keeps m t (481, .join, []) := by
  intro d h
  show Holds m t .join (rule481 d)
  exact fine_joinOn none_fine
theorem keeps482 : Keeps m t (482, .join, [.any, .expr]) := by
  intro d h
  obtain ⟨-, h2, -⟩ := h
  show Holds m t .join (rule482 d)
  exact fine_joinOn h2.some
theorem keeps508 : Keeps m t (508, .clause, []) := by
  intro d h
  show Holds m t .clause (rule508 d)
  exact nofun
theorem keeps509 : Keeps m t (509, .clause, [.rendered, .expr]) := by
  intro d h
  obtain ⟨h1, h2, -⟩ := h
  show Holds m t .clause (rule509 d)
  exact h2.clause h1
theorem keeps512 : Keeps m t (512, .expr, [.expr]) := by
  intro d h
  obtain ⟨h1, -⟩ := h
  show Holds m t .expr (rule512 d)
  exact h1
theorem keeps513 : Keeps m t (513, .expr, [.expr, .any, .expr]) := by
  intro d h
  obtain ⟨h1, -, h3, -⟩ := h
  show Holds m t .expr (rule513 d)
  refine fineExpr_node ?_; parts; exact ⟨h1.text, h3.text⟩
theorem keeps514 : Keeps m t (514, .expr, [.expr, .any, .expr]) := by
  intro d h
  obtain ⟨h1, -, h3, -⟩ := h
  show Holds m t .expr (rule514 d)
  refine fineExpr_node ?_; parts; exact ⟨h1.text, h3.text⟩
theorem keeps515 : Keeps m t (515, .expr, [.any, .expr]) := by
  intro d h
  obtain ⟨-, h2, -⟩ := h
  show Holds m t .expr (rule515 d)
  refine fineExpr_node ?_; parts; exact h2.text
theorem keeps516 : Keeps m t (516, .expr, [.expr]) := by
  intro d h
  obtain ⟨h1, -⟩ := h
  show Holds m t .expr (rule516 d)
  refine fineExpr_node ?_; parts; exact h1.text
theorem keeps517 : Keeps m t (517, .expr, [.expr]) := by
  intro d h
  obtain ⟨h1, -⟩ := h
  show Holds m t .expr (rule517 d)
  exact h1
theorem keeps518 : Keeps m t (518, .expr, []) := by
  intro d h
  show Holds m t .expr (rule518 d)
  exact fineExpr_node (by simp)
theorem keeps523 : Keeps m t (523, .expr, [.expr, .any, .expr]) := by
  intro d h
  obtain ⟨h1, -, h3, -⟩ := h
  show Holds m t .expr (rule523 d)
  refine fineExpr_node ?_; parts; exact ⟨h1.text, h3.text, by simp [formatEscape]⟩
theorem keeps524 : Keeps m t (524, .expr, [.expr, .any, .colTuple]) := by
  intro d h
  obtain ⟨h1, -, h3, -⟩ := h
  show Holds m t .expr (rule524 d)
  refine fineExpr_node ?_; parts; exact ⟨h1.text, h3, by simp [formatEscape]⟩
theorem keeps525 : Keeps m t (525, .expr, [.expr, .any, .any, .colTuple]) := by
  intro d h
  obtain ⟨h1, -, -, h4, -⟩ := h
  show Holds m t .expr (rule525 d)
  refine fineExpr_node ?_; parts; exact ⟨h1.text, h4, by simp [formatEscape]⟩
theorem keeps526 : Keeps m t (526, .expr, [.expr, .any, .expr, .optExpr]) := by
  intro d h
  obtain ⟨h1, -, h3, h4, -⟩ := h
  show Holds m t .expr (rule526 d)
  refine fineExpr_node ?_; parts; exact ⟨h1.text, h3.text, fine_escape h4⟩
theorem keeps527 : Keeps m t (527, .expr, [.expr, .any, .any, .expr, .optExpr]) := by
  intro d h
  obtain ⟨h1, -, -, h4, h5, -⟩ := h
  show Holds m t .expr (rule527 d)
  refine fineExpr_node ?_; parts; exact ⟨h1.text, h4.text, fine_escape h5⟩
theorem keeps528 : Keeps m t (528, .expr, [.expr, .any, .expr]) := by
  intro d h
  obtain ⟨h1, -, h3, -⟩ := h
  show Holds m t .expr (rule528 d)
  refine fineExpr_node ?_; parts; exact ⟨h1.text, h3.text, by simp [formatEscape]⟩
theorem keeps529 : Keeps m t (529, .expr, [.expr, .any, .any, .expr]) := by
  intro d h
  obtain ⟨h1, -, -, h4, -⟩ := h
  show Holds m t .expr (rule529 d)
  refine fineExpr_node ?_; parts; exact ⟨h1.text, h4.text, by simp [formatEscape]⟩
theorem keeps530 : Keeps m t (530, .expr, [.expr, .any, .expr, .any, .expr]) := by
  intro d h
  obtain ⟨h1, -, h3, -, h5, -⟩ := h
  show Holds m t .expr (rule530 d)
  refine fineExpr_node ?_; parts; exact ⟨h1.text, h3.text, h5.text⟩
theorem keeps531 : Keeps m t (531, .expr, [.expr, .any, .any, .expr, .any, .expr]) := by
  intro d h
  obtain ⟨h1, -, -, h4, -, h6, -⟩ := h
  show Holds m t .expr (rule531 d)
  refine fineExpr_node ?_; parts; exact ⟨h1.text, h4.text, h6.text⟩
theorem keeps532 : Keeps m t (532, .expr, [.any, .subquery]) := by
  intro d h
  obtain ⟨-, h2, -⟩ := h
  show Holds m t .expr (rule532 d)
  refine fineExpr_node ?_; parts; exact h2
theorem keeps546 : Keeps m t (546, .optExpr, []) := by
  intro d h
  show Holds m t .optExpr (rule546 d)
  exact none_fine
theorem keeps547 : Keeps m t (547, .optExpr, [.any, .expr]) := by
  intro d h
  obtain ⟨-, h2, -⟩ := h
  show Holds m t .optExpr (rule547 d)
  exact h2.some
theorem keeps548 : Keeps m t (548, .colTuple, [.tuple]) := by
  intro d h
  obtain ⟨h1, -⟩ := h
  show Holds m t .colTuple (rule548 d)
  exact fine_tuple h1
theorem keeps549 : Keeps m t (549, .colTuple, [.subquery]) := by
  intro d h
  obtain ⟨h1, -⟩ := h
  show Holds m t .colTuple (rule549 d)
  exact h1
theorem keeps550 : Keeps m t (550, .colTuple, []) := by
  intro d h
  show Holds m t .colTuple (rule550 d)
  exact fun _ => rfl
theorem keeps551 : Keeps m t (551, .subquery, [.any, .sel]) := by
  intro d h
  obtain ⟨-, h2, -⟩ := h
  show Holds m t .subquery (rule551 d)
  show Fine t (cat _); parts; exact h2
theorem keeps552 : Keeps m t (552, .exprs, [.expr]) := by
  intro d h
  obtain ⟨h1, -⟩ := h
  show Holds m t .exprs (rule552 d)
  exact all_one h1.text
theorem keeps553 : Keeps m t (553, .exprs, [.exprs, .any, .expr]) := by
  intro d h
  obtain ⟨h1, -, h3, -⟩ := h
  show Holds m t .exprs (rule553 d)
  exact all_snoc h1 h3.text
theorem keeps554 : Keeps m t (554, .expr, [.expr]) := by
  intro d h
  obtain ⟨h1, -⟩ := h
  show Holds m t .expr (rule554 d)
  exact h1
theorem keeps555 : Keeps m t (555, .expr, []) := by
  intro d h
  show Holds m t .expr (rule555 d)
  exact fineExpr_node (by simp)
theorem keeps556 : Keeps m t (556, .expr, []) := by
  intro d h
  show Holds m t .expr (rule556 d)
  exact fineExpr_node (by simp)
theorem keeps557 : Keeps m t (557, .expr, [.expr]) := by
  intro d h
  obtain ⟨h1, -⟩ := h
  show Holds m t .expr (rule557 d)
  exact h1
theorem keeps558 : Keeps m t (558, .expr, [.subquery]) := by
  intro d h
  obtain ⟨h1, -⟩ := h
  show Holds m t .expr (rule558 d)
  exact fineExpr_node h1
theorem keeps559 : Keeps m t (559, .expr, [.expr, .any, .expr]) := by
  intro d h
  obtain ⟨h1, -, h3, -⟩ := h
  show Holds m t .expr (rule559 d)
  refine fineExpr_node ?_; parts; exact ⟨h1.text, h3.text⟩
theorem keeps560 : Keeps m t (560, .expr, [.expr, .any, .expr]) := by
  intro d h
  obtain ⟨h1, -, h3, -⟩ := h
  show Holds m t .expr (rule560 d)
  refine fineExpr_node ?_; parts; exact ⟨h1.text, h3.text⟩
theorem keeps561 : Keeps m t (561, .expr, [.expr, .any, .expr]) := by
  intro d h
  obtain ⟨h1, -, h3, -⟩ := h
  show Holds m t .expr (rule561 d)
  refine fineExpr_node ?_; parts; exact ⟨h1.text, h3.text⟩
theorem keeps562 : Keeps m t (562, .expr, [.expr, .any, .expr]) := by
  intro d h
  obtain ⟨h1, -, h3, -⟩ := h
  show Holds m t .expr (rule562 d)
  refine fineExpr_node ?_; parts; exact ⟨h1.text, h3.text⟩
theorem keeps563 : Keeps m t (563, .expr, [.expr, .any, .expr]) := by
  intro d h
  obtain ⟨h1, -, h3, -⟩ := h
  show Holds m t .expr (rule563 d)
  refine fineExpr_node ?_; parts; exact ⟨h1.text, h3.text⟩
theorem keeps564 : Keeps m t (564, .expr, [.expr, .any, .expr]) := by
  intro d h
  obtain ⟨h1, -, h3, -⟩ := h
  show Holds m t .expr (rule564 d)
  refine fineExpr_node ?_; parts; exact ⟨h1.text, h3.text⟩
theorem keeps565 : Keeps m t (565, .expr, [.expr, .any, .expr]) := by
  intro d h
  obtain ⟨h1, -, h3, -⟩ := h
  show Holds m t .expr (rule565 d)
  refine fineExpr_node ?_; parts; exact ⟨h1.text, h3.text⟩
theorem keeps566 : Keeps m t (566, .expr, [.expr, .any, .expr]) := by
  intro d h
  obtain ⟨h1, -, h3, -⟩ := h
  show Holds m t .expr (rule566 d)
  refine fineExpr_node ?_; parts; exact ⟨h1.text, h3.text⟩
theorem keeps567 : Keeps m t (567, .expr, [.expr, .any, .expr]) := by
  intro d h
  obtain ⟨h1, -, h3, -⟩ := h
  show Holds m t .expr (rule567 d)
  refine fineExpr_node ?_; parts; exact ⟨h1.text, h3.text⟩
theorem keeps568 : Keeps m t (568, .expr, [.expr, .any, .expr]) := by
  intro d h
  obtain ⟨h1, -, h3, -⟩ := h
  show Holds m t .expr (rule568 d)
  refine fineExpr_node ?_; parts; exact ⟨h1.text, h3.text⟩
theorem keeps569 : Keeps m t (569, .expr, [.expr, .any, .expr]) := by
  intro d h
  obtain ⟨h1, -, h3, -⟩ := h
  show Holds m t .expr (rule569 d)
  refine fineExpr_node ?_; parts; exact ⟨h1.text, h3.text⟩
theorem keeps570 : Keeps m t (570, .expr, [.expr, .any, .expr]) := by
  intro d h
  obtain ⟨h1, -, h3, -⟩ := h
  show Holds m t .expr (rule570 d)
  refine fineExpr_node ?_; parts; exact ⟨h1.text, h3.text⟩
theorem keeps571 : Keeps m t (571, .expr, [.any, .any, .expr]) := by
  intro d h
  obtain ⟨-, -, h3, -⟩ := h
  show Holds m t .expr (rule571 d)
  refine fineExpr_node ?_; parts; exact ⟨fun _ => rfl, h3.text⟩
theorem keeps572 : Keeps m t (572, .expr, [.any, .any, .expr]) := by
  intro d h
  obtain ⟨-, -, h3, -⟩ := h
  show Holds m t .expr (rule572 d)
  refine fineExpr_node ?_; parts; exact ⟨fun _ => rfl, h3.text⟩
theorem keeps573 : Keeps m t (573, .expr, [.expr]) := by
  intro d h
  obtain ⟨h1, -⟩ := h
  show Holds m t .expr (rule573 d)
  refine fineExpr_node ?_; parts; exact h1.text
theorem keeps574 : Keeps m t (574, .expr, [.any, .expr]) := by
  intro d h
  obtain ⟨-, h2, -⟩ := h
  show Holds m t .expr (rule574 d)
  exact fineExpr_unary h2.text
theorem keeps575 : Keeps m t (575, .expr, [.any, .expr]) := by
  intro d h
  obtain ⟨-, h2, -⟩ := h
  show Holds m t .expr (rule575 d)
  exact fineExpr_unary h2.text
theorem keeps576 : Keeps m t (576, .expr, [.any, .expr]) := by
  intro d h
  obtain ⟨-, h2, -⟩ := h
  show Holds m t .expr (rule576 d)
  exact fineExpr_unaryPlus h2
theorem keeps577 : Keeps m t (577, .expr, [.any, .expr]) := by
  intro d h
  obtain ⟨-, h2, -⟩ := h
  show Holds m t .expr (rule577 d)
  exact fineExpr_unaryMinus h2
theorem keeps578 : Keeps m t (578, .expr, [.any, .expr]) := by
  intro d h
  obtain ⟨-, h2, -⟩ := h
  show Holds m t .expr (rule578 d)
  exact fineExpr_unary h2.text
theorem keeps579 : Keeps m t (579, .expr, [.any, .expr]) := by
  intro d h
  obtain ⟨-, h2, -⟩ := h
  show Holds m t .expr (rule579 d)
  exact fineExpr_unary h2.text
theorem keeps580 : Keeps m t (580, .expr, [.any, .expr]) := by
  intro d h
  obtain ⟨-, h2, -⟩ := h
  show Holds m t .expr (rule580 d)
  refine fineExpr_node ?_; parts; exact h2.text
theorem keeps581 : Keeps m t (581, .expr, [.expr, .any, .convert]) := by
  intro d h
  obtain ⟨h1, -, h3, -⟩ := h
  show Holds m t .expr (rule581 d)
  refine fineExpr_node ?_; parts; exact ⟨h1.text, fun _ => h3⟩
theorem keeps582 : Keeps m t (582, .expr, [.expr]) := by
  intro d h
  obtain ⟨h1, -⟩ := h
  show Holds m t .expr (d 1)
  exact h1
theorem keeps583 : Keeps m t (583, .expr, [.expr]) := by
  intro d h
  obtain ⟨h1, -⟩ := h
  show Holds m t .expr (d 1)
  exact h1
theorem keeps584 : Keeps m t (584, .expr, [.expr]) := by
  intro d h
  obtain ⟨h1, -⟩ := h
  show Holds m t .expr (d 1)
  exact h1
theorem keeps585 : Keeps m t (585, .expr, [.expr]) := by
  intro d h
  obtain ⟨h1, -⟩ := h
  show Holds m t .expr (d 1)
  exact h1
theorem keeps586 : Keeps m t (586, .expr, [.any, .any, .selExprs]) := by
  intro d h
  obtain ⟨-, -, h3, -⟩ := h
  show Holds m t .expr (rule586 d)
  exact fineExpr_func h3
theorem keeps587 : Keeps m t (587, .expr, [.any, .any, .any, .selExprs]) := by
  intro d h
  obtain ⟨-, -, -, h4, -⟩ := h
  show Holds m t .expr (rule587 d)
  exact fineExpr_func h4
theorem keeps588 : Keeps m t (588, .expr, [.any, .any, .any, .any, .selExprs]) := by
  intro d h
  obtain ⟨-, -, -, -, h5, -⟩ := h
  show Holds m t .expr (rule588 d)
  exact fineExpr_func h5
theorem keeps589 : Keeps m t (589, .expr, [.any, .any, .selExprs]) := by
  intro d h
  obtain ⟨-, -, h3, -⟩ := h
  show Holds m t .expr (rule589 d)
  exact fineExpr_func h3
theorem keeps590 : Keeps m t (590, .expr, [.any, .any, .selExprs]) := by
  intro d h
  obtain ⟨-, -, h3, -⟩ := h
  show Holds m t .expr (rule590 d)
  exact fineExpr_func h3
theorem keeps591 : Keeps m t (591, .expr, [.any, .any, .expr, .any, .convert]) := by
  intro d h
  obtain ⟨-, -, h3, -, h5, -⟩ := h
  show Holds m t .expr (rule591 d)
  refine fineExpr_node ?_; parts; exact ⟨h3.text, fun _ => h5⟩
theorem keeps592 : Keeps m t (592, .expr, [.any, .any, .expr, .any, .convert]) := by
  intro d h
  obtain ⟨-, -, h3, -, h5, -⟩ := h
  show Holds m t .expr (rule592 d)
  refine fineExpr_node ?_; parts; exact ⟨h3.text, fun _ => h5⟩
theorem keeps593 : Keeps m t (593, .expr, [.any, .any, .expr, .using]) := by
  intro d h
  obtain ⟨-, -, h3, h4, -⟩ := h
  show Holds m t .expr (rule593 d)
  refine fineExpr_node ?_; parts; exact h3.text
theorem keeps594 : Keeps m t (594, .expr, [.any, .any, .any, .any, .expr]) := by
  intro d h
  obtain ⟨-, -, -, -, h5, -⟩ := h
  show Holds m t .expr (rule594 d)
  exact fineExpr_substr h5.text none_fine
theorem keeps595 : Keeps m t (595, .expr, [.any, .any, .any, .any, .expr, .any, .expr]) := by
  intro d h
  obtain ⟨-, -, -, -, h5, -, h7, -⟩ := h
  show Holds m t .expr (rule595 d)
  exact fineExpr_substr h5.text h7.some
theorem keeps596 : Keeps m t (596, .expr, [.any, .any, .any, .any, .expr, .any, .expr]) := by
  intro d h
  obtain ⟨-, -, -, -, h5, -, h7, -⟩ := h
  show Holds m t .expr (rule596 d)
  exact fineExpr_substr h5.text h7.some
theorem keeps597 : Keeps m t (597, .expr, [.any, .any, .any, .any, .expr]) := by
  intro d h
  obtain ⟨-, -, -, -, h5, -⟩ := h
  show Holds m t .expr (rule597 d)
  exact fineExpr_substr h5.text none_fine
theorem keeps598 : Keeps m t (598, .expr, [.any, .any, .any, .any, .expr, .any, .expr]) := by
  intro d h
  obtain ⟨-, -, -, -, h5, -, h7, -⟩ := h
  show Holds m t .expr (rule598 d)
  exact fineExpr_substr h5.text h7.some
theorem keeps599 : Keeps m t (599, .expr, [.any, .any, .any, .any, .expr, .any, .expr]) := by
  intro d h
  obtain ⟨-, -, -, -, h5, -, h7, -⟩ := h
  show Holds m t .expr (rule599 d)
  exact fineExpr_substr h5.text h7.some
theorem keeps600 : Keeps m t (600, .expr, [.any, .any, .selExprs, .any, .any, .any, .expr]) := by
  intro d h
  obtain ⟨-, -, h3, -, -, -, h7, -⟩ := h
  show Holds m t .expr (rule600 d)
  exact fineExpr_match h3 h7.text
theorem keeps601 : Keeps m t (601, .expr, [.any, .any, .any, .selExprs, .orders]) := by
  intro d h
  obtain ⟨-, -, -, h4, h5, -⟩ := h
  show Holds m t .expr (rule601 d)
  exact fineExpr_groupConcat h4 h5
theorem keeps602 : Keeps m t (602, .expr, [.any, .optExpr, .whens, .optExpr]) := by
  intro d h
  obtain ⟨-, h2, h3, h4, -⟩ := h
  show Holds m t .expr (rule602 d)
  exact fine_case h2 h3 h4
theorem keeps603 : Keeps m t (603, .expr, []) := by
  intro d h
  show Holds m t .expr (rule603 d)
  exact fineExpr_node (by simp)
theorem keeps604 : Keeps m t (604, .expr, []) := by
  intro d h
  show Holds m t .expr (rule604 d)
  exact fineExpr_func all_none
theorem keeps605 : Keeps m t (605, .expr, []) := by
  intro d h
  show Holds m t .expr (rule605 d)
  exact fineExpr_func all_none
theorem keeps606 : Keeps m t (606, .expr, []) := by
  intro d h
  show Holds m t .expr (rule606 d)
  exact fineExpr_func all_none
theorem keeps607 : Keeps m t (607, .expr, []) := by
  intro d h
  show Holds m t .expr (rule607 d)
  exact fineExpr_func all_none
theorem keeps608 : Keeps m t (608, .expr, []) := by
  intro d h
  show Holds m t .expr (rule608 d)
  exact fineExpr_func all_none
theorem keeps609 : Keeps m t (609, .expr, []) := by
  intro d h
  show Holds m t .expr (rule609 d)
  exact fineExpr_func all_none
theorem keeps610 : Keeps m t (610, .expr, []) := by
  intro d h
  show Holds m t .expr (rule610 d)
  exact fineExpr_func all_none
theorem keeps611 : Keeps m t (611, .expr, []) := by
  intro d h
  show Holds m t .expr (rule611 d)
  exact fineExpr_func all_none
theorem keeps615 : Keeps m t (615, .expr, [.any, .any, .selExprs]) := by
  intro d h
  obtain ⟨-, -, h3, -⟩ := h
  show Holds m t .expr (rule615 d)
  exact fineExpr_func h3
theorem keeps616 : Keeps m t (616, .expr, [.any, .any, .selExprs]) := by
  intro d h
  obtain ⟨-, -, h3, -⟩ := h
  show Holds m t .expr (rule616 d)
  exact fineExpr_func h3
theorem keeps617 : Keeps m t (617, .expr, [.any, .any, .selExprs]) := by
  intro d h
  obtain ⟨-, -, h3, -⟩ := h
  show Holds m t .expr (rule617 d)
  exact fineExpr_func h3
theorem keeps618 : Keeps m t (618, .expr, [.any, .any, .selExprs]) := by
  intro d h
  obtain ⟨-, -, h3, -⟩ := h
  show Holds m t .expr (rule618 d)
  exact fineExpr_func h3
theorem keeps626 : Keeps m t (626, .convert, [.any, .length]) := by
  intro d h
  obtain ⟨-, h2, -⟩ := h
  show Holds m t .convert (rule626 d)
  exact convert_fmt h2 none_written
theorem keeps627 : Keeps m t (627, .convert, [.any, .length]) := by
  intro d h
  obtain ⟨-, h2, -⟩ := h
  show Holds m t .convert (rule627 d)
  exact convert_fmt h2 none_written
theorem keeps628 : Keeps m t (628, .convert, [.any, .length]) := by
  intro d h
  obtain ⟨-, h2, -⟩ := h
  show Holds m t .convert (rule628 d)
  exact convert_fmt h2 none_written
theorem keeps629 : Keeps m t (629, .convert, []) := by
  intro d h
  show Holds m t .convert (rule629 d)
  exact convert_fmt none_written none_written
theorem keeps630 : Keeps m t (630, .convert, [.any, .length]) := by
  intro d h
  obtain ⟨-, h2, -⟩ := h
  show Holds m t .convert (rule630 d)
  exact convert_fmt h2 none_written
theorem keeps631 : Keeps m t (631, .convert, [.any, .lengths]) := by
  intro d h
  obtain ⟨-, h2, -⟩ := h
  show Holds m t .convert (rule631 d)
  exact convert_fmt h2.1 h2.2
theorem keeps632 : Keeps m t (632, .convert, []) := by
  intro d h
  show Holds m t .convert (rule632 d)
  exact convert_fmt none_written none_written
theorem keeps633 : Keeps m t (633, .convert, []) := by
  intro d h
  show Holds m t .convert (rule633 d)
  exact convert_fmt none_written none_written
theorem keeps634 : Keeps m t (634, .convert, [.any, .length]) := by
  intro d h
  obtain ⟨-, h2, -⟩ := h
  show Holds m t .convert (rule634 d)
  exact convert_fmt h2 none_written
theorem keeps635 : Keeps m t (635, .convert, []) := by
  intro d h
  show Holds m t .convert (rule635 d)
  exact convert_fmt none_written none_written
theorem keeps636 : Keeps m t (636, .convert, []) := by
  intro d h
  show Holds m t .convert (rule636 d)
  exact convert_fmt none_written none_written
theorem keeps637 : Keeps m t (637, .convert, [.any, .length]) := by
  intro d h
  obtain ⟨-, h2, -⟩ := h
  show Holds m t .convert (rule637 d)
  exact convert_fmt h2 none_written
theorem keeps638 : Keeps m t (638, .convert, []) := by
  intro d h
  show Holds m t .convert (rule638 d)
  exact convert_fmt none_written none_written
theorem keeps639 : Keeps m t (639, .convert, []) := by
  intro d h
  show Holds m t .convert (rule639 d)
  exact convert_fmt none_written none_written
theorem keeps640 : Keeps m t (640, .convert, []) := by
  intro d h
  show Holds m t .convert (rule640 d)
  exact convert_fmt none_written none_written
theorem keeps641 : Keeps m t (641, .convert, []) := by
  intro d h
  show Holds m t .convert (rule641 d)
  exact convert_fmt none_written none_written
theorem keeps642 : Keeps m t (642, .convert, []) := by
  intro d h
  show Holds m t .convert (rule642 d)
  exact convert_fmt none_written none_written
theorem keeps643 : Keeps m t (643, .convert, []) := by
  intro d h
  show Holds m t .convert (rule643 d)
  exact convert_fmt none_written none_written
theorem keeps644 : Keeps m t (644, .convert, [.plainType]) := by
  intro d h
  obtain ⟨h1, -⟩ := h
  show Holds m t .convert (rule644 d)
  exact convert_fmt none_written none_written
theorem keeps645 : Keeps m t (645, .convert, [.plainType]) := by
  intro d h
  obtain ⟨h1, -⟩ := h
  show Holds m t .convert (rule645 d)
  exact convert_fmt none_written none_written
theorem keeps646 : Keeps m t (646, .convert, []) := by
  intro d h
  show Holds m t .convert (rule646 d)
  exact convert_fmt none_written none_written
theorem keeps647 : Keeps m t (647, .optExpr, []) := by
  intro d h
  show Holds m t .optExpr (rule647 d)
  exact none_fine
theorem keeps648 : Keeps m t (648, .optExpr, [.expr]) := by
  intro d h
  obtain ⟨h1, -⟩ := h
  show Holds m t .optExpr (rule648 d)
  exact h1.some
theorem keeps651 : Keeps m t (651, .whens, [.when_]) := by
  intro d h
  obtain ⟨h1, -⟩ := h
  show Holds m t .whens (rule651 d)
  exact all_one h1
theorem keeps652 : Keeps m t (652, .whens, [.whens, .when_]) := by
  intro d h
  obtain ⟨h1, h2, -⟩ := h
  show Holds m t .whens (rule652 d)
  exact all_snoc h1 h2
theorem keeps653 : Keeps m t (653, .when_, [.any, .expr, .any, .expr]) := by
  intro d h
  obtain ⟨-, h2, -, h4, -⟩ := h
  show Holds m t .when_ (rule653 d)
  show Fine t (cat _); parts; exact ⟨h2.text, h4.text⟩
theorem keeps654 : Keeps m t (654, .optExpr, []) := by
  intro d h
  show Holds m t .optExpr (rule654 d)
  exact none_fine
theorem keeps655 : Keeps m t (655, .optExpr, [.any, .expr]) := by
  intro d h
  obtain ⟨-, h2, -⟩ := h
  show Holds m t .optExpr (rule655 d)
  exact h2.some
theorem keeps659 : Keeps m t (659, .expr, []) := by
  intro d h
  show Holds m t .expr (rule659 d)
  exact fineExpr_str
theorem keeps660 : Keeps m t (660, .expr, []) := by
  intro d h
  show Holds m t .expr (rule660 d)
  exact fineExpr_hexVal
theorem keeps661 : Keeps m t (661, .expr, []) := by
  intro d h
  show Holds m t .expr (rule661 d)
  exact fineExpr_bitVal
theorem keeps662 : Keeps m t (662, .expr, [.integral]) := by
  intro d h
  obtain ⟨h1, -⟩ := h
  show Holds m t .expr (rule662 d)
  exact fineExpr_int h1
theorem keeps663 : Keeps m t (663, .expr, []) := by
  intro d h
  show Holds m t .expr (rule663 d)
  exact fineExpr_float
theorem keeps664 : Keeps m t (664, .expr, []) := by
  intro d h
  show Holds m t .expr (rule664 d)
  exact fineExpr_hexNum
theorem keeps665 : Keeps m t (665, .expr, []) := by
  intro d h
  show Holds m t .expr (rule665 d)
  exact fineExpr_valArg
theorem keeps666 : Keeps m t (666, .expr, []) := by
  intro d h
  show Holds m t .expr (rule666 d)
  exact fineExpr_null
theorem keeps667 : Keeps m t (667, .expr, []) := by
  intro d h
  show Holds m t .expr (rule667 d)
  exact fineExpr_int ⟨'1', [], by decide, .inl rfl⟩
theorem keeps668 : Keeps m t (668, .expr, [.integral]) := by
  intro d h
  obtain ⟨h1, -⟩ := h
  show Holds m t .expr (rule668 d)
  exact fineExpr_int h1
theorem keeps669 : Keeps m t (669, .expr, []) := by
  intro d h
  show Holds m t .expr (rule669 d)
  exact fineExpr_valArg
theorem keeps670 : Keeps m t (670, .exprs, []) := by
  intro d h
  show Holds m t .exprs (rule670 d)
  exact all_none
theorem keeps671 : Keeps m t (671, .exprs, [.any, .any, .exprs]) := by
  intro d h
  obtain ⟨-, -, h3, -⟩ := h
  show Holds m t .exprs (rule671 d)
  exact h3
theorem keeps672 : Keeps m t (672, .optExpr, []) := by
  intro d h
  show Holds m t .optExpr (rule672 d)
  exact none_fine
theorem keeps673 : Keeps m t (673, .optExpr, [.any, .expr]) := by
  intro d h
  obtain ⟨-, h2, -⟩ := h
  show Holds m t .optExpr (rule673 d)
  exact h2.some
theorem keeps674 : Keeps m t (674, .orders, []) := by
  intro d h
  show Holds m t .orders (rule674 d)
  exact all_none
theorem keeps675 : Keeps m t (675, .orders, [.any, .any, .orders]) := by
  intro d h
  obtain ⟨-, -, h3, -⟩ := h
  show Holds m t .orders (rule675 d)
  exact h3
theorem keeps676 : Keeps m t (676, .orders, [.order]) := by
  intro d h
  obtain ⟨h1, -⟩ := h
  show Holds m t .orders (rule676 d)
  exact all_one h1
theorem keeps677 : Keeps m t (677, .orders, [.orders, .any, .order]) := by
  intro d h
  obtain ⟨h1, -, h3, -⟩ := h
  show Holds m t .orders (rule677 d)
  exact all_snoc h1 h3
theorem keeps678 : Keeps m t (678, .order, [.expr]) := by
  intro d h
  obtain ⟨h1, -⟩ := h
  show Holds m t .order (rule678 d)
  exact fine_order h1
theorem keeps682 : Keeps m t (682, .limit, []) := by
  intro d h
  show Holds m t .limit (rule682 d)
  exact fun _ => rfl
theorem keeps683 : Keeps m t (683, .limit, [.any, .expr]) := by
  intro d h
  obtain ⟨-, h2, -⟩ := h
  show Holds m t .limit (rule683 d)
  exact fine_limit none_fine h2.text
theorem keeps684 : Keeps m t (684, .limit, [.any, .expr, .any, .expr]) := by
  intro d h
  obtain ⟨-, h2, -, h4, -⟩ := h
  show Holds m t .limit (rule684 d)
  exact fine_limit h2.some h4.text
theorem keeps685 : Keeps m t (685, .limit, [.any, .expr, .any, .expr]) := by
  intro d h
  obtain ⟨-, h2, -, h4, -⟩ := h
  show Holds m t .limit (rule685 d)
  exact fine_limit h4.some h2.text
theorem keeps689 : Keeps m t (689, .ins, [.any, .rows]) := by
  intro d h
  obtain ⟨-, h2, -⟩ := h
  show Holds m t .ins (rule689 d)
  exact fine_values h2
theorem keeps690 : Keeps m t (690, .ins, [.sel]) := by
  intro d h
  obtain ⟨h1, -⟩ := h
  show Holds m t .ins (rule690 d)
  exact h1
theorem keeps691 : Keeps m t (691, .ins, [.any, .sel]) := by
  intro d h
  obtain ⟨-, h2, -⟩ := h
  show Holds m t .ins (rule691 d)
  exact h2
theorem keeps692 : Keeps m t (692, .ins, [.any, .any, .any, .any, .rows]) := by
  intro d h
  obtain ⟨-, -, -, -, h5, -⟩ := h
  show Holds m t .ins (rule692 d)
  exact fine_values h5
theorem keeps693 : Keeps m t (693, .ins, [.any, .any, .any, .sel]) := by
  intro d h
  obtain ⟨-, -, -, h4, -⟩ := h
  show Holds m t .ins (rule693 d)
  exact h4
theorem keeps694 : Keeps m t (694, .ins, [.any, .any, .any, .any, .sel]) := by
  intro d h
  obtain ⟨-, -, -, -, h5, -⟩ := h
  show Holds m t .ins (rule694 d)
  exact h5
theorem keeps699 : Keeps m t (699, .updates, []) := by
  intro d h
  show Holds m t .updates (rule699 d)
  exact all_none
theorem keeps700 : Keeps m t (700, .updates, [.any, .any, .any, .any, .updates]) := by
  intro d h
  obtain ⟨-, -, -, -, h5, -⟩ := h
  show Holds m t .updates (rule700 d)
  exact h5
theorem keeps701 : Keeps m t (701, .rows, [.tuple]) := by
  intro d h
  obtain ⟨h1, -⟩ := h
  show Holds m t .rows (rule701 d)
  exact all_one h1
theorem keeps702 : Keeps m t (702, .rows, [.rows, .any, .tuple]) := by
  intro d h
  obtain ⟨h1, -, h3, -⟩ := h
  show Holds m t .rows (rule702 d)
  exact all_snoc h1 h3
theorem keeps703 : Keeps m t (703, .tuple, [.tuple]) := by
  intro d h
  obtain ⟨h1, -⟩ := h
  show Holds m t .tuple (rule703 d)
  exact h1
theorem keeps704 : Keeps m t (704, .tuple, []) := by
  intro d h
  show Holds m t .tuple (rule704 d)
  exact all_none
theorem keeps705 : Keeps m t (705, .tuple, [.any, .exprs]) := by
  intro d h
  obtain ⟨-, h2, -⟩ := h
  show Holds m t .tuple (rule705 d)
  exact h2
theorem keeps706 : Keeps m t (706, .expr, [.tuple]) := by
  intro d h
  obtain ⟨h1, -⟩ := h
  show Holds m t .expr (rule706 d)
  exact fineExpr_tupleOrParen h1
theorem keeps707 : Keeps m t (707, .updates, [.update]) := by
  intro d h
  obtain ⟨h1, -⟩ := h
  show Holds m t .updates (rule707 d)
  exact all_one h1
theorem keeps708 : Keeps m t (708, .updates, [.updates, .any, .update]) := by
  intro d h
  obtain ⟨h1, -, h3, -⟩ := h
  show Holds m t .updates (rule708 d)
  exact all_snoc h1 h3
theorem keeps709 : Keeps m t (709, .update, [.any, .any, .expr]) := by
  intro d h
  obtain ⟨-, -, h3, -⟩ := h
  show Holds m t .update (rule709 d)
  exact h3.text

theorem keepsTable0 : ∀ e ∈ wholeTable0, Keeps m t e :=
  allKeeps_mem (l := wholeTable0) ⟨keeps4, keeps5, keeps6, keeps7, keeps8, keeps9, keeps10, keeps11, keeps12, keeps13, keeps14, keeps15, keeps16, keeps17, keeps18, keeps19, keeps20, keeps21, keeps22, keeps23, keeps24, keeps25, keeps26, keeps27, keeps28, keeps29, keeps30, keeps31, keeps32, keeps35, keeps36, keeps37, keeps38, keeps45, keeps46, keeps47, keeps48, keeps60, keeps61, keeps62, keeps63, keeps64, keeps65, keeps66, keeps67, keeps68, keeps69, keeps70, keeps76, keeps77, trivial⟩

theorem keepsTable1 : ∀ e ∈ wholeTable1, Keeps m t e :=
  allKeeps_mem (l := wholeTable1) ⟨keeps78, keeps79, keeps80, keeps90, keeps91, keeps92, keeps93, keeps106, keeps107, keeps108, keeps109, keeps110, keeps111, keeps112, keeps113, keeps114, keeps115, keeps116, keeps117, keeps118, keeps119, keeps120, keeps121, keeps122, keeps123, keeps124, keeps125, keeps126, keeps127, keeps128, keeps129, keeps130, keeps131, keeps132, keeps133, keeps134, keeps135, keeps136, keeps137, keeps138, keeps139, keeps151, keeps152, keeps180, keeps181, keeps182, keeps183, keeps184, keeps185, keeps186, trivial⟩

theorem keepsTable2 : ∀ e ∈ wholeTable2, Keeps m t e :=
  allKeeps_mem (l := wholeTable2) ⟨keeps187, keeps188, keeps189, keeps190, keeps191, keeps192, keeps193, keeps194, keeps195, keeps196, keeps197, keeps198, keeps199, keeps200, keeps201, keeps202, keeps203, keeps204, keeps205, keeps206, keeps207, keeps208, keeps209, keeps210, keeps211, keeps212, keeps213, keeps214, keeps215, keeps216, keeps217, keeps218, keeps219, keeps220, keeps221, keeps222, keeps223, keeps224, keeps225, keeps226, keeps227, keeps228, keeps229, keeps230, keeps231, keeps232, keeps233, keeps234, keeps235, keeps236, trivial⟩

theorem keepsTable3 : ∀ e ∈ wholeTable3, Keeps m t e :=
  allKeeps_mem (l := wholeTable3) ⟨keeps237, keeps238, keeps239, keeps240, keeps243, keeps244, keeps247, keeps248, keeps249, keeps266, keeps267, keeps268, keeps269, keeps270, keeps271, keeps272, keeps273, keeps274, keeps275, keeps276, keeps277, keeps278, keeps279, keeps280, keeps281, keeps282, keeps283, keeps284, keeps287, keeps288, keeps302, keeps303, keeps316, keeps335, keeps336, keeps337, keeps338, keeps339, keeps340, keeps341, keeps342, keeps343, keeps344, keeps345, keeps346, keeps372, keeps373, keeps374, keeps375, keeps376, trivial⟩

theorem keepsTable4 : ∀ e ∈ wholeTable4, Keeps m t e :=
  allKeeps_mem (l := wholeTable4) ⟨keeps377, keeps378, keeps379, keeps380, keeps381, keeps382, keeps383, keeps384, keeps385, keeps386, keeps387, keeps388, keeps389, keeps390, keeps391, keeps392, keeps393, keeps394, keeps395, keeps396, keeps397, keeps398, keeps399, keeps400, keeps401, keeps402, keeps403, keeps419, keeps420, keeps421, keeps422, keeps423, keeps424, keeps425, keeps426, keeps427, keeps428, keeps429, keeps444, keeps445, keeps446, keeps447, keeps448, keeps449, keeps450, keeps451, keeps457, keeps458, keeps459, keeps460, trivial⟩

theorem keepsTable5 : ∀ e ∈ wholeTable5, Keeps m t e :=
  allKeeps_mem (l := wholeTable5) ⟨keeps461, keeps462, keeps463, keeps464, keeps465, keeps466, keeps467, keeps473, keeps474, keeps475, keeps476, keeps477, keeps478, keeps479, keeps480, keeps481, keeps482, keeps508, keeps509, keeps512, keeps513, keeps514, keeps515, keeps516, keeps517, keeps518, keeps523, keeps524, keeps525, keeps526, keeps527, keeps528, keeps529, keeps530, keeps531, keeps532, keeps546, keeps547, keeps548, keeps549, keeps550, keeps551, keeps552, keeps553, keeps554, keeps555, keeps556, keeps557, keeps558, keeps559, trivial⟩

theorem keepsTable6 : ∀ e ∈ wholeTable6, Keeps m t e :=
  allKeeps_mem (l := wholeTable6) ⟨keeps560, keeps561, keeps562, keeps563, keeps564, keeps565, keeps566, keeps567, keeps568, keeps569, keeps570, keeps571, keeps572, keeps573, keeps574, keeps575, keeps576, keeps577, keeps578, keeps579, keeps580, keeps581, keeps582, keeps583, keeps584, keeps585, keeps586, keeps587, keeps588, keeps589, keeps590, keeps591, keeps592, keeps593, keeps594, keeps595, keeps596, keeps597, keeps598, keeps599, keeps600, keeps601, keeps602, keeps603, keeps604, keeps605, keeps606, keeps607, keeps608, keeps609, trivial⟩

theorem keepsTable7 : ∀ e ∈ wholeTable7, Keeps m t e :=
  allKeeps_mem (l := wholeTable7) ⟨keeps610, keeps611, keeps615, keeps616, keeps617, keeps618, keeps626, keeps627, keeps628, keeps629, keeps630, keeps631, keeps632, keeps633, keeps634, keeps635, keeps636, keeps637, keeps638, keeps639, keeps640, keeps641, keeps642, keeps643, keeps644, keeps645, keeps646, keeps647, keeps648, keeps651, keeps652, keeps653, keeps654, keeps655, keeps659, keeps660, keeps661, keeps662, keeps663, keeps664, keeps665, keeps666, keeps667, keeps668, keeps669, keeps670, keeps671, keeps672, keeps673, keeps674, trivial⟩

theorem keepsTable8 : ∀ e ∈ wholeTable8, Keeps m t e :=
  allKeeps_mem (l := wholeTable8) ⟨keeps675, keeps676, keeps677, keeps678, keeps682, keeps683, keeps684, keeps685, keeps689, keeps690, keeps691, keeps692, keeps693, keeps694, keeps699, keeps700, keeps701, keeps702, keeps703, keeps704, keeps705, keeps706, keeps707, keeps708, keeps709, trivial⟩

theorem keepsTable {e : Nat × Class × List Class} (he : e ∈ wholeTable) : Keeps m t e := by
  simp only [wholeTable, List.mem_append] at he
  rcases he with (((((((he | he) | he) | he) | he) | he) | he) | he) | he
  · exact keepsTable0 e he
  · exact keepsTable1 e he
  · exact keepsTable2 e he
  · exact keepsTable3 e he
  · exact keepsTable4 e he
  · exact keepsTable5 e he
  · exact keepsTable6 e he
  · exact keepsTable7 e he
  · exact keepsTable8 e he

end Sqldef.Sql
