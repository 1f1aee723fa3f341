import Verif.Proofs.ExTree

/-! The values of the derivations of expressions. -/
namespace Sqldef.Sql
open Spec Yy Written

/-- The expression that a derivation stands for. -/
abbrev exprOf (d : Tree SymType) : Go.Expr := (d.value valueOf).expr

theorem expr_asExpr (k : Sort3) (d : Tree SymType) : exprOf (asExpr k d) = exprOf d := by cases k <;> rfl

theorem fmt_some {t : Str} {k : Go.ExprKind} : Go.Expr.fmt (some { text := some t, kind := k }) = some t := rfl

theorem words_null : (kw "NULL").val = lit "null" := by decide +kernel

theorem castRules_words : ∀ w ∈ castWords, (castRules.find? (·.1 = w)).isSome = true ∧ (kw w).val = lit w ∧
    ((castToTree (.word w)).value valueOf).convertType = { Ty := lit w } := by
  decide +kernel

theorem value_castVarying : ((castToTree .varying).value valueOf).convertType = { Ty := lit "character varying" } := by decide +kernel

theorem value_castTo {t : CastTo} (h : ∀ w, t = .word w → w ∈ castWords) :
    ((castToTree t).value valueOf).convertType = { Ty := t.text } := by
  cases t with
  | word w => exact (castRules_words w (h w rfl)).2.2
  | varying => exact value_castVarying

theorem value_nowWords : ∀ w ∈ nowWords, ∀ c : Bool,
    exprOf (.node 584 [.node (nowRule w) [lf (kw w), precisionTree c]]) = some { text := some (lit w ++ lit "()"), kind := .other } := by
  decide +kernel

theorem value_is (neg : Bool) (w : IsWhat) : ((isTree neg w).value valueOf).str = lit "is " ++ notText neg ++ w.text := by
  cases neg <;> cases w <;> rfl

/-- The numbers that signs make. -/
theorem good_number : ∀ {e : Ex} {n : Str}, e.Proper → e.number = some n → GoodInt n
  | .integer m, n, h, hn => by
    rw [Ex.number, Option.some.injEq] at hn
    subst hn
    rw [Ex.Proper] at h
    exact h
  | .sign .plus e, n, h, hn => by
    rw [Ex.number] at hn
    rw [Ex.Proper] at h
    exact good_number h.2 hn
  | .sign .minus e, n, h, hn => by
    rw [Ex.number] at hn
    rw [Ex.Proper] at h
    obtain ⟨m, hm, rfl⟩ := Option.map_eq_some_iff.mp hn
    obtain ⟨d, hd, hdig, h1 | h1⟩ := good_number h.2 hm
    · subst h1
      refine ⟨m, hd, hdig, ?_⟩
      cases m with
      | nil => exact absurd rfl hd
      | cons c s =>
        have hc : c ≠ '-' := by
          rintro rfl
          have := hdig '-' List.mem_cons_self
          revert this
          decide
        right
        unfold negated
        split
        · rename_i heq
          simp only [List.cons.injEq] at heq
          exact absurd heq.1 hc
        · rfl
    · subst h1
      exact ⟨d, hd, hdig, .inl rfl⟩
  | .sign .tilde _, _, _, hn => by simp [Ex.number] at hn
  | .sign .bang _, _, _, hn => by simp [Ex.number] at hn

theorem kind_number {e : Ex} {n : Str} (h : e.number = some n) : exKind e = .val ⟨.intVal, n⟩ ∧ e.text = n := by
  cases e with
  | integer m =>
    rw [Ex.number, Option.some.injEq] at h
    subst h
    exact ⟨rfl, by rw [Ex.text]⟩
  | sign op e => rw [exKind, Ex.text, h]; exact ⟨rfl, rfl⟩
  | _ => rw [Ex.number] at h <;> first | cases h | simp

/-- An expression is a number if and only if its kind says so. -/
theorem number_of_kind {e : Ex} {n : Str} (h : exKind e = .val ⟨.intVal, n⟩) : e.number = some n := by
  cases e with
  | integer m =>
    rw [exKind] at h
    cases h
    rw [Ex.number]
  | sign op e =>
    rw [exKind] at h
    split at h
    · next m hm =>
      cases h
      exact hm
    · cases h
  | call f args => rw [exKind] at h; split at h <;> cases h
  | tuple a as => cases as <;> simp [exKind] at h
  | _ => simp [exKind] at h

theorem isUnary_iff (e : Ex) : Go.Expr.isUnary (some (exNode e)) = e.isSigned := by
  cases e with
  | sign op e =>
    rw [exNode, exKind, Ex.isSigned]
    cases (Ex.sign op e).number <;> rfl
  | call f args => rw [exNode, exKind]; split <;> rfl
  | tuple a as => cases as <;> rfl
  | _ => rfl

theorem unaryMinus_number {e : Ex} {n : Str} (h : e.number = some n) (hg : GoodInt n) :
    Go.unaryMinus (some (exNode e)) = some { text := some (negated n), kind := .val ⟨.intVal, negated n⟩ } := by
  have hk := (kind_number h).1
  rw [exNode, hk]
  cases n with
  | nil =>
    obtain ⟨d, hd, _, h1 | h1⟩ := hg
    · exact absurd h1.symm hd
    · cases h1
  | cons c s =>
    by_cases hc : c = '-'
    · subst hc; rfl
    · have e1 : negated (c :: s) = '-' :: c :: s := by
        unfold negated
        split
        · rename_i heq
          simp only [List.cons.injEq] at heq
          exact absurd heq.1 hc
        · rfl
      rw [e1]
      unfold Go.unaryMinus
      split
      · rename_i heq
        simp only [Option.some.injEq, Go.ExprNode.mk.injEq, Go.ExprKind.val.injEq, SqlVal.mk.injEq, List.cons.injEq] at heq
        exact absurd heq.2.2.1 hc
      · rename_i heq
        simp only [Option.some.injEq, Go.ExprNode.mk.injEq, Go.ExprKind.val.injEq, SqlVal.mk.injEq, true_and] at heq
        obtain ⟨_, rfl⟩ := heq
        rfl
      · rename_i h1 h2
        exact absurd rfl (h2 _ _)

theorem unaryPlus_number {e : Ex} {n : Str} (h : e.number = some n) :
    Go.unaryPlus (some (exNode e)) = some { text := some n, kind := .val ⟨.intVal, n⟩ } := by
  have hk := kind_number h
  rw [exNode, hk.1, hk.2]
  rfl

theorem not_int {e : Ex} (h : e.number = none) : ∀ n, exKind e ≠ .val ⟨.intVal, n⟩ := by
  intro n hn
  rw [number_of_kind hn] at h
  cases h

theorem unaryPlus_other {e : Ex} (h : e.number = none) :
    Go.unaryPlus (some (exNode e)) = Go.UnaryExpr (lit "+") (some (exNode e)) := by
  have hk := not_int h
  unfold Go.unaryPlus
  split
  · rename_i heq
    simp only [exNode, Option.some.injEq, Go.ExprNode.mk.injEq] at heq
    exact absurd heq.2 (hk _)
  · rfl

theorem unaryMinus_other {e : Ex} (h : e.number = none) :
    Go.unaryMinus (some (exNode e)) = Go.UnaryExpr (lit "-") (some (exNode e)) := by
  have hk := not_int h
  unfold Go.unaryMinus
  split
  · rename_i heq
    simp only [exNode, Option.some.injEq, Go.ExprNode.mk.injEq] at heq
    exact absurd heq.2 (hk _)
  · rename_i heq
    simp only [exNode, Option.some.injEq, Go.ExprNode.mk.injEq] at heq
    exact absurd heq.2 (hk _)
  · rfl

theorem unary_text (c : Char) (e : Ex) (k : Go.ExprKind) :
    Go.UnaryExpr [c] (some (exNode e)) = some { text := some (c :: ((if e.isSigned then lit " " else []) ++ e.text)), kind := .unary } := by
  rw [Go.UnaryExpr, isUnary_iff]
  simp [exNode, Go.cat, Go.Expr.fmt]

theorem sign_value (op : Sign) {e : Ex} (he : e.Proper) (ih : exprOf (core e) = some (exNode e)) :
    exprOf (core (.sign op e)) = some (exNode (.sign op e)) := by
  rw [core]
  cases op with
  | plus =>
    have e1 : exprOf (.node (signRule .plus) [lf (sym Sign.plus.char), core e]) = Go.unaryPlus (exprOf (core e)) := rfl
    rw [e1, ih]
    cases h : e.number with
    | some n =>
      have hn : (Ex.sign .plus e).number = some n := by rw [Ex.number, h]
      rw [unaryPlus_number h, exNode, (kind_number hn).1, (kind_number hn).2]
    | none =>
      have hn : (Ex.sign .plus e).number = none := by rw [Ex.number, h]
      rw [unaryPlus_other h, show lit "+" = ['+'] from rfl, unary_text _ _ .unary, exNode, exKind, Ex.text, hn]
      rfl
  | minus =>
    have e1 : exprOf (.node (signRule .minus) [lf (sym Sign.minus.char), core e]) = Go.unaryMinus (exprOf (core e)) := rfl
    rw [e1, ih]
    cases h : e.number with
    | some n =>
      have hn : (Ex.sign .minus e).number = some (negated n) := by rw [Ex.number, h]; rfl
      rw [unaryMinus_number h (good_number he h), exNode, (kind_number hn).1, (kind_number hn).2]
    | none =>
      have hn : (Ex.sign .minus e).number = none := by rw [Ex.number, h]; rfl
      rw [unaryMinus_other h, show lit "-" = ['-'] from rfl, unary_text _ _ .unary, exNode, exKind, Ex.text, hn]
      rfl
  | tilde =>
    have e1 : exprOf (.node (signRule .tilde) [lf (sym Sign.tilde.char), core e]) = Go.UnaryExpr (lit "~") (exprOf (core e)) := rfl
    have hn : (Ex.sign .tilde e).number = none := by rw [Ex.number] <;> simp
    rw [e1, ih, show lit "~" = ['~'] from rfl, unary_text _ _ .unary, exNode, exKind, Ex.text, hn]
    rfl
  | bang =>
    have e1 : exprOf (.node (signRule .bang) [lf (sym Sign.bang.char), core e]) = Go.UnaryExpr (lit "!") (exprOf (core e)) := rfl
    have hn : (Ex.sign .bang e).number = none := by rw [Ex.number] <;> simp
    rw [e1, ih, show lit "!" = ['!'] from rfl, unary_text _ _ .unary, exNode, exKind, Ex.text, hn]
    rfl

theorem fmt_exNode (e : Ex) : Go.Expr.fmt (some (exNode e)) = some e.text := rfl

theorem exNode_other {e : Ex} (h : exKind e = .other) : some (exNode e) = Go.node (some e.text) := by
  rw [exNode, h, Go.node]

/-- The texts of some expressions. -/
def texts (es : List Ex) : List Go.Txt := es.map fun e => some e.text

theorem commas_texts (a : Ex) (as : List Ex) : Go.sepBy (lit ", ") (texts (a :: as)) = some (a.text ++ Ex.moreText as) := by
  induction as generalizing a with
  | nil => simp [texts, Go.sepBy, Ex.moreText]
  | cons b bs ih =>
    have := ih b
    rw [texts, List.map_cons] at this
    rw [texts, List.map_cons, List.map_cons, Go.sepBy, this]
    · simp [Go.cat, Ex.moreText]
    · simp

mutual
/-- The value of an expression is its text and its kind. -/
theorem value_core : ∀ e : Ex, e.Proper → exprOf (core e) = some (exNode e)
  | .string s, _ => by
    have e1 : exprOf (core (.string s)) = some { text := some (Go.encodeBytesSQL s), kind := .val ⟨.strVal, s⟩ } := by rw [core]; rfl
    rw [e1, encoded_shown, exNode, Ex.text, exKind]
  | .integer n, _ => by rw [core, exNode, Ex.text, exKind]; rfl
  | .float n, _ => by rw [core, exNode, Ex.text, exKind]; rfl
  | .bits b, _ => by rw [core, exNode, Ex.text, exKind]; rfl
  | .null, _ => by rw [core, exNode, Ex.text, exKind]; rfl
  | .bool true, _ => by rw [core, exNode, Ex.text, exKind] <;> first | rfl | simp
  | .bool false, _ => by rw [core, exNode, Ex.text, exKind] <;> first | rfl | simp
  | .now w c, h => by
    rw [Ex.Proper] at h
    rw [core, value_nowWords w h c, exNode, Ex.text, exKind] <;> simp
  | .column n, h => by
    rw [Ex.Proper] at h
    have e1 : exprOf (core (.column n)) = some { text := some (Go.formatID n), kind := .other } := by rw [core]; rfl
    rw [e1, formatID_shown h, exNode, Ex.text, exKind] <;> simp
  | .qualified t n, h => by
    rw [Ex.Proper] at h
    have e1 : exprOf (core (.qualified t n)) = Go.ColName.expr { Name := n, Qualifier := { name := t } } := by rw [core]; rfl
    refine e1.trans (Eq.trans ?_ (exNode_other rfl).symm)
    rw [Go.ColName.expr, Go.ColName.fmt, Go.formatTableName, formatID_shown h.2, if_neg h.1.1,
      if_neg h.1.1, if_pos rfl, formatID_shown h.1]
    simp [Go.node, Ex.text]
  | .full s t n, h => by
    rw [Ex.Proper] at h
    have e1 : exprOf (core (.full s t n)) = Go.ColName.expr { Name := n, Qualifier := { qualifier := s, name := t } } := by
      rw [core]; rfl
    refine e1.trans (Eq.trans ?_ (exNode_other rfl).symm)
    rw [Go.ColName.expr, Go.ColName.fmt, Go.formatTableName, formatID_shown h.2.2,
      if_neg h.2.1.1, if_neg h.2.1.1, if_neg h.1.1, formatID_shown h.1, formatID_shown h.2.1]
    simp [Go.node, Ex.text]
  | .call f [], _ => by
    have e1 : exprOf (core (.call f [])) = Go.FuncExpr (Name := f) (Exprs := []) := by rw [core]; rfl
    rw [e1, Go.FuncExpr, exNode, Ex.text, exKind]
    simp [Go.cat, Go.commas, Go.sepBy]
    rfl
  | .call f (a :: as), h => by
    rw [Ex.Proper, Ex.AllProper] at h
    have e1 : exprOf (core (.call f (a :: as))) = Go.FuncExpr (Name := f)
        (Exprs := ((argsTree (.node 446 [argTree (asExpr (sortOf a) (core a))]) as).value valueOf).selectExprs) := by
      rw [core]; rfl
    have e2 : ((Tree.node 446 [argTree (asExpr (sortOf a) (core a))]).value valueOf).selectExprs = texts [a] := by
      have : ((Tree.node 446 [argTree (asExpr (sortOf a) (core a))]).value valueOf).selectExprs =
        [Go.AliasedExpr (exprOf (asExpr (sortOf a) (core a))) []] := rfl
      rw [this, expr_asExpr, value_core a h.1]
      simp [Go.AliasedExpr, exNode, Go.Expr.fmt, Go.cat, texts]
    rw [e1, value_args _ as h.2, e2, Go.FuncExpr, exNode, Ex.text, exKind]
    rw [Go.commas, show texts [a] ++ texts as = texts (a :: as) by simp [texts], commas_texts]
    simp [Go.cat]
  | .tuple a as, h => by
    rw [Ex.Proper] at h
    have e1 : exprOf (core (.tuple a as)) =
        Go.tupleOrParen ((listTree (.node 552 [asExpr (sortOf a) (core a)]) as).value valueOf).exprs := by rw [core]; rfl
    have e2 : ((Tree.node 552 [asExpr (sortOf a) (core a)]).value valueOf).exprs = [some (exNode a)] := by
      have : ((Tree.node 552 [asExpr (sortOf a) (core a)]).value valueOf).exprs = [exprOf (asExpr (sortOf a) (core a))] := rfl
      rw [this, expr_asExpr, value_core a h.1]
    rw [e1, value_list _ as h.2, e2]
    cases as with
    | nil =>
      rw [List.map_nil, List.append_nil, Go.tupleOrParen, exNode]
      simp [Go.ParenExpr, exNode, Go.Expr.fmt, Go.cat, Ex.text, Ex.moreText, exKind]
    | cons b bs =>
      have hc := commas_texts a (b :: bs)
      rw [show [some (exNode a)] ++ (b :: bs).map (fun e => some (exNode e)) = (a :: b :: bs).map (fun e => some (exNode e)) from rfl]
      rw [List.map_cons, List.map_cons, Go.tupleOrParen]
      · refine Eq.trans ?_ (exNode_other rfl).symm
        rw [Go.tupleExpr, Go.formatTuple, Go.formatExprs]
        · have e3 : List.map Go.Expr.fmt (some (exNode a) :: some (exNode b) :: bs.map fun e => some (exNode e)) = texts (a :: b :: bs) := by
            simp [texts, exNode, Go.Expr.fmt]
          rw [e3, hc]
          simp [Go.cat, Go.node, Ex.text]
      · simp
  | .cast e t, h => by
    rw [Ex.Proper] at h
    have e1 : exprOf (core (.cast e t)) = Go.ConvertExpr (exprOf (core e)) ((castToTree t).value valueOf).convertType := by
      rw [core]; rfl
    rw [e1, value_core e h.2.2, value_castTo h.2.1]
    refine Eq.trans ?_ (exNode_other rfl).symm
    simp [Go.ConvertExpr, Go.node, Go.cat, fmt_exNode, Ex.text, Go.ConvertType.fmt]
  | .collate e n, h => by
    rw [Ex.Proper] at h
    have e1 : exprOf (core (.collate e n)) = Go.CollateExpr (exprOf (core e)) n := by rw [core]; rfl
    rw [e1, value_core e h.2]
    refine Eq.trans ?_ (exNode_other rfl).symm
    simp [Go.CollateExpr, Go.node, Go.cat, fmt_exNode, Ex.text]
  | .sign op e, h => by
    have h' := h
    rw [Ex.Proper] at h'
    exact sign_value op h'.2 (value_core e h'.2)
  | .arith op l r, h => by
    rw [Ex.Proper] at h
    have e1 : exprOf (core (.arith op l r)) = Go.BinaryExpr (exprOf (core l)) op.text (exprOf (core r)) := by
      rw [core]; cases op <;> rfl
    rw [e1, value_core l h.2.1, value_core r h.2.2]
    refine Eq.trans ?_ (exNode_other rfl).symm
    simp [Go.BinaryExpr, Go.node, Go.cat, fmt_exNode, Ex.text]
  | .compare op l r, h => by
    rw [Ex.Proper] at h
    have e1 : exprOf (core (.compare op l r)) = Go.ComparisonExpr (exprOf (core l)) op.text (exprOf (core r)) := by
      rw [core]; cases op <;> rfl
    rw [e1, value_core l h.2.1, value_core r h.2.2]
    refine Eq.trans ?_ (exNode_other rfl).symm
    simp [Go.ComparisonExpr, Go.node, Go.cat, fmt_exNode, Ex.text, Go.formatEscape]
  | .like neg l r, h => by
    rw [Ex.Proper] at h
    have e1 : exprOf (core (.like neg l r)) = Go.ComparisonExpr (exprOf (core l)) (notText neg ++ lit "like") (exprOf (core r)) := by
      cases neg <;> rw [core] <;> rfl
    rw [e1, value_core l h.2.1, value_core r h.2.2]
    refine Eq.trans ?_ (exNode_other rfl).symm
    simp [Go.ComparisonExpr, Go.node, Go.cat, fmt_exNode, Ex.text, Go.formatEscape, lit]
  | .regexp neg l r, h => by
    rw [Ex.Proper] at h
    have e1 : exprOf (core (.regexp neg l r)) = Go.ComparisonExpr (exprOf (core l)) (notText neg ++ lit "regexp") (exprOf (core r)) := by
      cases neg <;> rw [core] <;> rfl
    rw [e1, value_core l h.2.1, value_core r h.2.2]
    refine Eq.trans ?_ (exNode_other rfl).symm
    simp [Go.ComparisonExpr, Go.node, Go.cat, fmt_exNode, Ex.text, Go.formatEscape, lit]
  | .among neg l a as, h => by
    rw [Ex.Proper] at h
    have e1 : exprOf (core (.among neg l a as)) = Go.ComparisonExpr (exprOf (core l)) (notText neg ++ lit "in")
        (Go.tupleExpr ((listTree (.node 552 [asExpr (sortOf a) (core a)]) as).value valueOf).exprs) := by
      cases neg <;> rw [core] <;> rfl
    have e2 : ((Tree.node 552 [asExpr (sortOf a) (core a)]).value valueOf).exprs = [some (exNode a)] := by
      have : ((Tree.node 552 [asExpr (sortOf a) (core a)]).value valueOf).exprs = [exprOf (asExpr (sortOf a) (core a))] := rfl
      rw [this, expr_asExpr, value_core a h.2.2.1]
    rw [e1, value_list _ as h.2.2.2, e2, value_core l h.2.1,
      show [some (exNode a)] ++ as.map (fun e => some (exNode e)) = (a :: as).map (fun e => some (exNode e)) from rfl]
    have e3 : ((a :: as).map fun e => some (exNode e)).map Go.Expr.fmt = texts (a :: as) := by
      simp [texts, exNode, Go.Expr.fmt]
    refine Eq.trans ?_ (exNode_other rfl).symm
    rw [Go.ComparisonExpr, Go.tupleExpr, Go.formatTuple, Go.formatExprs, e3, commas_texts, fmt_exNode]
    simp [Go.node, Go.cat, Go.Expr.fmt, Go.formatEscape, lit, Ex.text]
  | .between neg l a b, h => by
    rw [Ex.Proper] at h
    have e1 : exprOf (core (.between neg l a b)) = Go.RangeCond (exprOf (core l)) (notText neg ++ lit "between")
        (exprOf (core a)) (exprOf (core b)) := by
      cases neg <;> rw [core] <;> rfl
    rw [e1, value_core l h.2.1, value_core a h.2.2.1, value_core b h.2.2.2]
    refine Eq.trans ?_ (exNode_other rfl).symm
    simp [Go.RangeCond, Go.node, Go.cat, fmt_exNode, Ex.text, lit]
  | .is e neg w, h => by
    rw [Ex.Proper] at h
    have e1 : exprOf (core (.is e neg w)) = Go.IsExpr ((isTree neg w).value valueOf).str (exprOf (asExpr (sortOf e) (core e))) := by
      rw [core]; rfl
    rw [e1, value_is, expr_asExpr, value_core e h.2]
    refine Eq.trans ?_ (exNode_other rfl).symm
    simp [Go.IsExpr, Go.node, Go.cat, fmt_exNode, Ex.text, lit]
  | .not e, h => by
    rw [Ex.Proper] at h
    have e1 : exprOf (core (.not e)) = Go.NotExpr (exprOf (asExpr (sortOf e) (core e))) := by rw [core]; rfl
    rw [e1, expr_asExpr, value_core e h.2]
    refine Eq.trans ?_ (exNode_other rfl).symm
    simp [Go.NotExpr, Go.node, Go.cat, fmt_exNode, Ex.text]
  | .and l r, h => by
    rw [Ex.Proper] at h
    have e1 : exprOf (core (.and l r)) = Go.AndExpr (exprOf (asExpr (sortOf l) (core l))) (exprOf (asExpr (sortOf r) (core r))) := by
      rw [core]; rfl
    rw [e1, expr_asExpr, expr_asExpr, value_core l h.2.1, value_core r h.2.2]
    refine Eq.trans ?_ (exNode_other rfl).symm
    simp [Go.AndExpr, Go.node, Go.cat, fmt_exNode, Ex.text]
  | .or l r, h => by
    rw [Ex.Proper] at h
    have e1 : exprOf (core (.or l r)) = Go.OrExpr (exprOf (asExpr (sortOf l) (core l))) (exprOf (asExpr (sortOf r) (core r))) := by
      rw [core]; rfl
    rw [e1, expr_asExpr, expr_asExpr, value_core l h.2.1, value_core r h.2.2]
    refine Eq.trans ?_ (exNode_other rfl).symm
    simp [Go.OrExpr, Go.node, Go.cat, fmt_exNode, Ex.text]
theorem value_args : ∀ (d : Tree SymType) (es : List Ex), Ex.AllProper es →
    ((argsTree d es).value valueOf).selectExprs = (d.value valueOf).selectExprs ++ texts es
  | d, [], _ => by rw [argsTree]; simp [texts]
  | d, e :: es, h => by
    rw [Ex.AllProper] at h
    rw [argsTree, value_args _ es h.2]
    have : ((Tree.node 447 [d, lf (sym ','), argTree (asExpr (sortOf e) (core e))]).value valueOf).selectExprs =
      (d.value valueOf).selectExprs ++ [Go.AliasedExpr (exprOf (asExpr (sortOf e) (core e))) []] := rfl
    rw [this, expr_asExpr, value_core e h.1]
    simp [Go.AliasedExpr, exNode, Go.Expr.fmt, Go.cat, texts]
theorem value_list : ∀ (d : Tree SymType) (es : List Ex), Ex.AllProper es →
    ((listTree d es).value valueOf).exprs = (d.value valueOf).exprs ++ es.map fun e => some (exNode e)
  | d, [], _ => by rw [listTree]; simp
  | d, e :: es, h => by
    rw [Ex.AllProper] at h
    rw [listTree, value_list _ es h.2]
    have : ((Tree.node 553 [d, lf (sym ','), asExpr (sortOf e) (core e)]).value valueOf).exprs =
      (d.value valueOf).exprs ++ [exprOf (asExpr (sortOf e) (core e))] := rfl
    rw [this, expr_asExpr, value_core e h.1]
    simp
end

theorem value_expr {e : Ex} (h : e.Proper) : exprOf (exprTree e) = some (exNode e) := by
  rw [exprTree, expr_asExpr, value_core e h]

theorem node_meaning (e : Ex) : (exNode e).sql = e.meaning := by
  cases e with
  | tuple a as => cases as <;> rfl
  | call f args =>
    have h : (exNode (.call f args)).kind = .rand ∨ (exNode (.call f args)).kind = .other := by
      unfold exNode exKind
      dsimp only
      split <;> simp
    rw [Go.ExprNode.sql, Ex.meaning]
    · rcases h with h | h <;> rw [h] <;> rfl
    all_goals simp
  | sign op e =>
    have h : (∃ v, (exNode (.sign op e)).kind = .val v) ∨ (exNode (.sign op e)).kind = .unary := by
      unfold exNode exKind
      dsimp only
      split <;> simp
    rw [Go.ExprNode.sql, Ex.meaning]
    · rcases h with ⟨v, h⟩ | h <;> rw [h] <;> rfl
    all_goals simp
  | _ => rfl

end Sqldef.Sql
