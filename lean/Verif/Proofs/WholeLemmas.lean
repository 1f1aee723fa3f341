import Verif.Proofs.WholeTable

/-! Lemmas about the values of the actions, for the proof that every rule keeps the classes of its symbols. -/
namespace Sqldef.Sql
open Go Spec

theorem FineExpr.fine {t : Bool} {e : Expr} (h : FineExpr t e) : Fine t e.fmt := h.text

theorem FineExpr.some {t : Bool} {e : Expr} (h : FineExpr t e) : ∀ x, e = some x → Fine t x.text := by
  intro x hx
  have := h.text
  rw [hx] at this
  exact this

/-- With texts to be written, an expression can be written. -/
theorem FineExpr.clause {t : Bool} {e : Expr} (h : FineExpr t e) (ht : t = true) :
    ∀ x, e = Option.some x → x.text.isSome = true := fun x hx => h.some x hx ht

theorem clause_fine {t : Bool} {e : Expr} (h : ∀ x, e = some x → x.text.isSome = true) :
    ∀ x, e = some x → Fine t x.text := fun x hx _ => h x hx

theorem fineExpr_kind {t : Bool} {x : Txt} {k : ExprKind} (hk : ∀ v, k ≠ .val v) (h : Fine t x) :
    FineExpr t (some { text := x, kind := k }) :=
  ⟨rfl, h, fun s n he hv => by cases he; exact absurd hv (hk _)⟩

theorem fineExpr_paren {t : Bool} {e : Expr} (h : Fine t e.fmt) : FineExpr t (ParenExpr e) :=
  fineExpr_kind (by simp) (by simp [fine_cat, h])

theorem fineExpr_unary {t : Bool} {o : Str} {e : Expr} (h : Fine t e.fmt) : FineExpr t (UnaryExpr o e) :=
  fineExpr_kind (by simp) (by simp [fine_cat, h])

theorem fineExpr_func {t : Bool} {n q : Str} {b : Bool} {l : List Txt} (h : ∀ x ∈ l, Fine t x) :
    FineExpr t (FuncExpr n q b l) := by
  refine fineExpr_kind ?_ ?_
  · intro v; split <;> simp
  · simp only [fine_cat, List.mem_cons, List.not_mem_nil, or_false, forall_eq_or_imp, forall_eq, fine_some,
      commas, fine_sepBy, true_and, and_true]
    exact h

theorem fine_exprs {t : Bool} {l : List Expr} (h : ∀ e ∈ l, Fine t e.fmt) : Fine t (formatExprs l) := by
  simp only [formatExprs, fine_sepBy, List.mem_map, forall_exists_index, and_imp, forall_apply_eq_imp_iff₂]
  exact h

theorem fine_tuple {t : Bool} {l : List Expr} (h : ∀ e ∈ l, Fine t e.fmt) : Fine t (formatTuple l) := by
  simp [formatTuple, fine_cat, fine_exprs h]

theorem fineExpr_tuple {t : Bool} {l : List Expr} (h : ∀ e ∈ l, Fine t e.fmt) : FineExpr t (tupleExpr l) :=
  fineExpr_node (fine_tuple h)

theorem fineExpr_tupleOrParen {t : Bool} {l : List Expr} (h : ∀ e ∈ l, Fine t e.fmt) :
    FineExpr t (tupleOrParen l) := by
  unfold tupleOrParen
  split
  · exact fineExpr_paren (h _ (List.mem_singleton_self _))
  · exact fineExpr_tuple h

theorem digits_minus {s : Str} (h : Digits ('-' :: s)) : Digits s := by
  obtain ⟨c, r, hc, h | h⟩ := h
  · simp only [List.cons.injEq] at h; exact absurd h.1.symm hc
  · simp only [List.cons.injEq, true_and] at h; exact ⟨c, r, hc, .inl h⟩

theorem digits_signed {s : Str} (h : Digits s) (hs : ∀ r, s ≠ '-' :: r) : Digits ('-' :: s) := by
  obtain ⟨c, r, hc, h | h⟩ := h
  · exact ⟨c, r, hc, .inr (by rw [h])⟩
  · exact absurd h (hs _)

theorem digits_ne {s : Str} (h : Digits s) : s ≠ [] := by
  obtain ⟨c, r, hc, h | h⟩ := h <;> simp [h]

theorem fineExpr_int {t : Bool} {s : Str} (h : Digits s) : FineExpr t (valExpr (NewIntVal s)) :=
  fineExpr_val rfl (fun v hv => by cases hv; rfl) (fun s' hs => by cases hs; exact h)

theorem fineExpr_str {t : Bool} {s : Str} : FineExpr t (valExpr (NewStrVal s)) :=
  fineExpr_val rfl (fun v hv => by cases hv; rfl) (fun s' hs => by cases hs)

theorem fineExpr_float {t : Bool} {s : Str} : FineExpr t (valExpr (NewFloatVal s)) :=
  fineExpr_val rfl (fun v hv => by cases hv; rfl) (fun s' hs => by cases hs)

theorem fineExpr_hexNum {t : Bool} {s : Str} : FineExpr t (valExpr (NewHexNum s)) :=
  fineExpr_val rfl (fun v hv => by cases hv; rfl) (fun s' hs => by cases hs)

theorem fineExpr_hexVal {t : Bool} {s : Str} : FineExpr t (valExpr (NewHexVal s)) :=
  fineExpr_val rfl (fun v hv => by cases hv; rfl) (fun s' hs => by cases hs)

theorem fineExpr_bitVal {t : Bool} {s : Str} : FineExpr t (valExpr (NewBitVal s)) :=
  fineExpr_val rfl (fun v hv => by cases hv; rfl) (fun s' hs => by cases hs)

theorem fineExpr_valArg {t : Bool} {s : Str} : FineExpr t (valExpr (NewValArg s)) :=
  fineExpr_val rfl (fun v hv => by cases hv; rfl) (fun s' hs => by cases hs)

theorem fineExpr_null {t : Bool} : FineExpr t NullVal := fineExpr_kind (by simp) (by simp)

theorem fineExpr_unaryPlus {t : Bool} {e : Expr} (h : FineExpr t e) : FineExpr t (unaryPlus e) := by
  unfold unaryPlus
  split
  · exact h
  · exact fineExpr_unary h.text

theorem fineExpr_unaryMinus {t : Bool} {e : Expr} (h : FineExpr t e) : FineExpr t (unaryMinus e) := by
  unfold unaryMinus
  split
  · exact fineExpr_int (digits_minus (h.digits _ _ rfl rfl))
  · next s hs => exact fineExpr_int (digits_signed (h.digits _ _ rfl rfl) fun r hr => hs _ (by rw [hr]))
  · exact fineExpr_unary h.text

theorem fine_order {t : Bool} {e : Expr} {s : Str} (h : FineExpr t e) : Fine t (Order e s) := by
  have := h.text
  unfold Order
  split
  · exact this
  · exact this
  · simp [fine_cat, this]

theorem fine_updates {t : Bool} {l : List UpdateExpr} (h : ∀ u ∈ l, Fine t u.E.fmt) : Fine t (formatUpdates l) := by
  simp only [formatUpdates, commas, fine_sepBy, List.mem_map, forall_exists_index, and_imp,
    forall_apply_eq_imp_iff₂, fine_cat, List.mem_cons, List.not_mem_nil, or_false, forall_eq_or_imp, forall_eq,
    fine_some, true_and]
  exact h

theorem fine_values {t : Bool} {l : List (List Expr)} (h : ∀ row ∈ l, ∀ e ∈ row, Fine t e.fmt) :
    Fine t (formatValues l) := by
  refine fine_prefixed ?_
  simp only [List.mem_map, forall_exists_index, and_imp, forall_apply_eq_imp_iff₂]
  exact fun row hr => fine_tuple (h row hr)

theorem fine_mapExprs {t : Bool} {l : List Expr} (h : ∀ e ∈ l, Fine t e.fmt) : ∀ x ∈ l.map Expr.fmt, Fine t x := by
  simp only [List.mem_map, forall_exists_index, and_imp, forall_apply_eq_imp_iff₂]
  exact h

theorem fine_select {t : Bool} {Comments : List Str} {Cache Distinct Hints : Str} {SelectExprs From : List Txt}
    {Where : Expr} {GroupBy : List Expr} {Having : Expr} (h1 : ∀ x ∈ SelectExprs, Fine t x) (h2 : ∀ x ∈ From, Fine t x)
    (h3 : ∀ e, Where = some e → Fine t e.text) (h4 : ∀ e ∈ GroupBy, Fine t e.fmt)
    (h5 : ∀ e, Having = some e → Fine t e.text) :
    Fine t (Select Comments Cache Distinct Hints SelectExprs From Where GroupBy Having) := by
  unfold Select
  simp only [fine_cat, List.mem_cons, List.not_mem_nil, or_false, forall_eq_or_imp, forall_eq, fine_some, commas,
    fine_sepBy, true_and]
  exact ⟨h1, h2, fine_where h3, fine_prefixed (fine_mapExprs h4), fine_where h5⟩

theorem fine_union {t : Bool} {Ty Lock : Str} {Left Right Limit : Txt} {o : List Txt} (h1 : Fine t Left)
    (h2 : Fine t Right) (h3 : ∀ x ∈ o, Fine t x) (h4 : Fine t Limit) : Fine t (Go.Union Ty Left Right o Limit Lock) := by
  simp [Go.Union, fine_cat, formatOrderBy, fine_prefixed h3, h1, h2, h4]

theorem fine_insert {t : Bool} {a i : Str} {c : List Str} {tn : SqlTableName} {p cs : List Str} {Rows : Txt}
    {OnDup : List UpdateExpr} (h1 : Fine t Rows) (h2 : ∀ u ∈ OnDup, Fine t u.E.fmt) :
    Fine t (formatInsert a c i tn p cs Rows OnDup) := by
  unfold formatInsert
  simp only [fine_cat, List.mem_cons, List.not_mem_nil, or_false, forall_eq_or_imp, forall_eq, fine_some, true_and]
  refine ⟨h1, ?_⟩
  split
  · simp
  · simp [fine_cat, fine_updates h2]

theorem fine_update {t : Bool} {c : List Str} {ts : List Txt} {us : List UpdateExpr} {w : Expr} {o : List Txt} {l : Txt}
    (h1 : ∀ x ∈ ts, Fine t x) (h2 : ∀ u ∈ us, Fine t u.E.fmt) (h3 : ∀ e, w = some e → Fine t e.text)
    (h4 : ∀ x ∈ o, Fine t x) (h5 : Fine t l) : Fine t (formatUpdate c ts us w o l) := by
  unfold formatUpdate
  simp only [fine_cat, List.mem_cons, List.not_mem_nil, or_false, forall_eq_or_imp, forall_eq, fine_some, commas,
    fine_sepBy, true_and]
  exact ⟨h1, fine_updates h2, fine_where h3, fine_prefixed h4, h5⟩

theorem fine_delete {t : Bool} {c : List Str} {tg : List SqlTableName} {ts : List Txt} {p : List Str} {w : Expr}
    {o : List Txt} {l : Txt} (h1 : ∀ x ∈ ts, Fine t x) (h3 : ∀ e, w = some e → Fine t e.text)
    (h4 : ∀ x ∈ o, Fine t x) (h5 : Fine t l) : Fine t (formatDelete c tg ts p w o l) := by
  unfold formatDelete
  simp only [fine_cat, List.mem_cons, List.not_mem_nil, or_false, forall_eq_or_imp, forall_eq, fine_some, commas,
    fine_sepBy, true_and]
  exact ⟨h1, fine_where h3, fine_prefixed h4, h5⟩

theorem convert_fmt {c : ConvertType} (h1 : ∀ x, c.Length = some x → (formatVal x).isSome = true)
    (h2 : ∀ x, c.Scale = some x → (formatVal x).isSome = true) : c.fmt.isSome = true := by
  unfold ConvertType.fmt
  cases hl : c.Length with
  | none => simp
  | some x =>
    cases hs : c.Scale with
    | none => simp [h1 x hl]
    | some y => simp [h1 x hl, h2 y hs]

theorem fine_case {t : Bool} {e f : Expr} {ws : List Txt} (h1 : ∀ x, e = some x → Fine t x.text)
    (h2 : ∀ x ∈ ws, Fine t x) (h3 : ∀ x, f = some x → Fine t x.text) : FineExpr t (CaseExpr e ws f) := by
  refine fineExpr_node ?_
  simp only [fine_cat, List.mem_cons, List.not_mem_nil, or_false, forall_eq_or_imp, forall_eq, fine_some, true_and,
    List.mem_map, forall_exists_index, and_imp, forall_apply_eq_imp_iff₂, and_true]
  refine ⟨?_, h2, ?_⟩
  · cases e with
    | none => simp
    | some x => simp [fine_cat, h1 x rfl]
  · cases f with
    | none => simp
    | some x => simp [fine_cat, h3 x rfl]

theorem fine_limit {t : Bool} {e f : Expr} (h1 : ∀ x, e = some x → Fine t x.text) (h2 : Fine t f.fmt) :
    Fine t (Limit e f) := by
  cases e with
  | none => simp [Limit, fine_cat, h2]
  | some x => simp [Limit, fine_cat, h2, h1 x rfl]

theorem fine_joinOn {t : Bool} {e : Expr} {l : List Str} (h : ∀ x, e = some x → Fine t x.text) :
    Fine t (JoinCondition e l) := by
  cases e with
  | none => simp [JoinCondition, fine_cat]
  | some x => simp [JoinCondition, fine_cat, h x rfl]

theorem fineExpr_substr {t : Bool} {c : ColName} {e f : Expr} (h1 : Fine t e.fmt)
    (h2 : ∀ x, f = some x → Fine t x.text) : FineExpr t (SubstrExpr c e f) := by
  cases f with
  | none => exact fineExpr_node (by simp [fine_cat, h1])
  | some x => exact fineExpr_node (by simp [fine_cat, h1, h2 x rfl])

theorem fineExpr_match {t : Bool} {l : List Txt} {e : Expr} {o : Str} (h1 : ∀ x ∈ l, Fine t x) (h2 : Fine t e.fmt) :
    FineExpr t (MatchExpr l e o) :=
  fineExpr_node (by
    simp only [fine_cat, List.mem_cons, List.not_mem_nil, or_false, forall_eq_or_imp, forall_eq, fine_some, commas,
      fine_sepBy, true_and, and_true]
    exact ⟨h1, h2⟩)

theorem fineExpr_groupConcat {t : Bool} {d s : Str} {l o : List Txt} (h1 : ∀ x ∈ l, Fine t x) (h2 : ∀ x ∈ o, Fine t x) :
    FineExpr t (GroupConcatExpr d l o s) :=
  fineExpr_node (by
    simp only [fine_cat, List.mem_cons, List.not_mem_nil, or_false, forall_eq_or_imp, forall_eq, fine_some, commas,
      fine_sepBy, true_and, and_true]
    exact ⟨h1, fine_prefixed h2⟩)

/-! ### Statements -/

/-- A statement of a kind that needs nothing. -/
theorem whole_plain {m : Mode} {a : SqlDDL} (h : a.action ∉ [lit "create", lit "create index", lit "add index",
    lit "add primary key", lit "add foreign key", lit "create policy", lit "create view", lit "create trigger"]) :
    WholeStatement m a := by
  simp only [List.mem_cons, List.not_mem_nil, or_false, not_or] at h
  obtain ⟨h1, h2, h3, h4, h5, h6, h7, h8⟩ := h
  constructor
  · exact fun e => absurd e h1
  · simp [h2, h3, h4]
  · simp [h2, h3, h4]
  · exact fun e => absurd e h5
  · exact fun e => absurd e h6
  · exact fun e => absurd e h7
  · exact fun e => absurd e h8

theorem whole_index {m : Mode} {a : SqlDDL} (h : a.action = lit "create index" ∨ a.action = lit "add index" ∨
    a.action = lit "add primary key") (hc : a.indexCols ≠ [])
    (hw : ∀ s w, a.indexSpec = some s → s.whereClause = some w → w.expr.panics = false) : WholeStatement m a := by
  rcases h with h | h | h
  all_goals
    constructor
    all_goals first
      | exact fun _ => hc
      | exact fun _ => hw
      | (intro e; rw [h] at e; exact absurd e (by decide))

theorem where_whole {e : Expr} {w : SqlWhere} (h : ∀ x, e = some x → x.text.isSome = true) (hw : whereOf e = some w) :
    w.expr.panics = false := by
  cases e with
  | none => cases hw
  | some x =>
    cases hw
    have := h x rfl
    simp only [ExprNode.sql]
    cases hx : x.text with
    | none => rw [hx] at this; cases this
    | some s => rfl

theorem sql_whole {e : Expr} {w : SqlExpr} (h : ∀ x, e = some x → x.text.isSome = true)
    (hw : e.map ExprNode.sql = some w) : w.panics = false := by
  cases e with
  | none => cases hw
  | some x =>
    cases hw
    have := h x rfl
    simp only [ExprNode.sql]
    cases hx : x.text with
    | none => rw [hx] at this; cases this
    | some s => rfl

theorem whole_table {m : Mode} {a : SqlDDL} {spec : SqlTableSpec} (h : a.action = lit "create")
    (hs : a.tableSpec = some spec) (hc : ∀ c ∈ spec.columns, FineType c.type)
    (hi : ∀ i ∈ spec.indexes, FineIndex m i) : WholeStatement m a := by
  constructor
  · exact fun _ => ⟨spec, hs, fun c hm => ⟨fun _ => (hc c hm).identity, (hc c hm).check⟩, hi⟩
  all_goals (intro e; rw [h] at e; exact absurd e (by decide))

theorem whole_foreignKey {m : Mode} {a : SqlDDL} (h : a.action = lit "add foreign key") (hk : a.foreignKey ≠ none) :
    WholeStatement m a := by
  constructor
  all_goals first
    | exact fun _ => hk
    | (intro e; rw [h] at e; exact absurd e (by decide))

theorem whole_policy {m : Mode} {a : SqlDDL} {p : SqlPolicy} (h : a.action = lit "create policy") (hp : a.policy = some p)
    (h1 : ∀ e, p.using_ = some e → e.panics = false) (h2 : ∀ e, p.withCheck = some e → e.panics = false) :
    WholeStatement m a := by
  constructor
  all_goals first
    | exact fun _ => ⟨p, hp, h1, h2⟩
    | (intro e; rw [h] at e; exact absurd e (by decide))

theorem whole_view {m : Mode} {a : SqlDDL} {v : SqlView} (h : a.action = lit "create view") (hv : a.view = some v)
    (h1 : v.panics = false) : WholeStatement m a := by
  constructor
  all_goals first
    | exact fun _ => ⟨v, hv, h1⟩
    | (intro e; rw [h] at e; exact absurd e (by decide))

theorem whole_trigger {m : Mode} {a : SqlDDL} {v : SqlTrigger} (h : a.action = lit "create trigger")
    (hv : a.trigger = some v) (h1 : v.panics = false) : WholeStatement m a := by
  constructor
  all_goals first
    | exact fun _ => ⟨v, hv, h1⟩
    | (intro e; rw [h] at e; exact absurd e (by decide))

/-! ### Lists and parts -/

theorem all_snoc {α : Type} {P : α → Prop} {l : List α} {a : α} (h : ∀ x ∈ l, P x) (ha : P a) :
    ∀ x ∈ l ++ [a], P x := by
  intro x hx
  rcases List.mem_append.mp hx with hx | hx
  · exact h x hx
  · rw [List.mem_singleton.mp hx]; exact ha

theorem all_one {α : Type} {P : α → Prop} {a : α} (ha : P a) : ∀ x ∈ [a], P x := by
  intro x hx
  rw [List.mem_singleton.mp hx]; exact ha

theorem all_none {α : Type} {P : α → Prop} : ∀ x ∈ ([] : List α), P x := fun x hx => by cases hx

theorem none_fine {t : Bool} : ∀ x, (none : Expr) = some x → Fine t x.text := fun x hx => by cases hx

theorem dml_fine {t : Bool} {s : Statement} (h : ∃ x, s = .dml x ∧ Fine t x) : Fine t s.fmt := by
  obtain ⟨x, rfl, hx⟩ := h
  exact hx

theorem trigger_whole {n tm e : Str} {tn : SqlTableName} {l : List Statement} (h : ∀ s ∈ l, Fine true s.fmt) :
    (Go.Trigger n tn tm e l).panics = false := by
  simp only [Go.Trigger, List.any_eq_false]
  intro s hs hn
  have := h s hs rfl
  cases hx : s.fmt with
  | none => rw [hx] at this; cases this
  | some v => rw [hx] at hn; cases hn

theorem view_whole {n : SqlTableName} {x : Txt} (h : x.isSome = true) : (Go.View n x).panics = false := by
  cases x with
  | none => cases h
  | some s => rfl

theorem options_one {m : Mode} {o : SqlIndexOption} (h : o.value ≠ none) : WholeOptions m [o] :=
  fun _ => all_one h

theorem options_snoc {m : Mode} {l : List SqlIndexOption} {o : SqlIndexOption} (h1 : WholeOptions m l)
    (h2 : WholeOptions m [o]) : WholeOptions m (l ++ [o]) :=
  fun hm => all_snoc (h1 hm) (h2 hm o (List.mem_singleton_self _))

theorem check_whole {e : Expr} {f : ExprNode → SqlCheck} (hf : ∀ x, (f x).whereExpr = x.sql) {k : SqlCheck}
    (h : ∀ x, e = some x → x.text.isSome = true) (hk : e.map f = some k) : k.whereExpr.panics = false := by
  cases e with
  | none => cases hk
  | some x =>
    cases hk
    rw [hf]
    have := h x rfl
    simp only [ExprNode.sql]
    cases hx : x.text with
    | none => rw [hx] at this; cases this
    | some s => rfl

theorem int_written {s : Str} : ∀ x, NewIntVal s = some x → (formatVal x).isSome = true :=
  fun x hx => by cases hx; rfl

theorem none_written : ∀ x, (none : Option SqlVal) = some x → (formatVal x).isSome = true :=
  fun x hx => by cases hx

/-- The parts of a text. -/
macro "parts" : tactic => `(tactic|
  simp only [fine_cat, List.mem_cons, List.not_mem_nil, or_false, forall_eq_or_imp, forall_eq, fine_some, commas,
    fine_sepBy, true_and, and_true])

/-! ### Tables of rules -/

/-- All entries keep their classes. -/
def AllKeeps (m : Mode) (t : Bool) : List (Nat × Class × List Class) → Prop
  | [] => True
  | e :: l => Keeps m t e ∧ AllKeeps m t l

theorem allKeeps_mem {m : Mode} {t : Bool} : ∀ {l}, AllKeeps m t l → ∀ e ∈ l, Keeps m t e
  | [], _, e, he => by cases he
  | a :: l, h, e, he => by
    rcases List.mem_cons.mp he with rfl | he
    · exact h.1
    · exact allKeeps_mem h.2 e he

end Sqldef.Sql
