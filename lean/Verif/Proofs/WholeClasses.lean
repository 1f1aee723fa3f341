import Verif.Model.SqlParse
import Verif.Spec.Crash

/-!
What the values of the symbols of the grammar have in common, symbol by symbol: the invariant behind the proof that the
parser neither panics nor returns an incomplete tree.

`t` says which texts are meant: with `t = true` those in which the operator `::` has a left operand, whose expressions
can all be written out; with `t = false` those without the clauses that are written out (CHECK, WHERE, VIEW, POLICY,
TRIGGER).
-/
namespace Sqldef.Sql
open Go Spec

/-- What is known of the value of a symbol. -/
inductive Class
  | any | stmt | dml | body | sel | ins | selExprs | selExpr | tabExprs | tabExpr | aliased | join | expr | optExpr
  | clause | exprs | tuple | rows | colTuple | subquery | whens | when_ | orders | order | limit | updates | update
  | convert | length | lengths | plainType | colType | column | table | indexDef | option | options | onOff
  | indexCols | tablePrefix | behavior | integral | word | rendered | replication | using
  deriving DecidableEq

/-- The text can be written, if texts are to be written. -/
def Fine (t : Bool) (x : Txt) : Prop := t = true → x.isSome = true

/-- An integer has a digit, and at most one sign. -/
def Digits (s : Str) : Prop := ∃ c r, c ≠ '-' ∧ (s = c :: r ∨ s = '-' :: c :: r)

/-- An expression that can be written, and that is not an integer without digits. -/
structure FineExpr (t : Bool) (e : Expr) : Prop where
  node : e.isSome = true
  text : Fine t e.fmt
  digits : ∀ s n, e = some n → n.kind = .val ⟨.intVal, s⟩ → Digits s

/-- The type of a column: an identity has its numbers, and a check can be written. -/
structure FineType (c : SqlColumnType) : Prop where
  identity : ∀ i s, c.identity = some i → i.sequence = some s →
    i.behavior ≠ [] ∨ s.startWith ≠ none ∧ s.incrementBy ≠ none
  check : ∀ k, c.check = some k → k.whereExpr.panics = false

/-- An index has columns and its options have values. -/
def FineIndex (m : Mode) (i : SqlIndexDef) : Prop := i.columns ≠ [] ∧ WholeOptions m i.options

/-- What the class says of a value. -/
def Holds (m : Mode) (t : Bool) : Class → SymType → Prop
  | .any, _ => True
  | .stmt, v => ∀ d, v.statement = .ddl d → WholeStatement m d
  | .dml, v => ∃ x, v.statement = .dml x ∧ Fine t x
  | .body, v => ∀ s ∈ v.triggerBody, Fine t s.fmt
  | .sel, v => Fine t v.selStmt
  | .ins, v => Fine t v.ins.Rows
  | .selExprs, v => ∀ x ∈ v.selectExprs, Fine t x
  | .selExpr, v => Fine t v.selectExpr
  | .tabExprs, v => ∀ x ∈ v.tableExprs, Fine t x
  | .tabExpr, v => Fine t v.tableExpr
  | .aliased, v => Fine t v.aliasedTableName
  | .join, v => Fine t v.joinCondition
  | .expr, v => FineExpr t v.expr
  | .optExpr, v => ∀ e, v.expr = some e → Fine t e.text
  | .clause, v => ∀ e, v.expr = some e → e.text.isSome = true
  | .exprs, v => ∀ e ∈ v.exprs, Fine t e.fmt
  | .tuple, v => ∀ e ∈ v.valTuple, Fine t e.fmt
  | .rows, v => ∀ row ∈ v.values, ∀ e ∈ row, Fine t e.fmt
  | .colTuple, v => Fine t v.colTuple.fmt
  | .subquery, v => Fine t v.subquery
  | .whens, v => ∀ x ∈ v.whens, Fine t x
  | .when_, v => Fine t v.when_
  | .orders, v => ∀ x ∈ v.orderBy, Fine t x
  | .order, v => Fine t v.order_
  | .limit, v => Fine t v.limit
  | .updates, v => ∀ u ∈ v.updateExprs, Fine t u.E.fmt
  | .update, v => Fine t v.updateExpr.E.fmt
  | .convert, v => v.convertType.fmt.isSome = true
  | .length, v => ∀ x, v.optVal = some x → (formatVal x).isSome = true
  | .lengths, v => (∀ x, v.lengthScale.Length = some x → (formatVal x).isSome = true) ∧
      ∀ x, v.lengthScale.Scale = some x → (formatVal x).isSome = true
  | .plainType, v => v.columnType.check = none
  | .colType, v => FineType v.columnType
  | .column, v => FineType v.columnDefinition.type
  | .table, v => (∀ c ∈ v.tableSpec.columns, FineType c.type) ∧ ∀ i ∈ v.tableSpec.indexes, FineIndex m i
  | .indexDef, v => FineIndex m v.indexDefinition
  | .option, v => WholeOptions m [v.indexOption]
  | .options, v => WholeOptions m v.indexOptions
  | .onOff, v => v.optVal ≠ none
  | .indexCols, v => v.indexColumns ≠ []
  | .tablePrefix, v => v.ddl.action = lit "create"
  | .behavior, v => v.str ≠ []
  | .integral, v => Digits v.bytes
  | .word, v => v.bytes ≠ []
  | .rendered, _ => t = true
  | .replication, _ => False
  | .using, _ => m ≠ .mysql ∧ m ≠ .mssql

/-- The values `$n`, `$n+1` … are of these classes. -/
def HoldsFrom (m : Mode) (t : Bool) : Nat → List Class → (Nat → SymType) → Prop
  | _, [], _ => True
  | n, c :: cs, d => Holds m t c (d n) ∧ HoldsFrom m t (n + 1) cs d

/-- The rule keeps the classes: an entry of the table is a rule with the classes of its two sides. -/
def Keeps (m : Mode) (t : Bool) (e : Nat × Class × List Class) : Prop :=
  ∀ d, HoldsFrom m t 1 e.2.2 d → Holds m t e.2.1 (value e.1 d)

/-! ### Texts that can be written -/

@[simp] theorem fine_some (t : Bool) (s : Str) : Fine t (some s) := fun _ => rfl

@[simp] theorem fine_false (x : Txt) : Fine false x := fun h => by cases h

@[simp] theorem fine_true (x : Txt) : Fine true x ↔ x.isSome = true := ⟨fun h => h rfl, fun h _ => h⟩

@[simp] theorem cat_isSome : ∀ (l : List Txt), (cat l).isSome = true ↔ ∀ x ∈ l, x.isSome = true
  | [] => by simp [cat]
  | a :: l => by
    have ih := cat_isSome l
    cases a with
    | none => simp [cat]
    | some s => simp [cat, ← ih]

@[simp] theorem sepBy_isSome (sep : Str) : ∀ (l : List Txt), (sepBy sep l).isSome = true ↔ ∀ x ∈ l, x.isSome = true
  | [] => by simp [sepBy]
  | [a] => by simp [sepBy]
  | a :: b :: l => by
    have ih := sepBy_isSome sep (b :: l)
    simp only [sepBy, cat_isSome, List.mem_cons, List.not_mem_nil, or_false] at ih ⊢
    constructor
    · intro h x hx
      rcases hx with rfl | hx
      · exact h _ (.inl rfl)
      · exact ih.mp (h _ (.inr (.inr rfl))) x hx
    · intro h x hx
      rcases hx with rfl | rfl | rfl
      · exact h _ (.inl rfl)
      · rfl
      · exact ih.mpr fun x hx => h x (.inr hx)

theorem fine_cat {t : Bool} {l : List Txt} : Fine t (cat l) ↔ ∀ x ∈ l, Fine t x := by
  cases t <;> simp

theorem fine_sepBy {t : Bool} {sep : Str} {l : List Txt} : Fine t (sepBy sep l) ↔ ∀ x ∈ l, Fine t x := by
  cases t <;> simp

theorem fine_prefixed {t : Bool} {p : Str} {l : List Txt} (h : ∀ x ∈ l, Fine t x) : Fine t (prefixed p l) := by
  unfold prefixed
  split
  · simp
  · simp only [fine_cat, commas, List.mem_cons, List.not_mem_nil, or_false, forall_eq_or_imp, forall_eq, fine_some,
      true_and, fine_sepBy]
    exact h

theorem fine_node {t : Bool} {x : Txt} : Fine t (Expr.fmt (node x)) ↔ Fine t x := Iff.rfl

/-- An expression of no particular kind. -/
theorem fineExpr_node {t : Bool} {x : Txt} (h : Fine t x) : FineExpr t (node x) :=
  ⟨rfl, h, fun s n he hk => by cases he; cases hk⟩

theorem fineExpr_val {t : Bool} {x : Option SqlVal} (h : x.isSome = true) (hf : ∀ v, x = some v → (formatVal v).isSome = true)
    (hd : ∀ s, x = some ⟨.intVal, s⟩ → Digits s) : FineExpr t (valExpr x) := by
  cases x with
  | none => cases h
  | some v =>
    refine ⟨rfl, fun _ => hf v rfl, ?_⟩
    intro s n he hk
    cases he
    simp only [ExprKind.val.injEq] at hk
    exact hd s (by rw [hk])

theorem fine_escape {t : Bool} {e : Expr} (h : ∀ x, e = some x → Fine t x.text) : Fine t (formatEscape e) := by
  cases e with
  | none => simp [formatEscape]
  | some x => simp [formatEscape, fine_cat, h x rfl]

theorem fine_where {t : Bool} {s : Str} {e : Expr} (h : ∀ x, e = some x → Fine t x.text) : Fine t (formatWhere s e) := by
  cases e with
  | none => simp [formatWhere]
  | some x => simp [formatWhere, fine_cat, h x rfl]

end Sqldef.Sql
