import Verif.Proofs.WrittenList
import Verif.Spec.Condition

/-! The derivations of expressions: their tokens and values. -/
namespace Sqldef.Sql
open Spec Yy Written

def sqlId (n : Str) : Tree SymType := .node 745 [lf (named n)]
def tableId (n : Str) : Tree SymType := .node 749 [lf (named n)]
theorem value_sqlId (n : Str) : ((sqlId n).value valueOf).colIdent = n := rfl
theorem value_tableId (n : Str) : ((tableId n).value valueOf).tableIdent = n := rfl
theorem said_sqlId (n : Str) : said (sqlId n) = [seenAs (named n)] := by
  simp [sqlId, said_node, saidAll_cons, saidAll_nil, said_lf]
theorem said_tableId (n : Str) : said (tableId n) = [seenAs (named n)] := by
  simp [tableId, said_node, saidAll_cons, saidAll_nil, said_lf]

/-- `openb` and `closeb` -/
def openTree : Tree SymType := .node 993 [lf (sym '(')]
@[inherit_doc openTree] def closeTree : Tree SymType := .node 994 [lf (sym ')')]

/-- The rule of an operation. -/
def arithRule : Arith → Nat
  | .bitAnd => 559
  | .bitOr => 560
  | .xor => 561
  | .add => 562
  | .sub => 563
  | .mul => 564
  | .div => 565
  | .intDiv => 566
  | .percent => 567
  | .mod => 568
  | .shiftLeft => 569
  | .shiftRight => 570

def signRule : Sign → Nat
  | .plus => 576
  | .minus => 577
  | .tilde => 578
  | .bang => 579

def cmpRule : Cmp → Nat
  | .eq => 539
  | .lt => 540
  | .gt => 541
  | .le => 542
  | .ge => 543
  | .ne => 544
  | .nullSafe => 545

def isTree : Bool → IsWhat → Tree SymType
  | false, .null => .node 533 [lf (kw "NULL")]
  | true, .null => .node 534 [lf (kw "NOT"), lf (kw "NULL")]
  | false, .true => .node 535 [lf (kw "TRUE")]
  | true, .true => .node 536 [lf (kw "NOT"), lf (kw "TRUE")]
  | false, .false => .node 537 [lf (kw "FALSE")]
  | true, .false => .node 538 [lf (kw "NOT"), lf (kw "FALSE")]

/-- The rules of the words for the type of a cast: of the word, and of the rule above it. -/
def castRules : List (String × Nat × Option Nat) :=
  [("binary", 640, none), ("date", 642, none), ("datetime", 643, none), ("text", 646, none),
   ("bool", 645, some 208), ("boolean", 645, some 209),
   ("bit", 644, some 182), ("tinyint", 644, some 183), ("smallint", 644, some 184), ("smallserial", 644, some 185),
   ("mediumint", 644, some 186), ("int", 644, some 187), ("integer", 644, some 188), ("serial", 644, some 189),
   ("bigint", 644, some 190), ("bigserial", 644, some 191)]

def castWordTree (w : String) (r : Nat × Option Nat) : Tree SymType :=
  match r.2 with
  | none => .node r.1 [lf (kw w)]
  | some r' => .node r.1 [.node r' [lf (kw w)]]

def castToTree : CastTo → Tree SymType
  | .word w => castWordTree w ((castRules.find? (·.1 = w)).map (·.2) |>.getD (640, none))
  | .varying => .node 641 [lf (kw "CHARACTER"), lf (kw "VARYING")]

/-- The rules of the words for the present time. -/
def nowRules : List (String × Nat) :=
  [("current_timestamp", 604), ("utc_timestamp", 605), ("utc_time", 606), ("utc_date", 607), ("localtime", 608),
   ("localtimestamp", 609), ("current_date", 610), ("current_time", 611)]

def nowRule (w : String) : Nat := ((nowRules.find? (·.1 = w)).map (·.2)).getD 604

def precisionTree : Bool → Tree SymType
  | true => .node 614 [openTree, closeTree]
  | false => .node 613 []

/-- `value_expression`, `condition` or `expression`. -/
inductive Sort3
  | value
  | condition
  | expression
  deriving DecidableEq

def sortOf : Ex → Sort3
  | .or _ _ => .expression
  | .and _ _ => .expression
  | .not _ => .expression
  | .is _ _ _ => .expression
  | .compare _ _ _ => .condition
  | .like _ _ _ => .condition
  | .regexp _ _ _ => .condition
  | .among _ _ _ _ => .condition
  | .between _ _ _ _ => .condition
  | _ => .value

/-- The derivation as one of an `expression`. -/
def asExpr : Sort3 → Tree SymType → Tree SymType
  | .value, d => .node 517 [d]
  | .condition, d => .node 512 [d]
  | .expression, d => d

/-- An argument of a function. -/
def argTree (d : Tree SymType) : Tree SymType := .node 449 [d, .node 452 []]

mutual
/-- The derivation of an expression. -/
def core : Ex → Tree SymType
  | .string s => .node 554 [.node 659 [lf ⟨.string, s⟩]]
  | .integer n => .node 554 [.node 662 [lf ⟨.integral, n⟩]]
  | .float n => .node 554 [.node 663 [lf ⟨.float, n⟩]]
  | .bits b => .node 554 [.node 661 [lf ⟨.bitLiteral, b⟩]]
  | .null => .node 554 [.node 666 [lf (kw "NULL")]]
  | .bool true => .node 555 [.node 521 [lf (kw "TRUE")]]
  | .bool false => .node 555 [.node 522 [lf (kw "FALSE")]]
  | .now w c => .node 584 [.node (nowRule w) [lf (kw w), precisionTree c]]
  | .column n => .node 556 [.node 656 [sqlId n]]
  | .qualified t n => .node 556 [.node 657 [tableId t, lf (sym '.'), .node 747 [sqlId n]]]
  | .full s t n => .node 556 [.node 658 [tableId s, lf (sym '.'), .node 751 [tableId t], lf (sym '.'), .node 747 [sqlId n]]]
  | .call f [] => .node 582 [.node 586 [sqlId f, openTree, .node 444 [], closeTree]]
  | .call f (a :: as) => .node 582 [.node 586 [sqlId f, openTree,
      .node 445 [argsTree (.node 446 [argTree (asExpr (sortOf a) (core a))]) as], closeTree]]
  | .tuple a as => .node 557 [.node 706 [.node 705 [openTree, listTree (.node 552 [asExpr (sortOf a) (core a)]) as, closeTree]]]
  | .cast e t => .node 581 [core e, lf castMark, castToTree t]
  | .collate e n => .node 573 [core e, lf (kw "COLLATE"), .node 624 [lf (named n)]]
  | .sign op e => .node (signRule op) [lf (sym op.char), core e]
  | .arith op l r => .node (arithRule op) [core l, lf op.token, core r]
  | .compare op l r => .node 523 [core l, .node (cmpRule op) [lf op.token], core r]
  | .like false l r => .node 526 [core l, lf (kw "LIKE"), core r, .node 546 []]
  | .like true l r => .node 527 [core l, lf (kw "NOT"), lf (kw "LIKE"), core r, .node 546 []]
  | .regexp false l r => .node 528 [core l, lf (kw "REGEXP"), core r]
  | .regexp true l r => .node 529 [core l, lf (kw "NOT"), lf (kw "REGEXP"), core r]
  | .among false l a as => .node 524 [core l, lf (kw "IN"),
      .node 548 [.node 705 [openTree, listTree (.node 552 [asExpr (sortOf a) (core a)]) as, closeTree]]]
  | .among true l a as => .node 525 [core l, lf (kw "NOT"), lf (kw "IN"),
      .node 548 [.node 705 [openTree, listTree (.node 552 [asExpr (sortOf a) (core a)]) as, closeTree]]]
  | .between false l a b => .node 530 [core l, lf (kw "BETWEEN"), core a, lf (kw "AND"), core b]
  | .between true l a b => .node 531 [core l, lf (kw "NOT"), lf (kw "BETWEEN"), core a, lf (kw "AND"), core b]
  | .is e neg w => .node 516 [asExpr (sortOf e) (core e), lf (kw "IS"), isTree neg w]
  | .not e => .node 515 [lf (kw "NOT"), asExpr (sortOf e) (core e)]
  | .and l r => .node 513 [asExpr (sortOf l) (core l), lf (kw "AND"), asExpr (sortOf r) (core r)]
  | .or l r => .node 514 [asExpr (sortOf l) (core l), lf (kw "OR"), asExpr (sortOf r) (core r)]
/-- More arguments of a function. -/
def argsTree (d : Tree SymType) : List Ex → Tree SymType
  | [] => d
  | e :: es => argsTree (.node 447 [d, lf (sym ','), argTree (asExpr (sortOf e) (core e))]) es
/-- More elements of a tuple. -/
def listTree (d : Tree SymType) : List Ex → Tree SymType
  | [] => d
  | e :: es => listTree (.node 553 [d, lf (sym ','), asExpr (sortOf e) (core e)]) es
end

/-- The expression as an `expression`. -/
def exprTree (e : Ex) : Tree SymType := asExpr (sortOf e) (core e)

/-! ### Tokens -/

theorem said_asExpr (k : Sort3) (d : Tree SymType) : said (asExpr k d) = said d := by
  cases k <;> simp [asExpr, said_node, saidAll_cons, saidAll_nil]

theorem said_arg (d : Tree SymType) : said (argTree d) = said d := by
  simp [argTree, said_node, saidAll_cons, saidAll_nil]

theorem said_open : said openTree = [seenAs (sym '(')] := by simp [openTree, said_node, saidAll_cons, saidAll_nil, said_lf]
theorem said_close : said closeTree = [seenAs (sym ')')] := by simp [closeTree, said_node, saidAll_cons, saidAll_nil, said_lf]

theorem said_is (neg : Bool) (w : IsWhat) : said (isTree neg w) = (notTokens neg ++ [w.token]).map seenAs := by
  cases neg <;> cases w <;> simp [isTree, notTokens, IsWhat.token, said_node, saidAll_cons, saidAll_nil, said_lf]

theorem said_castTo (t : CastTo) : said (castToTree t) = t.tokens.map seenAs := by
  cases t with
  | word w =>
    simp only [castToTree, castWordTree]
    split <;> simp [CastTo.tokens, said_node, saidAll_cons, saidAll_nil, said_lf]
  | varying => simp [castToTree, CastTo.tokens, said_node, saidAll_cons, saidAll_nil, said_lf]

theorem said_precision (c : Bool) : said (precisionTree c) = (if c then parens [] else []).map seenAs := by
  cases c <;> simp [precisionTree, said_node, saidAll_cons, saidAll_nil, said_open, said_close, parens]

mutual
theorem said_core : ∀ e : Ex, said (core e) = e.tokens.map seenAs
  | .string s => by simp [core, Ex.tokens, said_node, saidAll_cons, saidAll_nil, said_lf]
  | .integer n => by simp [core, Ex.tokens, said_node, saidAll_cons, saidAll_nil, said_lf]
  | .float n => by simp [core, Ex.tokens, said_node, saidAll_cons, saidAll_nil, said_lf]
  | .bits b => by simp [core, Ex.tokens, said_node, saidAll_cons, saidAll_nil, said_lf]
  | .null => by simp [core, Ex.tokens, said_node, saidAll_cons, saidAll_nil, said_lf]
  | .bool true => by simp [core, Ex.tokens, said_node, saidAll_cons, saidAll_nil, said_lf]
  | .bool false => by simp [core, Ex.tokens, said_node, saidAll_cons, saidAll_nil, said_lf]
  | .now w c => by simp [core, Ex.tokens, said_node, saidAll_cons, saidAll_nil, said_lf, said_precision]
  | .column n => by simp [core, Ex.tokens, said_node, saidAll_cons, saidAll_nil, said_sqlId]
  | .qualified t n => by simp [core, Ex.tokens, said_node, saidAll_cons, saidAll_nil, said_lf, said_sqlId, said_tableId]
  | .full s t n => by simp [core, Ex.tokens, said_node, saidAll_cons, saidAll_nil, said_lf, said_sqlId, said_tableId]
  | .call f [] => by simp [core, Ex.tokens, parens, said_node, saidAll_cons, saidAll_nil, said_sqlId, said_open, said_close]
  | .call f (a :: as) => by
    simp [core, Ex.tokens, parens, said_node, saidAll_cons, saidAll_nil, said_sqlId, said_open, said_close,
      said_args _ as, said_arg, said_asExpr, said_core a]
  | .tuple a as => by
    simp [core, Ex.tokens, parens, said_node, saidAll_cons, saidAll_nil, said_open, said_close, said_list _ as,
      said_asExpr, said_core a]
  | .cast e t => by simp [core, Ex.tokens, said_node, saidAll_cons, saidAll_nil, said_lf, said_core e, said_castTo]
  | .collate e n => by simp [core, Ex.tokens, said_node, saidAll_cons, saidAll_nil, said_lf, said_core e]
  | .sign op e => by simp [core, Ex.tokens, said_node, saidAll_cons, saidAll_nil, said_lf, said_core e]
  | .arith op l r => by simp [core, Ex.tokens, said_node, saidAll_cons, saidAll_nil, said_lf, said_core l, said_core r]
  | .compare op l r => by simp [core, Ex.tokens, said_node, saidAll_cons, saidAll_nil, said_lf, said_core l, said_core r]
  | .like false l r => by
    simp [core, Ex.tokens, notTokens, said_node, saidAll_cons, saidAll_nil, said_lf, said_core l, said_core r]
  | .like true l r => by
    simp [core, Ex.tokens, notTokens, said_node, saidAll_cons, saidAll_nil, said_lf, said_core l, said_core r]
  | .regexp false l r => by
    simp [core, Ex.tokens, notTokens, said_node, saidAll_cons, saidAll_nil, said_lf, said_core l, said_core r]
  | .regexp true l r => by
    simp [core, Ex.tokens, notTokens, said_node, saidAll_cons, saidAll_nil, said_lf, said_core l, said_core r]
  | .among false l a as => by
    simp [core, Ex.tokens, notTokens, parens, said_node, saidAll_cons, saidAll_nil, said_lf, said_core l, said_open,
      said_close, said_list _ as, said_asExpr, said_core a]
  | .among true l a as => by
    simp [core, Ex.tokens, notTokens, parens, said_node, saidAll_cons, saidAll_nil, said_lf, said_core l, said_open,
      said_close, said_list _ as, said_asExpr, said_core a]
  | .between false l a b => by
    simp [core, Ex.tokens, notTokens, said_node, saidAll_cons, saidAll_nil, said_lf, said_core l, said_core a, said_core b]
  | .between true l a b => by
    simp [core, Ex.tokens, notTokens, said_node, saidAll_cons, saidAll_nil, said_lf, said_core l, said_core a, said_core b]
  | .is e neg w => by
    simp [core, Ex.tokens, said_node, saidAll_cons, saidAll_nil, said_lf, said_asExpr, said_core e, said_is]
  | .not e => by simp [core, Ex.tokens, said_node, saidAll_cons, saidAll_nil, said_lf, said_asExpr, said_core e]
  | .and l r => by
    simp [core, Ex.tokens, said_node, saidAll_cons, saidAll_nil, said_lf, said_asExpr, said_core l, said_core r]
  | .or l r => by
    simp [core, Ex.tokens, said_node, saidAll_cons, saidAll_nil, said_lf, said_asExpr, said_core l, said_core r]
theorem said_args : ∀ (d : Tree SymType) (es : List Ex), said (argsTree d es) = said d ++ (Ex.moreTokens es).map seenAs
  | d, [] => by simp [argsTree, Ex.moreTokens]
  | d, e :: es => by
    simp [argsTree, Ex.moreTokens, said_args _ es, said_node, saidAll_cons, saidAll_nil, said_lf, said_arg, said_asExpr,
      said_core e]
theorem said_list : ∀ (d : Tree SymType) (es : List Ex), said (listTree d es) = said d ++ (Ex.moreTokens es).map seenAs
  | d, [] => by simp [listTree, Ex.moreTokens]
  | d, e :: es => by
    simp [listTree, Ex.moreTokens, said_list _ es, said_node, saidAll_cons, saidAll_nil, said_lf, said_asExpr,
      said_core e]
end

theorem said_expr (e : Ex) : said (exprTree e) = e.tokens.map seenAs := by rw [exprTree, said_asExpr, said_core]

/-! ### Values -/

theorem cut16_of_lt {c : Char} (h : c.toNat < 65536) : Go.cut16 c = c := by
  unfold Go.cut16
  rw [Nat.mod_eq_of_lt h]
  exact Char.ofNat_toNat c

theorem odd_rest {s : Str} (h : ∀ c ∈ s, c.toNat < 65536) :
    Go.oddCharacter false false s = !s.all (fun c => isLetter c || isDigit c) := by
  induction s with
  | nil => rfl
  | cons c s ih =>
    rw [Go.oddCharacter, ih fun d hd => h d (List.mem_cons_of_mem _ hd), cut16_of_lt (h c List.mem_cons_self), List.all_cons]
    cases isLetter c <;> cases isDigit c <;> simp

theorem formatID_shown {n : Str} (h : GoodName n) : Go.formatID n = shownName n := by
  obtain ⟨h1, h2, h3⟩ := h
  have hp : hasPrefix (lit "@@") n = false := by
    cases hh : hasPrefix (lit "@@") n with
    | false => rfl
    | true => exact absurd (List.isPrefixOf_iff_prefix.mp hh) h2
  cases n with
  | nil => exact absurd rfl h1
  | cons c s =>
    have ho : Go.oddCharacter false true (c :: s) = (!isLetter c || !s.all (fun c => isLetter c || isDigit c)) := by
      rw [Go.oddCharacter, odd_rest fun d hd => h3 d (List.mem_cons_of_mem _ hd), cut16_of_lt (h3 c List.mem_cons_self)]
      cases isLetter c <;> simp
    unfold Go.formatID shownName
    rw [hp, ho, isPlainName]
    generalize isLetter c = a
    generalize s.all (fun c => isLetter c || isDigit c) = b
    generalize keywordCode (toLower (c :: s)) = k
    cases a <;> cases b <;> cases k <;> rfl

theorem encoded_shown (s : Str) : Go.encodeBytesSQL s = shownString s := by
  unfold Go.encodeBytesSQL shownString
  congr 2
  congr 1
  funext c
  unfold shownChar encodeRef
  simp only [List.find?]
  by_cases h1 : c = '\x00'
  · subst h1; rfl
  by_cases h2 : c = '\''
  · subst h2; rfl
  by_cases h3 : c = '"'
  · subst h3; rfl
  by_cases h4 : c = '\x08'
  · subst h4; rfl
  by_cases h5 : c = '\n'
  · subst h5; rfl
  by_cases h6 : c = '\r'
  · subst h6; rfl
  by_cases h7 : c = '\t'
  · subst h7; rfl
  by_cases h8 : c = '\x1a'
  · subst h8; rfl
  by_cases h9 : c = '\\'
  · subst h9; rfl
  simp [h1, h2, h3, h4, h5, h6, h7, h8, h9, Ne.symm h1, Ne.symm h2, Ne.symm h3, Ne.symm h4, Ne.symm h5, Ne.symm h6,
    Ne.symm h7, Ne.symm h8, Ne.symm h9]

/-- What the actions ask about an expression. -/
def exKind : Ex → Go.ExprKind
  | .string s => .val ⟨.strVal, s⟩
  | .integer n => .val ⟨.intVal, n⟩
  | .float n => .val ⟨.floatVal, n⟩
  | .bits b => .val ⟨.bitVal, b⟩
  | .null => .null
  | .call f _ => if toLower f = lit "rand" then .rand else .other
  | .tuple a [] => .paren (some a.text)
  | .sign op e =>
    match (Ex.sign op e).number with
    | some n => .val ⟨.intVal, n⟩
    | none => .unary
  | _ => .other

/-- The expression as a node. -/
def exNode (e : Ex) : Go.ExprNode := { text := some e.text, kind := exKind e }

end Sqldef.Sql
