import Verif.Proofs.WrittenTy
import Verif.Proofs.ExValue

/-! The derivations of columns. -/
namespace Sqldef.Sql
open Spec Yy Written




def nowTree : Now → Tree SymType
  | .timestamp .none => .node 167 [lf (kw "CURRENT_TIMESTAMP"), lengthTree none]
  | .timestamp (.some n) => .node 167 [lf (kw "CURRENT_TIMESTAMP"), lengthTree (some n)]
  | .timestamp .empty => .node 168 [lf (kw "CURRENT_TIMESTAMP"), lf (sym '('), lf (sym ')')]
  | .time .none => .node 169 [lf (kw "CURRENT_TIME"), lengthTree none]
  | .time (.some n) => .node 169 [lf (kw "CURRENT_TIME"), lengthTree (some n)]
  | .time .empty => .node 170 [lf (kw "CURRENT_TIME"), lf (sym '('), lf (sym ')')]
  | .date => .node 171 [lf (kw "CURRENT_DATE")]
  | .getdate => .node 172 [lf (kw "GETDATE"), lf (sym '('), lf (sym ')')]

def castTree : Cast → Tree SymType
  | .none => .node 175 []
  | .varying => .node 176 [lf castMark, lf (kw "CHARACTER"), lf (kw "VARYING")]
  | .timestamp z => .node 177 [lf castMark, lf (kw "TIMESTAMP"), zoneTree z]
  | .bpchar => .node 178 [lf castMark, lf (kw "BPCHAR")]
  | .text => .node 179 [lf castMark, lf (kw "TEXT")]

def valueTree : Written.Value → Tree SymType
  | .string s c => .node 143 [lf (str s), castTree c]
  | .integer n => .node 144 [lf (int n)]
  | .float n => .node 145 [lf (flt n)]
  | .null => .node 146 [lf (kw "NULL")]
  | .now n => .node 147 [nowTree n]
  | .bits b => .node 148 [lf ⟨.bitLiteral, b⟩]
  | .bool true => .node 149 [.node 521 [lf (kw "TRUE")]]
  | .bool false => .node 149 [.node 522 [lf (kw "FALSE")]]
  | .nowCall => .node 150 [lf (kw "NOW"), .node 993 [lf (sym '(')], .node 994 [lf (sym ')')]]

def defaultTree : Wrap → Written.Value → Tree SymType
  | .none, v => .node 140 [lf (kw "DEFAULT"), valueTree v]
  | .once, v => .node 141 [lf (kw "DEFAULT"), lf (sym '('), valueTree v, lf (sym ')')]
  | .twice, v =>
    .node 142 [lf (kw "DEFAULT"), lf (sym '('), lf (sym '('), valueTree v, lf (sym ')'), lf (sym ')')]

/-- One more option of a sequence. -/
def seqAdd : SeqOption → Nat × List (Tree SymType)
  | .start true n => (154, [lf (kw "START"), lf (kw "WITH"), lf (int n)])
  | .start false n => (155, [lf (kw "START"), lf (int n)])
  | .increment true n => (156, [lf (kw "INCREMENT"), lf (kw "BY"), lf (int n)])
  | .increment false n => (157, [lf (kw "INCREMENT"), lf (int n)])
  | .minvalue n => (158, [lf (kw "MINVALUE"), lf (int n)])
  | .maxvalue n => (159, [lf (kw "MAXVALUE"), lf (int n)])
  | .cache n => (160, [lf (kw "CACHE"), lf (int n)])
  | .noMinvalue => (161, [lf (kw "NO"), lf (kw "MINVALUE")])
  | .noMaxvalue => (162, [lf (kw "NO"), lf (kw "MAXVALUE")])
  | .noCycle => (163, [lf (kw "NO"), lf (kw "CYCLE")])
  | .cycle => (164, [lf (kw "CYCLE")])
  | .ownedByNone => (165, [lf (kw "OWNED"), lf (kw "BY"), lf (kw "NONE")])
  | .ownedBy t c => (166, [lf (kw "OWNED"), lf (kw "BY"), tableId t, lf (sym '.'), .node 747 [sqlId c]])

def seqTree (os : List SeqOption) : Tree SymType := grow seqAdd (.node 153 []) os

/-- One more name in a list of columns. -/
def nameAdd (n : Str) : Nat × List (Tree SymType) := (470, [lf (sym ','), sqlId n])

def columnListTree (a : Str) (as : List Str) : Tree SymType := grow nameAdd (.node 468 [sqlId a]) as

def behaviorTree : Bool → Tree SymType
  | true => .node 151 [lf (kw "ALWAYS")]
  | false => .node 152 [lf (kw "BY"), lf (kw "DEFAULT")]

/-- `NOT FOR REPLICATION` or nothing. -/
def nfrTree : Bool → Tree SymType
  | true => .node 321 [lf (kw "NOT"), lf (kw "FOR"), lf (kw "REPLICATION")]
  | false => .node 320 []
def noInheritTree : Bool → Tree SymType
  | true => .node 174 [lf (kw "NO"), lf (kw "INHERIT")]
  | false => .node 173 []

/-- One more option of a column. -/
def optAdd : ColOption → Nat × List (Tree SymType)
  | .null => (120, [lf (kw "NULL")])
  | .notNull => (121, [lf (kw "NOT"), lf (kw "NULL")])
  | .default none w v => (122, [defaultTree w v])
  | .default (some n) w v => (123, [lf (kw "CONSTRAINT"), sqlId n, defaultTree w v])
  | .onUpdate n => (124, [lf (kw "ON"), lf (kw "UPDATE"), nowTree n])
  | .autoIncrement true => (125, [lf (kw "AUTO_INCREMENT")])
  | .autoIncrement false => (126, [lf (kw "AUTOINCREMENT")])
  | .primaryKey => (127, [lf (kw "PRIMARY"), lf (kw "KEY")])
  | .key => (128, [lf (kw "KEY")])
  | .uniqueKey => (129, [lf (kw "UNIQUE"), lf (kw "KEY")])
  | .unique => (130, [lf (kw "UNIQUE")])
  | .comment s => (133, [lf (kw "COMMENT"), lf (str s)])
  | .references t none => (134, [lf (kw "REFERENCES"), tableId t])
  | .references t (some p) =>
    (135, [lf (kw "REFERENCES"), tableId t, lf (sym '('), columnListTree p.1 p.2, lf (sym ')')])
  | .generated a none => (136, [lf (kw "GENERATED"), behaviorTree a, lf (kw "AS"), lf (kw "IDENTITY")])
  | .generated a (some os) =>
    (137, [lf (kw "GENERATED"), behaviorTree a, lf (kw "AS"), lf (kw "IDENTITY"), lf (sym '('), seqTree os, lf (sym ')')])
  | .identity a b => (138, [lf (kw "IDENTITY"), lf (sym '('), lf (int a), lf (sym ','), lf (int b), lf (sym ')')])
  | .notForReplication => (139, [lf (kw "NOT"), lf (kw "FOR"), lf (kw "REPLICATION")])
  | .check b e i => (131, [lf (kw "CHECK"), nfrTree b, openTree, exprTree e, closeTree, noInheritTree i])
  | .namedCheck n b e => (132, [lf (kw "CONSTRAINT"), sqlId n, lf (kw "CHECK"), nfrTree b, openTree, exprTree e, closeTree])

def typedTree (r : Nat) (t : Ty) (a : ArrayMark) : Tree SymType := .node 119 [tyTree r t, arrayTree a]

def colTree (r : Nat) (c : Col) : Tree SymType :=
  .node 113 [lf (nm c.name), grow optAdd (typedTree r c.type c.array) c.options]

/-! ### Tokens -/

theorem said_now (n : Now) : said (nowTree n) = n.tokens.map seenAs := by
  rcases n with (_ | _ | _) | (_ | _ | _) | _ | _ <;>
    simp [nowTree, Now.tokens, Digits.tokens, lengthTokens, optionally, parens, said_node, saidAll_cons, saidAll_nil, said_lf,
      said_length]

theorem said_cast (c : Cast) : said (castTree c) = c.tokens.map seenAs := by
  cases c <;> simp [castTree, Cast.tokens, said_node, saidAll_cons, saidAll_nil, said_lf, said_zone]

theorem said_value (v : Written.Value) : said (valueTree v) = v.tokens.map seenAs := by
  rcases v with _ | _ | _ | _ | _ | _ | (_ | _) | _ <;>
    simp [valueTree, Written.Value.tokens, parens, said_node, saidAll_cons, saidAll_nil, said_lf, said_cast, said_now]

theorem said_default (w : Wrap) (v : Written.Value) : said (defaultTree w v) = (kw "DEFAULT" :: w.around v.tokens).map seenAs := by
  cases w <;> simp [defaultTree, Wrap.around, parens, said_node, saidAll_cons, saidAll_nil, said_lf, said_value]

theorem said_seqAdd (o : SeqOption) : saidAll (seqAdd o).2 = o.tokens.map seenAs := by
  rcases o with ⟨_ | _, _⟩ | ⟨_ | _, _⟩ | _ | _ | _ | _ | _ | _ | _ | _ | _ <;>
    simp [seqAdd, SeqOption.tokens, given, said_node, saidAll_cons, saidAll_nil, said_lf, said_tableId, said_sqlId]

theorem said_seq (os : List SeqOption) : said (seqTree os) = (os.flatMap SeqOption.tokens).map seenAs := by
  rw [seqTree, said_grow, said_node, saidAll_nil, List.map_flatMap]
  simp only [said_seqAdd, List.nil_append]

theorem said_columnList (a : Str) (as : List Str) : said (columnListTree a as) = (nameTokens a as).map seenAs := by
  simp [columnListTree, nameTokens, said_grow, nameAdd, List.map_flatMap, said_node, saidAll_cons, saidAll_nil, said_lf,
    said_sqlId]

theorem said_behavior (a : Bool) :
    said (behaviorTree a) = (if a then [kw "ALWAYS"] else [kw "BY", kw "DEFAULT"]).map seenAs := by
  cases a <;> simp [behaviorTree, said_node, saidAll_cons, saidAll_nil, said_lf]

theorem said_nfr (b : Bool) : said (nfrTree b) = (replicationTokens b).map seenAs := by
  cases b <;> simp [nfrTree, replicationTokens, given, said_node, saidAll_cons, saidAll_nil, said_lf]

theorem said_noInherit (b : Bool) : said (noInheritTree b) = (given (b = true) [kw "NO", kw "INHERIT"]).map seenAs := by
  cases b <;> simp [noInheritTree, given, said_node, saidAll_cons, saidAll_nil, said_lf]

theorem said_optAdd (o : ColOption) : saidAll (optAdd o).2 = o.tokens.map seenAs := by
  rcases o with _ | _ | ⟨_ | _, _, _⟩ | _ | (_ | _) | _ | _ | _ | _ | _ | ⟨_, _ | _⟩ | ⟨_, _ | _⟩ | _ | _ | _ | _ <;>
    simp [said_nfr, said_noInherit, said_expr, said_open, said_close, optAdd, ColOption.tokens, optionally, parens, saidAll_cons, saidAll_nil, said_lf, said_tableId, said_sqlId,
      said_default, said_now, said_columnList, said_behavior, said_seq]

theorem said_col (r : Nat) (c : Col) : said (colTree r c) = c.tokens.map seenAs := by
  rw [colTree, said_node, saidAll_cons, saidAll_cons, saidAll_nil, said_lf, said_grow, typedTree, said_node, saidAll_cons,
    saidAll_cons, saidAll_nil, said_ty, said_array]
  simp only [said_optAdd]
  simp [Col.tokens, List.map_flatMap]

/-! ### Values -/

theorem words_val : (kw "CURRENT_TIMESTAMP").val = lit "current_timestamp" ∧ (kw "CURRENT_TIME").val = lit "current_time" ∧
    (kw "CURRENT_DATE").val = lit "current_date" ∧ (kw "GETDATE").val = lit "getdate" ∧ (kw "NULL").val = lit "null" ∧
    (kw "NOW").val = lit "now" ∧ (kw "ALWAYS").val = lit "always" ∧
    (kw "BY").val ++ lit " " ++ (kw "DEFAULT").val = lit "by default" := by
  decide +kernel


theorem value_now (n : Now) : ((nowTree n).value valueOf).optVal = some n.meaning := by
  obtain ⟨h1, h2, h3, h4, _⟩ := words_val
  rcases n with (_ | _ | _) | (_ | _ | _) | _ | _
  · exact congrArg (fun w => some (⟨.valArg, w⟩ : SqlVal)) h1
  · exact congrArg (fun w => some (⟨.valArg, w⟩ : SqlVal)) h1
  · rename_i n
    exact congrArg (fun w => some (⟨.valArg, w ++ lit "(" ++ n ++ lit ")"⟩ : SqlVal)) h1
  · exact congrArg (fun w => some (⟨.valArg, w⟩ : SqlVal)) h2
  · exact congrArg (fun w => some (⟨.valArg, w⟩ : SqlVal)) h2
  · rename_i n
    exact congrArg (fun w => some (⟨.valArg, w ++ lit "(" ++ n ++ lit ")"⟩ : SqlVal)) h2
  · exact congrArg (fun w => some (⟨.valArg, w⟩ : SqlVal)) h3
  · exact congrArg (fun w => some (⟨.valArg, w⟩ : SqlVal)) h4

theorem value_value (v : Written.Value) : ((valueTree v).value valueOf).optVal = some v.meaning := by
  obtain ⟨_, _, _, _, h5, h6, _⟩ := words_val
  rcases v with _ | _ | _ | _ | _ | _ | (_ | _) | _
  · rfl
  · rfl
  · rfl
  · exact congrArg (fun w => some (⟨.valArg, w⟩ : SqlVal)) h5
  · exact value_now _
  · rfl
  · rfl
  · rfl
  · exact congrArg (fun w => some (⟨.bitVal, w⟩ : SqlVal)) h6

theorem value_default (w : Wrap) (v : Written.Value) : ((defaultTree w v).value valueOf).optVal = some v.meaning := by
  cases w <;> exact value_value v

theorem value_seqAdd (o : SeqOption) (v : SymType) :
    (valueOf (seqAdd o).1 (v :: valuesOf valueOf (seqAdd o).2)).sequence = o.apply v.sequence := by
  rcases o with ⟨_ | _, _⟩ | ⟨_ | _, _⟩ | _ | _ | _ | _ | _ | _ | _ | _ | _ <;> rfl

theorem value_seq (os : List SeqOption) : ((seqTree os).value valueOf).sequence = os.foldl SeqOption.apply {} := by
  rw [seqTree, value_grow (g := SymType.sequence) (ap := SeqOption.apply) _ _ fun o _ v => value_seqAdd o v]
  rfl

theorem value_behavior (a : Bool) :
    ((behaviorTree a).value valueOf).str = if a then lit "always" else lit "by default" := by
  obtain ⟨_, _, _, _, _, _, h7, h8⟩ := words_val
  cases a
  · exact h8
  · exact h7

/-- The column as an identity column. -/
def withIdentity (t : SqlColumnType) (b : Str) (s : SqlSequence) : SqlColumnType :=
  { t with identity := some { behavior := b, sequence := some s }, notNull := some true }

theorem value_nfr (b : Bool) : ((nfrTree b).value valueOf).boolVal = b := by cases b <;> rfl
theorem value_noInherit (b : Bool) : ((noInheritTree b).value valueOf).boolVal = b := by cases b <;> rfl

theorem value_optAdd {o : ColOption} (hc : o.Clear) (v : SymType) :
    (valueOf (optAdd o).1 (v :: valuesOf valueOf (optAdd o).2)).columnType = o.apply v.columnType := by
  rcases o with _ | _ | ⟨_ | n, w, x⟩ | n | (_ | _) | _ | _ | _ | _ | _ | ⟨_, _ | _⟩ | ⟨a, _ | os⟩ | _ | _ | ⟨b, e, i⟩ | ⟨n, b, e⟩
  · rfl
  · rfl
  · exact congrArg (fun d => { v.columnType with default := some { value := d } }) (value_default w x)
  · exact congrArg (fun d => { v.columnType with default := some { value := d, constraintName := n } }) (value_default w x)
  · exact congrArg (fun d => { v.columnType with onUpdate := d }) (value_now n)
  · rfl
  · rfl
  · rfl
  · rfl
  · rfl
  · rfl
  · rfl
  · rfl
  · rfl
  · exact congrArg (fun b => { v.columnType with identity := some { behavior := b }, notNull := some true }) (value_behavior a)
  · exact congr (congrArg (withIdentity v.columnType) (value_behavior a)) (value_seq os)
  · rfl
  · rfl
  · show { v.columnType with
      check := (exprOf (exprTree e)).map fun x : Go.ExprNode =>
        ({ whereExpr := x.sql, notForReplication := ((nfrTree b).value valueOf).boolVal } : SqlCheck),
      checkNoInherit := ((noInheritTree i).value valueOf).boolVal } = _
    rw [value_expr hc.1, value_nfr, value_noInherit, Option.map, node_meaning]
    rfl
  · show { v.columnType with
      check := (exprOf (exprTree e)).map fun x : Go.ExprNode =>
        ({ whereExpr := x.sql, constraintName := Go.formatID n, notForReplication := ((nfrTree b).value valueOf).boolVal } :
          SqlCheck) } = _
    rw [value_expr hc.2.1, value_nfr, Option.map, node_meaning, formatID_shown hc.1]
    rfl

theorem value_typed {r : Nat} {t : Ty} (h : TyRule t r) (a : ArrayMark) : ((typedTree r t a).value valueOf).columnType =
    { t.meaning with array := a.meaning } := by
  rw [← value_array a]
  have e := value_ty h
  have : (Tree.value valueOf (typedTree r t a)).columnType =
    { ((tyTree r t).value valueOf).columnType with
        notNull := none, default := none, onUpdate := none, autoincrement := false, keyOpt := .none, identity := none,
        array := ((arrayTree a).value valueOf).boolVal } := rfl
  rw [this, e]
  cases t <;> rfl

theorem value_col {r : Nat} {c : Col} (h : TyRule c.type r) (hc : ∀ o ∈ c.options, o.Clear) :
    ((colTree r c).value valueOf).columnDefinition = c.meaning := by
  have e : ((colTree r c).value valueOf).columnDefinition =
    { name := c.name, type := ((grow optAdd (typedTree r c.type c.array) c.options).value valueOf).columnType } := rfl
  rw [e, value_grow (g := SymType.columnType) (ap := ColOption.apply) _ _ fun o ho v => value_optAdd (hc o ho) v, value_typed h]
  rfl

end Sqldef.Sql
