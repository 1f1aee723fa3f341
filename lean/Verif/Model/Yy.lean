import Verif.Model.YyTables

/-!
The driver of the generated parser, `yyParserImpl.Parse` of /repo/sqlparser/parser.go 3235-3421,
with the token translation `yylex1` (3195-3229).

The lexer and the semantic actions are a parameter, `Host`: the driver calls `lex` for the next
token and runs the action of a rule at every reduction.  Both may change the state `L` they share
(the `Tokenizer`), and both may stop the parser.

Simplifications:
* The stack is a list (top first); the growing of the Go slice is left out.
* `yyVAL = yyS[yyp+1]`, the value a rule without an action leaves behind, is the business of
  `Host.act`.
* Error recovery (parser.go 3329-3373) looks for a state on the stack in which the token `error` may
  be shifted.  If there is one, parsing would go on; the model stops there with `resumes`.  Theorem
  `C54_parser_returns` says that this never happens.
* `yyDebug` is 0; the text of the error message is left out.
-/
namespace Sqldef.Yy

/-- What the driver is used with: the lexer (`yyLexer.Lex`, parser.go 3090-3093), which hands out a
character code and a value, and the actions (parser.go 3421-8250), which get the number of the rule
and the values of its right hand side. -/
structure Host (V L E : Type) where
  lex : L → Except E (Int × V × L)
  act : Nat → List V → L → Except (E ⊕ L) (V × L)

/-- How a call of `Parse` ends. -/
inductive Outcome (V L E : Type)
  /-- `return 0` with the value on top of the stack. -/
  | accepted (v : V) (l : L)
  /-- `return 1`: a syntax error, or an action that gave up. -/
  | rejected (l : L)
  /-- "index out of range" in the driver. -/
  | fault
  /-- Parsing goes on after an error (see above). -/
  | resumes
  /-- The lexer or an action stopped the program. -/
  | stopped (e : E)

/-- The stack `yyS` (states with values, top first), the token read but not yet used
(`yyrcvr.char`, `yytoken`, `yyrcvr.lval`) and the lexer. -/
structure Config (V L : Type) where
  stack : List (Int × V)
  look : Option (Int × V)
  lexer : L

/-- Models parser.go 3195-3229, `yylex1`: the token of a character code. -/
def tokenOf (char : Int) : Int :=
  let found : Nat :=
    if char ≤ 0 then yyTok1.getD 0 0
    else if char < yyTok1.length then yyTok1.getD char.toNat 0
    else if char ≥ yyPrivate ∧ char < yyPrivate + yyTok2.length then
      yyTok2.getD (char - yyPrivate).toNat 0
    else match yyTok3.find? (fun p => (p.1 : Int) = char) with
      | some p => p.2
      | none => 0
  if found = 0 then (yyTok2.getD 1 0 : Nat) else found

/-- Models parser.go 3281-3283: the token that is waiting, or else the next one of the lexer. -/
def fetch {V L E} (h : Host V L E) (c : Config V L) : Except E (Int × V × Config V L) :=
  match c.look with
  | some (t, v) => .ok (t, v, c)
  | none =>
    match h.lex c.lexer with
    | .error e => .error e
    | .ok (char, v, l) => .ok (tokenOf char, v, { c with look := some (tokenOf char, v), lexer := l })

/-- Models parser.go 3284-3289, for `yyPact[yystate] = p` and token `t`: the state to shift to.
`none` is a panic, `some none` means that there is nothing to shift. -/
def shiftTo (p t : Int) : Option (Option Int) :=
  let n := p + t
  if n < 0 ∨ n ≥ yyLast then some none
  else do
    let a ← yyAct.at n
    let c ← yyChk.at a
    if c = t then some (some a) else some none

/-- Models parser.go 3314-3319: the entry for the token in the block of the exception table;
a negative token ends the block. -/
def excaEntry (t : Int) : List (Int × Int) → Option Int
  | [] => none
  | (a, b) :: rest => if a < 0 ∨ a = t then some b else excaEntry t rest

/-- Models parser.go 3307-3320: the block of the state in the exception table. -/
def excaFor (s t : Int) : List (Int × Int) → Option Int
  | [] => none
  | (a, b) :: rest => if a = -1 ∧ b = s then excaEntry t rest else excaFor s t rest

/-- Models parser.go 3397-3409: the state after a reduction to nonterminal `a` on top of state `q`. -/
def gotoState (q a : Int) : Option Int := do
  let g ← yyPgo.at a
  let j := g + q + 1
  if j ≥ yyLast then yyAct.at g
  else do
    let n ← yyAct.at j
    let c ← yyChk.at n
    if c ≠ -a then yyAct.at g else some n

/-- Models parser.go 3343-3361: is there a state on the stack in which `error` (token 2) is shifted? -/
def resumable : List Int → Option Bool
  | [] => some false
  | s :: rest => do
    let p ← yyPact.at s
    let n := p + 2
    if n < 0 ∨ n ≥ yyLast then resumable rest
    else do
      let a ← yyAct.at n
      let c ← yyChk.at a
      if c = 2 then some true else resumable rest

/-- Models parser.go 3326-3373, with `Errflag = 0`: a syntax error. -/
def syntaxError {V L E} (c : Config V L) : Outcome V L E :=
  match resumable (c.stack.map (·.1)) with
  | none => .fault
  | some true => .resumes
  | some false => .rejected c.lexer

/-- Models parser.go 3380-3411 and the actions: the reduction by rule `r`. -/
def reduce {V L E} (h : Host V L E) (c : Config V L) (r : Int) : Config V L ⊕ Outcome V L E :=
  match yyR2.at r, yyR1.at r with
  | some n, some a =>
    match c.stack.drop n.toNat with
    | [] => .inr .fault
    | (q, v) :: rest =>
      match gotoState q a with
      | none => .inr .fault
      | some s =>
        match h.act r.toNat ((c.stack.take n.toNat).reverse.map (·.2)) c.lexer with
        | .ok (w, l) => .inl { c with stack := (s, w) :: (q, v) :: rest, lexer := l }
        | .error (.inl e) => .inr (.stopped e)
        | .error (.inr l) => .inr (.rejected l)
  | _, _ => .inr .fault

/-- Models parser.go 3326-3327 and 3375: rule 0 is the error. -/
def perform {V L E} (h : Host V L E) (c : Config V L) (r : Int) : Config V L ⊕ Outcome V L E :=
  if r = 0 then .inr (syntaxError c) else reduce h c r

/-- Models parser.go 3299-3325, `yydefault`: the default action of state `s`. -/
def yydefault {V L E} (h : Host V L E) (c : Config V L) (s : Int) (v : V) :
    Config V L ⊕ Outcome V L E :=
  match yyDef.at s with
  | none => .inr .fault
  | some d =>
    if d = -2 then
      match fetch h c with
      | .error e => .inr (.stopped e)
      | .ok (t, _, c) =>
        match excaFor s t yyExca with
        | none => .inr .fault
        | some r => if r < 0 then .inr (.accepted v c.lexer) else perform h c r
    else perform h c d

/-- Models parser.go 3276-3297, `yynewstate`: from one visit of `yynewstate` to the next, or to the
end.  The value `v` is the one that `return 0` leaves on top of the stack. -/
def step {V L E} (h : Host V L E) (c : Config V L) : Config V L ⊕ Outcome V L E :=
  match c.stack with
  | [] => .inr .fault
  | (s, v) :: _ =>
    match yyPact.at s with
    | none => .inr .fault
    | some p =>
      if p ≤ yyFlag then yydefault h c s v
      else
        match fetch h c with
        | .error e => .inr (.stopped e)
        | .ok (t, w, c) =>
          match shiftTo p t with
          | none => .inr .fault
          | some (some n) => .inl { c with stack := (n, w) :: c.stack, look := none }
          | some none => yydefault h c s v

/-- `n` steps; `none` means that the parser is still at work. -/
def run {V L E} (h : Host V L E) : Nat → Config V L → Option (Outcome V L E)
  | 0, _ => none
  | n + 1, c =>
    match step h c with
    | .inl c => run h n c
    | .inr o => some o

/-- Models parser.go 3242-3274: the parser at the beginning (`z` is the zero value of the stack
entry that belongs to state 0, which no action ever sees). -/
def start {V L} (z : V) (l : L) : Config V L := ⟨[(0, z)], none, l⟩

end Sqldef.Yy
