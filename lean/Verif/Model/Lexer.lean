import Verif.Proofs.ScannerLength
/-
Model of the users of the tokenizer: `Lex` (/repo/sqlparser/token.go:480-491), `SplitStatement` and
`SplitStatementToPieces` (/repo/sqlparser/ast.go:103-158).
-/
namespace Sqldef

/-- `Lex`, /repo/sqlparser/token.go:480-491: the next token that is not a comment. `allowComments` is the
field of the tokenizer. -/
def lex (allowComments : Bool) (st : Scanner) : Except Err (Token × Scanner) :=
  match h : scan st with
  | .error e => .error e
  | .ok (t, st') =>
    if hc : t.type = .comment ∧ allowComments = false then lex allowComments st' else .ok (t, st')
termination_by st.size
decreasing_by exact scan_progress h (by simp [hc.1])

/-- The tokens that `Scan` returns up to the end of the text. -/
def scanAll (st : Scanner) : Except Err (List Token) :=
  match h : scan st with
  | .error e => .error e
  | .ok (t, st') => if ht : t.type = .eof then .ok [] else (scanAll st').map (t :: ·)
termination_by st.size
decreasing_by exact scan_progress h ht

/-- The tokens that the grammar sees for a text: what `Scan` returns without the comments (the calls of `Lex`,
/repo/sqlparser/token.go:480-491, that `yyParse` makes). Simplification: the grammar may also switch comments
on (`setAllowComments`) or force the end of the text (`forceEOF`) for statements that sqldef rejects. -/
def tokenize (mode : Mode) (sql : Str) : Except Err (List Token) :=
  (scanAll (newScanner mode sql)).map fun ts => ts.filter fun t => t.type ≠ .comment

/-- The loop of `SplitStatement`, /repo/sqlparser/ast.go:108-113: the last token and the state. -/
def scanToSemicolon (st : Scanner) : Except Err (Token × Scanner) :=
  match h : scan st with
  | .error e => .error e
  | .ok (t, st') =>
    if ht : t.type = .eof ∨ t.type = .char ';' then .ok (t, st') else scanToSemicolon st'
termination_by st.size
decreasing_by exact scan_progress h (fun e => ht (.inl e))

/-- `SplitStatement`, /repo/sqlparser/ast.go:105-121. `LastError` is only set by the grammar and by reading
from a stream. -/
def splitStatement (blob : Str) : Except Err (Str × Str) :=
  match scanToSemicolon (newScanner .mysql blob) with
  | .error e => .error e
  | .ok (t, st) =>
    if t.type = .char ';' then
      let p := st.base.position blob
      .ok (blob.take (p - 2), blob.drop (p - 1))
    else .ok (blob, [])

/-- The loop of `SplitStatementToPieces`, /repo/sqlparser/ast.go:132-155. -/
def piecesLoop (blob : Str) (stmtBegin : Nat) (st : Scanner) : Except Err (List Str) :=
  match h : scan st with
  | .error e => .error e
  | .ok (t, st') =>
    if hc : t.type = .char ';' then
      let p := st'.base.position blob
      (piecesLoop blob (p - 1) st').map (((blob.take (p - 2)).drop stmtBegin) :: ·)
    else if ht : t.type = .eof then
      let blobTail := (st'.base.position blob : Int) - 2
      if (stmtBegin : Int) < blobTail then .ok [(blob.take (blobTail + 1).toNat).drop stmtBegin] else .ok []
    else piecesLoop blob stmtBegin st'
termination_by st.size
decreasing_by
  · exact scan_progress h (by simp [hc])
  · exact scan_progress h ht

/-- `SplitStatementToPieces`, /repo/sqlparser/ast.go:123-158. -/
def splitStatementToPieces (blob : Str) : Except Err (List Str) := piecesLoop blob 0 (newScanner .mysql blob)

end Sqldef
