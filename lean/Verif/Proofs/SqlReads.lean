import Verif.Proofs.YyComplete
import Verif.Props.SqlText

/-! `YyComplete` for the tokenizer and the actions of the SQL grammar: a text whose tokens are those of a derivation
that the tables agree with is parsed to the value of that derivation. -/
namespace Sqldef.Sql
open Spec Yy

/-- The tokenizer will hand out these tokens. -/
def Lexes : Scanner → List Token → Prop
  | _, [] => True
  | st, t :: ts => ∃ st', lex false st = .ok (t, st') ∧ Lexes st' ts

/-- A token as the driver sees it. -/
def seenAs (t : Token) : Int × SymType := (tokenOf (tokenCode t.type), { bytes := t.val })

/-- What a rule does to the nesting level; `none` for the rules that do more to the tokenizer. -/
def nestEff (r m : Nat) : Option Nat :=
  if r = 993 then if m + 1 = 200 then none else some (m + 1)
  else if r = 994 then some (m - 1)
  else if r = 1 ∨ r = 430 ∨ r = 431 ∨ r = 667 ∨ 995 ≤ r then none
  else some m

/-- What a rule asks of the values of its right hand side. -/
def asks (r : Nat) (vs : List SymType) : Prop :=
  (r = 131 → (vs.getD 4 {}).expr.isNone = false) ∧ (r = 132 → (vs.getD 6 {}).expr.isNone = false) ∧
  (r = 139 → (vs.getD 0 {}).columnType.identity.isNone = false) ∧ (r = 577 → (vs.getD 1 {}).expr.any isEmptyInt = false)

/-- The value of a rule. -/
def valueOf (r : Nat) (vs : List SymType) : SymType := value r (fun n => vs.getD (n - 1) {})

/-- The tokenizer and the actions of the SQL grammar go on. -/
def sim : Sim host Nat where
  good m k ts := k.nesting = m ∧ k.allowComments = false ∧ ∃ toks, Lexes k.scanner toks ∧ ts = toks.map seenAs
  eff := nestEff
  val := valueOf
  ok := asks
  lex := by
    rintro m k t v ts ⟨h1, h2, toks, h3, h4⟩
    cases toks with
    | nil => cases h4
    | cons tok toks =>
      obtain ⟨st', h5, h6⟩ := h3
      simp only [List.map_cons, List.cons.injEq] at h4
      obtain ⟨h7, h8⟩ := h4
      cases h7
      refine ⟨tokenCode tok.type, { k with scanner := st', lastToken := tok.val }, ?_, rfl, h1, h2, toks, h6, h8⟩
      simp only [host, Tokenizer.next, h2, h5]
  act := by
    rintro r m m' vs k ts he ⟨o1, o2, o3, o4⟩ ⟨h1, h2, h3⟩
    have key : ∃ k', effect r (fun n => vs.getD (n - 1) {}) k = .ok k' ∧ k'.nesting = m' ∧ k'.allowComments = false ∧
        k'.scanner = k.scanner := by
      unfold nestEff at he
      unfold effect
      by_cases r1 : r = 993
      · subst r1
        simp only [if_true] at he
        split at he
        · cases he
        · cases he
          rename_i hn
          simp only [show ¬ (993 = 1) by decide, show ¬ (993 = 131) by decide, show ¬ (993 = 132) by decide,
            show ¬ (993 = 139) by decide, show ¬ (993 = 430) by decide, show ¬ (993 = 431) by decide,
            show ¬ (993 = 577) by decide, show ¬ (993 = 667) by decide, if_false, if_true, h1, if_neg hn]
          exact ⟨_, rfl, rfl, h2, rfl⟩
      · rw [if_neg r1] at he
        by_cases r2 : r = 994
        · subst r2
          simp only [if_true] at he
          cases he
          simp only [show ¬ (994 = 1) by decide, show ¬ (994 = 131) by decide, show ¬ (994 = 132) by decide,
            show ¬ (994 = 139) by decide, show ¬ (994 = 430) by decide, show ¬ (994 = 431) by decide,
            show ¬ (994 = 577) by decide, show ¬ (994 = 667) by decide, show ¬ (994 = 993) by decide, if_false, if_true, h1]
          exact ⟨_, rfl, rfl, h2, rfl⟩
        · rw [if_neg r2] at he
          split at he
          · cases he
          · rename_i hr
            cases he
            simp only [not_or] at hr
            obtain ⟨e1, e2, e3, e4, e5⟩ := hr
            rw [if_neg e1]
            by_cases r3 : r = 131
            · rw [if_pos r3]
              have := o1 r3
              simp only [show (5 : Nat) - 1 = 4 from rfl, this]
              exact ⟨k, rfl, h1, h2, rfl⟩
            rw [if_neg r3]
            by_cases r4 : r = 132
            · rw [if_pos r4]
              have := o2 r4
              simp only [show (7 : Nat) - 1 = 6 from rfl, this]
              exact ⟨k, rfl, h1, h2, rfl⟩
            rw [if_neg r4]
            by_cases r5 : r = 139
            · rw [if_pos r5]
              have := o3 r5
              simp only [show (1 : Nat) - 1 = 0 from rfl, this]
              exact ⟨k, rfl, h1, h2, rfl⟩
            rw [if_neg r5, if_neg e2, if_neg e3]
            by_cases r6 : r = 577
            · rw [if_pos r6]
              have := o4 r6
              simp only [show (2 : Nat) - 1 = 1 from rfl, this]
              exact ⟨k, rfl, h1, h2, rfl⟩
            rw [if_neg r6, if_neg e4, if_neg r1, if_neg r2, if_neg e5]
            exact ⟨k, rfl, h1, h2, rfl⟩
    obtain ⟨k', k1, k2, k3, k4⟩ := key
    refine ⟨k', ?_, k2, k3, by rw [k4]; exact h3⟩
    simp only [host, act, k1, valueOf]

theorem lex_comment {st st' : Scanner} {t : Token} (h : scan st = .ok (t, st')) (ht : t.type = .comment) :
    lex false st = lex false st' := by
  rw [lex]
  split
  · rename_i e he; rw [h] at he; cases he
  · rename_i t' st'' he
    rw [h] at he
    cases he
    rw [dif_pos ⟨ht, rfl⟩]

theorem lex_token {st st' : Scanner} {t : Token} (h : scan st = .ok (t, st')) (ht : t.type ≠ .comment) :
    lex false st = .ok (t, st') := by
  rw [lex]
  split
  · rename_i e he; rw [h] at he; cases he
  · rename_i t' st'' he
    rw [h] at he
    cases he
    rw [dif_neg (fun hc => ht hc.1)]

theorem lexes_comment {st st' : Scanner} {t : Token} {ts : List Token} (h : scan st = .ok (t, st')) (ht : t.type = .comment)
    (hl : Lexes st' ts) : Lexes st ts := by
  cases ts with
  | nil => trivial
  | cons u us =>
    obtain ⟨st2, h1, h2⟩ := hl
    exact ⟨st2, by rw [lex_comment h ht]; exact h1, h2⟩

/-- What the tokenizer hands out for a text: its tokens and then the end. -/
theorem lexes_scanAll (st : Scanner) (ts : List Token) (h : scanAll st = .ok ts) :
    ∃ e, e.type = .eof ∧ Lexes st ((ts.filter fun t => t.type ≠ .comment) ++ [e]) := by
  induction hn : st.size using Nat.strongRecOn generalizing st ts with
  | ind n ih =>
  subst hn
  cases hs : scan st with
  | error e => rw [scanAll_error hs] at h; cases h
  | ok p =>
    obtain ⟨t, st'⟩ := p
    by_cases ht : t.type = .eof
    · rw [scanAll_eof hs ht] at h
      cases h
      exact ⟨t, ht, ⟨st', lex_token hs (by rw [ht]; simp), trivial⟩⟩
    · rw [scanAll_cons hs ht] at h
      cases hr : scanAll st' with
      | error e => rw [hr] at h; cases h
      | ok us =>
        rw [hr] at h
        cases h
        obtain ⟨e, h1, h2⟩ := ih _ (scan_progress hs ht) st' us hr rfl
        refine ⟨e, h1, ?_⟩
        by_cases hc : t.type = .comment
        · rw [List.filter_cons_of_neg (by simp [hc])]
          exact lexes_comment hs hc h2
        · rw [List.filter_cons_of_pos (by simp [hc])]
          exact ⟨st', lex_token hs hc, h2⟩

theorem lexes_tokenize {mode : Mode} {sql : Str} {ts : List Token} (h : tokenize mode sql = .ok ts) :
    ∃ e, e.type = .eof ∧ Lexes (newScanner mode sql) (ts ++ [e]) := by
  unfold tokenize at h
  cases hs : scanAll (newScanner mode sql) with
  | error e => rw [hs] at h; cases h
  | ok us =>
    rw [hs] at h
    cases h
    exact lexes_scanAll _ _ hs

theorem fetch_parseTree {c c' : Config SymType Tokenizer} {t : Int} {v : SymType} (h : fetch host c = .ok (t, v, c')) :
    c'.lexer.parseTree = c.lexer.parseTree := by
  unfold fetch at h
  split at h
  · cases h; rfl
  · cases hn : host.lex c.lexer with
    | error e => rw [hn] at h; cases h
    | ok p =>
      obtain ⟨char, w, l⟩ := p
      rw [hn] at h
      cases h
      simp only [host, Tokenizer.next] at hn
      split at hn
      · cases hn
      · cases hn; rfl

/-- A text with the tokens of a derivation that the tables agree with is parsed to the value of the derivation. -/
theorem parse_of_reads {mode : Mode} {sql : Str} {ts : List Token} {d semi : Tree SymType} {q : Int} {m : Nat}
    (ht : tokenize mode sql = .ok ts) (hd : noted (tokensRead [d, semi]) = ts.map seenAs)
    (hr : readsAll nestEff 0 0 [d, semi] 1 = some (q, m)) (hq : decideAct q 1 = .reduce 1)
    (hf : fineAll valueOf asks [d, semi]) :
    parseStrictDDLWithMode mode sql = .ok (statement (d.value valueOf).statement) := by
  obtain ⟨e, he, hl⟩ := lexes_tokenize ht
  have hsees : Sees sim 0 (start {} (newTokenizer sql mode))
      (noted (tokensRead [d, semi]) ++ (((1 : Nat) : Int), ({ bytes := e.val } : SymType)) :: []) := by
    refine ⟨rfl, rfl, ts ++ [e], hl, ?_⟩
    rw [hd, List.map_append]
    simp only [seenAs, he, List.map_cons, List.map_nil]
    have : tokenOf (tokenCode TokenType.eof) = ((1 : Nat) : Int) := by decide +kernel
    rw [this]
  obtain ⟨n, c1, hn, ⟨pushed, hp1, hp2, y, st', hp3⟩, hs1⟩ := readsAll_run sim [d, semi] hr hf (x := {}) (st := []) rfl hsees
  obtain ⟨c2, hc2, hs2, hst⟩ := step_reduces hp3 hs1 hq
  have hlen : pushed.length = 2 := by
    have := congrArg List.length hp2
    simpa [valuesOf] using this
  have hvals : pushed.reverse.map (·.2) = [d.value valueOf, semi.value valueOf] := by
    rw [List.map_reverse, hp2, List.reverse_reverse]
    rfl
  have hstack : c2.stack = pushed ++ [(0, ({} : SymType))] := by rw [hc2, hp1]; rfl
  -- the reduction to the statement
  have hred : ∃ v, reduce host c2 ((1 : Nat) : Int) = .inl ⟨[(1, v), (0, {})], c2.look,
      { c2.lexer with parseTree := (d.value valueOf).statement }⟩ := by
    unfold reduce
    have h2 : yyR2.at ((1 : Nat) : Int) = some 2 := by decide +kernel
    have h1 : yyR1.at ((1 : Nat) : Int) = some 205 := by decide +kernel
    have hg : gotoState 0 205 = some 1 := by decide +kernel
    have hdr : c2.stack.drop (Int.toNat 2) = [(0, ({} : SymType))] := by
      rw [hstack, show Int.toNat 2 = pushed.length by rw [hlen]; rfl]; simp
    have htk : c2.stack.take (Int.toNat 2) = pushed := by
      rw [hstack, show Int.toNat 2 = pushed.length by rw [hlen]; rfl]; simp
    simp only [h2, h1, hdr, htk, hg, hvals]
    exact ⟨_, rfl⟩
  obtain ⟨v, hred⟩ := hred
  -- the end
  have hend : ∃ w k, Yy.step host ⟨[(1, v), (0, ({} : SymType))], c2.look,
      { c2.lexer with parseTree := (d.value valueOf).statement }⟩ = .inr (.accepted w k) ∧
      k.parseTree = (d.value valueOf).statement := by
    have hs3 : Sees sim m ⟨[(1, v), (0, ({} : SymType))], c2.look, { c2.lexer with parseTree := (d.value valueOf).statement }⟩
        [(((1 : Nat) : Int), ({ bytes := e.val } : SymType))] := by
      unfold Sees at hs2 ⊢
      cases hk : c2.look with
      | none => rw [hk] at hs2; exact hs2
      | some p => rw [hk] at hs2; exact hs2
    have h1 : yyPact.at 1 = some (-1000) := by decide +kernel
    have h2 : yyDef.at 1 = some (-2) := by decide +kernel
    have h3 : excaFor 1 ((1 : Nat) : Int) yyExca = some (-1) := by decide +kernel
    obtain ⟨l, hfe, hg⟩ := fetch_sees hs3
    refine ⟨v, l, ?_, ?_⟩
    · unfold Yy.step
      simp only [h1, show ((-1000 : Int) ≤ yyFlag) from by decide, if_true]
      unfold yydefault
      simp only [h2, if_true, hfe, h3]
      rfl
    · exact fetch_parseTree hfe
  obtain ⟨w, k, hk1, hk2⟩ := hend
  have hrun : ∀ j, run host (n + (1 + (1 + j))) (start {} (newTokenizer sql mode)) = some (.accepted w k) := by
    intro j
    rw [hn, Nat.add_comm 1, run, hst, hred]
    show run host (1 + j) _ = _
    rw [Nat.add_comm 1, run, hk1]
  rcases C54_result_of_a_text mode sql (n + (1 + (1 + (23 * sql.length + 30)))) (by omega) with
    ⟨v', k', h1, h2⟩ | ⟨k', msg, h1, h2⟩ | ⟨e', h1, h2⟩
  · rw [hrun] at h1
    cases h1
    rw [h2, hk2]
  · rw [hrun] at h1; cases h1
  · rw [hrun] at h1; cases h1

end Sqldef.Sql
