import Verif.Proofs.SqlReads
import Verif.Proofs.AnyLayout

/-! As in `SqlReads`, also for queries: where comments are asked for, and there are none. -/
namespace Sqldef.Sql
open Spec Yy

/-- What a rule does to the nesting level; asking for comments does nothing. -/
def viewEff (r m : Nat) : Option Nat := if r = 430 ∨ r = 431 then some m else nestEff r m

theorem viewEff_of {r m m' : Nat} (h : nestEff r m = some m') : viewEff r m = some m' := by
  unfold viewEff
  split
  · rename_i hr
    rcases hr with rfl | rfl <;> simp [nestEff] at h
  · exact h

mutual
/-- What the tables agree with without comments, they agree with. -/
theorem readsTree_view : ∀ (d : Tree SymType) {s : Int} {m la : Nat} {q : Int × Nat}, readsTree nestEff s m d la = some q →
    readsTree viewEff s m d la = some q
  | .leaf t v, s, m, la, q, h => by
    rw [readsTree] at h ⊢
    exact h
  | .node r cs, s, m, la, q, h => by
    rw [readsTree] at h ⊢
    cases hc : readsAll nestEff s m cs la with
    | none => rw [hc] at h; cases h
    | some p =>
      rw [hc] at h
      rw [readsAll_view cs hc]
      obtain ⟨q', m'⟩ := p
      simp only at h ⊢
      split at h
      · rename_i hif
        rw [if_pos hif]
        cases hr : yyR1.at r with
        | none => rw [hr] at h; cases h
        | some a =>
          rw [hr] at h
          simp only at h ⊢
          cases hg : gotoState s a with
          | none => rw [hg] at h; cases h
          | some s' =>
            rw [hg] at h
            cases he : nestEff r m' with
            | none => rw [he] at h; cases h
            | some m'' =>
              rw [he] at h
              rw [viewEff_of he]
              exact h
      · cases h
@[inherit_doc readsTree_view]
theorem readsAll_view : ∀ (cs : List (Tree SymType)) {s : Int} {m la : Nat} {q : Int × Nat}, readsAll nestEff s m cs la = some q →
    readsAll viewEff s m cs la = some q
  | [], s, m, la, q, h => by
    rw [readsAll] at h ⊢
    exact h
  | c :: cs, s, m, la, q, h => by
    rw [readsAll] at h ⊢
    cases hc : readsTree nestEff s m c (headToken cs la) with
    | none => rw [hc] at h; cases h
    | some p =>
      rw [hc] at h
      rw [readsTree_view c hc]
      exact readsAll_view cs h
end

/-- The end of a text. -/
def endToken : Token := ⟨.eof, []⟩

/-- The tokenizer and the actions of the SQL grammar go on when there are no comments. -/
def viewSim : Sim host Nat where
  good m k ts := k.nesting = m ∧ ∃ mode toks, Stream mode k.scanner toks ∧ (∀ t ∈ toks, t.type ≠ .comment) ∧
    ts <+: toks.map seenAs ++ [seenAs endToken]
  eff := viewEff
  val := valueOf
  ok := asks
  lex := by
    rintro m k t v ts ⟨h1, mode, toks, h2, h3, h4⟩
    cases toks with
    | nil =>
      obtain ⟨st', e1, e2⟩ := stream_nil h2
      simp only [List.map_nil, List.nil_append, List.cons_prefix_cons] at h4
      obtain ⟨h5, h6⟩ := h4
      rw [List.prefix_nil] at h6
      subst h6
      cases h5
      refine ⟨tokenCode endToken.type, { k with scanner := st', lastToken := [] }, ?_, rfl, h1, mode, [], e2, h3, by simp⟩
      simp only [host, Tokenizer.next, lex_other e1 (by simp)]
      rfl
    | cons tok toks =>
      obtain ⟨-, st', e1, e2⟩ := stream_cons h2
      simp only [List.map_cons, List.cons_append, List.cons_prefix_cons] at h4
      obtain ⟨h5, h6⟩ := h4
      cases h5
      refine ⟨tokenCode tok.type, { k with scanner := st', lastToken := tok.val }, ?_, rfl, h1, mode, toks, e2,
        fun t ht => h3 t (by simp [ht]), h6⟩
      simp only [host, Tokenizer.next, lex_other e1 (fun hc => h3 tok (by simp) hc.1)]
  act := by
    rintro r m m' vs k ts he ho ⟨h1, h3⟩
    have key : ∃ k', effect r (fun n => vs.getD (n - 1) {}) k = .ok k' ∧ k'.nesting = m' ∧ k'.scanner = k.scanner := by
      unfold viewEff at he
      by_cases hr : r = 430 ∨ r = 431
      · rw [if_pos hr] at he
        cases he
        rcases hr with rfl | rfl
        · exact ⟨{ k with allowComments := true }, rfl, h1, rfl⟩
        · exact ⟨{ k with allowComments := false }, rfl, h1, rfl⟩
      · rw [if_neg hr] at he
        simp only [not_or] at hr
        obtain ⟨o1, o2, o3, o4⟩ := ho
        unfold nestEff at he
        unfold effect
        by_cases r1 : r = 993
        · subst r1
          simp only [if_true] at he
          split at he
          · cases he
          · cases he
            rename_i hn
            simp only [show ¬ (993 = 1) by decide, show ¬ (993 = 131) by decide, show ¬ (993 = 132) by decide,
              show ¬ (993 = 139) by decide, show ¬ (993 = 430) by decide, show ¬ (993 = 431) by decide,
              show ¬ (993 = 577) by decide, show ¬ (993 = 667) by decide, if_false, if_true, h1, if_neg hn]
            exact ⟨_, rfl, rfl, rfl⟩
        · rw [if_neg r1] at he
          by_cases r2 : r = 994
          · subst r2
            simp only [if_true] at he
            cases he
            simp only [show ¬ (994 = 1) by decide, show ¬ (994 = 131) by decide, show ¬ (994 = 132) by decide,
              show ¬ (994 = 139) by decide, show ¬ (994 = 430) by decide, show ¬ (994 = 431) by decide,
              show ¬ (994 = 577) by decide, show ¬ (994 = 667) by decide, show ¬ (994 = 993) by decide, if_false, if_true, h1]
            exact ⟨_, rfl, rfl, rfl⟩
          · rw [if_neg r2] at he
            split at he
            · cases he
            · rename_i hr'
              cases he
              simp only [not_or] at hr'
              obtain ⟨e1, e2, e3, e4, e5⟩ := hr'
              rw [if_neg e1]
              by_cases r3 : r = 131
              · rw [if_pos r3]
                have := o1 r3
                simp only [show (5 : Nat) - 1 = 4 from rfl, this]
                exact ⟨k, rfl, h1, rfl⟩
              rw [if_neg r3]
              by_cases r4 : r = 132
              · rw [if_pos r4]
                have := o2 r4
                simp only [show (7 : Nat) - 1 = 6 from rfl, this]
                exact ⟨k, rfl, h1, rfl⟩
              rw [if_neg r4]
              by_cases r5 : r = 139
              · rw [if_pos r5]
                have := o3 r5
                simp only [show (1 : Nat) - 1 = 0 from rfl, this]
                exact ⟨k, rfl, h1, rfl⟩
              rw [if_neg r5, if_neg e2, if_neg e3]
              by_cases r6 : r = 577
              · rw [if_pos r6]
                have := o4 r6
                simp only [show (2 : Nat) - 1 = 1 from rfl, this]
                exact ⟨k, rfl, h1, rfl⟩
              rw [if_neg r6, if_neg e4, if_neg r1, if_neg r2, if_neg e5]
              exact ⟨k, rfl, h1, rfl⟩
    obtain ⟨k', k1, k2, k4⟩ := key
    refine ⟨k', ?_, k2, by rw [k4]; exact h3⟩
    simp only [host, act, k1, valueOf]

/-- A text with the tokens of a derivation that the tables agree with, and without comments, is parsed to the value of the
derivation. -/
theorem parse_of_viewReads {mode : Mode} {sql : Str} {ts : List Token} {d semi : Tree SymType} {q : Int} {m : Nat}
    (ht : Layout mode sql ts) (hc : ∀ t ∈ ts, t.type ≠ .comment) (hd : noted (tokensRead [d, semi]) = ts.map seenAs)
    (hr : readsAll viewEff 0 0 [d, semi] 1 = some (q, m)) (hq : decideAct q 1 = .reduce 1)
    (hf : fineAll valueOf asks [d, semi]) :
    parseStrictDDLWithMode mode sql = .ok (statement (d.value valueOf).statement) := by
  have hsees : Sees viewSim 0 (start {} (newTokenizer sql mode))
      (noted (tokensRead [d, semi]) ++ (((1 : Nat) : Int), ({ bytes := [] } : SymType)) :: []) := by
    refine ⟨rfl, mode, ts, stream_of_layout ht, hc, ?_⟩
    rw [hd]
    have : seenAs endToken = (((1 : Nat) : Int), ({ bytes := [] } : SymType)) := by decide +kernel
    rw [this]
    exact List.prefix_rfl
  obtain ⟨n, c1, hn, ⟨pushed, hp1, hp2, y, st', hp3⟩, hs1⟩ := readsAll_run viewSim [d, semi] hr hf (x := {}) (st := []) rfl hsees
  obtain ⟨c2, hc2, hs2, hst⟩ := step_reduces hp3 hs1 hq
  have hlen : pushed.length = 2 := by
    have := congrArg List.length hp2
    simpa [valuesOf] using this
  have hvals : pushed.reverse.map (·.2) = [d.value valueOf, semi.value valueOf] := by
    rw [List.map_reverse, hp2, List.reverse_reverse]
    rfl
  have hstack : c2.stack = pushed ++ [(0, ({} : SymType))] := by rw [hc2, hp1]; rfl
  -- the reduction to the statement
  have hred : ∃ v, reduce host c2 ((1 : Nat) : Int) = .inl ⟨[(1, v), (0, {})], c2.look,
      { c2.lexer with parseTree := (d.value valueOf).statement }⟩ := by
    unfold reduce
    have h2 : yyR2.at ((1 : Nat) : Int) = some 2 := by decide +kernel
    have h1 : yyR1.at ((1 : Nat) : Int) = some 205 := by decide +kernel
    have hg : gotoState 0 205 = some 1 := by decide +kernel
    have hdr : c2.stack.drop (Int.toNat 2) = [(0, ({} : SymType))] := by
      rw [hstack, show Int.toNat 2 = pushed.length by rw [hlen]; rfl]; simp
    have htk : c2.stack.take (Int.toNat 2) = pushed := by
      rw [hstack, show Int.toNat 2 = pushed.length by rw [hlen]; rfl]; simp
    simp only [h2, h1, hdr, htk, hg, hvals]
    exact ⟨_, rfl⟩
  obtain ⟨v, hred⟩ := hred
  -- the end
  have hend : ∃ w k, Yy.step host ⟨[(1, v), (0, ({} : SymType))], c2.look,
      { c2.lexer with parseTree := (d.value valueOf).statement }⟩ = .inr (.accepted w k) ∧
      k.parseTree = (d.value valueOf).statement := by
    have hs3 : Sees viewSim m ⟨[(1, v), (0, ({} : SymType))], c2.look, { c2.lexer with parseTree := (d.value valueOf).statement }⟩
        [(((1 : Nat) : Int), ({ bytes := [] } : SymType))] := by
      unfold Sees at hs2 ⊢
      cases hk : c2.look with
      | none => rw [hk] at hs2; exact hs2
      | some p => rw [hk] at hs2; exact hs2
    have h1 : yyPact.at 1 = some (-1000) := by decide +kernel
    have h2 : yyDef.at 1 = some (-2) := by decide +kernel
    have h3 : excaFor 1 ((1 : Nat) : Int) yyExca = some (-1) := by decide +kernel
    obtain ⟨l, hfe, hg⟩ := fetch_sees hs3
    refine ⟨v, l, ?_, ?_⟩
    · unfold Yy.step
      simp only [h1, show ((-1000 : Int) ≤ yyFlag) from by decide, if_true]
      unfold yydefault
      simp only [h2, if_true, hfe, h3]
      rfl
    · exact fetch_parseTree hfe
  obtain ⟨w, k, hk1, hk2⟩ := hend
  have hrun : ∀ j, run host (n + (1 + (1 + j))) (start {} (newTokenizer sql mode)) = some (.accepted w k) := by
    intro j
    rw [hn, Nat.add_comm 1, run, hst, hred]
    show run host (1 + j) _ = _
    rw [Nat.add_comm 1, run, hk1]
  rcases C54_result_of_a_text mode sql (n + (1 + (1 + (23 * sql.length + 30)))) (by omega) with
    ⟨v', k', h1, h2⟩ | ⟨k', msg, h1, h2⟩ | ⟨e', h1, h2⟩
  · rw [hrun] at h1
    cases h1
    rw [h2, hk2]
  · rw [hrun] at h1; cases h1
  · rw [hrun] at h1; cases h1

end Sqldef.Sql
