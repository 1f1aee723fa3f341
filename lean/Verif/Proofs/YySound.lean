import Verif.Proofs.YyRuns
import Verif.Proofs.YyNames

/-! A run builds derivations of the grammar. -/
namespace Sqldef.Yy
open Spec

theorem derivesAll_snoc {V : Type} : ∀ {As : List String} {cs : List (Tree V)} {A : String} {c : Tree V},
    DerivesAll As cs → Derives A c → DerivesAll (As ++ [A]) (cs ++ [c])
  | [], _, _, _, h, hc => by cases h; exact .cons hc .nil
  | _ :: _, _, _, _, h, hc => by
    cases h with
    | cons h hs => exact .cons h (derivesAll_snoc hs hc)

theorem each_snoc {V : Type} {R : Tree V → V → Prop} : ∀ {cs : List (Tree V)} {vs : List V} {c : Tree V} {v : V},
    Each R cs vs → R c v → Each R (cs ++ [c]) (vs ++ [v])
  | [], [], _, _, _, h => ⟨h, trivial⟩
  | [], _ :: _, _, _, h, _ => by cases h
  | _ :: _, [], _, _, h, _ => by cases h
  | _ :: _, _ :: _, _, _, h, hc => ⟨h.1, each_snoc h.2 hc⟩

theorem tokensRead_append {V : Type} : ∀ (a b : List (Tree V)), tokensRead (a ++ b) = tokensRead a ++ tokensRead b
  | [], _ => rfl
  | c :: a, b => by
    rw [List.cons_append]
    simp only [tokensRead, tokensRead_append a b, List.append_assoc]

/-- The derivations that belong to the entries of the stack. -/
def Grown {V : Type} (R : Tree V → V → Prop) : List Nat → List (Int × V) → List (Tree V) → Prop
  | [_], [_], [] => True
  | k :: k' :: ks, (_, v) :: e :: st, t :: ts =>
    Derives (symName (rChk k)) t ∧ R t v ∧ Grown R (k' :: ks) (e :: st) ts
  | _, _, _ => False

theorem grown_push {V : Type} {R : Tree V → V → Prop} {k n : Nat} {ks : List Nat} {st : List (Int × V)}
    {ts : List (Tree V)} {s : Int} {v : V} {t : Tree V} (hd : Derives (symName (rChk n)) t) (hr : R t v)
    (h : Grown R (k :: ks) st ts) : Grown R (n :: k :: ks) ((s, v) :: st) (t :: ts) := by
  cases st with
  | nil => simp [Grown] at h
  | cons e st => exact ⟨hd, hr, h⟩

theorem grown_pop {V : Type} {R : Tree V → V → Prop} : ∀ {d : Nat} {ks : List Nat} {st : List (Int × V)}
    {ts : List (Tree V)} {q : Nat} {below : List Nat}, Grown R ks st ts → ks.drop d = q :: below →
    Grown R (q :: below) (st.drop d) (ts.drop d) ∧
      DerivesAll (((ks.take d).reverse.map rChk).map symName) (ts.take d).reverse ∧
      Each R (ts.take d).reverse ((st.take d).reverse.map (·.2))
  | 0, ks, st, ts, q, below, h, he => by
    simp only [List.drop_zero] at he
    subst he
    exact ⟨h, .nil, trivial⟩
  | d + 1, ks, st, ts, q, below, h, he => by
    match ks, st, ts, h with
    | [k], [e], [], _ => simp at he
    | k :: k' :: ks, (s, v) :: e :: st, t :: ts, h =>
      obtain ⟨h1, h2, h3⟩ := h
      simp only [List.drop_succ_cons] at he
      obtain ⟨g1, g2, g3⟩ := grown_pop (d := d) h3 he
      refine ⟨g1, ?_, ?_⟩
      · simp only [List.take_succ_cons, List.reverse_cons, List.map_append, List.map_cons, List.map_nil]
        exact derivesAll_snoc g2 h1
      · simp only [List.take_succ_cons, List.reverse_cons, List.map_append, List.map_cons, List.map_nil]
        exact each_snoc g3 h2

/-- The token that is waiting. -/
def waiting {V L : Type} (c : Config V L) : List (Int × V) := c.look.toList

/-- The derivations on the stack read what the lexer has handed out. -/
structure Inv {V L : Type} (R : Tree V → V → Prop) (c : Config V (L × List (Int × V))) (ks : List Nat)
    (ts : List (Tree V)) : Prop where
  shape : Shape c ks
  grown : Grown R ks c.stack ts
  notes : c.lexer.2 = noted (tokensRead ts.reverse) ++ waiting c

theorem terminals_length : terminals.length = 315 := by decide +kernel

theorem terminal_name {t : Nat} (h1 : 1 ≤ t) (h2 : t ≤ 315) :
    terminals[t - 1]? = some (symName (t + 2000)) := by
  have e : symName (t + 2000) = cond (Nat.ble 2001 (t + 2000)) (terminals.getD (t + 2000 - 2001) "")
    (certNames.getD (2000 - (t + 2000)) "") := rfl
  rw [e, Nat.ble_eq.mpr (by omega), cond_true, show t + 2000 - 2001 = t - 1 by omega,
    List.getD_eq_getElem?_getD]
  have : t - 1 < terminals.length := by rw [terminals_length]; omega
  rw [List.getElem?_eq_getElem this]
  rfl

theorem fetch_inv {V L E : Type} {h : Host V L E} {R : Tree V → V → Prop}
    {c c' : Config V (L × List (Int × V))} {t : Int} {v : V} {ks : List Nat} {ts : List (Tree V)}
    (hi : Inv R c ks ts) (hf : fetch (noting h) c = .ok (t, v, c')) : Inv R c' ks ts := by
  obtain ⟨h1, h2, h3⟩ := fetch_spec hf
  refine ⟨(fetch_shape hi.shape hf).1, by rw [h1]; exact hi.grown, ?_⟩
  rcases h3 with h3 | ⟨hn, char, l, hl, ht, hl'⟩
  · subst h3; exact hi.notes
  · have hw : waiting c = [] := by unfold waiting; rw [hn]; rfl
    have hw' : waiting c' = [(t, v)] := by unfold waiting; rw [h2]; rfl
    have hno := hi.notes
    rw [hw, List.append_nil] at hno
    rw [hw', hl', ← hno]
    simp only [noting] at hl
    cases hx : h.lex c.lexer.1 with
    | error e => rw [hx] at hl; cases hl
    | ok p =>
      rw [hx] at hl
      simp only [Except.ok.injEq, Prod.mk.injEq] at hl
      obtain ⟨rfl, rfl, rfl⟩ := hl
      simp only [ht]

theorem looked_inv {V L E : Type} {h : Host V L E} {R : Tree V → V → Prop}
    {c c' : Config V (L × List (Int × V))} {ks : List Nat} {ts : List (Tree V)}
    (hi : Inv R c ks ts) (hl : Looked (noting h) c c') : Inv R c' ks ts := by
  rcases hl with hl | ⟨t, v, hl⟩
  · subst hl; exact hi
  · exact fetch_inv hi hl

theorem ruleText_eq (r : Nat) : ruleText r = (symName (4000 - rLhs r),
    (List.range (rhsStart (r + 1) - rhsStart r)).map (fun d => symName (rhsAt r d))) := rfl

theorem step_inv {V L E : Type} {h : Host V L E} {R : Tree V → V → Prop} (hR : Kept h R)
    {c c' : Config V (L × List (Int × V))} {ks : List Nat} {ts : List (Tree V)} (hi : Inv R c ks ts)
    (he : step (noting h) c = .inl c') : ∃ ks' ts', Inv R c' ks' ts' := by
  have hm := step_move (h := noting h) hi.shape
  generalize step (noting h) c = res at hm he
  cases hm with
  | stopped => cases he
  | accept => cases he
  | reject => cases he
  | @shift t k n v c1 rest hk hf ht hg =>
    subst hk
    simp only [Sum.inl.injEq] at he
    subst he
    have hi1 := fetch_inv hi hf
    have hgi := (goesTo_iff ..).mp hg
    have h2 := (fetch_spec hf).2.1
    obtain ⟨j, hj, hj1, hj2⟩ := (fetch_shape hi.shape hf).2
    have hjt : j = t := by omega
    subst hjt
    refine ⟨n :: k :: rest, .leaf j v :: ts, shape_shift hi.shape hf hg, ?_, ?_⟩
    · refine grown_push ?_ (hR.leaf _ _) hi1.grown
      rw [hgi.2.2.1, show j = (j - 1) + 1 by omega]
      refine Derives.leaf ?_
      rw [terminal_name hj1 hj2, show j - 1 + 1 = j by omega]
    · have hn := hi1.notes
      have hw : waiting c1 = [((j : Int), v)] := by unfold waiting; rw [h2]; rfl
      rw [hw] at hn
      simp only [List.reverse_cons, tokensRead_append, noted, List.map_append, waiting, Option.toList_none,
        List.append_nil, hn]
      rfl
  | @reduce k r c1 rest hk hl hr =>
    subst hk
    have hi1 := looked_inv hi hl
    obtain ⟨q, n, below, qv, more, r1, r2, h1, h2, h3, h4, h5, _, h7⟩ := reduce_move (noting h) hi1.shape hr
    obtain ⟨f1, f2, f3, _, f5, _, _⟩ := rule_fact r1 r2
    generalize hd : rLen r - 2000 = d at h1 h4 h5 h7 f5
    rw [h7] at he
    split at he
    · rename_i w l ha
      simp only [Sum.inl.injEq] at he
      subst he
      obtain ⟨g1, g2, g3⟩ := grown_pop hi1.grown h1
      have hgi := (goesTo_iff ..).mp h3
      have hgr : grammar[r]? = some (symName (rChk n), ((List.range d).map (rhsAt r)).map symName) := by
        rw [grammar_rule r2, ruleText_eq, f5, hgi.2.2.1, List.map_map]
        rw [show 4000 - rLhs r = 2000 - (rLhs r - 2000) by omega,
          show rhsStart r + d - rhsStart r = d by omega]
        rfl
      rw [h4] at g2
      refine ⟨n :: q :: below, .node r (ts.take d).reverse :: ts.drop d, ?_, ?_, ?_⟩
      · refine ⟨?_, linked_push h2 h3, hi1.shape.token⟩
        have := congrArg (List.map (·.1)) h5
        rw [List.map_drop, hi1.shape.states, ← List.map_drop, h1] at this
        simp only [List.map_cons, List.cons.injEq] at this ⊢
        exact ⟨trivial, trivial, this.2.symm⟩
      · rw [h5] at g1
        refine grown_push (.node hgr g2) ?_ g1
        cases hact : h.act r (List.map (fun x => x.snd) (List.take d c1.stack).reverse) c1.lexer.1 with
        | ok p =>
          refine hR.node (l := c1.lexer.1) (l' := p.2) hgr g2 g3 ?_
          simp only [noting, hact] at ha
          simp only [Except.ok.injEq, Prod.mk.injEq] at ha
          rw [hact, ← ha.1]
        | error e =>
          simp only [noting, hact] at ha
          rcases e with e | e <;> simp at ha
      · have hw : c1.lexer.2 = l.2 := by
          simp only [noting] at ha
          split at ha
          · simp only [Except.ok.injEq, Prod.mk.injEq] at ha
            rw [← ha.2]
          · simp at ha
          · simp at ha
        show l.2 = noted (tokensRead (Tree.node r _ :: _).reverse) ++ waiting c1
        rw [← hw, hi1.notes]
        refine congrArg (fun x => noted x ++ waiting c1) ?_
        rw [List.reverse_cons, tokensRead_append]
        have e1 : tokensRead [Tree.node r (List.take d ts).reverse] =
            tokensRead (List.take d ts).reverse := by simp [tokensRead, Tree.tokens]
        rw [e1, ← tokensRead_append, ← List.reverse_append, List.take_append_drop]
    · cases he
    · cases he

theorem any_command_code : symName (rhsAt 0 0) = "any_command" := by decide +kernel
theorem rule0_lhs : rLhs 0 = 2000 := by decide +kernel

theorem accept_inv {V L E : Type} {h : Host V L E} {R : Tree V → V → Prop}
    {c : Config V (L × List (Int × V))} {ks : List Nat} {ts : List (Tree V)} {v : V}
    {l : L × List (Int × V)} (hi : Inv R c ks ts)
    (he : step (noting h) c = .inr (.accepted v l)) :
    ∃ t w, Derives "any_command" t ∧ R t v ∧ l.2 = noted t.tokens ++ [(1, w)] := by
  have hm := step_move (h := noting h) hi.shape
  generalize step (noting h) c = res at hm he
  cases hm with
  | stopped => cases he
  | shift => cases he
  | reject => cases he
  | reduce hk hl hr =>
    subst hk
    obtain ⟨q, n, below, qv, more, _, _, _, _, _, _, _, _, h7⟩ :=
      reduce_move (noting h) (looked_shape hi.shape hl) hr
    rw [h7] at he
    split at he
    · cases he
    · simp at he
    · simp at he
  | @accept k v' w c1 rest more hk hs hf hitem =>
    subst hk
    simp only [Sum.inr.injEq, Outcome.accepted.injEq] at he
    obtain ⟨rfl, rfl⟩ := he
    have hi1 := fetch_inv hi hf
    obtain ⟨q, below, h1, h2, h3, h4, _⟩ := linked_item (r := 0) (d := 1) (by omega) hi.shape.linked rfl hitem
    rw [hasItem_zero, rule0_lhs] at h3
    have hq := begins_zero (linked_top h2) h3
    subst hq
    have hb : below = [] := by
      cases below with
      | nil => rfl
      | cons b below =>
        have := (goesTo_iff ..).mp h2.1
        omega
    subst hb
    simp only [List.drop_succ_cons, List.drop_zero] at h1
    subst h1
    have hchk : rChk k = rhsAt 0 0 := by simpa using h4
    have hg := hi1.grown
    have hst : c1.stack = ((k : Int), v') :: more := by rw [(fetch_spec hf).1]; exact hs
    rw [hst] at hg
    match more, ts, hg with
    | e :: st, t :: ts, hg =>
      obtain ⟨g1, g2, g3⟩ := hg
      rw [hchk, any_command_code] at g1
      refine ⟨t, w, g1, g2, ?_⟩
      have hts : ts = [] := by
        cases st with
        | nil => cases ts with
          | nil => rfl
          | cons => simp [Grown] at g3
        | cons => cases ts <;> simp [Grown] at g3
      have hn := hi1.notes
      have hw : waiting c1 = [(1, w)] := by unfold waiting; rw [(fetch_spec hf).2.1]; rfl
      rw [hn, hw, hts]
      simp [tokensRead]

theorem run_sound {V L E : Type} {h : Host V L E} {R : Tree V → V → Prop} (hR : Kept h R) :
    ∀ (n : Nat) {c : Config V (L × List (Int × V))} {ks : List Nat} {ts : List (Tree V)} {v : V}
      {l : L × List (Int × V)}, Inv R c ks ts → run (noting h) n c = some (.accepted v l) →
    ∃ t w, Derives "any_command" t ∧ R t v ∧ l.2 = noted t.tokens ++ [(1, w)]
  | 0, _, _, _, _, _, _, hr => by cases hr
  | n + 1, c, ks, ts, v, l, hi, hr => by
    unfold run at hr
    cases he : step (noting h) c with
    | inl c' =>
      rw [he] at hr
      obtain ⟨ks', ts', hi'⟩ := step_inv hR hi he
      exact run_sound hR n hi' hr
    | inr o =>
      rw [he] at hr
      simp only [Option.some.injEq] at hr
      subst hr
      exact accept_inv hi he

theorem inv_start {V L : Type} (R : Tree V → V → Prop) (z : V) (l : L) :
    Inv R (start z (l, []) : Config V (L × List (Int × V))) [0] [] :=
  ⟨shape_start z _, trivial, rfl⟩

end Sqldef.Yy
