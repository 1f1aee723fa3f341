import Verif.Spec.Parsing

/-!
The other direction of `YySound`: a derivation that the tables agree with is what the driver finds.

`readsTree s m d la` follows the tables through a derivation, without a stack and without values; if it succeeds, the
driver reads the tokens of the derivation and leaves its value on top of the stack (`readsTree_run`).
-/
namespace Sqldef.Yy
open Spec

/-- What the tables want in a state when a token is next. -/
inductive Do
  | shift (n : Int)
  | reduce (r : Nat)
  | other
  deriving DecidableEq

/-- The default action of a state, as `yydefault` takes it. -/
def byDefault (s t : Int) : Do :=
  match yyDef.at s with
  | none => .other
  | some d =>
    if d = -2 then
      match excaFor s t yyExca with
      | none => .other
      | some r => if 0 < r then .reduce r.toNat else .other
    else if 0 < d then .reduce d.toNat else .other

/-- What `step` does in a state when a token is next. -/
def decideAct (s t : Int) : Do :=
  match yyPact.at s with
  | none => .other
  | some p =>
    if p ≤ yyFlag then byDefault s t
    else
      match shiftTo p t with
      | none => .other
      | some (some n) => .shift n
      | some none => byDefault s t

/-- A lexer and actions that go on: `good m l ts` says that the lexer in the state `l` will hand out the tokens `ts`;
`eff` is what a rule does to the part `m` of the state that actions depend on, and `ok` what it asks of the values. -/
structure Sim {V L E : Type} (h : Host V L E) (M : Type) where
  good : M → L → List (Int × V) → Prop
  eff : Nat → M → Option M
  val : Nat → List V → V
  ok : Nat → List V → Prop
  lex : ∀ {m l t v ts}, good m l ((t, v) :: ts) → ∃ char l', h.lex l = .ok (char, v, l') ∧ tokenOf char = t ∧ good m l' ts
  act : ∀ {r m m' vs l ts}, eff r m = some m' → ok r vs → good m l ts →
    ∃ l', h.act r vs l = .ok (val r vs, l') ∧ good m' l' ts

variable {V L E M : Type} {h : Host V L E}

/-- The token that comes first in some derivations, or else the one that follows them. -/
def headToken (cs : List (Tree V)) (la : Nat) : Nat :=
  match tokensRead cs with
  | [] => la
  | (t, _) :: _ => t

mutual
/-- The tables followed through a derivation, from state `s`, with the token `la` after it. -/
def readsTree (eff : Nat → M → Option M) (s : Int) (m : M) : Tree V → Nat → Option (Int × M)
  | .leaf t _, _ =>
    match decideAct s t with
    | .shift n => some (n, m)
    | _ => none
  | .node r cs, la =>
    match readsAll eff s m cs la with
    | none => none
    | some (q, m') =>
      if decideAct q la = .reduce r ∧ yyR2.at r = some (cs.length : Int) then
        match yyR1.at r with
        | none => none
        | some a =>
          match gotoState s a, eff r m' with
          | some s', some m'' => some (s', m'')
          | _, _ => none
      else none
@[inherit_doc readsTree]
def readsAll (eff : Nat → M → Option M) (s : Int) (m : M) : List (Tree V) → Nat → Option (Int × M)
  | [], _ => some (s, m)
  | c :: cs, la =>
    match readsTree eff s m c (headToken cs la) with
    | none => none
    | some (q, m') => readsAll eff q m' cs la
end

mutual
/-- The values are what the actions ask for. -/
def fine (val : Nat → List V → V) (ok : Nat → List V → Prop) : Tree V → Prop
  | .leaf _ _ => True
  | .node r cs => ok r (valuesOf val cs) ∧ fineAll val ok cs
@[inherit_doc fine]
def fineAll (val : Nat → List V → V) (ok : Nat → List V → Prop) : List (Tree V) → Prop
  | [] => True
  | c :: cs => fine val ok c ∧ fineAll val ok cs
end

/-- The tokens that are still to come, with the one that is waiting. -/
def Sees (S : Sim h M) (m : M) (c : Config V L) (ts : List (Int × V)) : Prop :=
  match c.look with
  | none => S.good m c.lexer ts
  | some p => ∃ rest, ts = p :: rest ∧ S.good m c.lexer rest

/-- A token is fetched. -/
theorem fetch_sees {S : Sim h M} {m : M} {c : Config V L} {t : Int} {v : V} {ts : List (Int × V)}
    (hs : Sees S m c ((t, v) :: ts)) :
    ∃ l, fetch h c = .ok (t, v, ⟨c.stack, some (t, v), l⟩) ∧ S.good m l ts := by
  obtain ⟨stack, look, lexer⟩ := c
  unfold Sees at hs
  cases look with
  | none =>
    obtain ⟨char, l', h1, h2, h3⟩ := S.lex hs
    refine ⟨l', ?_, h3⟩
    unfold fetch
    simp only [h1, h2]
  | some p =>
    obtain ⟨rest, h1, h2⟩ := hs
    simp only [List.cons.injEq] at h1
    obtain ⟨rfl, rfl⟩ := h1
    exact ⟨lexer, rfl, h2⟩

theorem default_reduces {S : Sim h M} {m : M} {c : Config V L} {s t : Int} {v w : V} {ts : List (Int × V)} {r : Nat}
    (hs : Sees S m c ((t, v) :: ts)) (hd : byDefault s t = .reduce r) :
    ∃ c', c'.stack = c.stack ∧ Sees S m c' ((t, v) :: ts) ∧ yydefault h c s w = reduce h c' (r : Int) := by
  unfold byDefault at hd
  cases hdef : yyDef.at s with
  | none => rw [hdef] at hd; cases hd
  | some d =>
    simp only [hdef] at hd
    by_cases h2 : d = -2
    · rw [if_pos h2] at hd
      cases he : excaFor s t yyExca with
      | none => rw [he] at hd; cases hd
      | some r' =>
        simp only [he] at hd
        by_cases hr : 0 < r'
        · rw [if_pos hr] at hd
          cases hd
          obtain ⟨l, hf, hg⟩ := fetch_sees hs
          refine ⟨⟨c.stack, some (t, v), l⟩, rfl, ⟨ts, rfl, hg⟩, ?_⟩
          unfold yydefault
          simp only [hdef, if_pos h2, hf, he]
          rw [if_neg (by omega)]
          unfold perform
          rw [if_neg (by omega), Int.toNat_of_nonneg (by omega)]
        · rw [if_neg hr] at hd; cases hd
    · rw [if_neg h2] at hd
      by_cases hr : 0 < d
      · rw [if_pos hr] at hd
        cases hd
        refine ⟨c, rfl, hs, ?_⟩
        unfold yydefault
        simp only [hdef, if_neg h2]
        unfold perform
        rw [if_neg (by omega), Int.toNat_of_nonneg (by omega)]
      · rw [if_neg hr] at hd; cases hd

/-- The step that shifts. -/
theorem step_shifts {S : Sim h M} {m : M} {c : Config V L} {s t n : Int} {x v : V} {st : List (Int × V)} {ts : List (Int × V)}
    (hc : c.stack = (s, x) :: st) (hs : Sees S m c ((t, v) :: ts)) (hd : decideAct s t = .shift n) :
    ∃ c', step h c = .inl c' ∧ c'.stack = (n, v) :: c.stack ∧ Sees S m c' ts := by
  unfold decideAct at hd
  cases hp : yyPact.at s with
  | none => rw [hp] at hd; cases hd
  | some p =>
    simp only [hp] at hd
    have hno : ∀ s t, byDefault s t ≠ .shift n := by
      intro s t he
      unfold byDefault at he
      cases h1 : yyDef.at s with
      | none => rw [h1] at he; cases he
      | some d =>
        simp only [h1] at he
        by_cases h2 : d = -2
        · rw [if_pos h2] at he
          cases h3 : excaFor s t yyExca with
          | none => rw [h3] at he; cases he
          | some r => simp only [h3] at he; split at he <;> cases he
        · rw [if_neg h2] at he
          split at he <;> cases he
    by_cases hf : p ≤ yyFlag
    · rw [if_pos hf] at hd; exact absurd hd (hno s t)
    · rw [if_neg hf] at hd
      cases hsh : shiftTo p t with
      | none => rw [hsh] at hd; cases hd
      | some o =>
        cases o with
        | none => rw [hsh] at hd; exact absurd hd (hno s t)
        | some a =>
          simp only [hsh] at hd
          cases hd
          obtain ⟨l, hfe, hg⟩ := fetch_sees hs
          refine ⟨⟨(n, v) :: c.stack, none, l⟩, ?_, rfl, hg⟩
          unfold step
          simp only [hc, hp, if_neg hf, hfe, hsh]

/-- The step that reduces. -/
theorem step_reduces {S : Sim h M} {m : M} {c : Config V L} {s t : Int} {x v : V} {st : List (Int × V)} {ts : List (Int × V)}
    {r : Nat} (hc : c.stack = (s, x) :: st) (hs : Sees S m c ((t, v) :: ts)) (hd : decideAct s t = .reduce r) :
    ∃ c', c'.stack = c.stack ∧ Sees S m c' ((t, v) :: ts) ∧ step h c = reduce h c' (r : Int) := by
  unfold decideAct at hd
  cases hp : yyPact.at s with
  | none => rw [hp] at hd; cases hd
  | some p =>
    simp only [hp] at hd
    by_cases hf : p ≤ yyFlag
    · rw [if_pos hf] at hd
      obtain ⟨c', h1, h2, h3⟩ := default_reduces (w := x) hs hd
      refine ⟨c', h1, h2, ?_⟩
      unfold step
      simp only [hc, hp, if_pos hf]
      exact h3
    · rw [if_neg hf] at hd
      cases hsh : shiftTo p t with
      | none => rw [hsh] at hd; cases hd
      | some o =>
        cases o with
        | some a => rw [hsh] at hd; cases hd
        | none =>
          simp only [hsh] at hd
          obtain ⟨l, hfe, hg⟩ := fetch_sees hs
          have hs' : Sees S m ⟨c.stack, some (t, v), l⟩ ((t, v) :: ts) := ⟨ts, rfl, hg⟩
          obtain ⟨c', h1, h2, h3⟩ := default_reduces (w := x) hs' hd
          refine ⟨c', h1, h2, ?_⟩
          unfold step
          simp only [hc, hp, if_neg hf, hfe, hsh]
          rw [← hc]
          exact h3

/-- A reduction whose right hand side is on the stack. -/
theorem reduce_pops {S : Sim h M} {m m' : M} {c : Config V L} {ts : List (Int × V)} {r : Nat} {a s s' : Int} {x : V}
    {pushed st : List (Int × V)} (hl : yyR2.at r = some (pushed.length : Int)) (ha : yyR1.at r = some a)
    (hg : gotoState s a = some s') (hc : c.stack = pushed ++ (s, x) :: st) (hs : Sees S m c ts)
    (he : S.eff r m = some m') (ho : S.ok r (pushed.reverse.map (·.2))) :
    ∃ c', reduce h c (r : Int) = .inl c' ∧ c'.stack = (s', S.val r (pushed.reverse.map (·.2))) :: (s, x) :: st ∧
      Sees S m' c' ts := by
  have hd : c.stack.drop pushed.length = (s, x) :: st := by rw [hc]; simp
  have ht : c.stack.take pushed.length = pushed := by rw [hc]; simp
  have hact : ∀ {us}, S.good m c.lexer us → ∃ l', h.act r (pushed.reverse.map (·.2)) c.lexer =
      .ok (S.val r (pushed.reverse.map (·.2)), l') ∧ S.good m' l' us := fun hu => S.act he ho hu
  unfold Sees at hs
  cases hk : c.look with
  | none =>
    rw [hk] at hs
    obtain ⟨l', h1, h2⟩ := hact hs
    refine ⟨{ c with stack := (s', S.val r (pushed.reverse.map (·.2))) :: (s, x) :: st, lexer := l' }, ?_, rfl, ?_⟩
    · unfold reduce
      simp only [hl, ha, Int.toNat_natCast, hd, hg, ht, h1]
    · simp only [Sees, hk]; exact h2
  | some p =>
    rw [hk] at hs
    obtain ⟨rest, hr, hs⟩ := hs
    obtain ⟨l', h1, h2⟩ := hact hs
    refine ⟨{ c with stack := (s', S.val r (pushed.reverse.map (·.2))) :: (s, x) :: st, lexer := l' }, ?_, rfl, ?_⟩
    · unfold reduce
      simp only [hl, ha, Int.toNat_natCast, hd, hg, ht, h1]
    · simp only [Sees, hk]; exact ⟨rest, hr, h2⟩

/-- The tokens of derivations as the driver numbers them. -/
theorem noted_append (a b : List (Nat × V)) : noted (a ++ b) = noted a ++ noted b := by simp [noted]

theorem headToken_spec (cs : List (Tree V)) (la : Nat) (w : V) (rest : List (Int × V)) :
    ∃ w' rest', noted (tokensRead cs) ++ ((la : Int), w) :: rest = (((headToken cs la : Nat) : Int), w') :: rest' := by
  unfold headToken
  cases h : tokensRead cs with
  | nil => exact ⟨w, rest, rfl⟩
  | cons p ps => obtain ⟨t, v⟩ := p; exact ⟨v, _, rfl⟩

mutual
/-- If the tables agree with a derivation, the driver reads its tokens and puts its value on the stack. -/
theorem readsTree_run (S : Sim h M) : ∀ (d : Tree V) {s s' : Int} {m m' : M} {la : Nat}
    (_ : readsTree S.eff s m d la = some (s', m')) (_ : fine S.val S.ok d) {c : Config V L} {x w : V} {st rest : List (Int × V)}
    (_ : c.stack = (s, x) :: st) (_ : Sees S m c (noted d.tokens ++ ((la : Int), w) :: rest)),
    ∃ n c', (∀ k, run h (n + k) c = run h k c') ∧ c'.stack = (s', d.value S.val) :: c.stack ∧
      Sees S m' c' (((la : Int), w) :: rest)
  | .leaf t v, s, s', m, m', la, hr, _, c, x, w, st, rest, hc, hs => by
    rw [readsTree] at hr
    cases hd : decideAct s t with
    | reduce r => rw [hd] at hr; cases hr
    | other => rw [hd] at hr; cases hr
    | shift n =>
      simp only [hd] at hr
      cases hr
      obtain ⟨c', h1, h2, h3⟩ := step_shifts hc (show Sees S m c (((t : Int), v) :: (((la : Int), w) :: rest)) from hs) hd
      refine ⟨1, c', fun k => ?_, h2, h3⟩
      rw [Nat.add_comm, run, h1]
  | .node r cs, s, s', m, m', la, hr, hf, c, x, w, st, rest, hc, hs => by
    rw [readsTree] at hr
    cases ha : readsAll S.eff s m cs la with
    | none => rw [ha] at hr; cases hr
    | some qm =>
      obtain ⟨q, m1⟩ := qm
      simp only [ha] at hr
      split at hr
      case isFalse => cases hr
      case isTrue hd =>
        cases h1 : yyR1.at r with
        | none => rw [h1] at hr; cases hr
        | some a =>
          simp only [h1] at hr
          cases hg : gotoState s a with
          | none => rw [hg] at hr; cases hr
          | some s1 =>
            cases he : S.eff r m1 with
            | none => rw [hg, he] at hr; cases hr
            | some m2 =>
              simp only [hg, he] at hr
              cases hr
              rw [fine] at hf
              obtain ⟨n, c1, hn, ⟨pushed, hp1, hp2, y, hq⟩, hs1⟩ := readsAll_run S cs ha hf.2 (x := x) (st := st) hc (by rwa [Tree.tokens] at hs)
              obtain ⟨st1, hq⟩ := hq
              obtain ⟨c2, hc2, hs2, hst⟩ := step_reduces (s := q) (x := y) (st := st1) hq hs1 hd.1
              have hlen : pushed.length = cs.length := by
                have := congrArg List.length hp2
                simp only [List.length_map, List.length_reverse] at this
                rw [this]
                exact valuesOf_length S.val cs
              have hvals : pushed.reverse.map (·.2) = valuesOf S.val cs := by
                rw [List.map_reverse, hp2, List.reverse_reverse]
              obtain ⟨c3, h3, h4, h5⟩ := reduce_pops (S := S) (m := m1) (pushed := pushed) (s := s) (x := x) (st := st)
                (by rw [hlen]; exact hd.2) h1 hg (by rw [hc2, hp1, hc]) hs2 he (by rw [hvals]; exact hf.1)
              refine ⟨n + 1, c3, fun k => ?_, ?_, h5⟩
              · rw [Nat.add_assoc, hn, Nat.add_comm, run, hst, h3]
              · rw [h4, hvals, hc, Tree.value]
@[inherit_doc readsTree_run]
theorem readsAll_run (S : Sim h M) : ∀ (cs : List (Tree V)) {s s' : Int} {m m' : M} {la : Nat}
    (_ : readsAll S.eff s m cs la = some (s', m')) (_ : fineAll S.val S.ok cs) {c : Config V L} {x w : V} {st rest : List (Int × V)}
    (_ : c.stack = (s, x) :: st) (_ : Sees S m c (noted (tokensRead cs) ++ ((la : Int), w) :: rest)),
    ∃ n c', (∀ k, run h (n + k) c = run h k c') ∧
      (∃ pushed, c'.stack = pushed ++ c.stack ∧ pushed.map (·.2) = (valuesOf S.val cs).reverse ∧
        ∃ y st', c'.stack = (s', y) :: st') ∧
      Sees S m' c' (((la : Int), w) :: rest)
  | [], s, s', m, m', la, hr, _, c, x, w, st, rest, hc, hs => by
    rw [readsAll] at hr
    cases hr
    refine ⟨0, c, fun k => by rw [Nat.zero_add], ⟨[], rfl, by simp [valuesOf], x, st, hc⟩, ?_⟩
    simpa [tokensRead, noted] using hs
  | d :: cs, s, s', m, m', la, hr, hf, c, x, w, st, rest, hc, hs => by
    rw [readsAll] at hr
    cases hd : readsTree S.eff s m d (headToken cs la) with
    | none => rw [hd] at hr; cases hr
    | some qm =>
      obtain ⟨q, m1⟩ := qm
      simp only [hd] at hr
      rw [fineAll] at hf
      rw [tokensRead, noted_append, List.append_assoc] at hs
      obtain ⟨w', rest', hw⟩ := headToken_spec cs la w rest
      rw [hw] at hs
      obtain ⟨n1, c1, hn1, hc1, hs1⟩ := readsTree_run S d hd hf.1 hc hs
      rw [← hw] at hs1
      obtain ⟨n2, c2, hn2, ⟨pushed, hp1, hp2, hp3⟩, hs2⟩ := readsAll_run S cs hr hf.2 hc1 hs1
      refine ⟨n1 + n2, c2, fun k => ?_, ⟨pushed ++ [(q, d.value S.val)], ?_, ?_, hp3⟩, hs2⟩
      · rw [Nat.add_assoc, hn1, hn2]
      · rw [hp1, hc1]; simp
      · rw [List.map_append, hp2, valuesOf]; simp
theorem valuesOf_length (val : Nat → List V → V) : ∀ (cs : List (Tree V)), (valuesOf val cs).length = cs.length
  | [] => rfl
  | c :: cs => by rw [valuesOf, List.length_cons, List.length_cons, valuesOf_length val cs]
end

end Sqldef.Yy
