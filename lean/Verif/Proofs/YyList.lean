import Verif.Proofs.YySound

/-! Runs over a list of tokens. -/
namespace Sqldef.Yy
open Spec

theorem tok1_one : ∀ i, i < yyTok1.length → yyTok1.getD i 0 = 1 → i = 0 := by decide +kernel
theorem tok2_one : ∀ i, i < yyTok2.length → yyTok2.getD i 0 ≠ 1 := by decide +kernel
theorem tok3_one : ∀ p ∈ yyTok3, p.2 ≠ 1 := by decide +kernel

/-- Only the end of the text has the token `$end`. -/
theorem tokenOf_one {char : Int} (h : tokenOf char = 1) : char ≤ 0 := by
  have key : ∀ f : Nat, (if f = 0 then ((yyTok2.getD 1 0 : Nat) : Int) else (f : Int)) = 1 → f = 1 := by
    intro f hf
    by_cases hz : f = 0
    · rw [if_pos hz] at hf
      have : yyTok2.getD 1 0 = 3 := rfl
      rw [this] at hf
      omega
    · rw [if_neg hz] at hf; omega
  unfold tokenOf at h
  have h := key _ h
  by_cases h0 : char ≤ 0
  · exact h0
  rw [if_neg h0] at h
  split at h
  · rename_i hl
    have := tok1_one char.toNat (by omega) h
    omega
  · split at h
    · rename_i hl
      exact absurd h (tok2_one _ (by omega))
    · split at h
      · rename_i p hp
        exact absurd h (tok3_one _ (List.mem_of_find?_eq_some hp))
      · cases h

def tokened {V : Type} (l : List (Int × V)) : List (Int × V) := l.map (fun p => (tokenOf p.1, p.2))

/-- What has been noted is what has been read from the list. -/
def Reading {V : Type} (z : V) (toks : List (Int × V))
    (c : Config V (List (Int × V) × List (Int × V))) : Prop :=
  (c.lexer.2 ++ tokened c.lexer.1 = tokened toks) ∨
  (c.look = some (1, z) ∧ c.lexer.2 = tokened toks ++ [(1, z)])

theorem fetch_reading {V : Type} {z : V} {act : Nat → List V → V} {toks : List (Int × V)}
    {c c' : Config V (List (Int × V) × List (Int × V))} {t : Int} {v : V} (hi : Reading z toks c)
    (hf : fetch (noting (listHost z act)) c = .ok (t, v, c')) : Reading z toks c' := by
  obtain ⟨_, h2, h3⟩ := fetch_spec hf
  rcases h3 with h3 | ⟨hn, char, l, hl, ht, hl'⟩
  · subst h3; exact hi
  · rcases hi with hi | ⟨hi, _⟩
    · obtain ⟨stack, look, rem, log⟩ := c
      simp only [noting, listHost] at hl hi
      cases rem with
      | nil =>
        simp only [Except.ok.injEq, Prod.mk.injEq] at hl
        obtain ⟨rfl, rfl, rfl⟩ := hl
        right
        have e1 : tokenOf 0 = 1 := tokenOf_end (by omega)
        simp only [tokened, List.map_nil, List.append_nil] at hi
        rw [h2, hl', ht, e1, ← tokened] at *
        exact ⟨rfl, by rw [hi]⟩
      | cons p rem =>
        obtain ⟨x, w⟩ := p
        simp only [Except.ok.injEq, Prod.mk.injEq] at hl
        obtain ⟨rfl, rfl, rfl⟩ := hl
        left
        rw [hl', ← hi]
        simp [tokened]
    · rw [hn] at hi; cases hi

theorem looked_reading {V : Type} {z : V} {act : Nat → List V → V} {toks : List (Int × V)}
    {c c' : Config V (List (Int × V) × List (Int × V))} (hi : Reading z toks c)
    (hl : Looked (noting (listHost z act)) c c') : Reading z toks c' := by
  rcases hl with hl | ⟨t, v, hl⟩
  · subst hl; exact hi
  · exact fetch_reading hi hl

theorem step_reading {V : Type} {z : V} {act : Nat → List V → V} {toks : List (Int × V)}
    {c c' : Config V (List (Int × V) × List (Int × V))} {ks : List Nat} (hs : Shape c ks)
    (hi : Reading z toks c) (he : step (noting (listHost z act)) c = .inl c') : Reading z toks c' := by
  have hm := step_move (h := noting (listHost z act)) hs
  generalize step (noting (listHost z act)) c = res at hm he
  cases hm with
  | stopped => cases he
  | accept => cases he
  | reject => cases he
  | @shift t k n v c1 rest hk hf ht hg =>
    simp only [Sum.inl.injEq] at he
    subst he
    rcases fetch_reading hi hf with h | ⟨h, _⟩
    · exact .inl h
    · rw [(fetch_spec hf).2.1] at h
      simp only [Option.some.injEq, Prod.mk.injEq] at h
      omega
  | @reduce k r c1 rest hk hl hr =>
    subst hk
    have hi1 := looked_reading hi hl
    obtain ⟨q, n, below, qv, more, _, _, _, _, _, _, _, _, h7⟩ :=
      reduce_move (noting (listHost z act)) (looked_shape hs hl) hr
    rw [h7] at he
    simp only [noting, listHost, Sum.inl.injEq] at he
    subst he
    exact hi1

theorem accept_reading {V : Type} {z : V} {act : Nat → List V → V} {toks : List (Int × V)}
    {c : Config V (List (Int × V) × List (Int × V))} {ks : List Nat} {v : V} {l} (hs : Shape c ks)
    (hpos : ∀ p ∈ toks, 0 < p.1)
    (hi : Reading z toks c) (he : step (noting (listHost z act)) c = .inr (.accepted v l))
    {ts w} (hl : l.2 = ts ++ [(1, w)]) : ts = tokened toks := by
  have hm := step_move (h := noting (listHost z act)) hs
  generalize step (noting (listHost z act)) c = res at hm he
  cases hm with
  | stopped => cases he
  | shift => cases he
  | reject => cases he
  | reduce hk hlk hr =>
    subst hk
    obtain ⟨q, n, below, qv, more, _, _, _, _, _, _, _, _, h7⟩ :=
      reduce_move (noting (listHost z act)) (looked_shape hs hlk) hr
    rw [h7] at he
    simp [noting, listHost] at he
  | @accept k v' w' c1 rest more hk hst hf hitem =>
    simp only [Sum.inr.injEq, Outcome.accepted.injEq] at he
    obtain ⟨rfl, rfl⟩ := he
    rcases fetch_reading hi hf with h | ⟨_, h⟩
    · exfalso
      rw [hl] at h
      have : (1, w) ∈ tokened toks := by
        rw [← h]; simp
      simp only [tokened, List.mem_map, Prod.mk.injEq] at this
      obtain ⟨p, hp, h1, _⟩ := this
      have := tokenOf_one h1
      have := hpos p hp
      omega
    · rw [hl] at h
      exact (List.append_inj' h rfl).1

theorem run_list {V : Type} {z : V} {act : Nat → List V → V} {toks : List (Int × V)}
    {R : Tree V → V → Prop} (hR : Kept (listHost z act) R) (hpos : ∀ p ∈ toks, 0 < p.1) :
    ∀ (n : Nat) {c : Config V (List (Int × V) × List (Int × V))} {ks ts} {v : V} {l},
      Inv R c ks ts → Reading z toks c → run (noting (listHost z act)) n c = some (.accepted v l) →
    ∃ t, Derives "any_command" t ∧ R t v ∧ noted t.tokens = tokened toks
  | 0, _, _, _, _, _, _, _, hr => by cases hr
  | n + 1, c, ks, ts, v, l, hi, hre, hr => by
    unfold run at hr
    cases he : step (noting (listHost z act)) c with
    | inl c' =>
      rw [he] at hr
      obtain ⟨ks', ts', hi'⟩ := step_inv hR hi he
      exact run_list hR hpos n hi' (step_reading hi.shape hre he) hr
    | inr o =>
      rw [he] at hr
      simp only [Option.some.injEq] at hr
      subst hr
      obtain ⟨t, w, h1, h2, h3⟩ := accept_inv hi he
      exact ⟨t, h1, h2, accept_reading hi.shape hpos hre he h3⟩

/-! ### Notes change nothing -/

def plain {V L N : Type} (c : Config V (L × N)) : Config V L := ⟨c.stack, c.look, c.lexer.1⟩

def plainR {V L N E : Type} : Config V (L × N) ⊕ Outcome V (L × N) E → Config V L ⊕ Outcome V L E
  | .inl c => .inl (plain c)
  | .inr o => .inr (forget o)

theorem fetch_plain {V L E : Type} (h : Host V L E) (c : Config V (L × List (Int × V))) :
    fetch h (plain c) = (fetch (noting h) c).map (fun p => (p.1, p.2.1, plain p.2.2)) := by
  obtain ⟨stack, look, l, log⟩ := c
  unfold fetch plain noting
  cases look with
  | some p => rfl
  | none => simp only []; cases h.lex l <;> rfl

theorem reduce_plain {V L E : Type} (h : Host V L E) (c : Config V (L × List (Int × V))) (r : Int) :
    reduce h (plain c) r = plainR (reduce (noting h) c r) := by
  obtain ⟨stack, look, l, log⟩ := c
  unfold reduce plain
  simp only []
  cases yyR2.at r with
  | none => rfl
  | some n =>
    cases yyR1.at r with
    | none => rfl
    | some a =>
      simp only []
      cases stack.drop n.toNat with
      | nil => rfl
      | cons e more =>
        obtain ⟨q, v⟩ := e
        simp only []
        cases gotoState q a with
        | none => rfl
        | some s =>
          simp only [noting]
          rcases h.act r.toNat _ l with (e | l') | ⟨w, l'⟩ <;> rfl

theorem perform_plain {V L E : Type} (h : Host V L E) (c : Config V (L × List (Int × V))) (r : Int) :
    perform h (plain c) r = plainR (perform (noting h) c r) := by
  unfold perform
  split
  · show _ = Sum.inr (forget (syntaxError c))
    congr 1
    unfold syntaxError
    show (match resumable (List.map (fun x => x.fst) c.stack) with
      | none => _ | some true => _ | some false => _) = _
    cases resumable (List.map (fun x => x.fst) c.stack) with
    | none => rfl
    | some b => cases b <;> rfl
  · exact reduce_plain h c r

theorem yydefault_plain {V L E : Type} (h : Host V L E) (c : Config V (L × List (Int × V))) (s : Int) (v : V) :
    yydefault h (plain c) s v = plainR (yydefault (noting h) c s v) := by
  unfold yydefault
  cases yyDef.at s with
  | none => rfl
  | some d =>
    simp only []
    split
    · rw [fetch_plain]
      cases fetch (noting h) c with
      | error e => rfl
      | ok p =>
        obtain ⟨t, w, c1⟩ := p
        simp only [Except.map]
        cases excaFor s t yyExca with
        | none => rfl
        | some r =>
          simp only []
          split
          · rfl
          · exact perform_plain h c1 r
    · exact perform_plain h c d

theorem step_plain {V L E : Type} (h : Host V L E) (c : Config V (L × List (Int × V))) :
    step h (plain c) = plainR (step (noting h) c) := by
  unfold step
  have e : (plain c).stack = c.stack := rfl
  rw [e]
  cases c.stack with
  | nil => rfl
  | cons p more =>
    obtain ⟨s, v⟩ := p
    simp only []
    cases yyPact.at s with
    | none => rfl
    | some p =>
      simp only []
      split
      · exact yydefault_plain h c s v
      · rw [fetch_plain]
        cases fetch (noting h) c with
        | error e => rfl
        | ok q =>
          obtain ⟨t, w, c1⟩ := q
          simp only [Except.map]
          cases shiftTo p t with
          | none => rfl
          | some o =>
            cases o with
            | none => exact yydefault_plain h c1 s v
            | some n => rfl

theorem run_plain {V L E : Type} (h : Host V L E) : ∀ (n : Nat) (c : Config V (L × List (Int × V))),
    run h n (plain c) = (run (noting h) n c).map forget
  | 0, _ => rfl
  | n + 1, c => by
    unfold run
    rw [step_plain]
    cases step (noting h) c with
    | inl c' => exact run_plain h n c'
    | inr o => rfl

end Sqldef.Yy
