import Verif.Proofs.YyRuns
import Verif.Proofs.YyCasts
import Verif.Proofs.YyCodes

/-! What the actions keep of the values of the symbols holds along a run of the parser. -/
namespace Sqldef.Yy

/-- The values are of the symbols (by their codes: `t + 2000` for a token, `2000 - a` for a nonterminal). -/
def Fits {V : Type} (P : Nat → V → Prop) : List Nat → List V → Prop
  | [], [] => True
  | x :: xs, v :: vs => P x v ∧ Fits P xs vs
  | _, _ => False

theorem fits_snoc {V : Type} {P : Nat → V → Prop} : ∀ {xs : List Nat} {vs : List V} {x : Nat} {v : V},
    Fits P xs vs → P x v → Fits P (xs ++ [x]) (vs ++ [v])
  | [], [], _, _, _, h => ⟨h, trivial⟩
  | [], _ :: _, _, _, h, _ => by cases h
  | _ :: _, [], _, _, h, _ => by cases h
  | _ :: _, _ :: _, _, _, h, hc => ⟨h.1, fits_snoc h.2 hc⟩

/-- What the lexer and the actions keep: `P` of the values, `Q` of the lexer. They do not stop the parser. `last` is the
last token handed out; a `::` comes after a token that does not ask for an operand. -/
structure Keeping {V L E : Type} (h : Host V L E) (P : Nat → V → Prop) (Q : L → Prop) (last : L → Option Nat) :
    Prop where
  stop : ∀ l e, Q l → last l ≠ some 1 → h.lex l ≠ .error e
  lex : ∀ l char v l', Q l → last l ≠ some 1 → h.lex l = .ok (char, v, l') →
    Q l' ∧ last l' = some (tokenOf char).toNat ∧ P ((tokenOf char).toNat + 2000) v ∧
      ((tokenOf char).toNat = 311 → ∃ p, last l = some p ∧ isOpener p = false)
  panic : ∀ r vs l e, 1 ≤ r → r < 999 → r ≠ 612 → Q l →
    Fits P (rhsCodes r) vs → h.act r vs l ≠ .error (.inl e)
  act : ∀ r vs l w l', 1 ≤ r → r < 999 → r ≠ 612 → Q l →
    Fits P (rhsCodes r) vs → h.act r vs l = .ok (w, l') →
    Q l' ∧ last l' = last l ∧ P (lhsCode r) w

/-- `P` holds of the entries of the stack above the bottom. -/
def Filled {V : Type} (P : Nat → V → Prop) : List Nat → List (Int × V) → Prop
  | [_], [_] => True
  | k :: k' :: ks, (_, v) :: e :: st => P (rChk k) v ∧ Filled P (k' :: ks) (e :: st)
  | _, _ => False

theorem filled_push {V : Type} {P : Nat → V → Prop} {k n : Nat} {ks : List Nat} {st : List (Int × V)}
    {s : Int} {v : V} (hd : P (rChk n) v) (h : Filled P (k :: ks) st) :
    Filled P (n :: k :: ks) ((s, v) :: st) := by
  cases st with
  | nil => simp [Filled] at h
  | cons e st => exact ⟨hd, h⟩

theorem filled_pop {V : Type} {P : Nat → V → Prop} : ∀ {d : Nat} {ks : List Nat} {st : List (Int × V)}
    {q : Nat} {below : List Nat}, Filled P ks st → ks.drop d = q :: below →
    Filled P (q :: below) (st.drop d) ∧
      Fits P ((ks.take d).reverse.map rChk) ((st.take d).reverse.map (·.2))
  | 0, ks, st, q, below, h, he => by
    simp only [List.drop_zero] at he
    subst he
    exact ⟨h, trivial⟩
  | d + 1, ks, st, q, below, h, he => by
    match ks, st, h with
    | [k], [e], _ => simp at he
    | k :: k' :: ks, (s, v) :: e :: st, h =>
      obtain ⟨h1, h2⟩ := h
      simp only [List.drop_succ_cons] at he
      obtain ⟨g1, g2⟩ := filled_pop (d := d) h2 he
      refine ⟨g1, ?_⟩
      simp only [List.take_succ_cons, List.reverse_cons, List.map_append, List.map_cons, List.map_nil]
      exact fits_snoc g2 h1

/-- What is known of the token before the one that waits. -/
structure Prior {V L : Type} (last : L → Option Nat) (c : Config V L) (ks : List Nat) (p : Option Nat) : Prop where
  closed : ∀ k rest, ks = k :: rest → isClosed k = true → ∀ t, p = some t → isOpener t = true
  none : c.look = none → last c.lexer = p ∧ p ≠ some 1
  some : ∀ t v, c.look = some (t, v) → last c.lexer = some t.toNat ∧
    (t.toNat = 311 → ∃ q, p = Option.some q ∧ isOpener q = false)

/-- The invariant of a run. -/
structure Sane {V L : Type} (P : Nat → V → Prop) (Q : L → Prop) (last : L → Option Nat) (c : Config V L)
    (ks : List Nat) : Prop where
  shape : Shape c ks
  filled : Filled P ks c.stack
  lexer : Q c.lexer
  token : ∀ t v, c.look = some (t, v) → P (t.toNat + 2000) v
  bare : castState ∉ ks
  prior : ∃ p, Prior last c ks p

variable {V L E : Type} {h : Host V L E} {P : Nat → V → Prop} {Q : L → Prop} {last : L → Option Nat}

theorem fetch_sane (hK : Keeping h P Q last)
    {c c' : Config V L} {t : Int} {v : V} {ks : List Nat} (hi : Sane P Q last c ks)
    (hf : fetch h c = .ok (t, v, c')) : Sane P Q last c' ks ∧ P (t.toNat + 2000) v := by
  obtain ⟨h1, h2, h3⟩ := fetch_spec hf
  rcases h3 with rfl | ⟨hn, char, l, hl, rfl, rfl⟩
  · exact ⟨hi, hi.token _ _ h2⟩
  · obtain ⟨p, hp⟩ := hi.prior
    obtain ⟨n1, n2⟩ := hp.none hn
    obtain ⟨k1, k2, k3, k4⟩ := hK.lex _ _ _ _ hi.lexer (by rw [n1]; exact n2) hl
    refine ⟨⟨(fetch_shape hi.shape hf).1, by rw [h1]; exact hi.filled, k1, ?_, hi.bare, p, hp.closed, ?_, ?_⟩, k3⟩
    · intro t' v' ht
      rw [h2] at ht
      cases ht
      exact k3
    · intro hx; rw [h2] at hx; cases hx
    · intro t' v' ht
      rw [h2] at ht
      cases ht
      exact ⟨k2, fun he => by rw [← n1]; exact k4 he⟩

theorem looked_sane (hK : Keeping h P Q last)
    {c c' : Config V L} {ks : List Nat} (hi : Sane P Q last c ks) (hl : Looked h c c') : Sane P Q last c' ks := by
  rcases hl with rfl | ⟨t, v, hl⟩
  · exact hi
  · exact (fetch_sane hK hi hl).1

theorem fetch_goes (hK : Keeping h P Q last)
    {c : Config V L} {ks : List Nat} {e : E} (hi : Sane P Q last c ks) : fetch h c ≠ .error e := by
  intro hf
  obtain ⟨p, hp⟩ := hi.prior
  unfold fetch at hf
  split at hf
  · cases hf
  · next hn =>
    obtain ⟨n1, n2⟩ := hp.none hn
    split at hf
    · next e' hl => exact hK.stop _ _ hi.lexer (by rw [n1]; exact n2) hl
    · cases hf

theorem cast_token : rChk castState = 2311 := by decide +kernel

/-- A step keeps the invariant, or it ends the run with an answer. -/
theorem step_sane (hK : Keeping h P Q last) {c : Config V L} {ks : List Nat} (hi : Sane P Q last c ks) :
    (∃ c' ks', step h c = .inl c' ∧ Sane P Q last c' ks') ∨
    (∃ v l, step h c = .inr (.accepted v l) ∧ Q l) ∨ (∃ l, step h c = .inr (.rejected l)) := by
  have hm := step_move (h := h) hi.shape
  generalize step h c = res at hm
  cases hm with
  | stopped hf => exact absurd hf (fetch_goes hK hi)
  | reject hl => exact .inr (.inr ⟨_, rfl⟩)
  | accept hk hs hf => exact .inr (.inl ⟨_, _, rfl, (fetch_sane hK hi hf).1.lexer⟩)
  | @shift t k n v c1 rest hk hf ht hg =>
    subst hk
    obtain ⟨h1, h2⟩ := fetch_sane hK hi hf
    have hgi := (goesTo_iff ..).mp hg
    have hlk := (fetch_spec hf).2.1
    obtain ⟨p, hp⟩ := h1.prior
    obtain ⟨l1, l2⟩ := hp.some _ _ hlk
    simp only [Int.toNat_natCast] at l1 l2
    refine .inl ⟨_, _, rfl, shape_shift hi.shape hf hg, ?_, h1.lexer, (fun _ _ h => by cases h), ?_, some t, ?_, ?_, ?_⟩
    · refine filled_push ?_ h1.filled
      rw [hgi.2.2.1]
      simpa using h2
    · intro hmem
      rcases List.mem_cons.mp hmem with hx | hx
      · rw [← hx] at hg
        have h3 := ((goesTo_iff ..).mp hg).2.2.1
        rw [cast_token] at h3
        obtain ⟨q, hq, hqo⟩ := l2 (by omega)
        have := hp.closed k rest rfl (closed_cast (linked_top hi.shape.linked) hg) q hq
        rw [hqo] at this
        cases this
      · exact hi.bare hx
    · intro k' rest' he hc t' ht'
      cases he
      cases ht'
      exact closed_token hgi.1 hgi.2.1 (by omega) hgi.2.2.1 hc
    · intro _
      refine ⟨l1, ?_⟩
      intro he
      cases he
      omega
    · intro t' v' he; cases he
  | @reduce k r c1 rest hk hl hr =>
    subst hk
    have hi1 := looked_sane hK hi hl
    obtain ⟨q, n, below, qv, more, r1, r2, h1, h2, h3, h4, h5, _, h7⟩ := reduce_move h hi1.shape hr
    have hne : r ≠ 612 := by
      rintro rfl
      exact hi1.bare (cast_reduce hi1.shape.linked hr)
    have hk : k < 1702 := linked_top hi1.shape.linked
    have hq : q < 1702 := linked_top h2
    have hclose := closed_reduce hk hq hr h1 h3
    generalize hd : rLen r - 2000 = d at h1 h4 h5 h7
    obtain ⟨g1, g2⟩ := filled_pop hi1.filled h1
    rw [h4, ← hd] at g2
    rw [h7]
    split
    · rename_i w l ha
      obtain ⟨k1, k2, k3⟩ := hK.act _ _ _ _ _ r1 r2 hne hi1.lexer (by rw [rhsCodes_eq, hd]; rw [hd] at g2; exact g2) ha
      obtain ⟨p, hp⟩ := hi1.prior
      refine .inl ⟨_, n :: q :: below, rfl, ⟨?_, linked_push h2 h3, hi1.shape.token⟩, ?_, k1, hi1.token, ?_, p, ?_, ?_, ?_⟩
      · have := congrArg (List.map (·.1)) h5
        rw [List.map_drop, hi1.shape.states, ← List.map_drop, h1] at this
        simp only [List.map_cons, List.cons.injEq] at this ⊢
        exact ⟨trivial, trivial, this.2.symm⟩
      · rw [h5] at g1
        refine filled_push ?_ g1
        rw [((goesTo_iff ..).mp h3).2.2.1, ← lhsCode_eq]
        exact k3
      · intro hmem
        rcases List.mem_cons.mp hmem with hx | hx
        · have h8 := ((goesTo_iff ..).mp h3).2.2.1
          rw [← hx, cast_token] at h8
          omega
        · rw [← h1] at hx
          exact hi1.bare (List.mem_of_mem_drop hx)
      · intro k' rest' he hc
        cases he
        exact hp.closed k rest rfl (hclose hc)
      · intro hx
        obtain ⟨m1, m2⟩ := hp.none hx
        exact ⟨k2.trans m1, m2⟩
      · intro t' v' hx
        obtain ⟨m1, m2⟩ := hp.some t' v' hx
        exact ⟨k2.trans m1, m2⟩
    · rename_i e ha
      exact absurd ha (hK.panic _ _ _ _ r1 r2 hne hi1.lexer (by rw [rhsCodes_eq, hd]; rw [hd] at g2; exact g2))
    · exact .inr (.inr ⟨_, rfl⟩)

theorem run_sane (hK : Keeping h P Q last) :
    ∀ (n : Nat) {c : Config V L} {ks : List Nat} {o : Outcome V L E}, Sane P Q last c ks → run h n c = some o →
    (∃ v l, o = .accepted v l ∧ Q l) ∨ ∃ l, o = .rejected l
  | 0, _, _, _, _, hr => by cases hr
  | n + 1, c, ks, o, hi, hr => by
    unfold run at hr
    rcases step_sane hK hi with ⟨c', ks', he, hi'⟩ | ⟨v, l, he, hq⟩ | ⟨l, he⟩
    · rw [he] at hr; exact run_sane hK n hi' hr
    · rw [he] at hr; cases hr; exact .inl ⟨v, l, rfl, hq⟩
    · rw [he] at hr; cases hr; exact .inr ⟨l, rfl⟩

theorem sane_start (z : V) (l : L) (hq : Q l) (hl : last l = none) : Sane P Q last (start z l) [0] :=
  ⟨shape_start z l, trivial, hq, (fun _ _ h => by cases h), (by decide), none, (fun _ _ _ _ t ht => by cases ht),
    fun _ => ⟨hl, by simp⟩, (fun _ _ h => by cases h)⟩

end Sqldef.Yy
