import Verif.Proofs.YyRuns

/-! Two tokenizers that hand out the same tokens lead the parser to the same result. -/
namespace Sqldef.Yy

variable {V L E : Type}

/-- Related lexers hand out the same tokens, and the actions do the same to them. -/
structure AlikeHost (h : Host V L E) (R : L → L → Prop) : Prop where
  lex : ∀ {l l'}, R l l' → (∃ e, h.lex l = .error e ∧ h.lex l' = .error e) ∨
    ∃ c v m m', h.lex l = .ok (c, v, m) ∧ h.lex l' = .ok (c, v, m') ∧ R m m'
  act : ∀ {l l'} (r : Nat) (vs : List V), R l l' → (∃ e, h.act r vs l = .error (.inl e) ∧ h.act r vs l' = .error (.inl e)) ∨
    (∃ m m', h.act r vs l = .error (.inr m) ∧ h.act r vs l' = .error (.inr m')) ∨
    ∃ v m m', h.act r vs l = .ok (v, m) ∧ h.act r vs l' = .ok (v, m') ∧ R m m'

/-- The same result, with related lexers. -/
inductive AlikeOutcome (R : L → L → Prop) : Outcome V L E → Outcome V L E → Prop
  | accepted {v l l'} : R l l' → AlikeOutcome R (.accepted v l) (.accepted v l')
  | rejected {l l'} : AlikeOutcome R (.rejected l) (.rejected l')
  | fault : AlikeOutcome R .fault .fault
  | resumes : AlikeOutcome R .resumes .resumes
  | stopped {e} : AlikeOutcome R (.stopped e) (.stopped e)

/-- The same configuration, with related lexers. -/
def AlikeConfig (R : L → L → Prop) (c c' : Config V L) : Prop := c.stack = c'.stack ∧ c.look = c'.look ∧ R c.lexer c'.lexer

/-- The same step. -/
inductive AlikeStep (R : L → L → Prop) : Config V L ⊕ Outcome V L E → Config V L ⊕ Outcome V L E → Prop
  | inl {c c'} : AlikeConfig R c c' → AlikeStep R (.inl c) (.inl c')
  | inr {o o'} : AlikeOutcome R o o' → AlikeStep R (.inr o) (.inr o')

variable {h : Host V L E} {R : L → L → Prop}

theorem fetch_alike (hh : AlikeHost h R) {c c' : Config V L} (hc : AlikeConfig R c c') :
    (∃ e, fetch h c = .error e ∧ fetch h c' = .error e) ∨
    ∃ t v d d', fetch h c = .ok (t, v, d) ∧ fetch h c' = .ok (t, v, d') ∧ AlikeConfig R d d' := by
  obtain ⟨st, lk, l⟩ := c
  obtain ⟨st', lk', l'⟩ := c'
  obtain ⟨h1, h2, h3⟩ := hc
  simp only at h1 h2 h3
  subst h1 h2
  unfold fetch
  cases lk with
  | some p => exact .inr ⟨p.1, p.2, _, _, rfl, rfl, rfl, rfl, h3⟩
  | none =>
    rcases hh.lex h3 with ⟨e, e1, e2⟩ | ⟨c, v, m, m', e1, e2, hr⟩
    · refine .inl ⟨e, ?_, ?_⟩
      · simp only [e1]
      · simp only [e2]
    · refine .inr ⟨tokenOf c, v, ⟨st, some (tokenOf c, v), m⟩, ⟨st, some (tokenOf c, v), m'⟩, ?_, ?_, rfl, rfl, hr⟩
      · simp only [e1]
      · simp only [e2]

theorem reduce_alike (hh : AlikeHost h R) {c c' : Config V L} (hc : AlikeConfig R c c') (r : Int) :
    AlikeStep R (reduce h c r) (reduce h c' r) := by
  obtain ⟨st, lk, l⟩ := c
  obtain ⟨st', lk', l'⟩ := c'
  obtain ⟨h1, h2, h3⟩ := hc
  simp only at h1 h2 h3
  subst h1 h2
  unfold reduce
  cases yyR2.at r with
  | none => exact .inr .fault
  | some n =>
    cases yyR1.at r with
    | none => exact .inr .fault
    | some a =>
      simp only
      cases st.drop n.toNat with
      | nil => exact .inr .fault
      | cons q rest =>
        obtain ⟨q, v⟩ := q
        simp only
        cases gotoState q a with
        | none => exact .inr .fault
        | some s =>
          simp only
          rcases hh.act r.toNat ((st.take n.toNat).reverse.map (·.2)) h3 with ⟨e, e1, e2⟩ | ⟨m, m', e1, e2⟩ | ⟨w, m, m', e1, e2, hr⟩
          · simp only [e1, e2]
            exact .inr .stopped
          · simp only [e1, e2]
            exact .inr .rejected
          · simp only [e1, e2]
            exact .inl ⟨rfl, rfl, hr⟩

theorem perform_alike (hh : AlikeHost h R) {c c' : Config V L} (hc : AlikeConfig R c c') (r : Int) :
    AlikeStep R (perform h c r) (perform h c' r) := by
  unfold perform
  split
  · unfold syntaxError
    rw [hc.1]
    split
    · exact .inr .fault
    · exact .inr .resumes
    · exact .inr .rejected
  · exact reduce_alike hh hc r

theorem yydefault_alike (hh : AlikeHost h R) {c c' : Config V L} (hc : AlikeConfig R c c') (s : Int) (v : V) :
    AlikeStep R (yydefault h c s v) (yydefault h c' s v) := by
  unfold yydefault
  cases yyDef.at s with
  | none => exact .inr .fault
  | some d =>
    simp only
    split
    · rcases fetch_alike hh hc with ⟨e, e1, e2⟩ | ⟨t, w, x, x', e1, e2, hr⟩
      · simp only [e1, e2]
        exact .inr .stopped
      · simp only [e1, e2]
        cases excaFor s t yyExca with
        | none => exact .inr .fault
        | some r =>
          simp only
          split
          · exact .inr (.accepted hr.2.2)
          · exact perform_alike hh hr r
    · exact perform_alike hh hc d

theorem step_alike (hh : AlikeHost h R) {c c' : Config V L} (hc : AlikeConfig R c c') :
    AlikeStep R (step h c) (step h c') := by
  unfold step
  rw [hc.1]
  cases c'.stack with
  | nil => exact .inr .fault
  | cons p st =>
    obtain ⟨s, v⟩ := p
    simp only
    cases yyPact.at s with
    | none => exact .inr .fault
    | some p =>
      simp only
      split
      · exact yydefault_alike hh hc s v
      · rcases fetch_alike hh hc with ⟨e, e1, e2⟩ | ⟨t, w, x, x', e1, e2, hr⟩
        · simp only [e1, e2]
          exact .inr .stopped
        · simp only [e1, e2]
          cases shiftTo p t with
          | none => exact .inr .fault
          | some o =>
            cases o with
            | none => exact yydefault_alike hh hr s v
            | some n => exact .inl ⟨by simp only [hr.1], rfl, hr.2.2⟩

/-- Related runs end in the same way. -/
theorem run_alike (hh : AlikeHost h R) : ∀ (n : Nat) {c c' : Config V L} {o : Outcome V L E}, AlikeConfig R c c' →
    run h n c = some o → ∃ o', run h n c' = some o' ∧ AlikeOutcome R o o'
  | 0, _, _, _, _, hr => by cases hr
  | n + 1, c, c', o, hc, hr => by
    unfold run at hr ⊢
    have := step_alike hh hc
    generalize step h c = x at *
    generalize step h c' = y at *
    cases this with
    | inl hd => exact run_alike hh n hd hr
    | inr ho =>
      cases hr
      exact ⟨_, rfl, ho⟩

end Sqldef.Yy
