import Verif.Proofs.WholeLexer

/-! What the scanner hands out for a text without trouble. -/
namespace Sqldef.Sql
open Spec Yy

/-- A token of a text without trouble, by the token before it. -/
structure GoodToken (m : Mode) (prev : Option TokenType) (t : Token) : Prop where
  replication : t.type ≠ .code (lit "REPLICATION")
  usings : m = .mysql ∨ m = .mssql → t.type ≠ .code (lit "USING")
  casts : t.type = .code (lit "TYPECAST") → ∃ p, prev = some p ∧ ¬ AsksOperand p

/-- The tokens of a text without trouble. -/
def GoodFrom (m : Mode) : Option TokenType → List Token → Prop
  | _, [] => True
  | prev, t :: ts => GoodToken m prev t ∧ GoodFrom m (some t.type) ts

theorem good_of_troubleFree {m : Mode} {all : List Token} (h : TroubleFree m all) :
    ∀ (ts before : List Token), all = before ++ ts → GoodFrom m (before.getLast?.map (·.type)) ts
  | [], _, _ => trivial
  | t :: ts, before, he => by
    have hm : t ∈ all := by rw [he]; simp
    refine ⟨⟨h.replication t hm, fun hu => h.usings hu t hm, fun hc => ?_⟩, ?_⟩
    · obtain ⟨p, h1, h2⟩ := h.casts before t ts he hc
      exact ⟨p.type, by rw [h1]; rfl, h2⟩
    · have := good_of_troubleFree h ts (before ++ [t]) (by rw [he]; simp)
      simpa using this

/-- The scanner without the forced end. -/
def unforced (st : Scanner) : Scanner := { st with forceEOF := false }

theorem scan_keeps_force {st st' : Scanner} {t : Token} (h : scan st = .ok (t, st')) : st'.forceEOF = st.forceEOF := by
  induction hn : st.size using Nat.strongRecOn generalizing st with
  | ind n ih =>
  subst hn
  cases hi : st.inner with
  | cons c cs =>
    cases hs : scanCursor st.mode false false c with
    | panic => rw [scan_inner_panic hi hs] at h; cases h
    | special sql c' =>
      have hl := scanCursor_special_length hs
      rw [scan_inner_special hi hs] at h
      refine Eq.trans (ih _ ?_ h rfl) rfl
      simp [Scanner.size, hi, newCursor]
      omega
    | token t' c' =>
      rw [scan_inner_token hi hs] at h
      split at h
      · refine Eq.trans (ih _ ?_ h rfl) rfl
        simp [Scanner.size, hi]
      · cases h; rfl
  | nil =>
    cases hs : scanCursor st.mode st.multi st.forceEOF st.base with
    | panic => rw [scan_base_panic hi hs] at h; cases h
    | special sql c' =>
      have hl := scanCursor_special_length hs
      rw [scan_base_special hi hs] at h
      refine Eq.trans (ih _ ?_ h rfl) rfl
      simp [Scanner.size, hi, newCursor]
      omega
    | token t' c' =>
      rw [scan_base_token hi hs] at h
      cases h; rfl

/-- A forced end changes nothing but the end. -/
theorem scan_unforced {st : Scanner} :
    (∀ e, scan st = .error e → scan (unforced st) = .error e) ∧
    (∀ t st', scan st = .ok (t, st') → t.type = .eof ∨ scan (unforced st) = .ok (t, unforced st')) := by
  induction hn : st.size using Nat.strongRecOn generalizing st with
  | ind n ih =>
  subst hn
  cases hi : st.inner with
  | cons c cs =>
    have hi' : (unforced st).inner = c :: cs := hi
    cases hs : scanCursor st.mode false false c with
    | panic =>
      rw [scan_inner_panic hi hs, scan_inner_panic hi' hs]
      exact ⟨fun _ h => h, fun _ _ h => by cases h⟩
    | special sql c' =>
      have hl := scanCursor_special_length hs
      rw [scan_inner_special hi hs, scan_inner_special hi' hs]
      refine ih _ ?_ rfl
      simp [Scanner.size, hi, newCursor]
      omega
    | token t' c' =>
      rw [scan_inner_token hi hs, scan_inner_token hi' hs]
      split
      · refine ih _ ?_ rfl
        simp [Scanner.size, hi]
      · refine ⟨fun _ h => (by cases h), fun _ _ h => ?_⟩
        cases h
        exact .inr rfl
  | nil =>
    have hi' : (unforced st).inner = [] := hi
    cases hf : st.forceEOF with
    | true =>
      have hs : scanCursor st.mode st.multi st.forceEOF st.base =
          .token ⟨.eof, []⟩ ⟨skipStatement (dropNul st.base.input), st.base.posVar⟩ := by
        unfold scanCursor
        rw [hf]
        rfl
      rw [scan_base_token hi hs]
      refine ⟨fun _ h => (by cases h), fun _ _ h => ?_⟩
      cases h
      exact .inl rfl
    | false =>
      have hu : unforced st = st := by
        cases st
        simp only [unforced] at hf ⊢
        rw [hf]
      refine ⟨fun e h => by rw [hu]; exact h, fun t st' h => .inr ?_⟩
      have key := scan_keeps_force h
      rw [hu, h]
      have : unforced st' = st' := by
        cases st'
        simp only [unforced] at key ⊢
        rw [key, hf]
      rw [this]

theorem map_cons_ok {t : Token} {x : Except Err (List Token)} {ts : List Token} (h : x.map (t :: ·) = .ok ts) :
    ∃ us, x = .ok us ∧ ts = t :: us := by
  cases x with
  | error e => cases h
  | ok us => cases h; exact ⟨us, rfl, rfl⟩

/-- What the lexer hands out for a text without trouble. -/
theorem lex_good {m : Mode} {b : Bool} {st : Scanner} {prev : Option TokenType} {ts : List Token}
    (ha : scanAll (unforced st) = .ok ts) (hg : GoodFrom m prev ts) :
    (∀ e, lex b st ≠ .error e) ∧
    ∀ t st', lex b st = .ok (t, st') → Made t ∧ (t.type = .eof ∨ (GoodToken m prev t ∧
      ∃ us, scanAll (unforced st') = .ok us ∧ GoodFrom m (some t.type) us)) := by
  induction hn : st.size using Nat.strongRecOn generalizing st prev ts with
  | ind n ih =>
  subst hn
  obtain ⟨u1, u2⟩ := scan_unforced (st := st)
  rw [lex]
  split
  · next e he =>
    have := u1 e he
    rw [scanAll_error this] at ha
    cases ha
  · next t st1 hs =>
    split
    · next hc =>
      rcases u2 t st1 hs with h | h
      · rw [hc.1] at h; cases h
      · rw [scanAll_cons h (by rw [hc.1]; simp)] at ha
        obtain ⟨us, ha', rfl⟩ := map_cons_ok ha
        obtain ⟨k1, k2⟩ := ih _ (scan_progress hs (by rw [hc.1]; simp)) ha' hg.2 rfl
        refine ⟨k1, fun t' st' hl => ?_⟩
        obtain ⟨l1, l2⟩ := k2 t' st' hl
        refine ⟨l1, l2.imp_right fun ⟨g, h⟩ => ⟨⟨g.replication, g.usings, fun hx => ?_⟩, h⟩⟩
        obtain ⟨p, hp, hq⟩ := g.casts hx
        rw [hc.1] at hp
        cases hp
        exact absurd trivial hq
    · next hc =>
      refine ⟨(fun e h => by cases h), fun t' st' hl => ?_⟩
      cases hl
      refine ⟨scan_made hs, ?_⟩
      by_cases ht : t.type = .eof
      · exact .inl ht
      · rcases u2 _ _ hs with h | h
        · exact .inl h
        · rw [scanAll_cons h ht] at ha
          obtain ⟨us, ha', rfl⟩ := map_cons_ok ha
          exact .inr ⟨hg.1, us, ha', hg.2⟩

theorem plain_holds {m : Mode} {v : Str} {k : Class} {ty : TokenType} (hm : ty ∈ [.eof, .lexError, .id, .string, .float,
    .hexNum, .hex, .bitLiteral, .valueArg, .listArg, TokenType.comment]) (hk : classOf (seen ty + 2000) = k) :
    Holds m true k { bytes := v } := by
  have := List.all_eq_true.mp plain_ok ty hm
  simp only [plainOk, Bool.and_eq_true, decide_eq_true_eq] at this
  rw [this.1.1] at hk
  subst hk
  trivial

theorem word_holds {m : Mode} {v : Str} {k : Class} {n : Str} {b : Bool} {prev : Option TokenType}
    (hw : wordOk b n = true) (hv : b = true → v ≠ []) (hg : GoodToken m prev ⟨.code n, v⟩)
    (hk : classOf (seen (.code n) + 2000) = k) : Holds m true k { bytes := v } := by
  simp only [wordOk, Bool.and_eq_true, hk] at hw
  have hw := hw.1.1
  cases k with
  | any => trivial
  | rendered => rfl
  | word => exact hv hw
  | replication => exact absurd (by rw [of_decide_eq_true hw]) hg.replication
  | «using» =>
    have hw := of_decide_eq_true hw
    exact ⟨fun e => hg.usings (.inl e) (by rw [hw]), fun e => hg.usings (.inr e) (by rw [hw])⟩
  | _ => cases hw

/-- The class of a token without trouble holds of its value. -/
theorem good_holds {m : Mode} {prev : Option TokenType} {t : Token} (hm : Made t) (hg : GoodToken m prev t) {k : Class}
    (hk : classOf (seen t.type + 2000) = k) : Holds m true k { bytes := t.val } := by
  obtain ⟨ty, v⟩ := t
  dsimp only at hk ⊢
  cases ty with
  | integral =>
    rw [integral_ok.1] at hk
    subst hk
    exact hm
  | char c =>
    have := List.all_eq_true.mp chars_ok c hm
    simp only [charOk, Bool.and_eq_true, decide_eq_true_eq] at this
    rw [this.1.1] at hk
    subst hk
    trivial
  | code n =>
    rcases hm with ⟨h1, h2⟩ | h
    · exact word_holds (List.all_eq_true.mp keywords_ok n h1) (fun _ => h2) hg hk
    · exact word_holds (List.all_eq_true.mp codes_ok n h) (fun h => by cases h) hg hk
  | _ => exact plain_holds (by simp) hk

/-- Only `::` is the token of a cast. -/
theorem made_cast {t : Token} (hm : Made t) (h : seen t.type = 311) : t.type = .code (lit "TYPECAST") := by
  obtain ⟨ty, v⟩ := t
  have plain : ∀ {ty : TokenType}, ty ∈ [.eof, .lexError, .id, .string, .float, .hexNum, .hex, .bitLiteral, .valueArg,
      .listArg, TokenType.comment] → seen ty ≠ 311 := by
    intro ty hm he
    have := List.all_eq_true.mp plain_ok ty hm
    simp [plainOk, he] at this
  have word : ∀ {n : Str} {b : Bool}, wordOk b n = true → seen (.code n) = 311 → n = lit "TYPECAST" := by
    intro n b hw he
    simp only [wordOk, Bool.and_eq_true] at hw
    have := hw.1.2
    simpa [he] using this
  cases ty with
  | integral => exact absurd h integral_ok.2.1
  | char c =>
    have := List.all_eq_true.mp chars_ok c hm
    simp only [charOk, Bool.and_eq_true] at this
    have e : seen (.char c) = 311 := h
    simp [e] at this
  | code n =>
    rcases hm with ⟨h1, _⟩ | h1
    · rw [word (List.all_eq_true.mp keywords_ok n h1) h]
    · rw [word (List.all_eq_true.mp codes_ok n h1) h]
  | _ => exact absurd h (plain (by simp))

/-- A token that asks for no operand is no opener. -/
theorem made_opener {t : Token} (hm : Made t) (h : ¬ AsksOperand t.type) : isOpener (seen t.type) = false := by
  obtain ⟨ty, v⟩ := t
  have plain : ∀ {ty : TokenType}, ty ∈ [.eof, .lexError, .id, .string, .float, .hexNum, .hex, .bitLiteral, .valueArg,
      .listArg, TokenType.comment] → ¬ AsksOperand ty → isOpener (seen ty) = false := by
    intro ty hm he
    have := List.all_eq_true.mp plain_ok ty hm
    simp only [plainOk, Bool.and_eq_true] at this
    simpa [he] using this.2
  have word : ∀ {n : Str} {b : Bool}, wordOk b n = true → ¬ AsksOperand (.code n) → isOpener (seen (.code n)) = false := by
    intro n b hw he
    simp only [wordOk, Bool.and_eq_true] at hw
    simpa [he] using hw.2
  cases ty with
  | integral => exact integral_ok.2.2
  | char c =>
    have := List.all_eq_true.mp chars_ok c hm
    simp only [charOk, Bool.and_eq_true] at this
    have h : ¬ AsksOperand (.char c) := h
    simpa [h] using this.2
  | code n =>
    rcases hm with ⟨h1, _⟩ | h1
    · exact word (List.all_eq_true.mp keywords_ok n h1) h
    · exact word (List.all_eq_true.mp codes_ok n h1) h
  | _ => exact plain (by simp) h

end Sqldef.Sql
