import Verif.Proofs.YyAlike
import Verif.Proofs.SqlShrinks
import Verif.Proofs.Layout
import Verif.Model.SqlParse

/-! The parser does not see how the tokens of a text are laid out. -/
namespace Sqldef.Sql
open Spec Yy

/-- The tokenizer is going to hand out these tokens and then the end of the text. -/
def Stream (mode : Mode) (st : Scanner) (ts : List Token) : Prop :=
  st.mode = mode ∧ st.multi = false ∧ st.inner = [] ∧ st.forceEOF = false ∧
  ∃ text w : Str, skipBlank (dropNul st.base.input) = skipBlank (dropNul text) ∧ (∀ c ∈ w, isBlank c = true) ∧
    ReadsAll mode text ts w ∧ ∀ t ∈ ts, t.type ≠ .eof

/-- The tokenizer was told to stop. -/
def Forced (st : Scanner) : Prop := st.inner = [] ∧ st.forceEOF = true

theorem scanner_eta {st : Scanner} {mode : Mode} (h1 : st.mode = mode) (h2 : st.multi = false) (h3 : st.inner = []) (h4 : st.forceEOF = false) :
    st = { mode := mode, base := ⟨st.base.input, st.base.posVar⟩ } := by
  obtain ⟨a, b, c, d, e⟩ := st
  simp only at h1 h2 h3 h4
  subst h1 h2 h3 h4
  rfl

theorem dropNul_blank {w : Str} (hw : ∀ c ∈ w, isBlank c = true) : skipBlank (dropNul w) = [] := by
  have : dropNul w = w := by
    cases w with
    | nil => rfl
    | cons c w =>
      have := hw c (by simp)
      have hc : c ≠ '\x00' := by rintro rfl; revert this; decide
      simp [dropNul, hc]
  rw [this]
  have := skipBlank_blank (z := []) hw
  rw [List.append_nil] at this
  exact this

theorem stream_cons {mode : Mode} {st : Scanner} {t : Token} {ts : List Token} (h : Stream mode st (t :: ts)) :
    t.type ≠ .eof ∧ ∃ st', scan st = .ok (t, st') ∧ Stream mode st' ts := by
  obtain ⟨h1, h2, h3, h4, text, w, h5, h6, h7, h8⟩ := h
  refine ⟨h8 t (by simp), ?_⟩
  cases h7 with
  | @cons _ rest _ _ _ hr hrs =>
    refine ⟨{ mode := mode, base := ⟨rest, st.base.posVar⟩ }, ?_, rfl, rfl, rfl, rfl, rest, w, rfl, h6, hrs, fun t ht => h8 t (by simp [ht])⟩
    rw [scanner_eta h1 h2 h3 h4, ← hr st.base.posVar]
    exact scan_congr (st := { mode := mode, base := ⟨[], 0⟩ }) rfl h5

theorem stream_nil {mode : Mode} {st : Scanner} (h : Stream mode st []) :
    ∃ st', scan st = .ok (⟨.eof, []⟩, st') ∧ Stream mode st' [] := by
  obtain ⟨h1, h2, h3, h4, text, w, h5, h6, h7, h8⟩ := h
  cases h7
  rw [dropNul_blank h6] at h5
  refine ⟨{ st with base := ⟨[], st.base.posVar⟩ }, scan_base_token h3 ?_, h1, h2, h3, h4, [], [], rfl, by simp, .nil _, by simp⟩
  rw [h2, h4]
  exact scanCursor_blank h5

theorem forced_scan {st : Scanner} (h : Forced st) : ∃ st', scan st = .ok (⟨.eof, []⟩, st') ∧ Forced st' := by
  obtain ⟨h1, h2⟩ := h
  refine ⟨{ st with base := ⟨skipStatement (dropNul st.base.input), st.base.posVar⟩ }, scan_base_token h1 ?_, h1, h2⟩
  unfold scanCursor
  rw [if_pos h2]

theorem lex_other {st st' : Scanner} {t : Token} {a : Bool} (h : scan st = .ok (t, st')) (ht : ¬ (t.type = .comment ∧ a = false)) :
    lex a st = .ok (t, st') := by
  rw [lex]
  split
  · rename_i e he; rw [h] at he; cases he
  · rename_i t' st'' he
    rw [h] at he
    cases he
    rw [dif_neg ht]

theorem lex_skip {st st' : Scanner} {t : Token} (h : scan st = .ok (t, st')) (ht : t.type = .comment) :
    lex false st = lex false st' := by
  rw [lex]
  split
  · rename_i e he; rw [h] at he; cases he
  · rename_i t' st'' he
    rw [h] at he
    cases he
    rw [dif_pos ⟨ht, rfl⟩]

/-- Scanners that are going to hand out the same. -/
def AlikeScanner (st st' : Scanner) : Prop := (Forced st ∧ Forced st') ∨ ∃ mode ts, Stream mode st ts ∧ Stream mode st' ts

theorem lex_alike {st st' : Scanner} (a : Bool) (h : AlikeScanner st st') :
    ∃ t x x', lex a st = .ok (t, x) ∧ lex a st' = .ok (t, x') ∧ AlikeScanner x x' := by
  rcases h with ⟨h1, h2⟩ | ⟨mode, ts, h1, h2⟩
  · obtain ⟨x, e1, f1⟩ := forced_scan h1
    obtain ⟨x', e2, f2⟩ := forced_scan h2
    exact ⟨_, x, x', lex_other e1 (by simp), lex_other e2 (by simp), .inl ⟨f1, f2⟩⟩
  · induction ts generalizing st st' with
    | nil =>
      obtain ⟨x, e1, f1⟩ := stream_nil h1
      obtain ⟨x', e2, f2⟩ := stream_nil h2
      exact ⟨_, x, x', lex_other e1 (by simp), lex_other e2 (by simp), .inr ⟨mode, [], f1, f2⟩⟩
    | cons t ts ih =>
      obtain ⟨-, x, e1, f1⟩ := stream_cons h1
      obtain ⟨-, x', e2, f2⟩ := stream_cons h2
      by_cases hc : t.type = .comment ∧ a = false
      · obtain ⟨hc, rfl⟩ := hc
        rw [lex_skip e1 hc, lex_skip e2 hc]
        exact ih f1 f2
      · exact ⟨t, x, x', lex_other e1 hc, lex_other e2 hc, .inr ⟨mode, ts, f1, f2⟩⟩

/-- Tokenizers that are going to hand out the same. -/
def AlikeTokenizer (k k' : Tokenizer) : Prop :=
  k.allowComments = k'.allowComments ∧ k.nesting = k'.nesting ∧ k.lastToken = k'.lastToken ∧ k.parseTree = k'.parseTree ∧
  AlikeScanner k.scanner k'.scanner

theorem force_alike {st st' : Scanner} (h : AlikeScanner st st') :
    AlikeScanner { st with forceEOF := true } { st' with forceEOF := true } := by
  rcases h with ⟨h1, h2⟩ | ⟨mode, ts, h1, h2⟩
  · exact .inl ⟨⟨h1.1, rfl⟩, ⟨h2.1, rfl⟩⟩
  · exact .inl ⟨⟨h1.2.2.1, rfl⟩, ⟨h2.2.2.1, rfl⟩⟩

/-- What an action did to two tokenizers. -/
inductive AlikeEffect : Except (Err ⊕ Tokenizer) Tokenizer → Except (Err ⊕ Tokenizer) Tokenizer → Prop
  | stopped (e : Err) : AlikeEffect (.error (.inl e)) (.error (.inl e))
  | failed (m m' : Tokenizer) : AlikeEffect (.error (.inr m)) (.error (.inr m'))
  | done {m m' : Tokenizer} : AlikeTokenizer m m' → AlikeEffect (.ok m) (.ok m')

theorem alikeEffect_ite {c : Prop} [Decidable c] {a a' b b' : Except (Err ⊕ Tokenizer) Tokenizer} (h1 : AlikeEffect a a')
    (h2 : AlikeEffect b b') : AlikeEffect (if c then a else b) (if c then a' else b') := by
  by_cases h : c
  · rw [if_pos h, if_pos h]; exact h1
  · rw [if_neg h, if_neg h]; exact h2

theorem effect_alike (r : Nat) (d : Nat → SymType) {k k' : Tokenizer} (h : AlikeTokenizer k k') :
    AlikeEffect (effect r d k) (effect r d k') := by
  obtain ⟨h1, h2, h3, h4, h5⟩ := h
  unfold effect
  refine alikeEffect_ite (.done ⟨h1, h2, h3, rfl, h5⟩) ?_
  refine alikeEffect_ite (alikeEffect_ite (.stopped _) (.done ⟨h1, h2, h3, h4, h5⟩)) ?_
  refine alikeEffect_ite (alikeEffect_ite (.stopped _) (.done ⟨h1, h2, h3, h4, h5⟩)) ?_
  refine alikeEffect_ite (alikeEffect_ite (.stopped _) (.done ⟨h1, h2, h3, h4, h5⟩)) ?_
  refine alikeEffect_ite (.done ⟨rfl, h2, h3, h4, h5⟩) ?_
  refine alikeEffect_ite (.done ⟨rfl, h2, h3, h4, h5⟩) ?_
  refine alikeEffect_ite (alikeEffect_ite (.stopped _) (.done ⟨h1, h2, h3, h4, h5⟩)) ?_
  refine alikeEffect_ite (alikeEffect_ite (.done ⟨h1, h2, h3, h4, h5⟩) (.failed _ _)) ?_
  refine alikeEffect_ite ?_ ?_
  · rw [← h2]
    exact alikeEffect_ite (.failed _ _) (.done ⟨h1, rfl, h3, h4, h5⟩)
  refine alikeEffect_ite (.done ⟨h1, congrArg (· - 1) h2, h3, h4, h5⟩) ?_
  exact alikeEffect_ite (.done ⟨h1, h2, h3, h4, force_alike h5⟩) (.done ⟨h1, h2, h3, h4, h5⟩)

theorem host_alike : AlikeHost host AlikeTokenizer where
  lex := by
    rintro k k' ⟨h1, h2, h3, h4, h5⟩
    obtain ⟨t, x, x', e1, e2, hx⟩ := lex_alike k.allowComments h5
    refine .inr ⟨tokenCode t.type, { bytes := t.val }, { k with scanner := x, lastToken := t.val },
      { k' with scanner := x', lastToken := t.val }, ?_, ?_, h1, h2, rfl, h4, hx⟩
    · simp only [host, Tokenizer.next, e1]
    · simp only [host, Tokenizer.next, ← h1, e2]
  act := by
    intro k k' r vs h
    simp only [host, act]
    have := effect_alike r (fun n => vs.getD (n - 1) {}) h
    generalize effect r (fun n => vs.getD (n - 1) {}) k = x at *
    generalize effect r (fun n => vs.getD (n - 1) {}) k' = y at *
    cases this with
    | stopped e => exact .inl ⟨e, rfl, rfl⟩
    | failed m m' => exact .inr (.inl ⟨m, m', rfl, rfl⟩)
    | done hm => exact .inr (.inr ⟨_, _, _, rfl, rfl, hm⟩)

/-- Two results of the parser that differ at most in the message of a syntax error. -/
inductive AlikeResult {α : Type} : Except Err α → Except Err α → Prop
  | ok (s : α) : AlikeResult (.ok s) (.ok s)
  | rejected (m m' : Str) : AlikeResult (.error (.parse m)) (.error (.parse m'))
  | stopped (e : Err) : AlikeResult (.error e) (.error e)

theorem parse_alike {mode : Mode} {a b : Str} (h : AlikeScanner (newScanner mode a) (newScanner mode b)) :
    AlikeResult (parseStrictDDLWithMode mode a) (parseStrictDDLWithMode mode b) := by
  have hs : AlikeConfig AlikeTokenizer (start ({} : SymType) (newTokenizer a mode)) (start {} (newTokenizer b mode)) :=
    ⟨rfl, rfl, rfl, rfl, rfl, rfl, h⟩
  obtain ⟨o, ho⟩ := run_start host_shrinks ({} : SymType) (newTokenizer a mode)
  obtain ⟨p, hp⟩ := run_start host_shrinks ({} : SymType) (newTokenizer b mode)
  obtain ⟨p', hp', hop⟩ := run_alike host_alike _ hs ho
  have e : p' = p := by
    have h1 := run_more (Nat.le_max_left (23 * (newTokenizer a mode).scanner.size + 7) (23 * (newTokenizer b mode).scanner.size + 7)) hp'
    have h2 := run_more (Nat.le_max_right (23 * (newTokenizer a mode).scanner.size + 7) (23 * (newTokenizer b mode).scanner.size + 7)) hp
    exact Option.some.inj (h1.symm.trans h2)
  subst e
  unfold parseStrictDDLWithMode
  simp only [ho, hp]
  cases hop with
  | accepted hr =>
    simp only [hr.2.2.2.1]
    exact .ok _
  | rejected => exact .rejected _ _
  | fault => exact .stopped _
  | resumes => exact .stopped _
  | stopped => exact .stopped _

theorem stream_of_layout {mode : Mode} {text : Str} {ts : List Token} (h : Layout mode text ts) : Stream mode (newScanner mode text) ts := by
  obtain ⟨w, hw, hr, hn⟩ := layout_says h
  refine ⟨rfl, rfl, rfl, rfl, text, w, ?_, hw, hr, fun t ht => (hn t ht).1⟩
  have := layout_head h
  cases text with
  | nil => rfl
  | cons c s =>
    have hc : c ≠ '\x00' := by simpa using this
    simp [newScanner, newCursor, dropNul, hc]

end Sqldef.Sql
