import Verif.Proofs.YyRuns
import Verif.Proofs.ScannerReads
import Verif.Model.SqlParse

/-! The tokenizer of a text gets on with every token, so the parser of a text returns. -/
namespace Sqldef

theorem scanCursor_le {mode : Mode} {multi forceEOF : Bool} {c c' : Cursor} {t : Token}
    (h : scanCursor mode multi forceEOF c = .token t c') : c'.input.length ≤ c.input.length := by
  have h3 := dropNul_length c.input
  unfold scanCursor at h
  split at h
  · simp only [Step.token.injEq] at h
    rw [← h.2]
    exact Nat.le_trans (dropWhile_length _ _) h3
  · have h2 := skipBlank_length (dropNul c.input)
    split at h
    · simp only [Step.token.injEq] at h
      rw [← h.2]
      exact Nat.zero_le _
    · next ch s hs =>
      have h1 := congrArg List.length hs
      have := (scanToken_suffix h).length_le
      omega

/-- Reading a token, even the end, does not make the text longer. -/
theorem scan_le {st st' : Scanner} {t : Token} (h : scan st = .ok (t, st')) : st'.size ≤ st.size := by
  induction hn : st.size using Nat.strongRecOn generalizing st with
  | ind n ih =>
  subst hn
  cases hi : st.inner with
  | cons c cs =>
    cases hs : scanCursor st.mode false false c with
    | panic => rw [scan_inner_panic hi hs] at h; cases h
    | special sql c' =>
      have hl := scanCursor_special_length hs
      rw [scan_inner_special hi hs] at h
      have hlt : Scanner.size { st with inner := newCursor sql :: c' :: cs } < st.size := by
        simp [Scanner.size, hi, newCursor]; omega
      exact Nat.le_trans (ih _ hlt h rfl) (Nat.le_of_lt hlt)
    | token t' c' =>
      rw [scan_inner_token hi hs] at h
      split at h
      · have hlt : Scanner.size { st with inner := cs } < st.size := by simp [Scanner.size, hi]
        exact Nat.le_trans (ih _ hlt h rfl) (Nat.le_of_lt hlt)
      · cases h
        have := scanCursor_le hs
        simp [Scanner.size, hi]; omega
  | nil =>
    cases hs : scanCursor st.mode st.multi st.forceEOF st.base with
    | panic => rw [scan_base_panic hi hs] at h; cases h
    | special sql c' =>
      have hl := scanCursor_special_length hs
      rw [scan_base_special hi hs] at h
      have hlt : Scanner.size { st with inner := [newCursor sql], base := c' } < st.size := by
        simp [Scanner.size, hi, newCursor]; omega
      exact Nat.le_trans (ih _ hlt h rfl) (Nat.le_of_lt hlt)
    | token t' c' =>
      rw [scan_base_token hi hs] at h
      cases h
      have := scanCursor_le hs
      simp [Scanner.size, hi]; omega

theorem lex_le {b : Bool} {st st' : Scanner} {t : Token} (h : lex b st = .ok (t, st')) :
    st'.size ≤ st.size ∧ (t.type ≠ .eof → st'.size < st.size) := by
  induction hn : st.size using Nat.strongRecOn generalizing st with
  | ind n ih =>
  subst hn
  rw [lex] at h
  split at h
  · cases h
  · next t1 st1 hs =>
    split at h
    · next hc =>
      have hlt := scan_progress hs (by rw [hc.1]; simp)
      obtain ⟨h1, h2⟩ := ih _ hlt h rfl
      exact ⟨by omega, fun _ => by omega⟩
    · cases h
      exact ⟨scan_le hs, fun ht => scan_progress hs ht⟩

end Sqldef

namespace Sqldef.Sql
open Yy Spec

theorem ite_ok {α ε : Type} {P : α → Prop} {p : Prop} [Decidable p] {a b : Except ε α}
    (ha : p → ∀ x, a = .ok x → P x) (hb : ¬ p → ∀ x, b = .ok x → P x) :
    ∀ x, (if p then a else b) = .ok x → P x := by
  intro x h
  by_cases hp : p
  · rw [if_pos hp] at h; exact ha hp x h
  · rw [if_neg hp] at h; exact hb hp x h

/-- No action changes the place in the text. -/
theorem effect_size {r : Nat} {d : Nat → SymType} {k : Tokenizer} :
    ∀ k', effect r d k = .ok k' → k'.scanner.size = k.scanner.size := by
  unfold effect
  repeat' refine ite_ok (fun _ => ?_) (fun _ => ?_)
  all_goals
    intro x h
    cases h
  all_goals rfl

theorem act_ok {r : Nat} {vals : List SymType} {k k' : Tokenizer} {w : SymType}
    (h : act r vals k = .ok (w, k')) :
    effect r (fun n => vals.getD (n - 1) {}) k = .ok k' ∧ w = value r (fun n => vals.getD (n - 1) {}) := by
  unfold act at h
  split at h
  · next k1 hk => cases h; exact ⟨hk, rfl⟩
  · cases h

/-- Every token uses up some of the text. -/
theorem host_shrinks : Shrinks host (fun k => k.scanner.size) where
  token := by
    intro l char v l' h hc
    simp only [host, Tokenizer.next] at h
    split at h
    · cases h
    · next t st hl =>
      simp only [Except.ok.injEq, Prod.mk.injEq] at h
      obtain ⟨rfl, _, rfl⟩ := h
      refine (lex_le hl).2 ?_
      intro ht
      rw [ht] at hc
      simp [tokenCode] at hc
  finish := by
    intro l char v l' h
    simp only [host, Tokenizer.next] at h
    split at h
    · cases h
    · next t st hl =>
      simp only [Except.ok.injEq, Prod.mk.injEq] at h
      obtain ⟨_, _, rfl⟩ := h
      exact (lex_le hl).1
  action := by
    intro r vs l w l' h
    exact Nat.le_of_eq (effect_size _ (act_ok h).1)

theorem newTokenizer_size (sql : Str) (mode : Mode) : (newTokenizer sql mode).scanner.size = sql.length + 1 := by
  simp [newTokenizer, newScanner, newCursor, Scanner.size]

end Sqldef.Sql
