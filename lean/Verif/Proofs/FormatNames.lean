import Verif.Proofs.ScannerQuotes
/-
Printed names are read back: lemmas for `Verif.Props.Scanner`.
-/
namespace Sqldef
open Spec

theorem backtick_eq (name : Str) : backtick name = '`' :: doubled '`' name ++ ['`'] := by
  unfold backtick doubled
  congr 2
  congr 1
  funext c
  by_cases h : c = '`'
  · simp [h]
  · simp [h]

theorem uint16_of_lt {c : Char} (h : c.toNat < 65536) : uint16 c = c := by
  unfold uint16
  rw [Nat.mod_eq_of_lt h]
  exact Char.ofNat_toNat c

theorem needsQuotes_false {sv first : Bool} {s : Str} (hb : ∀ c ∈ s, c.toNat < 65536)
    (h : needsQuotes sv first s = false) :
    (∀ c r, s = c :: r → first = true → isLetter c = true ∨ (sv = true ∧ isCarat c = true)) ∧
    ∀ c ∈ s, isLetter c = true ∨ (sv = true ∧ isCarat c = true) ∨ isDigit c = true := by
  induction s generalizing first with
  | nil => simp
  | cons c s ih =>
    unfold needsQuotes at h
    simp only [Bool.or_eq_false_iff] at h
    obtain ⟨h1, h2⟩ := h
    rw [uint16_of_lt (hb c (by simp))] at h1
    have hrec := (ih (fun d hd => hb d (by simp [hd])) h2).2
    refine ⟨?_, ?_⟩
    · intro d r hd hf
      obtain ⟨rfl, rfl⟩ := List.cons.inj hd
      subst hf
      cases hl : isLetter c <;> cases sv <;> cases hc : isCarat c <;> simp_all
    · intro d hd
      rcases List.mem_cons.mp hd with rfl | hd
      · cases hl : isLetter d <;> cases sv <;> cases hc : isCarat d <;> cases hdg : isDigit d <;> simp_all
      · exact hrec d hd

/-- A name that starts with `@@`. -/
theorem reads_system_variable (mode : Mode) {s rest : Str}
    (hs : ∀ d ∈ s, isLetter d = true ∨ isCarat d = true ∨ isDigit d = true)
    (hr : ∀ c, rest.head? = some c → isLetter c = false ∧ isDigit c = false ∧ isCarat c = false)
    (hk : keywordCode (toLower ('@' :: '@' :: s)) = none) :
    Reads mode ('@' :: '@' :: s ++ rest) ⟨.id, '@' :: '@' :: s⟩ rest := by
  refine reads_start (by decide) (by decide) fun n => ?_
  unfold scanToken
  rw [if_pos (by decide)]
  change Step.token (scanWord '@' ('@' :: (s ++ rest))).1 ⟨(scanWord '@' ('@' :: (s ++ rest))).2, n⟩ = _
  have : scanWord '@' ('@' :: (s ++ rest)) = (⟨.id, '@' :: '@' :: s⟩, rest) := by
    unfold scanWord
    simp only [show ¬ (('@' = 'X' ∨ '@' = 'x') ∧ '@' = '\'') by decide,
      show ¬ (('@' = 'B' ∨ '@' = 'b') ∧ '@' = '\'') by decide, if_false]
    rw [show (decide True && decide True) = true by decide]
    unfold scanIdentifier
    obtain ⟨h1, h2⟩ := takeWhile_word (p := fun c => isLetter c || isDigit c || (true && isCarat c))
      (s := '@' :: s) (rest := rest)
      (fun d hd => by
        rcases List.mem_cons.mp hd with rfl | hd
        · rfl
        · rcases hs d hd with h | h | h <;> simp [h])
      (fun d hd => by simp [(hr d hd).1, (hr d hd).2.1, (hr d hd).2.2])
    rw [List.cons_append] at h1 h2
    simp only [h1, h2, hk]
    rw [if_neg (by simp [toLower, lit])]
  rw [this]

theorem reads_formatID {mode : Mode} (hm : mode ≠ .postgres) {name rest : Str} (hn : name ≠ [])
    (hb : ∀ c ∈ name, c.toNat < 65536) (hd : toLower name = lit "dual" → name = lit "dual")
    (hr : ∀ c, rest.head? = some c →
      isLetter c = false ∧ isDigit c = false ∧ c ≠ '\'' ∧ c ≠ '`' ∧ (lit "@@" <+: name → isCarat c = false)) :
    Reads mode (formatID name ++ rest) ⟨.id, name⟩ rest := by
  unfold formatID
  split
  · rw [backtick_eq]
    have hq : ('`', '`') ∈ nameQuotes mode := by cases mode <;> simp [nameQuotes] at hm ⊢
    have := reads_name hq (rest := rest) hn (fun h => (hr _ h).2.2.2.1 rfl)
    simpa using this
  · next h =>
    simp only [Bool.or_eq_true, not_or, Bool.not_eq_true] at h
    obtain ⟨h1, h2⟩ := h
    have hk : keywordCode (toLower name) = none := by simpa using h2
    obtain ⟨hfirst, hall⟩ := needsQuotes_false hb h1
    by_cases hsv : lit "@@" <+: name
    · obtain ⟨s, rfl⟩ := id hsv
      refine reads_system_variable mode (s := s) (fun d hd => ?_)
        (fun c hc => ⟨(hr c hc).1, (hr c hc).2.1, (hr c hc).2.2.2.2 hsv⟩) hk
      rcases hall d (by simp [hd]) with h | h | h
      · exact .inl h
      · exact .inr (.inl h.2)
      · exact .inr (.inr h)
    · have hsv' : (lit "@@").isPrefixOf name = false := by
        rw [← Bool.not_eq_true, List.isPrefixOf_iff_prefix]; exact hsv
      rw [hsv'] at hfirst hall
      match name, hn with
      | c :: s, _ =>
        have hw : IsWord (c :: s) := by
          refine ⟨⟨c, s, rfl, ?_, ?_⟩, hsv⟩
          · simpa using hfirst c s rfl rfl
          · intro d hd
            simpa using hall d (by simp [hd])
        have := reads_word mode hw (rest := rest) fun c hc => ⟨(hr c hc).1, (hr c hc).2.1, (hr c hc).2.2.1⟩
        rw [hk] at this
        dsimp only at this
        by_cases hdual : toLower (c :: s) = lit "dual"
        · rw [if_pos hdual, hdual, ← hd hdual] at this
          exact this
        · rwa [if_neg hdual] at this

end Sqldef
