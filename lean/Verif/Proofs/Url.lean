import Verif.Model.Command
import Verif.Proofs.ReadsAs
import Verif.Spec.Url
/-
Escaped texts stand for the bytes of the text, and an address is read in one way only.
-/
namespace Sqldef
open Spec

/-! ### Escaping -/

/-- What `url.QueryEscape` makes of a text when it is read back: spaces have become plus signs. -/
def spacesToPlus (s : Str) : Str := s.map fun c => if c = ' ' then '+' else c

/-- A byte is written as one character, or as `%` with two digits. -/
def escapeTest (n : Nat) : Bool :=
  (match escapeByte (UInt8.ofNat n) with
    | [c] => c != '%' && String.utf8EncodeChar c == [if n = 32 then 43 else UInt8.ofNat n]
    | [p, a, b] =>
      match hexDigit a, hexDigit b with
      | some x, some y => p == '%' && (16 * x + y == n && n != 32)
      | _, _ => false
    | _ => false) && (escapeByte (UInt8.ofNat n)).all fun c => c != '/' && c != '?' && c != '#' && c != ':' && c != '@'

theorem escapeTest_all : ∀ n < 256, escapeTest n = true := by decide +kernel

theorem escapeByte_facts (n : Nat) (hn : n < 256) :
    ((∃ c, escapeByte (UInt8.ofNat n) = [c] ∧ c ≠ '%' ∧ String.utf8EncodeChar c = [if n = 32 then 43 else UInt8.ofNat n]) ∨
      ∃ a b x y, escapeByte (UInt8.ofNat n) = ['%', a, b] ∧ hexDigit a = some x ∧ hexDigit b = some y ∧ 16 * x + y = n ∧ n ≠ 32) ∧
      ∀ c ∈ escapeByte (UInt8.ofNat n), c ≠ '/' ∧ c ≠ '?' ∧ c ≠ '#' ∧ c ≠ ':' ∧ c ≠ '@' := by
  have h := escapeTest_all n hn
  unfold escapeTest at h
  rw [Bool.and_eq_true] at h
  refine ⟨?_, by simpa [and_assoc] using h.2⟩
  have h := h.1
  split at h
  · rename_i c hc
    exact .inl ⟨c, hc, by simpa using h⟩
  · rename_i p a b hc
    split at h
    · rename_i x y hx hy
      simp only [Bool.and_eq_true, beq_iff_eq, bne_iff_ne, ne_eq] at h
      obtain ⟨rfl, h1, h2⟩ := h
      exact .inr ⟨a, b, x, y, hc, hx, hy, h1, h2⟩
    · cases h
  · cases h

theorem decodes_append {s t : Str} {bs cs : List UInt8} (h : Decodes s bs) (g : Decodes t cs) : Decodes (s ++ t) (bs ++ cs) := by
  induction h with
  | nil => exact g
  | escaped ha hb _ ih => exact .escaped ha hb ih
  | plain hc _ ih =>
    rw [List.append_assoc]
    exact .plain hc ih

theorem decodes_escapeByte (b : UInt8) : Decodes (escapeByte b) [if b = 32 then 43 else b] := by
  have h := (escapeByte_facts b.toNat b.toNat_lt).1
  rw [UInt8.ofNat_toNat] at h
  have e : (b.toNat = 32) ↔ b = 32 := ⟨fun h => UInt8.toNat_inj.mp h, fun h => by rw [h]; rfl⟩
  rcases h with ⟨c, hc, h1, h2⟩ | ⟨p, q, m, n, hc, hm, hn, hv, h32⟩
  · rw [hc]
    have := Decodes.plain h1 .nil
    rw [h2] at this
    simpa [e] using this
  · rw [hc]
    have := Decodes.escaped hm hn .nil
    rw [hv, UInt8.ofNat_toNat] at this
    rw [if_neg (by rw [← e]; exact h32)]
    exact this

theorem decodes_bytes (bs : List UInt8) : Decodes (bs.flatMap escapeByte) (bs.map fun b => if b = 32 then 43 else b) := by
  induction bs with
  | nil => exact .nil
  | cons b bs ih =>
    rw [List.flatMap_cons, List.map_cons]
    exact decodes_append (decodes_escapeByte b) ih

theorem utf8_plus (c : Char) :
    (String.utf8EncodeChar c).map (fun b => if b = 32 then 43 else b) = String.utf8EncodeChar (if c = ' ' then '+' else c) := by
  by_cases h : c = ' '
  · subst h
    decide
  · rw [if_neg h]
    have hv : c.val.toNat ≠ 32 := fun e => h (Char.ext (UInt32.toNat_inj.mp (by rw [e]; rfl)))
    have key : ∀ b ∈ String.utf8EncodeChar c, b ≠ 32 := by
      intro b hb
      have big : ∀ n : Nat, n < 256 → 32 < n → UInt8.ofNat n ≠ 32 := by
        intro n hn h32 e
        have := congrArg UInt8.toNat e
        rw [UInt8.toNat_ofNat_of_lt' hn] at this
        have h' : (32 : UInt8).toNat = 32 := rfl
        omega
      unfold String.utf8EncodeChar at hb
      dsimp only at hb
      split at hb
      · simp only [List.mem_singleton] at hb
        subst hb
        intro e
        have := congrArg UInt8.toNat e
        rw [UInt8.toNat_ofNat_of_lt' (by show _ < 256; omega)] at this
        have h' : (32 : UInt8).toNat = 32 := rfl
        omega
      · split at hb
        · simp only [List.mem_cons, List.not_mem_nil, or_false] at hb
          rcases hb with rfl | rfl <;> exact big _ (by omega) (by omega)
        · split at hb
          · simp only [List.mem_cons, List.not_mem_nil, or_false] at hb
            rcases hb with rfl | rfl | rfl <;> exact big _ (by omega) (by omega)
          · simp only [List.mem_cons, List.not_mem_nil, or_false] at hb
            rcases hb with rfl | rfl | rfl | rfl <;> exact big _ (by omega) (by omega)
    refine (List.map_congr_left fun b hb => ?_).trans (List.map_id _)
    rw [if_neg (key b hb)]
    rfl

theorem decodes_queryEscape (s : Str) : Decodes (queryEscape s) (bytes (spacesToPlus s)) := by
  have h := decodes_bytes (s.flatMap String.utf8EncodeChar)
  have e : (s.flatMap String.utf8EncodeChar).map (fun b => if b = 32 then 43 else b) = bytes (spacesToPlus s) := by
    unfold bytes spacesToPlus
    induction s with
    | nil => rfl
    | cons c s ih =>
      rw [List.flatMap_cons, List.map_append, List.map_cons, List.flatMap_cons, utf8_plus c, ih (decodes_bytes _)]
  rw [e] at h
  exact h

theorem queryEscape_chars (s : Str) : ∀ c ∈ queryEscape s, c ≠ '/' ∧ c ≠ '?' ∧ c ≠ '#' ∧ c ≠ ':' ∧ c ≠ '@' := by
  intro c hc
  obtain ⟨b, -, hc⟩ := List.mem_flatMap.mp hc
  have h := (escapeByte_facts b.toNat b.toNat_lt).2
  rw [UInt8.ofNat_toNat] at h
  exact h c hc

theorem spacesToPlus_id {s : Str} (h : ' ' ∉ s) : spacesToPlus s = s := by
  unfold spacesToPlus
  exact (List.map_congr_left fun c hc => by
    have hn : c ≠ ' ' := fun e => h (e ▸ hc)
    rw [if_neg hn]
    rfl).trans (List.map_id _)

theorem decodes_plain {s : Str} (h : '%' ∉ s) : Decodes s (bytes s) := by
  induction s with
  | nil => exact .nil
  | cons c s ih => exact .plain (by simp at h; exact Ne.symm h.1) (ih (by simp at h; exact h.2))

/-! ### One reading -/

theorem decodes_unique {s : Str} {bs cs : List UInt8} (h : Decodes s bs) (g : Decodes s cs) : bs = cs := by
  induction h generalizing cs with
  | nil => cases g; rfl
  | escaped ha hb _ ih =>
    cases g with
    | escaped ha' hb' hs =>
      rw [ha] at ha'
      rw [hb] at hb'
      cases ha'
      cases hb'
      rw [ih hs]
    | plain hc _ => exact absurd rfl hc
  | plain hc _ ih =>
    cases g with
    | escaped _ _ _ => exact absurd rfl hc
    | plain _ hs => rw [ih hs]

/-- A text is split at the first place where a character is found in one way only. -/
theorem split_first {x : Char} {a b a' b' : Str} (h : a ++ x :: b = a' ++ x :: b') (ha : x ∉ a) (ha' : x ∉ a') : a = a' ∧ b = b' := by
  induction a generalizing a' with
  | nil =>
    cases a' with
    | nil => simpa using h
    | cons c a' =>
      simp only [List.nil_append, List.cons_append, List.cons.injEq] at h
      exact absurd (by rw [h.1]; simp) ha'
  | cons c a ih =>
    cases a' with
    | nil =>
      simp only [List.nil_append, List.cons_append, List.cons.injEq] at h
      exact absurd (by rw [← h.1]; simp) ha
    | cons c' a' =>
      simp only [List.cons_append, List.cons.injEq] at h
      obtain ⟨rfl, h⟩ := h
      obtain ⟨rfl, e⟩ := ih h (by simp at ha; exact ha.2) (by simp at ha'; exact ha'.2)
      exact ⟨rfl, e⟩

/-- Likewise at the last place. -/
theorem split_last {x : Char} {a b a' b' : Str} (h : a ++ x :: b = a' ++ x :: b') (hb : x ∉ b) (hb' : x ∉ b') : a = a' ∧ b = b' := by
  have := congrArg List.reverse h
  simp only [List.reverse_append, List.reverse_cons, List.append_assoc, List.singleton_append] at this
  obtain ⟨e1, e2⟩ := split_first this (by simpa using hb) (by simpa using hb')
  exact ⟨List.reverse_inj.mp e2, List.reverse_inj.mp e1⟩

theorem address_unique {url : Str} {a b : Address} (h : AddressSays url a) (g : AddressSays url b) : a = b := by
  obtain ⟨u, p, d, rfl, h1, h2, h3, h4, h5, h6, h7⟩ := h
  obtain ⟨u', p', d', e, g1, g2, g3, g4, g5, g6, g7⟩ := g
  have e : (u ++ ':' :: (p ++ '@' :: a.server)) ++ '/' :: (d ++ '?' :: a.options) =
      (u' ++ ':' :: (p' ++ '@' :: b.server)) ++ '/' :: (d' ++ '?' :: b.options) := by
    have : lit "postgres://" ++ ((u ++ ':' :: (p ++ '@' :: a.server)) ++ '/' :: (d ++ '?' :: a.options)) =
      lit "postgres://" ++ ((u' ++ ':' :: (p' ++ '@' :: b.server)) ++ '/' :: (d' ++ '?' :: b.options)) := by
      simpa [lit, List.append_assoc] using e
    exact List.append_cancel_left this
  have slash : ∀ (u p s : Str), (∀ x ∈ u ++ p ++ s, x ≠ '/' ∧ x ≠ '?' ∧ x ≠ '#') → '/' ∉ u ++ ':' :: (p ++ '@' :: s) := by
    intro u p s h hm
    simp only [List.mem_append, List.mem_cons] at hm h
    rcases hm with hm | hm | hm | hm | hm
    · exact (h _ (.inl (.inl hm))).1 rfl
    · exact absurd hm (by decide)
    · exact (h _ (.inl (.inr hm))).1 rfl
    · exact absurd hm (by decide)
    · exact (h _ (.inr hm)).1 rfl
  obtain ⟨e1, e2⟩ := split_first e (slash _ _ _ h3) (slash _ _ _ g3)
  obtain ⟨rfl, e3⟩ := split_first e1 h1 g1
  obtain ⟨rfl, e4⟩ := split_last e3 h2 g2
  obtain ⟨rfl, e5⟩ := split_first e2 (fun hm => (h4 _ hm).1 rfl) (fun hm => (g4 _ hm).1 rfl)
  cases a
  cases b
  simp only at *
  rw [decodes_unique h5 g5, decodes_unique h6 g6, decodes_unique h7 g7, e4, e5]

/-! ### The address that is built -/

theorem address_says (user password server d q : Str) (hs : ∀ x ∈ server, x ≠ '/' ∧ x ≠ '?' ∧ x ≠ '#' ∧ x ≠ '@')
    (hd : ∀ x ∈ d, x ≠ '?' ∧ x ≠ '#' ∧ x ≠ '%') :
    AddressSays (lit "postgres://" ++ queryEscape user ++ lit ":" ++ queryEscape password ++ lit "@" ++ server ++ lit "/" ++ d ++ lit "?" ++ q)
      { user := bytes (spacesToPlus user), password := bytes (spacesToPlus password), server := server, database := bytes d, options := q } := by
  refine ⟨queryEscape user, queryEscape password, d, rfl, fun h => (queryEscape_chars _ _ h).2.2.2.1 rfl, fun h => (hs _ h).2.2.2 rfl, ?_,
    fun x hx => ⟨(hd x hx).1, (hd x hx).2.1⟩, decodes_queryEscape _, decodes_queryEscape _, decodes_plain fun h => (hd _ h).2.2 rfl⟩
  intro x hx
  simp only [List.mem_append] at hx
  rcases hx with (hx | hx) | hx
  · exact ⟨(queryEscape_chars _ _ hx).1, (queryEscape_chars _ _ hx).2.1, (queryEscape_chars _ _ hx).2.2.1⟩
  · exact ⟨(queryEscape_chars _ _ hx).1, (queryEscape_chars _ _ hx).2.1, (queryEscape_chars _ _ hx).2.2.1⟩
  · exact ⟨(hs x hx).1, (hs x hx).2.1, (hs x hx).2.2.1⟩

theorem server_chars {host : Str} (n : Nat) (h : ∀ x ∈ host, x ≠ '/' ∧ x ≠ '?' ∧ x ≠ '#' ∧ x ≠ '@') :
    ∀ x ∈ host ++ lit ":" ++ showInt n, x ≠ '/' ∧ x ≠ '?' ∧ x ≠ '#' ∧ x ≠ '@' := by
  intro x hx
  simp only [List.mem_append] at hx
  rcases hx with (hx | hx) | hx
  · exact h x hx
  · cases List.mem_singleton.mp hx
    decide
  · have hd : isDigit x = true := (toDigits_digits n).2 x hx
    refine ⟨?_, ?_, ?_, ?_⟩ <;> rintro rfl <;> exact absurd hd (by decide)

end Sqldef
