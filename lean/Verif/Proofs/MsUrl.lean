import Verif.Model.MsAddress
import Verif.Spec.MsUrl
import Verif.Proofs.Url
/-
The address of a SQL Server is read as it was meant.
-/
namespace Sqldef
open Spec

/-! ### Users and passwords -/

def userByte (b : UInt8) : Str := if keptInUser b then [Char.ofNat b.toNat] else percentByte b

def userTest (n : Nat) : Bool :=
  (match userByte (UInt8.ofNat n) with
    | [c] => c != '%' && String.utf8EncodeChar c == [UInt8.ofNat n]
    | [p, a, b] =>
      match hexDigit a, hexDigit b with
      | some x, some y => p == '%' && 16 * x + y == n
      | _, _ => false
    | _ => false) && (userByte (UInt8.ofNat n)).all fun c => c != '/' && c != '?' && c != '#' && c != ':' && c != '@'

theorem userTest_all : ∀ n < 256, userTest n = true := by decide +kernel

theorem userByte_facts (b : UInt8) : Decodes (userByte b) [b] ∧ ∀ c ∈ userByte b, c ≠ '/' ∧ c ≠ '?' ∧ c ≠ '#' ∧ c ≠ ':' ∧ c ≠ '@' := by
  have h := userTest_all b.toNat b.toNat_lt
  unfold userTest at h
  rw [Bool.and_eq_true, UInt8.ofNat_toNat] at h
  refine ⟨?_, by simpa [and_assoc] using h.2⟩
  have h := h.1
  split at h
  · rename_i c hc
    simp only [Bool.and_eq_true, bne_iff_ne, ne_eq, beq_iff_eq] at h
    rw [hc]
    have := Decodes.plain h.1 .nil
    rw [h.2] at this
    exact this
  · rename_i p x y hc
    split at h
    · rename_i m n hx hy
      simp only [Bool.and_eq_true, beq_iff_eq] at h
      obtain ⟨rfl, h1⟩ := h
      rw [hc]
      have := Decodes.escaped hx hy .nil
      rw [h1, UInt8.ofNat_toNat] at this
      exact this
    · cases h
  · cases h

theorem userEscape_decodes (s : Str) : Decodes (userEscape s) (bytes s) := by
  unfold userEscape bytes
  generalize s.flatMap String.utf8EncodeChar = bs
  induction bs with
  | nil => exact .nil
  | cons b bs ih =>
    rw [List.flatMap_cons]
    exact decodes_append (bs := [b]) (userByte_facts b).1 ih

theorem userEscape_chars (s : Str) : ∀ c ∈ userEscape s, c ≠ '/' ∧ c ≠ '?' ∧ c ≠ '#' ∧ c ≠ ':' ∧ c ≠ '@' := by
  intro c hc
  obtain ⟨b, -, hc⟩ := List.mem_flatMap.mp hc
  exact (userByte_facts b).2 c hc

/-! ### The name of the database -/

theorem formDecodes_append {s t : Str} {bs cs : List UInt8} (h : FormDecodes s bs) (g : FormDecodes t cs) : FormDecodes (s ++ t) (bs ++ cs) := by
  induction h with
  | nil => exact g
  | escaped ha hb _ ih => exact .escaped ha hb ih
  | space _ ih => exact .space ih
  | plain hc hp _ ih =>
    rw [List.cons_append, List.append_assoc]
    exact .plain hc hp ih

def formTest (n : Nat) : Bool :=
  (match escapeByte (UInt8.ofNat n) with
    | [c] => if c = '+' then n == 32 else c != '%' && String.utf8EncodeChar c == [UInt8.ofNat n]
    | [p, a, b] =>
      match hexDigit a, hexDigit b with
      | some x, some y => p == '%' && 16 * x + y == n
      | _, _ => false
    | _ => false) && (escapeByte (UInt8.ofNat n)).all fun c => c != '#' && c != '&' && c != ';'

theorem formTest_all : ∀ n < 256, formTest n = true := by decide +kernel

theorem escapeByte_form (b : UInt8) : FormDecodes (escapeByte b) [b] ∧ ∀ c ∈ escapeByte b, c ≠ '#' ∧ c ≠ '&' ∧ c ≠ ';' := by
  have h := formTest_all b.toNat b.toNat_lt
  unfold formTest at h
  rw [Bool.and_eq_true, UInt8.ofNat_toNat] at h
  refine ⟨?_, by simpa [and_assoc] using h.2⟩
  have h := h.1
  split at h
  · rename_i c hc
    rw [hc]
    split at h
    · rename_i e
      subst e
      have e : b = 32 := UInt8.toNat_inj.mp (by simpa using h)
      rw [e]
      exact .space .nil
    · rename_i e
      simp only [Bool.and_eq_true, bne_iff_ne, ne_eq, beq_iff_eq] at h
      have := FormDecodes.plain h.1 e .nil
      rw [h.2] at this
      exact this
  · rename_i p x y hc
    split at h
    · rename_i m n hx hy
      simp only [Bool.and_eq_true, beq_iff_eq] at h
      obtain ⟨rfl, h1⟩ := h
      rw [hc]
      have := FormDecodes.escaped hx hy .nil
      rw [h1, UInt8.ofNat_toNat] at this
      exact this
    · cases h
  · cases h

theorem queryEscape_form (s : Str) : FormDecodes (queryEscape s) (bytes s) := by
  unfold queryEscape bytes
  generalize s.flatMap String.utf8EncodeChar = bs
  induction bs with
  | nil => exact .nil
  | cons b bs ih =>
    rw [List.flatMap_cons]
    exact formDecodes_append (bs := [b]) (escapeByte_form b).1 ih

theorem queryEscape_formChars (s : Str) : ∀ c ∈ queryEscape s, c ≠ '#' ∧ c ≠ '&' ∧ c ≠ ';' := by
  intro c hc
  obtain ⟨b, -, hc⟩ := List.mem_flatMap.mp hc
  exact (escapeByte_form b).2 c hc

theorem formDecodes_unique {s : Str} {bs cs : List UInt8} (h : FormDecodes s bs) (g : FormDecodes s cs) : bs = cs := by
  induction h generalizing cs with
  | nil => cases g; rfl
  | escaped ha hb _ ih =>
    cases g with
    | escaped ha' hb' g =>
      cases ha.symm.trans ha'
      cases hb.symm.trans hb'
      rw [ih g]
    | plain hc _ _ => exact absurd rfl hc
  | space _ ih =>
    cases g with
    | space g => rw [ih g]
    | plain _ hc _ => exact absurd rfl hc
  | plain hc hp _ ih =>
    cases g with
    | escaped _ _ _ => exact absurd rfl hc
    | space _ => exact absurd rfl hp
    | plain _ _ g => rw [ih g]

/-! ### The host -/

def hostTest (n : Nat) : Bool :=
  !((Char.ofNat n).isAlphanum || ['-', '.', '_', '~', ':', '[', ']'].contains (Char.ofNat n)) ||
    (String.utf8EncodeChar (Char.ofNat n)).flatMap (fun b => if keptInHost b then [Char.ofNat b.toNat] else percentByte b) == [Char.ofNat n]

theorem hostTest_all : ∀ n < 128, hostTest n = true := by decide +kernel

theorem hostEscape_plain {s : Str} (h : PlainHost s) : hostEscape s = s := by
  induction s with
  | nil => rfl
  | cons c s ih =>
    have e : hostEscape (c :: s) = (String.utf8EncodeChar c).flatMap (fun b => if keptInHost b then [Char.ofNat b.toNat] else percentByte b) ++ hostEscape s := by
      simp only [hostEscape, List.flatMap_cons, List.flatMap_append]
    have hc := h c List.mem_cons_self
    have hlt : c.toNat < 128 := by
      rcases hc with hc | hc
      · simp only [Char.isAlphanum, Char.isAlpha, Char.isUpper, Char.isLower, Char.isDigit, Bool.or_eq_true, Bool.and_eq_true, decide_eq_true_eq,
          ge_iff_le, UInt32.le_iff_toNat_le] at hc
        have : c.toNat = c.val.toNat := rfl
        rw [this]
        rcases hc with (⟨-, hc⟩ | ⟨-, hc⟩) | ⟨-, hc⟩ <;> exact Nat.lt_of_le_of_lt hc (by decide)
      · simp only [List.mem_cons, List.not_mem_nil, or_false] at hc
        rcases hc with rfl | rfl | rfl | rfl | rfl | rfl | rfl <;> decide
    have ht := hostTest_all c.toNat hlt
    rw [hostTest, Char.ofNat_toNat, Bool.or_eq_true, Bool.not_eq_true', beq_iff_eq] at ht
    rw [e, ih fun x hx => h x (List.mem_cons_of_mem _ hx)]
    rcases ht with ht | ht
    · exfalso
      rw [Bool.or_eq_false_iff] at ht
      rcases hc with hc | hc
      · rw [hc] at ht; exact absurd ht.1 (by decide)
      · have := List.elem_eq_true_of_mem hc
        rw [List.contains, this] at ht
        exact absurd ht.2 (by decide)
    · rw [ht]
      rfl

theorem plainHost_chars {s : Str} (h : PlainHost s) : ∀ x ∈ s, x ≠ '/' ∧ x ≠ '?' ∧ x ≠ '#' ∧ x ≠ '@' := by
  intro x hx
  refine ⟨?_, ?_, ?_, ?_⟩ <;> rintro rfl <;> exact absurd (h _ hx) (by decide)

theorem plainHost_port {s : Str} (h : PlainHost s) (n : Nat) : PlainHost (s ++ lit ":" ++ showInt n) := by
  intro x hx
  simp only [List.mem_append] at hx
  rcases hx with (hx | hx) | hx
  · exact h x hx
  · cases List.mem_singleton.mp hx
    exact .inr (by decide)
  · have hd : isDigit x = true := (toDigits_digits n).2 x hx
    left
    unfold isDigit at hd
    simp only [Bool.and_eq_true, decide_eq_true_eq] at hd
    simp only [Char.isAlphanum, Bool.or_eq_true]
    right
    simp only [Char.isDigit, ge_iff_le, Bool.and_eq_true, decide_eq_true_eq]
    exact hd

/-! ### Texts and their bytes -/

theorem bytes_injective {s t : Str} (h : bytes s = bytes t) : s = t := by
  have : s.utf8Encode = t.utf8Encode := congrArg List.toByteArray h
  exact String.ofList_inj.mp (String.toByteArray_inj.mp (by simpa using this))

/-! ### The address -/

theorem msAddress_unique {url : Str} {a b : MsAddress} (h : MsAddressSays url a) (g : MsAddressSays url b) : a = b := by
  obtain ⟨u, p, d, rfl, h1, h2, h3, h4, h5, h6, h7⟩ := h
  obtain ⟨u', p', d', e, g1, g2, g3, g4, g5, g6, g7⟩ := g
  have e : (u ++ ':' :: (p ++ '@' :: a.server)) ++ '?' :: (lit "database=" ++ d) =
      (u' ++ ':' :: (p' ++ '@' :: b.server)) ++ '?' :: (lit "database=" ++ d') := by
    have : lit "sqlserver://" ++ ((u ++ ':' :: (p ++ '@' :: a.server)) ++ '?' :: (lit "database=" ++ d)) =
      lit "sqlserver://" ++ ((u' ++ ':' :: (p' ++ '@' :: b.server)) ++ '?' :: (lit "database=" ++ d')) := by
      simpa [lit, List.append_assoc] using e
    exact List.append_cancel_left this
  have mark : ∀ (u p s : Str), (∀ x ∈ u ++ p ++ s, x ≠ '/' ∧ x ≠ '?' ∧ x ≠ '#') → '?' ∉ u ++ ':' :: (p ++ '@' :: s) := by
    intro u p s h hm
    simp only [List.mem_append, List.mem_cons] at hm h
    rcases hm with hm | hm | hm | hm | hm
    · exact (h _ (.inl (.inl hm))).2.1 rfl
    · exact absurd hm (by decide)
    · exact (h _ (.inl (.inr hm))).2.1 rfl
    · exact absurd hm (by decide)
    · exact (h _ (.inr hm)).2.1 rfl
  obtain ⟨e1, e2⟩ := split_first e (mark _ _ _ h3) (mark _ _ _ g3)
  obtain ⟨rfl, e3⟩ := split_first e1 h1 g1
  obtain ⟨rfl, e4⟩ := split_last e3 h2 g2
  obtain rfl := List.append_cancel_left e2
  cases a
  cases b
  simp only at *
  rw [decodes_unique h5 g5, decodes_unique h6 g6, formDecodes_unique h7 g7, e4]

theorem msAddress_says (c : Config) (hh : PlainHost c.host) : MsAddressSays (mssqlDSN c)
    { user := bytes c.user, password := bytes c.password, server := c.host ++ lit ":" ++ showInt c.port, database := bytes c.dbName } := by
  have hp := plainHost_port hh c.port
  refine ⟨userEscape c.user, userEscape c.password, queryEscape c.dbName, ?_, fun h => (userEscape_chars _ _ h).2.2.2.1 rfl,
    fun h => (plainHost_chars hp _ h).2.2.2 rfl, ?_, queryEscape_formChars _, userEscape_decodes _, userEscape_decodes _, queryEscape_form _⟩
  · unfold mssqlDSN
    rw [hostEscape_plain hp]
  · intro x hx
    simp only [List.mem_append] at hx
    rcases hx with (hx | hx) | hx
    · exact ⟨(userEscape_chars _ _ hx).1, (userEscape_chars _ _ hx).2.1, (userEscape_chars _ _ hx).2.2.1⟩
    · exact ⟨(userEscape_chars _ _ hx).1, (userEscape_chars _ _ hx).2.1, (userEscape_chars _ _ hx).2.2.1⟩
    · have := plainHost_chars hp x (by simpa [List.mem_append, or_assoc] using hx)
      exact ⟨this.1, this.2.1, this.2.2.1⟩

end Sqldef
