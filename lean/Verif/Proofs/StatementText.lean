import Verif.Proofs.ReadsAs
/-
The text of every generated statement is read as the tokens that `Spec.stmtTokens` asks for.
-/
namespace Sqldef
open Spec

variable {mode : Mode}

theorem says_sp {a b : Str} {ts us : List Token} (ha : Says mode a ts) (hb : Says mode b us) :
    Says mode (a ++ ' ' :: b) (ts ++ us) :=
  says_append ha (delimited_space mode _) (leads_says (leads_space mode) hb)

theorem leads_parens {a : Str} {ts : List Token} (h : Says mode a ts) : Leads mode ('(' :: (a ++ [')'])) (parens ts) :=
  leads_append (leads_sym mode (by simp)) (says_leads h (delimited_close mode _) (leads_sym mode (by simp)))

theorem says_parens {a b : Str} {ts us : List Token} (ha : Says mode a ts) (hb : Says mode b us) :
    Says mode (a ++ '(' :: (b ++ [')'])) (ts ++ parens us) :=
  says_append ha (delimited_open mode _) (leads_weaken (leads_parens hb))

theorem says_word (w : String) (h : plainWord (lit w) = true := by decide) : Says mode (lit w) (kws [w]) :=
  says_kw mode w h

/-- Words with spaces between them. -/
theorem says_words {ws : List String} {w : String} (h : ∀ x ∈ ws, plainWord (lit x) = true) (hw : plainWord (lit w) = true) :
    Says mode (spelled ws ++ lit w) (kws (ws ++ [w])) := by
  have := leads_says (leads_kws mode h) (says_kw mode w hw)
  simpa [kws] using this

theorem join_two (sep : Str) (a b : Str) (l : List Str) : join sep (a :: b :: l) = a ++ sep ++ join sep (b :: l) := rfl

theorem says_commas {α} (sep : Str) (hsep : sep = [','] ∨ sep = [',', ' ']) (l : List α) (f : α → Str)
    (g : α → List Token) (h : ∀ x ∈ l, Says mode (f x) (g x)) : Says mode (join sep (l.map f)) (commas (l.map g)) := by
  induction l with
  | nil => exact readsAs_nil
  | cons a l ih =>
    have ha := h a (by simp)
    have hl := ih fun x hx => h x (by simp [hx])
    cases l with
    | nil => exact ha
    | cons b l =>
      have h1 : Says mode (sep ++ join sep ((b :: l).map f)) (sym ',' :: commas ((b :: l).map g)) := by
        rcases hsep with rfl | rfl
        · exact leads_says (leads_sym mode (by simp)) hl
        · exact leads_says (leads_append (leads_sym mode (by simp)) (leads_space mode)) hl
      have h2 : Delimited mode (sep ++ join sep ((b :: l).map f)) := by
        rcases hsep with rfl | rfl
        · exact delimited_comma mode _
        · exact delimited_comma mode _
      have := says_append ha h2 h1
      simpa [join, commas, List.map_cons] using this

/-! ### Clauses with a space after each of them -/

/-- A text of clauses, each with a space after it. -/
inductive Tail (mode : Mode) : Str → List Token → Prop
  | nil : Tail mode [] []
  | cons {a b : Str} {ts us : List Token} : Says mode a ts → Tail mode b us → Tail mode (a ++ ' ' :: b) (ts ++ us)

theorem tail_one {a : Str} {ts : List Token} (h : Says mode a ts) : Tail mode (a ++ [' ']) ts := by
  have := Tail.cons h .nil
  simpa using this

theorem tail_append {a b : Str} {ts us : List Token} (ha : Tail mode a ts) (hb : Tail mode b us) :
    Tail mode (a ++ b) (ts ++ us) := by
  induction ha with
  | nil => exact hb
  | cons h _ ih =>
    rw [List.append_assoc, List.append_assoc, List.cons_append]
    exact .cons h ih

theorem tail_given {p : Prop} [Decidable p] {a : Str} {ts : List Token} (h : p → Tail mode a ts) :
    Tail mode (if p then a else []) (given p ts) := by
  unfold given
  split
  · next hp => exact h hp
  · exact .nil

theorem tail_bool {b : Bool} {a : Str} {ts : List Token} (h : b = true → Tail mode a ts) :
    Tail mode (if b then a else []) (given (b = true) ts) := tail_given h

theorem leads_tail {a : Str} {ts : List Token} (h : Tail mode a ts) : Leads mode a ts := by
  induction h with
  | nil => exact readsAs_nil
  | cons h _ ih => exact says_leads h (delimited_space mode _) (leads_append (leads_space mode) ih)

/-- A text and clauses, without the last space. -/
theorem says_tail {a b : Str} {ts us : List Token} (ha : Says mode a ts) (hb : Tail mode b us) :
    Says mode (trimSuffixSpace (a ++ ' ' :: b)) (ts ++ us) := by
  induction hb generalizing a ts with
  | nil => rw [trimSuffixSpace_append_space]; simpa using ha
  | cons h _ ih =>
    have := ih (says_sp ha h)
    simpa using this

/-! ### Types and defaults -/

theorem leads_array {c : Column} (h : c.array = true → mode ≠ .mssql) :
    Leads mode (if c.array then lit "[]" else []) (given (c.array = true) [sym '[', sym ']']) := by
  unfold given
  split
  · next hc => exact leads_brackets (h hc)
  · exact readsAs_nil

theorem says_type {c : Column} (h : CleanType mode c) : Says mode (generateDataType c) (typeTokens mode c) := by
  obtain ⟨h1, h2, h3, h4, h5⟩ := h
  have ha := leads_array (mode := mode) h5
  unfold generateDataType typeTokens
  have hpar : ∀ (x : Str) (ts : List Token), Says mode x ts →
      Says mode (c.typeName ++ lit "(" ++ x ++ lit ")" ++ (if c.array then lit "[]" else []))
        (tokensOf mode c.typeName ++ parens ts ++ given (c.array = true) [sym '[', sym ']']) := by
    intro x ts hx
    have := leads_weaken (leads_append (says_leads h1 (delimited_open mode _) (leads_parens hx)) ha)
    simpa [lit] using this
  cases hl : c.length with
  | some l =>
    cases hs : c.scale with
    | some s =>
      have := hpar (l.raw ++ lit ", " ++ s.raw) (tokensOf mode l.raw ++ sym ',' :: tokensOf mode s.raw) (by
        have := says_append (h2 l hl) (delimited_comma mode (' ' :: s.raw))
          (leads_says (leads_append (leads_sym mode (c := ',') (by simp)) (leads_space mode)) (h3 s hs))
        simpa [lit] using this)
      simpa using this
    | none => exact hpar l.raw _ (h2 l hl)
  | none =>
    unfold given
    by_cases he : c.typeName = lit "enum"
    · simp only [he, if_true]
      have := hpar _ _ (says_commas (lit ", ") (.inr rfl) c.enumValues id (tokensOf mode) h4)
      rw [he] at this
      simpa [given] using this
    · simp only [he, if_false, List.append_nil]
      by_cases hc : c.array = true
      · rw [if_pos hc, if_pos hc]
        exact says_append h1 (delimited_bracket (h5 hc) _) (leads_weaken (leads_brackets (h5 hc)))
      · rw [if_neg hc, if_neg hc]
        rw [List.append_nil, List.append_nil]
        exact h1

theorem default_text {v : Value} (h : CleanDefault mode v) :
    ∃ a, generateDefaultDefinition v = .ok a ∧ Says mode a (defaultTokens mode v) := by
  have key : ∀ (b : Str) (ts : List Token), Says mode b ts → Says mode (lit "DEFAULT " ++ b) (kw "DEFAULT" :: ts) := by
    intro b ts hb
    exact says_sp (says_word (mode := mode) "DEFAULT") hb
  unfold CleanDefault at h
  unfold generateDefaultDefinition defaultTokens
  split at h
  · next hv =>
    simp only [hv]
    refine ⟨_, rfl, ?_⟩
    have := key _ _ (says_quoted mode h)
    simpa [lit] using this
  · next hv => simp only [hv]; exact ⟨_, rfl, key _ _ (says_int mode _)⟩
  · next hv => simp only [hv]; exact ⟨_, rfl, key _ _ h⟩
  · next hv =>
    simp only [hv]
    refine ⟨_, rfl, ?_⟩
    have := key _ _ (leads_weaken (leads_bit mode v.bitVal))
    cases hb : v.bitVal <;> rw [hb] at this <;> exact this
  · next hv => simp only [hv]; exact ⟨_, rfl, key _ _ h⟩
  · exact absurd h (by simp)

/-! ### Sequences and identities -/

theorem tail_optClause (label : List String) (l : Str) (hl : l = spelled label)
    (hw : ∀ w ∈ label, plainWord (lit w) = true) (o : Option Int) :
    Tail mode (optClause l o) (optionally o fun n => kws label ++ [numeral n]) := by
  subst hl
  cases o with
  | none => exact .nil
  | some n => exact tail_one (leads_says (leads_kws mode hw) (says_int mode n))

/-- Last character of a text of clauses. -/
theorem trimSpace_tail_aux {x : Str} (hx : ∃ c y, x = c :: y ∧ isSpace c = false) (hl : ∀ c, x.getLast? = some c → isSpace c = false) :
    trimSpace (x ++ [' ']) = x := by
  obtain ⟨c, y, rfl, hc⟩ := hx
  unfold trimSpace trimRight trimLeft
  have h1 : ((c :: y) ++ [' ']).dropWhile isSpace = (c :: y) ++ [' '] := by simp [hc]
  rw [h1, List.reverse_append]
  obtain ⟨z, d, hz⟩ : ∃ z d, c :: y = z ++ [d] := ⟨(c :: y).dropLast, (c :: y).getLast (List.cons_ne_nil _ _), (List.dropLast_concat_getLast _).symm⟩
  have hd : isSpace d = false := hl d (by rw [hz]; simp)
  have hsp : isSpace ' ' = true := by decide
  rw [hz]
  simp [hd, hsp]

/-- Clauses that start and end with a visible character. -/
inductive Solid (mode : Mode) : Str → List Token → Prop
  | nil : Solid mode [] []
  | cons {a b : Str} {ts us : List Token} : Says mode a ts → (∃ c y, a = c :: y ∧ isSpace c = false) →
    (∀ c, a.getLast? = some c → isSpace c = false) → Solid mode b us → Solid mode (a ++ ' ' :: b) (ts ++ us)

theorem solid_append {a b : Str} {ts us : List Token} (ha : Solid mode a ts) (hb : Solid mode b us) :
    Solid mode (a ++ b) (ts ++ us) := by
  induction ha with
  | nil => exact hb
  | cons h h2 h3 _ ih =>
    rw [List.append_assoc, List.append_assoc, List.cons_append]
    exact .cons h h2 h3 ih

theorem solid_one {a : Str} {ts : List Token} (h : Says mode a ts) (h2 : ∃ c y, a = c :: y ∧ isSpace c = false)
    (h3 : ∀ c, a.getLast? = some c → isSpace c = false) : Solid mode (a ++ [' ']) ts := by
  have := Solid.cons h h2 h3 .nil
  simpa using this

theorem solid_given {p : Prop} [Decidable p] {a : Str} {ts : List Token} (h : p → Solid mode a ts) :
    Solid mode (if p then a else []) (given p ts) := by
  unfold given
  split
  · next hp => exact h hp
  · exact .nil

theorem solid_trim_aux {b : Str} {us : List Token} (hb : Solid mode b us) : ∀ {a : Str} {ts : List Token},
    Says mode a ts → (∃ c y, a = c :: y ∧ isSpace c = false) → (∀ c, a.getLast? = some c → isSpace c = false) →
    Says mode (trimSpace (a ++ ' ' :: b)) (ts ++ us) := by
  induction hb with
  | nil => intro a ts h h2 h3; rw [trimSpace_tail_aux h2 h3]; simpa using h
  | cons h h2 h3 _ ih =>
    intro a ts ha ha2 ha3
    have := ih (says_sp ha h) (by obtain ⟨c, y, rfl, hc⟩ := ha2; exact ⟨c, _, rfl, hc⟩) (by
      intro c hc
      refine h3 c ?_
      rw [List.getLast?_append, List.getLast?_cons] at hc
      obtain ⟨d, y, rfl, _⟩ := h2
      simpa [List.getLast?_cons] using hc)
    simpa using this

theorem solid_trim {b : Str} {us : List Token} (hb : Solid mode b us) : Says mode (trimSpace b) us := by
  cases hb with
  | nil => exact readsAs_nil
  | cons h h2 h3 hb => exact solid_trim_aux hb h h2 h3

theorem digit_not_space {c : Char} (h : isDigit c = true) : isSpace c = false := by
  have h' : 48 ≤ c.toNat ∧ c.toNat ≤ 57 := by
    unfold isDigit at h
    simp only [Bool.and_eq_true, decide_eq_true_eq] at h
    exact ⟨h.1, h.2⟩
  unfold isSpace
  rw [decide_eq_false]
  simp only [List.mem_cons, List.not_mem_nil, or_false]
  omega

theorem getLast_mem {l : Str} {c : Char} (h : l.getLast? = some c) : c ∈ l := List.mem_of_getLast? h

theorem showInt_last (n : Int) (c : Char) (h : (showInt n).getLast? = some c) : isDigit c = true := by
  cases n with
  | ofNat n => exact (toDigits_digits n).2 c (getLast_mem h)
  | negSucc n =>
    unfold showInt at h
    rw [List.getLast?_cons] at h
    have hne := (toDigits_digits (n + 1)).1
    cases hg : (Nat.toDigits 10 (n + 1)).getLast? with
    | none => exact absurd (List.getLast?_eq_none_iff.mp hg) hne
    | some d =>
      rw [hg] at h
      simp at h
      exact (toDigits_digits (n + 1)).2 c (getLast_mem (by rw [hg, h]))

theorem getLast_append_ne {a b : Str} (hb : b ≠ []) (c : Char) (h : (a ++ b).getLast? = some c) : b.getLast? = some c := by
  rw [List.getLast?_append] at h
  cases hg : b.getLast? with
  | none => exact absurd (List.getLast?_eq_none_iff.mp hg) hb
  | some d => rw [hg] at h; simpa using h

theorem showInt_ne (n : Int) : showInt n ≠ [] := by
  cases n with
  | ofNat n => exact (toDigits_digits n).1
  | negSucc n => simp [showInt]

theorem solid_optClause (label : List String) (l : Str) (hl : l = spelled label)
    (hw : ∀ w ∈ label, plainWord (lit w) = true) (hc : ∃ c y, l = c :: y ∧ isSpace c = false) (o : Option Int) :
    Solid mode (optClause l o) (optionally o fun n => kws label ++ [numeral n]) := by
  subst hl
  cases o with
  | none => exact .nil
  | some n =>
    refine solid_one (leads_says (leads_kws mode hw) (says_int mode n)) ?_ ?_
    · obtain ⟨c, y, h, hs⟩ := hc
      exact ⟨c, y ++ showInt n, by rw [h]; rfl, hs⟩
    · intro c h
      exact digit_not_space (showInt_last n c (getLast_append_ne (showInt_ne n) c h))

theorem says_sequence {s : Sequence} (h : CleanSequence mode s) :
    Says mode (generateSequenceClause s) (sequenceTokens mode s) := by
  unfold generateSequenceClause sequenceTokens
  refine solid_trim ?_
  have hno : ∀ (b : Bool) (w : String), plainWord (lit w) = true → (∀ c, (lit w).getLast? = some c → isSpace c = false) →
      lit w ≠ [] →
      Solid mode (if b then lit "NO " ++ (lit w ++ [' ']) else []) (given (b = true) (kws ["NO", w])) := by
    intro b w hw hl hn
    refine solid_given fun _ => ?_
    have := solid_one (says_words (mode := mode) (ws := ["NO"]) (w := w) (by decide) hw) ⟨'N', _, rfl, by decide⟩ (by
      intro c hc
      exact hl c (getLast_append_ne hn c hc))
    simpa [spelled, lit] using this
  refine solid_append (solid_append (solid_append (solid_append (solid_append (solid_append (solid_append (solid_append
    (solid_append ?_ ?_) ?_) ?_) ?_) ?_) ?_) ?_) ?_) ?_
  · refine solid_given fun hn => ?_
    have h1 := h hn
    have := solid_one (leads_says (leads_kws mode (ws := ["SEQUENCE", "NAME"]) (by decide)) h1.1) ⟨'S', _, rfl, by decide⟩ (by
      intro c hc
      exact h1.2 c (getLast_append_ne hn c hc))
    simpa [spelled, lit] using this
  · exact solid_optClause ["START", "WITH"] _ rfl (by decide) ⟨'S', _, rfl, by decide⟩ _
  · exact solid_optClause ["INCREMENT", "BY"] _ rfl (by decide) ⟨'I', _, rfl, by decide⟩ _
  · exact solid_optClause ["MINVALUE"] _ rfl (by decide) ⟨'M', _, rfl, by decide⟩ _
  · exact hno _ "MINVALUE" (by decide) (by intro c hc; simp [lit] at hc; subst hc; decide) (by decide)
  · exact solid_optClause ["MAXVALUE"] _ rfl (by decide) ⟨'M', _, rfl, by decide⟩ _
  · exact hno _ "MAXVALUE" (by decide) (by intro c hc; simp [lit] at hc; subst hc; decide) (by decide)
  · exact solid_optClause ["CACHE"] _ rfl (by decide) ⟨'C', _, rfl, by decide⟩ _
  · refine solid_given fun _ => ?_
    exact solid_one (says_word (mode := mode) "CYCLE") ⟨'C', _, rfl, by decide⟩ (by intro c hc; simp [lit] at hc; subst hc; decide)
  · exact hno _ "CYCLE" (by decide) (by intro c hc; simp [lit] at hc; subst hc; decide) (by decide)

/-! ### Columns -/

theorem tail_words {ws : List String} {w : String} (h : ∀ x ∈ ws, plainWord (lit x) = true) (hw : plainWord (lit w) = true) :
    Tail mode (spelled (ws ++ [w])) (kws (ws ++ [w])) := by
  have := tail_one (says_words (mode := mode) h hw)
  have e : ∀ l : List String, spelled (l ++ [w]) = spelled l ++ lit w ++ [' '] := by
    intro l
    induction l with
    | nil => simp [spelled]
    | cons x l ih => simp [spelled, ih]
  rw [e]
  exact this

theorem tail_null (c : Column) : Tail mode (nullClause c)
    (if saysNotNull c then kws ["NOT", "NULL"] else given (c.notNull = some false) (kws ["NULL"])) := by
  unfold nullClause
  have e : (c.identity.isNone && (decide (c.notNull = some true) || decide (c.keyOption = .primary))) = true ↔
      saysNotNull c := by simp [saysNotNull]
  by_cases h : saysNotNull c
  · rw [if_pos (e.mpr h), if_pos h]
    exact tail_words (ws := ["NOT"]) (w := "NULL") (by decide) (by decide)
  · rw [if_neg (fun hh => h (e.mp hh)), if_neg h]
    exact tail_given fun _ => tail_words (ws := []) (w := "NULL") (by decide) (by decide)

theorem default_clause {c : Column} (h : ∀ v, c.defaultDef.bind (·.value) = some v → CleanDefault mode v) :
    ∃ a, defaultClause c = .ok a ∧ Tail mode a (optionally (c.defaultDef.bind (·.value)) (defaultTokens mode)) := by
  unfold defaultClause
  cases hd : c.defaultDef with
  | none => exact ⟨[], rfl, .nil⟩
  | some d =>
    cases hv : d.value with
    | none => exact ⟨[], by simp only [hv], by simp [hv, optionally]; exact .nil⟩
    | some v =>
      obtain ⟨a, ha, hs⟩ := default_text (h v (by simp [hd, hv]))
      refine ⟨a ++ lit " ", by simp only [hv, ha]; rfl, ?_⟩
      simp only [Option.bind_some, hv, optionally]
      exact tail_one hs

theorem tail_check {c : Column} (h : ∀ k, c.check = some k → Legible mode k.definition) :
    Tail mode (checkClause c) (optionally c.check (fun k => kws ["CHECK"] ++
      given (k.notForReplication = true) (kws ["NOT", "FOR", "REPLICATION"]) ++ parens (tokensOf mode k.definition)) ++
      given (c.checkNoInherit = true) (kws ["NO", "INHERIT"])) := by
  unfold checkClause
  refine tail_append ?_ (tail_given fun _ => tail_words (ws := ["NO"]) (w := "INHERIT") (by decide) (by decide))
  cases hk : c.check with
  | none => exact .nil
  | some k =>
    simp only [optionally]
    have h1 : Tail mode (lit "CHECK ") (kws ["CHECK"]) := tail_words (ws := []) (w := "CHECK") (by decide) (by decide)
    have h2 : Tail mode (if k.notForReplication then lit "NOT FOR REPLICATION " else [])
        (given (k.notForReplication = true) (kws ["NOT", "FOR", "REPLICATION"])) :=
      tail_given fun _ => tail_words (ws := ["NOT", "FOR"]) (w := "REPLICATION") (by decide) (by decide)
    have h3 := tail_one (leads_weaken (leads_parens (h k hk)))
    have := tail_append (tail_append h1 h2) h3
    simpa [lit] using this

theorem key_clause {c : Column} {withUnique : Bool} (h1 : c.keyOption ≠ .spatialKey) (h2 : c.keyOption ≠ .key) :
    ∃ a, keyClause c withUnique = .ok a ∧ Tail mode a
      (given (withUnique = true ∧ c.keyOption = .unique) (kws ["UNIQUE"]) ++
       given (withUnique = true ∧ c.keyOption = .uniqueKey) (kws ["UNIQUE", "KEY"])) := by
  unfold keyClause
  cases hk : c.keyOption with
  | none => exact ⟨[], rfl, by simp [given]; exact .nil⟩
  | primary => exact ⟨[], rfl, by simp [given]; exact .nil⟩
  | spatialKey => exact absurd hk h1
  | key => exact absurd hk h2
  | unique =>
    refine ⟨_, rfl, ?_⟩
    cases withUnique
    · simp [given]; exact .nil
    · simp [given]; exact tail_words (ws := []) (w := "UNIQUE") (by decide) (by decide)
  | uniqueKey =>
    refine ⟨_, rfl, ?_⟩
    cases withUnique
    · simp [given]; exact .nil
    · simp [given]; exact tail_words (ws := ["UNIQUE"]) (w := "KEY") (by decide) (by decide)

/-- The identity clause is empty, or a clause with a space after it, or the last clause without a space. -/
theorem identity_clause {c : Column} (h : CleanIdentity mode c) :
    ∃ a, identityClause mode c = .ok a ∧ (Tail mode a (identityTokens mode c) ∨
      Says mode a (identityTokens mode c) ∧ ∃ x ch, a = x ++ [ch] ∧ ch ≠ ' ') := by
  obtain ⟨h1, h2, h3⟩ := h
  unfold identityClause identityTokens
  have hn : c.identity = none → mode = .mssql → c.sequence = none := by
    intro hi hm
    cases hs : c.sequence with
    | none => rfl
    | some s =>
      rcases h3 hm s hs with ⟨i, hi', _⟩ | ⟨hi', _⟩
      · rw [hi] at hi'; cases hi'
      · rw [hi] at hi'; simp at hi'
  cases hi : c.identity with
  | none =>
    refine ⟨[], ?_, .inl .nil⟩
    by_cases hm : mode = .mssql
    · simp [hm, hn hi hm]
    · simp [hm]
  | some i =>
    simp only
    by_cases hb : i.behavior ≠ []
    · rw [if_pos hb, if_pos hb]
      refine ⟨_, rfl, .inl ?_⟩
      have ha : Tail mode (lit "GENERATED " ++ i.behavior ++ lit " AS IDENTITY ")
          (kws ["GENERATED"] ++ tokensOf mode i.behavior ++ kws ["AS", "IDENTITY"]) := by
        have := tail_append (tail_append (tail_words (mode := mode) (ws := []) (w := "GENERATED") (by decide) (by decide))
          (tail_one (h1 i hi hb))) (tail_words (ws := ["AS"]) (w := "IDENTITY") (by decide) (by decide))
        simpa [spelled, lit] using this
      refine tail_append ha ?_
      cases hs : c.sequence with
      | none => exact .nil
      | some s =>
        have := tail_one (leads_weaken (leads_parens (says_sequence (h2 s hs))))
        simpa [lit, optionally] using this
    · rw [if_neg hb, if_neg hb]
      by_cases hm : mode = .mssql
      · rw [if_pos hm, if_pos hm]
        cases hs : c.sequence with
        | none => exact ⟨[], rfl, .inl .nil⟩
        | some s =>
          rcases h3 hm s hs with ⟨i', hi', hb'⟩ | ⟨_, hst, hinc⟩
          · rw [hi] at hi'; cases hi'; exact absurd hb' hb
          · obtain ⟨a, ha⟩ := Option.isSome_iff_exists.mp hst
            obtain ⟨b, hb⟩ := Option.isSome_iff_exists.mp hinc
            simp only [ha, hb]
            refine ⟨_, rfl, .inr ⟨?_, ?_⟩⟩
            · have h5 : Says mode (showInt a ++ ',' :: showInt b) ([numeral a] ++ sym ',' :: [numeral b]) :=
                says_append (says_int mode a) (delimited_comma mode _)
                  (leads_says (leads_sym mode (c := ',') (by simp)) (says_int mode b))
              have h6 := leads_weaken (says_leads (says_word (mode := mode) "IDENTITY") (delimited_open mode _) (leads_parens h5))
              by_cases hr : i.notForReplication = true
              · have h7 := says_sp h6 (says_words (mode := mode) (ws := ["NOT", "FOR"]) (w := "REPLICATION") (by decide)
                  (by decide))
                simpa [hr, given, optionally, ha, hb, spelled, lit, kws] using h7
              · simpa [hr, given, optionally, ha, hb, lit, kws] using h6
            · by_cases hr : i.notForReplication = true
              · rw [if_pos hr]
                exact ⟨lit "IDENTITY(" ++ showInt a ++ lit "," ++ showInt b ++ lit ")" ++ lit " NOT FOR REPLICATIO", 'N',
                  by simp [lit], by decide⟩
              · rw [if_neg hr]
                exact ⟨lit "IDENTITY(" ++ showInt a ++ lit "," ++ showInt b, ')', by simp [lit], by decide⟩
      · rw [if_neg hm, if_neg hm]
        exact ⟨[], rfl, .inl .nil⟩

theorem says_column {c : Column} {withUnique : Bool} (h : CleanColumn mode c) :
    ∃ a, generateColumnDefinition mode c withUnique = .ok a ∧ Says mode a (columnTokens mode c withUnique) := by
  obtain ⟨h1, h2, h3, h4, h5, h6, h7, h8, h9, h10⟩ := h
  obtain ⟨d, hd, hdt⟩ := default_clause h5
  obtain ⟨k, hk, hkt⟩ := key_clause (mode := mode) (withUnique := withUnique) h8 h9
  obtain ⟨i, hi, hit⟩ := identity_clause h10
  refine ⟨_, by simp only [generateColumnDefinition, hd, hk, hi]; rfl, ?_⟩
  have hu : Tail mode (if c.unsigned then lit "UNSIGNED " else []) (given (c.unsigned = true) (kws ["UNSIGNED"])) :=
    tail_given fun _ => tail_words (ws := []) (w := "UNSIGNED") (by decide) (by decide)
  have hz : Tail mode (if c.timezone then lit "WITH TIME ZONE " else [])
      (given (c.timezone = true) (kws ["WITH", "TIME", "ZONE"])) :=
    tail_given fun _ => tail_words (ws := ["WITH", "TIME"]) (w := "ZONE") (by decide) (by decide)
  have hcs : Tail mode (if c.charset ≠ [] then lit "CHARACTER SET " ++ c.charset ++ lit " " else [])
      (given (c.charset ≠ []) (kws ["CHARACTER", "SET"] ++ tokensOf mode c.charset)) :=
    tail_given fun hp => by
      rw [List.append_assoc]
      exact tail_append (tail_words (ws := ["CHARACTER"]) (w := "SET") (by decide) (by decide))
        (tail_one (h3 hp))
  have hco : Tail mode (if c.collate ≠ [] then lit "COLLATE " ++ c.collate ++ lit " " else [])
      (given (c.collate ≠ []) (kws ["COLLATE"] ++ tokensOf mode c.collate)) :=
    tail_given fun hp => by
      rw [List.append_assoc]
      exact tail_append (tail_words (ws := []) (w := "COLLATE") (by decide) (by decide))
        (tail_one (h4 hp))
  have hai : Tail mode (if c.autoIncrement then lit "AUTO_INCREMENT " else [])
      (given (c.autoIncrement = true) (kws ["AUTO_INCREMENT"])) :=
    tail_given fun _ => tail_words (ws := []) (w := "AUTO_INCREMENT") (by decide) (by decide)
  have hou : Tail mode (match c.onUpdate with | none => [] | some v => lit "ON UPDATE " ++ v.raw ++ lit " ")
      (optionally c.onUpdate (fun v => kws ["ON", "UPDATE"] ++ tokensOf mode v.raw)) := by
    cases ho : c.onUpdate with
    | none => exact .nil
    | some v =>
      have := tail_append (tail_words (mode := mode) (ws := ["ON"]) (w := "UPDATE") (by decide) (by decide))
        (tail_one (h6 v ho))
      simpa [spelled, lit, optionally] using this
  have htail := tail_append hu <| tail_append hz <| tail_append hcs <| tail_append hco <|
    tail_append (tail_null c) <| tail_append hdt <| tail_append hai <| tail_append hou <|
    tail_append (tail_check h7) hkt
  have hty := says_sp (says_name h1) (says_type h2)
  rcases hit with hit | ⟨hit, x, ch, hx, hch⟩
  · have := says_tail hty (tail_append htail hit)
    simp [columnTokens, lit] at this ⊢
    exact this
  · have := leads_says (says_leads hty (delimited_space mode _) (leads_append (leads_space mode) (leads_tail htail))) hit
    rw [hx] at this ⊢
    rw [← List.append_assoc, trimSuffixSpace_append_nonspace _ _ hch]
    simp [columnTokens, lit] at this ⊢
    exact this

/-! ### Indexes and foreign keys -/

theorem says_given {p : Prop} [Decidable p] {a : Str} {ts : List Token} (h : p → Says mode a ts) :
    Says mode (if p then a else []) (given p ts) := by
  unfold given
  split
  · next hp => exact h hp
  · exact readsAs_nil

/-- A text that is empty or starts with a space. -/
inductive Onward (mode : Mode) : Str → List Token → Prop
  | nil : Onward mode [] []
  | cons {a : Str} {ts : List Token} : Says mode a ts → Onward mode (' ' :: a) ts

theorem says_onward {a b : Str} {ts us : List Token} (ha : Says mode a ts) (hb : Onward mode b us) :
    Says mode (a ++ b) (ts ++ us) := by
  cases hb with
  | nil => simpa using ha
  | cons hb => exact says_sp ha hb

theorem onward_given {p : Prop} [Decidable p] {a : Str} {ts : List Token} (h : p → Says mode a ts) :
    Onward mode (if p then ' ' :: a else []) (given p ts) := by
  unfold given
  split
  · next hp => exact .cons (h hp)
  · exact .nil

theorem says_indexColumn {c : IndexColumn} (h : CleanName mode c.column) :
    Says mode (indexColumnText mode c) (indexColumnTokens mode c) := by
  unfold indexColumnText indexColumnTokens
  have h1 : Says mode (escapeSQLName mode c.column ++ (match c.length with
      | none => []
      | some n => lit "(" ++ showInt n ++ lit ")")) (named c.column :: optionally c.length fun n => parens [numeral n]) := by
    cases c.length with
    | none => simpa [optionally] using says_name h
    | some n =>
      have := says_parens (says_name h) (says_int mode n)
      simpa [lit, optionally] using this
  refine says_onward h1 ?_
  by_cases hd : c.direction = descScr
  · rw [if_pos hd, hd]
    unfold given
    rw [if_pos (show descScr = lit "desc" from rfl)]
    exact .cons (says_word (mode := mode) "desc")
  · rw [if_neg hd]
    unfold given
    rw [if_neg (show ¬ c.direction = lit "desc" from hd)]
    exact .nil

theorem mssql_option {o : IndexOption} (h1 : Legible .mssql o.optionName)
    (h2 : ∃ v, o.value = some v ∧ (v.valueType ≠ .bool → Legible .mssql v.raw)) :
    ∃ a, mssqlIndexOption o = .ok a ∧ Says .mssql a (tokensOf .mssql o.optionName ++ sym '=' :: optionally o.value (fun v =>
        if v.valueType = .bool then (if v.raw = lit "true" then kws ["ON"] else kws ["OFF"])
        else tokensOf .mssql v.raw)) := by
  obtain ⟨v, hv, hl⟩ := h2
  simp only [mssqlIndexOption, hv, optionally]
  refine ⟨_, rfl, ?_⟩
  have key : ∀ (x : Str) (ts : List Token), Says .mssql x ts →
      Says .mssql (o.optionName ++ lit " = " ++ x) (tokensOf .mssql o.optionName ++ sym '=' :: ts) := by
    intro x ts hx
    have := says_sp h1 (leads_says (leads_append (leads_sym .mssql (c := '=') (by simp)) (leads_space .mssql)) hx)
    simpa [lit] using this
  refine key _ _ ?_
  by_cases hb : v.valueType = .bool
  · rw [if_pos hb, if_pos hb]
    split
    · exact says_word "ON"
    · exact says_word "OFF"
  · rw [if_neg hb, if_neg hb]
    exact hl hb

theorem mapM_says {α} (f : α → Except Err Str) (g : α → List Token) {l : List α}
    (h : ∀ x ∈ l, ∃ a, f x = .ok a ∧ Says mode a (g x)) :
    ∃ as, l.mapM f = .ok as ∧ Says mode (join (lit ", ") as) (commas (l.map g)) := by
  have h1 : ∃ F : α → Str, ∀ x ∈ l, f x = .ok (F x) ∧ Says mode (F x) (g x) := by
    refine ⟨fun x => textOf (f x), fun x hx => ?_⟩
    obtain ⟨a, ha, hs⟩ := h x hx
    show f x = .ok (textOf (f x)) ∧ Says mode (textOf (f x)) (g x)
    rw [ha]
    exact ⟨rfl, hs⟩
  obtain ⟨F, hF⟩ := h1
  refine ⟨l.map F, ?_, says_commas (lit ", ") (.inr rfl) l F g fun x hx => (hF x hx).2⟩
  clear h
  induction l with
  | nil => rfl
  | cons x l ih =>
    rw [List.mapM_cons, (hF x (by simp)).1, ih fun y hy => hF y (by simp [hy])]
    rfl

theorem index_options {os : List IndexOption} (h : CleanIndexOptions mode os) :
    ∃ a, generateIndexOptionDefinition mode os = .ok a ∧ Onward mode a (indexOptionTokens mode os) := by
  cases os with
  | nil =>
    refine ⟨[], rfl, ?_⟩
    have : indexOptionTokens mode [] = [] := by cases mode <;> rfl
    rw [this]
    exact .nil
  | cons o os =>
    cases mode with
    | postgres => exact ⟨[], rfl, .nil⟩
    | sqlite3 => exact ⟨[], rfl, .nil⟩
    | mysql =>
      obtain ⟨h1, v, hv, h2⟩ := h (.inl rfl) o (by simp)
      simp only [generateIndexOptionDefinition, hv]
      refine ⟨_, rfl, ?_⟩
      simp only [indexOptionTokens, hv, optionally, given]
      have key : ∀ (x : Str) (ts : List Token), Says .mysql x ts →
          Onward .mysql (lit " " ++ x ++ lit " " ++ v.raw) (ts ++ tokensOf .mysql v.raw) := by
        intro x ts hx
        have := Onward.cons (says_sp hx (h2 (.inr rfl)))
        simpa [lit] using this
      by_cases hp : o.optionName = lit "parser"
      · rw [if_pos hp, if_pos hp]
        exact key _ _ (says_sp (says_word (mode := .mysql) "WITH") h1)
      · rw [if_neg hp, if_neg hp]
        exact key _ _ h1
    | mssql =>
      obtain ⟨as, has, hs⟩ := mapM_says (mode := .mssql) mssqlIndexOption _ (l := o :: os) fun x hx => by
        obtain ⟨h1, v, hv, h2⟩ := h (.inr rfl) x hx
        exact mssql_option h1 ⟨v, hv, fun hb => h2 (.inl hb)⟩
      simp only [generateIndexOptionDefinition, has]
      refine ⟨_, rfl, ?_⟩
      simp only [indexOptionTokens, given, ne_eq, List.cons_ne_nil, not_false_eq_true, if_true]
      have := Onward.cons (says_sp (says_word (mode := .mssql) "WITH") (leads_weaken (leads_parens hs)))
      simpa [lit] using this

theorem spelled_two (a b : String) : spelled [a, b] = lit a ++ lit " " ++ lit b ++ lit " " := by simp [spelled, lit]

theorem says_index {t : Str} {i : Index} (ht : CleanTable mode t) (h : CleanIndex mode i) :
    ∃ a, generateAddIndex mode t i = .ok a ∧ Says mode a (indexTokens mode t i) := by
  obtain ⟨h1, h2, h3, h4, h5, h6⟩ := h
  obtain ⟨o, ho, hos⟩ := index_options h4
  have hcols := says_commas (mode := mode) (lit ", ") (.inr rfl) i.columns (indexColumnText mode) (indexColumnTokens mode)
    fun c hc => says_indexColumn (h3 c hc)
  have htail : Onward mode (lit " (" ++ join (lit ", ") (i.columns.map (indexColumnText mode)) ++ lit ")" ++ o)
      (parens (commas (i.columns.map (indexColumnTokens mode))) ++ indexOptionTokens mode i.options) := by
    have := Onward.cons (says_onward (leads_weaken (leads_parens hcols)) hos)
    simpa [lit] using this
  have halter := leads_says (leads_kws mode (ws := ["ALTER", "TABLE"]) (by decide)) (says_table ht)
  by_cases hm : mode = .mssql
  · subst hm
    have hcl : Says .mssql (if i.clustered then lit "CLUSTERED" else lit "NONCLUSTERED")
        (if i.clustered = true then kws ["CLUSTERED"] else kws ["NONCLUSTERED"]) := by
      split
      · exact says_word "CLUSTERED"
      · exact says_word "NONCLUSTERED"
    have hcle : (if i.clustered then lit " CLUSTERED" else lit " NONCLUSTERED") =
        ' ' :: (if i.clustered then lit "CLUSTERED" else lit "NONCLUSTERED") := by split <;> rfl
    by_cases hp : i.primary = true
    · simp only [generateAddIndex, ho, hp, indexTokens, if_true]
      refine ⟨_, rfl, ?_⟩
      have hcon : Onward .mssql (if i.name ≠ lit "PRIMARY" then lit " CONSTRAINT " ++ escapeSQLName .mssql i.name else [])
          (given (i.name ≠ lit "PRIMARY") (kws ["CONSTRAINT"] ++ [named i.name])) :=
        onward_given (a := lit "CONSTRAINT " ++ escapeSQLName .mssql i.name) fun _ =>
          leads_says (leads_kws .mssql (ws := ["CONSTRAINT"]) (by decide)) (says_name h1)
      have := says_onward (says_sp (says_sp (says_onward (says_sp halter (says_word (mode := .mssql) "ADD")) hcon) h2) hcl) htail
      rw [hcle]
      simpa [spelled, lit] using this
    · have hp' : i.primary = false := by simpa using hp
      simp only [generateAddIndex, ho, hp', indexTokens, if_true, Bool.not_false, Bool.false_eq_true, if_false]
      refine ⟨_, rfl, ?_⟩
      have huq : Onward .mssql (if i.unique then lit " UNIQUE" else []) (given (i.unique = true) (kws ["UNIQUE"])) :=
        onward_given (a := lit "UNIQUE") fun _ => says_word (mode := .mssql) "UNIQUE"
      have hpart : Onward .mssql (if i.partition.partitionName ≠ [] then
          lit " ON " ++ escapeSQLName .mssql i.partition.partitionName ++
          (if i.partition.column ≠ [] then
            lit " (" ++ escapeSQLName .mssql i.partition.column ++ lit ")" else [])
         else []) (given (i.partition.partitionName ≠ [])
          (kws ["ON"] ++ [named i.partition.partitionName] ++
          given (i.partition.column ≠ []) (parens [named i.partition.column]))) := by
        have e : (if i.partition.column ≠ [] then
            lit " (" ++ escapeSQLName .mssql i.partition.column ++ lit ")" else []) =
            (if i.partition.column ≠ [] then ' ' :: ('(' :: (escapeSQLName .mssql i.partition.column ++ [')'])) else []) := by
          split <;> simp [lit]
        rw [e]
        have := onward_given (mode := .mssql) (p := i.partition.partitionName ≠ []) fun hp =>
          says_onward (says_sp (says_word (mode := .mssql) "ON") (says_name (h5 hp)))
            (onward_given (p := i.partition.column ≠ []) fun hc => leads_weaken (leads_parens (says_name (h6 hc))))
        exact this
      have := says_onward (says_onward (says_sp (says_sp (says_sp (says_sp (says_sp (says_onward (says_word (mode := .mssql)
        "CREATE") huq) hcl) (says_word (mode := .mssql) "INDEX")) (says_name h1)) (says_word (mode := .mssql) "ON"))
        (says_table ht)) htail) hpart
      rw [hcle]
      simpa [lit] using this
  · have hg : ∃ a, generateAddIndex mode t i = .ok a ∧ a = lit "ALTER TABLE " ++ escapeTableName mode t ++ lit " ADD " ++
        i.indexType ++ (if !i.primary then lit " " ++ escapeSQLName mode i.name else []) ++
        (lit " (" ++ join (lit ", ") (i.columns.map (indexColumnText mode)) ++ lit ")" ++ o) := by
      unfold generateAddIndex
      rw [ho]
      cases mode with
      | mssql => exact absurd rfl hm
      | mysql => exact ⟨_, rfl, rfl⟩
      | postgres => exact ⟨_, rfl, rfl⟩
      | sqlite3 => exact ⟨_, rfl, rfl⟩
    obtain ⟨a, hga, rfl⟩ := hg
    refine ⟨_, hga, ?_⟩
    simp only [indexTokens, if_neg hm]
    have hname : Onward mode (if !i.primary then lit " " ++ escapeSQLName mode i.name else [])
        (given (i.primary = false) [named i.name]) := by
      have := onward_given (mode := mode) (p := i.primary = false) fun _ => says_name h1
      cases hp : i.primary <;> simpa [hp, lit] using this
    have := says_onward (says_onward (says_sp (says_sp halter (says_word (mode := mode) "ADD")) h2) hname) htail
    simpa [spelled, lit] using this

theorem says_foreignKey {fk : ForeignKey} (h : CleanForeignKey mode fk) :
    Says mode (generateForeignKeyDefinition mode fk) (foreignKeyTokens mode fk) := by
  obtain ⟨h1, h2, h3, h4, h5, h6, h7⟩ := h
  unfold generateForeignKeyDefinition foreignKeyTokens
  have hic := says_commas (mode := mode) (lit ",") (.inl rfl) fk.indexColumns (escapeSQLName mode) (fun c => [named c])
    fun c hc => says_name (h3 c hc)
  have hrc := says_commas (mode := mode) (lit ",") (.inl rfl) fk.referenceColumns (escapeSQLName mode) (fun c => [named c])
    fun c hc => says_name (h5 c hc)
  have ht1 : Tail mode (if fk.indexName ≠ [] then escapeSQLName mode fk.indexName ++ lit " " else [])
      (given (fk.indexName ≠ []) [named fk.indexName]) := tail_given fun hp => tail_one (says_name (h2 hp))
  have ht2 : Tail mode (if fk.onDelete ≠ [] then lit "ON DELETE " ++ fk.onDelete ++ lit " " else [])
      (given (fk.onDelete ≠ []) (kws ["ON", "DELETE"] ++ tokensOf mode fk.onDelete)) :=
    tail_given fun hp => by
      rw [List.append_assoc]
      exact tail_append (tail_words (ws := ["ON"]) (w := "DELETE") (by decide) (by decide)) (tail_one (h6 hp))
  have ht3 : Tail mode (if fk.onUpdate ≠ [] then lit "ON UPDATE " ++ fk.onUpdate ++ lit " " else [])
      (given (fk.onUpdate ≠ []) (kws ["ON", "UPDATE"] ++ tokensOf mode fk.onUpdate)) :=
    tail_given fun hp => by
      rw [List.append_assoc]
      exact tail_append (tail_words (ws := ["ON"]) (w := "UPDATE") (by decide) (by decide)) (tail_one (h7 hp))
  have ht4 : Tail mode (if fk.notForReplication then lit "NOT FOR REPLICATION " else [])
      (given (fk.notForReplication = true) (kws ["NOT", "FOR", "REPLICATION"])) :=
    tail_given fun _ => tail_words (ws := ["NOT", "FOR"]) (w := "REPLICATION") (by decide) (by decide)
  have h0 := says_sp (says_word (mode := mode) "CONSTRAINT") (says_name h1)
  have htail := tail_append (tail_append (tail_append (tail_append (tail_append (tail_append (tail_append (tail_append
    (tail_words (mode := mode) (ws := ["FOREIGN"]) (w := "KEY") (by decide) (by decide)) ht1)
    (tail_one (leads_weaken (leads_parens hic))))
    (tail_words (ws := []) (w := "REFERENCES") (by decide) (by decide))) (tail_one (says_name h4)))
    (tail_one (leads_weaken (leads_parens hrc)))) ht2) ht3) ht4
  have := says_tail h0 htail
  simpa [spelled, lit] using this

/-! ### Statements -/

theorem says_alter {t b : Str} {us : List Token} (ht : CleanTable mode t) (hb : Says mode b us) :
    Says mode (alterTable mode t ++ b) (alterTokens mode t us) := by
  have := says_sp (leads_says (leads_kws mode (ws := ["ALTER", "TABLE"]) (by decide)) (says_table ht)) hb
  simpa [alterTable, alterTokens, spelled, lit] using this

theorem says_alterColumn {t c b : Str} {us : List Token} (ht : CleanTable mode t) (hc : CleanName mode c)
    (hb : Says mode b us) :
    Says mode (alterTable mode t ++ lit "ALTER COLUMN " ++ escapeSQLName mode c ++ lit " " ++ b)
      (alterColumnTokens mode t c us) := by
  have := says_alter ht (says_sp (leads_says (leads_kws mode (ws := ["ALTER", "COLUMN"]) (by decide)) (says_name hc)) hb)
  simpa [alterColumnTokens, spelled, lit] using this

theorem onward_place {place : Place} (h : ∀ a, place = .after a → CleanName mode a) :
    Onward mode (place.render mode) (placeTokens place) := by
  cases place with
  | none => exact .nil
  | first => exact .cons (says_word (mode := mode) "FIRST")
  | after a => exact .cons (says_sp (says_word (mode := mode) "AFTER") (says_name (h a rfl)))

theorem says_joined (l : List Str) (h : ∀ b ∈ l, Legible mode b) : Says mode (join (lit " ") l) (l.flatMap (tokensOf mode)) := by
  induction l with
  | nil => exact readsAs_nil
  | cons a l ih =>
    have hl := ih fun x hx => h x (by simp [hx])
    cases l with
    | nil => simpa [join] using (show Says mode a _ from h a (by simp))
    | cons b l =>
      have := says_sp (show Says mode a _ from h a (by simp)) hl
      simpa [join, lit] using this

theorem says_trigger {t : Trigger} (h1 : CleanName mode t.name) (h2 : CleanTable mode t.tableName)
    (h3 : Legible mode t.time) (h4 : Legible mode t.event) (h5 : ∀ b ∈ t.body, Legible mode b) :
    Says mode (triggerDefinition mode t) (triggerTokens mode t) := by
  have hb := says_joined t.body h5
  have h0 := says_sp (says_word (mode := mode) "TRIGGER") (says_name h1)
  by_cases hm : mode = .mssql
  · subst hm
    have := says_sp (says_sp (says_sp (says_sp (says_sp (says_sp h0 (says_word (mode := .mssql) "ON")) (says_table h2)) h3)
      h4) (says_word (mode := .mssql) "AS")) hb
    simpa [triggerDefinition, triggerTokens, lit] using this
  · have := says_sp (says_sp (says_sp (says_sp (says_sp (says_sp h0 h3) h4) (says_word (mode := mode) "ON")) (says_table h2))
      (says_words (mode := mode) (ws := ["FOR", "EACH"]) (w := "ROW") (by decide) (by decide))) hb
    cases mode with
    | mssql => exact absurd rfl hm
    | mysql => simpa [triggerDefinition, triggerTokens, lit, spelled] using this
    | postgres => simpa [triggerDefinition, triggerTokens, lit, spelled] using this
    | sqlite3 => simpa [triggerDefinition, triggerTokens, lit, spelled] using this

/-- Every statement. -/
theorem says_stmt {s : Stmt} (h : CleanStmt mode s) : Says mode (s.render mode) (stmtTokens mode s) := by
  have w1 : ∀ (w : String) {b : Str} {us : List Token}, plainWord (lit w) = true → Says mode b us →
      Says mode (lit w ++ ' ' :: b) (kws [w] ++ us) := fun w _ _ hw hb => says_sp (says_kw mode w hw) hb
  have ws : ∀ (l : List String) {b : Str} {us : List Token}, (∀ w ∈ l, plainWord (lit w) = true) → Says mode b us →
      Says mode (spelled l ++ b) (kws l ++ us) := fun l _ _ hl hb => leads_says (leads_kws mode hl) hb
  cases s with
  | user d => exact h
  | dropTable t => exact ws ["DROP", "TABLE"] (by decide) (says_table h)
  | dropPolicy t p =>
    have := ws ["DROP", "POLICY"] (by decide) (says_sp (says_name h.2) (w1 "ON" (by decide) (says_table h.1)))
    simpa [Stmt.render, stmtTokens, spelled, lit] using this
  | dropView v => exact ws ["DROP", "VIEW"] (by decide) (says_table h)
  | createView v d =>
    have := ws ["CREATE", "VIEW"] (by decide) (says_sp (says_table h.1) (w1 "AS" (by decide) h.2))
    simpa [Stmt.render, stmtTokens, spelled, lit] using this
  | replaceView v d =>
    have := ws ["CREATE", "OR", "REPLACE", "VIEW"] (by decide) (says_sp (says_table h.1) (w1 "AS" (by decide) h.2))
    simpa [Stmt.render, stmtTokens, spelled, lit] using this
  | dropTrigger n => exact ws ["DROP", "TRIGGER"] (by decide) (says_name h)
  | createTrigger orAlter t =>
    obtain ⟨h1, h2, h3, h4, h5⟩ := h
    have ht := says_trigger h1 h2 h3 h4 h5
    cases orAlter
    · have := ws ["CREATE"] (by decide) ht
      simpa [Stmt.render, stmtTokens, spelled, lit, given] using this
    · have := ws ["CREATE", "OR", "ALTER"] (by decide) ht
      simpa [Stmt.render, stmtTokens, spelled, lit, given, kws] using this
  | addColumn t c place =>
    obtain ⟨h1, h2, h3⟩ := h
    obtain ⟨a, ha, hs⟩ := says_column (withUnique := true) h2
    have hp := says_onward hs (onward_place h3)
    by_cases hm : mode = .mssql
    · subst hm
      have := says_alter h1 (ws ["ADD"] (by decide) hp)
      simpa [Stmt.render, stmtTokens, spelled, lit, ha, textOf] using this
    · have := says_alter h1 (ws ["ADD", "COLUMN"] (by decide) hp)
      simpa [Stmt.render, stmtTokens, spelled, lit, ha, textOf, hm] using this
  | changeColumn t old c place =>
    obtain ⟨h1, h2, h3, h4⟩ := h
    obtain ⟨a, ha, hs⟩ := says_column (withUnique := false) h3
    have := says_alter h1 (ws ["CHANGE", "COLUMN"] (by decide) (says_sp (says_name h2) (says_onward hs (onward_place h4))))
    simpa [Stmt.render, stmtTokens, spelled, lit, ha, textOf] using this
  | addUniqueKey t c =>
    have := says_alter h.1 (ws ["ADD", "UNIQUE", "KEY"] (by decide) (says_parens (says_name h.2) (says_name h.2)))
    simpa [Stmt.render, stmtTokens, spelled, lit] using this
  | dropColumn t c =>
    have := says_alter h.1 (ws ["DROP", "COLUMN"] (by decide) (says_name h.2))
    simpa [Stmt.render, stmtTokens, spelled, lit] using this
  | alterType t c col =>
    have := says_alterColumn h.1 h.2.1 (w1 "TYPE" (by decide) (says_type h.2.2))
    simpa [Stmt.render, stmtTokens, spelled, lit] using this
  | dropNotNull t c =>
    have := says_alterColumn h.1 h.2 (says_words (ws := ["DROP", "NOT"]) (w := "NULL") (by decide) (by decide))
    simpa [Stmt.render, stmtTokens, spelled, lit] using this
  | setNotNull t c =>
    have := says_alterColumn h.1 h.2 (says_words (ws := ["SET", "NOT"]) (w := "NULL") (by decide) (by decide))
    simpa [Stmt.render, stmtTokens, spelled, lit] using this
  | addIdentity t c b seq =>
    obtain ⟨h1, h2, h3, h4⟩ := h
    have hb := says_sp (ws ["ADD", "GENERATED"] (by decide) h3)
      (says_words (mode := mode) (ws := ["AS"]) (w := "IDENTITY") (by decide) (by decide))
    cases seq with
    | none =>
      have := says_alterColumn h1 h2 hb
      simpa [Stmt.render, stmtTokens, spelled, lit, optionally] using this
    | some s =>
      have := says_alterColumn h1 h2 (says_sp hb (leads_weaken (leads_parens (says_sequence (h4 s rfl)))))
      simpa [Stmt.render, stmtTokens, spelled, lit, optionally] using this
  | dropIdentity t c =>
    have := says_alterColumn h.1 h.2 (says_words (ws := ["DROP", "IDENTITY", "IF"]) (w := "EXISTS") (by decide) (by decide))
    simpa [Stmt.render, stmtTokens, spelled, lit] using this
  | setGenerated t c b =>
    have := says_alterColumn h.1 h.2.1 (ws ["SET", "GENERATED"] (by decide) h.2.2)
    simpa [Stmt.render, stmtTokens, spelled, lit] using this
  | dropDefault t c =>
    have := says_alterColumn h.1 h.2 (says_words (ws := ["DROP"]) (w := "DEFAULT") (by decide) (by decide))
    simpa [Stmt.render, stmtTokens, spelled, lit] using this
  | setDefault t c v =>
    obtain ⟨a, ha, hs⟩ := default_text h.2.2
    have := says_alterColumn h.1 h.2.1 (ws ["SET"] (by decide) hs)
    simpa [Stmt.render, stmtTokens, spelled, lit, ha, textOf] using this
  | dropCheck t c k =>
    have := says_alter h.1 (ws ["DROP", "CONSTRAINT"] (by decide) h.2)
    simpa [Stmt.render, stmtTokens, spelled, lit] using this
  | addCheck t c k check noInherit =>
    obtain ⟨h1, h2, h3⟩ := h
    have hk := says_sp (ws ["ADD", "CONSTRAINT"] (by decide) h2) (says_word (mode := mode) "CHECK")
    have hr : Onward mode (if mode = .mssql ∧ check.notForReplication then lit " NOT FOR REPLICATION" else [])
        (given (mode = .mssql ∧ check.notForReplication = true) (kws ["NOT", "FOR", "REPLICATION"])) :=
      onward_given (a := lit "NOT FOR REPLICATION") fun _ =>
        says_words (ws := ["NOT", "FOR"]) (w := "REPLICATION") (by decide) (by decide)
    have hi : Onward mode (if noInherit then lit " NO INHERIT" else []) (given (noInherit = true) (kws ["NO", "INHERIT"])) :=
      onward_given (a := lit "NO INHERIT") fun _ => says_words (ws := ["NO"]) (w := "INHERIT") (by decide) (by decide)
    have := says_alter h1 (says_onward (says_sp (says_onward hk hr) (leads_weaken (leads_parens h3))) hi)
    simpa [Stmt.render, stmtTokens, spelled, lit] using this
  | dropDefaultConstraint t c k =>
    have := says_alter h.1 (ws ["DROP", "CONSTRAINT"] (by decide) (says_name h.2))
    simpa [Stmt.render, stmtTokens, spelled, lit] using this
  | addDefaultConstraint t c k v =>
    obtain ⟨h1, h2, h3, h4⟩ := h
    obtain ⟨a, ha, hs⟩ := default_text h4
    have hf := says_sp (says_sp hs (says_word (mode := mode) "FOR")) (says_name h2)
    by_cases hk : k = []
    · have := says_alter h1 (ws ["ADD"] (by decide) hf)
      simpa [Stmt.render, stmtTokens, spelled, lit, ha, textOf, hk, given] using this
    · have := says_alter h1 (ws ["ADD", "CONSTRAINT"] (by decide) (says_sp (says_name (h3 hk)) hf))
      simpa [Stmt.render, stmtTokens, spelled, lit, ha, textOf, hk, given, kws] using this
  | dropPrimaryKey t k =>
    by_cases hm : mode = .mysql
    · have := says_alter h.1 (says_words (ws := ["DROP", "PRIMARY"]) (w := "KEY") (by decide) (by decide))
      simpa [Stmt.render, stmtTokens, spelled, lit, hm] using this
    · have := says_alter h.1 (ws ["DROP", "CONSTRAINT"] (by decide) (says_name (h.2 hm)))
      simpa [Stmt.render, stmtTokens, spelled, lit, hm] using this
  | addIndex t i =>
    obtain ⟨a, ha, hs⟩ := says_index h.1 h.2
    simpa [Stmt.render, stmtTokens, ha, textOf] using hs
  | dropIndex t i =>
    cases mode with
    | mysql =>
      have := says_alter h.1 (ws ["DROP", "INDEX"] (by decide) (says_name h.2))
      simpa [Stmt.render, generateDropIndex, stmtTokens, spelled, lit] using this
    | postgres =>
      have := ws ["DROP", "INDEX"] (by decide) (says_name h.2)
      simpa [Stmt.render, generateDropIndex, stmtTokens, spelled, lit] using this
    | mssql =>
      have := ws ["DROP", "INDEX"] (by decide) (says_sp (says_name h.2) (w1 "ON" (by decide) (says_table h.1)))
      simpa [Stmt.render, generateDropIndex, stmtTokens, spelled, lit] using this
    | sqlite3 => exact readsAs_nil
  | dropForeignKey t k =>
    by_cases hm : mode = .mysql
    · have := says_alter h.1 (ws ["DROP", "FOREIGN", "KEY"] (by decide) (says_name h.2))
      simpa [Stmt.render, stmtTokens, spelled, lit, hm] using this
    · have := says_alter h.1 (ws ["DROP", "CONSTRAINT"] (by decide) (says_name h.2))
      simpa [Stmt.render, stmtTokens, spelled, lit, hm] using this
  | addForeignKey t fk =>
    have := says_alter h.1 (ws ["ADD"] (by decide) (says_foreignKey h.2))
    simpa [Stmt.render, stmtTokens, spelled, lit] using this

theorem scanAll_says {a : Str} {ts : List Token} (h : Says mode a ts) : scanAll (newScanner mode a) = .ok ts := by
  obtain ⟨w, hw, hr⟩ := h.reads [] (by intro c hc; simp at hc)
  rw [List.append_nil, List.append_nil] at hr
  rw [scanAll_new mode h.head, scanAll_readsAll hr h.noEnd]
  have : scanAll { mode := mode, base := ⟨w, 0⟩ } = .ok [] := by
    have e := scanAll_congr (st := { mode := mode, base := ⟨[], 0⟩ }) (s := w) (s' := []) (n := 0) rfl (by
      have : dropNul w = w := by
        cases w with
        | nil => rfl
        | cons c w =>
          have := hw c (by simp)
          have hc : c ≠ '\x00' := by rintro rfl; revert this; decide
          simp [dropNul, hc]
      rw [this]
      have := skipBlank_blank (z := []) hw
      rw [List.append_nil] at this
      exact this)
    rw [e]
    exact scanAll_nil mode 0
  rw [this]
  simp [Except.map]

/-- The tokens of a text that reads as some tokens are these. -/
theorem legible_of_says {a : Str} {ts : List Token} (h : Says mode a ts) : Legible mode a ∧ tokensOf mode a = ts := by
  have e : tokensOf mode a = ts := by unfold tokensOf; rw [scanAll_says h]
  exact ⟨by unfold Legible; rw [e]; exact h, e⟩

end Sqldef
