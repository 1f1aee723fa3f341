import Verif.Proofs.Layout
import Verif.Props.Parser
/-
Texts put together from parts that are laid out, and files put together from statements.
-/
namespace Sqldef
open Spec

/-! ### Parts -/

theorem lay_blank {mode : Mode} {w rest : Str} {ts : List Token} (hw : ∀ c ∈ w, c = ' ' ∨ c = '\n' ∨ c = '\r' ∨ c = '\t')
    (h : Layout mode rest ts) : Layout mode (w ++ rest) ts := by
  cases h with
  | nil h =>
    refine .nil fun c hc => ?_
    rcases List.mem_append.mp hc with hc | hc
    · exact hw c hc
    · exact h c hc
  | @cons v a rest t ts hv hs hr =>
    have e : w ++ (v ++ a ++ rest) = (w ++ v) ++ a ++ rest := by simp
    rw [e]
    refine .cons (fun c hc => ?_) hs hr
    rcases List.mem_append.mp hc with hc | hc
    · exact hw c hc
    · exact hv c hc

theorem lay_space {mode : Mode} {rest : Str} {ts : List Token} (h : Layout mode rest ts) : Layout mode (' ' :: rest) ts :=
  lay_blank (w := [' ']) (by simp) h

theorem lay_end {mode : Mode} : Layout mode [] [] := .nil (by simp)

theorem lay_spells {mode : Mode} {a rest : Str} {t : Token} {ts : List Token} (hs : Spells mode t a rest)
    (h : Layout mode rest ts) : Layout mode (a ++ rest) (t :: ts) :=
  .cons (w := []) (by simp) hs h

theorem lay_kw {mode : Mode} (w : String) {rest : Str} {ts : List Token} (hw : plainWord (lit w) = true)
    (hr : EndsWord rest) (h : Layout mode rest ts) : Layout mode (lit w ++ rest) (kw w :: ts) := by
  refine lay_spells ?_ h
  unfold plainWord at hw
  rw [Bool.and_eq_true] at hw
  obtain ⟨h1, h2⟩ := hw
  split at h1
  · exact absurd h1 (by simp)
  · next c s hw =>
    simp only [Bool.and_eq_true, decide_eq_true_eq, List.all_eq_true, Bool.or_eq_true] at h1 h2
    obtain ⟨⟨hc, hat⟩, hs⟩ := h1
    have hword : IsWord (lit w) := by
      refine ⟨⟨c, s, hw, hc, hs⟩, ?_⟩
      rw [hw]
      rintro ⟨t, ht⟩
      simp [lit] at ht
      exact hat ht.1.symm
    unfold kw
    split
    · next code hk => exact .keyword hword hk hr
    · next hk => exact .bare hword hk h2 hr

theorem endsWord_space (s : Str) : EndsWord (' ' :: s) := by
  intro c hc
  simp only [List.head?_cons, Option.some.injEq] at hc
  subst hc
  decide

theorem endsWord_nil : EndsWord [] := by intro c hc; simp at hc

theorem endsWord_char {c : Char} (h : c ∈ ['\n', '\t', '(', ')', ',', ';', '[', ']', '.', '"', '=']) (s : Str) : EndsWord (c :: s) := by
  intro d hd
  simp only [List.head?_cons, Option.some.injEq] at hd
  subst hd
  revert h
  simp only [List.mem_cons, List.not_mem_nil, or_false]
  rintro (rfl|rfl|rfl|rfl|rfl|rfl|rfl|rfl|rfl|rfl|rfl) <;> decide

/-- Words with a space after each of them. -/
theorem lay_kws {mode : Mode} {ws : List String} {rest : Str} {ts : List Token} (hw : ∀ w ∈ ws, plainWord (lit w) = true)
    (h : Layout mode rest ts) : Layout mode (spelled ws ++ rest) (kws ws ++ ts) := by
  induction ws with
  | nil => exact h
  | cons w ws ih =>
    have e : spelled (w :: ws) ++ rest = lit w ++ (' ' :: (spelled ws ++ rest)) := by simp [spelled]
    rw [e]
    exact lay_kw w (hw w (by simp)) (endsWord_space _) (lay_space (ih fun x hx => hw x (by simp [hx])))

theorem lay_mark {mode : Mode} {c : Char} {rest : Str} {ts : List Token} (hc : c ∈ ['(', ')', ',', '='])
    (h : Layout mode rest ts) : Layout mode (c :: rest) (sym c :: ts) := by
  refine lay_spells (a := [c]) (.mark ?_) h
  revert hc
  simp only [List.mem_cons, List.not_mem_nil, or_false]
  rintro (rfl|rfl|rfl|rfl) <;> simp

theorem delimits_char {mode : Mode} {c : Char} (h : c ∈ [' ', '\n', '\r', '\t', '(', ')', ',', ';']) (s : Str) : Delimits mode (c :: s) := by
  intro d hd
  simp only [List.head?_cons, Option.some.injEq] at hd
  subst hd
  exact .inl h

theorem delimits_nil (mode : Mode) : Delimits mode [] := by intro c hc; simp at hc

theorem delimits_cases {mode : Mode} {rest : Str} (h : Delimits mode rest) {c : Char} (hc : rest.head? = some c) :
    c = ' ' ∨ c = '\n' ∨ c = '\r' ∨ c = '\t' ∨ c = '(' ∨ c = ')' ∨ c = ',' ∨ c = ';' ∨ (c = '[' ∧ mode ≠ .mssql) := by
  rcases h c hc with h | h
  · simp only [List.mem_cons, List.not_mem_nil, or_false] at h
    rcases h with h|h|h|h|h|h|h|h <;> simp [h]
  · simp [h]

/-- A way to write a token remains one if something follows after a delimiter. -/
theorem spells_follow {mode : Mode} {t : Token} {a b rest : Str} (h : Spells mode t a b) (hr : Delimits mode rest) :
    Spells mode t a (b ++ rest) := by
  have head : ∀ c, (b ++ rest).head? = some c → b.head? = some c ∨ rest.head? = some c := by
    intro c hc
    cases b with
    | nil => exact .inr (by simpa using hc)
    | cons d b => exact .inl (by simpa using hc)
  cases h with
  | keyword hw hk he =>
    refine .keyword hw hk fun c hc => ?_
    rcases head c hc with h | h
    · exact he c h
    · exact delimits_endsWord hr c h
  | bare hw hk hd he =>
    refine .bare hw hk hd fun c hc => ?_
    rcases head c hc with h | h
    · exact he c h
    · exact delimits_endsWord hr c h
  | @quoted o q n _ ho hn he =>
    refine .quoted ho hn fun hc => ?_
    rcases head _ hc with h | h
    · exact he h
    · have hq : q ∈ ['"', '`', ']'] := by
        have key : ∀ p ∈ nameQuotes mode, p.2 ∈ ['"', '`', ']'] := by cases mode <;> decide
        exact key _ ho
      simp only [List.mem_cons, List.not_mem_nil, or_false] at hq
      have := delimits_cases hr h
      revert this
      rcases hq with rfl | rfl | rfl <;> simp
  | @string q src v _ hq hb he =>
    refine .string hq hb fun hc => ?_
    rcases head _ hc with h | h
    · exact he h
    · have hq' : q ∈ ['"', '\''] := by
        have key : ∀ c ∈ stringQuotes mode, c ∈ ['"', '\''] := by cases mode <;> decide
        exact key _ hq
      simp only [List.mem_cons, List.not_mem_nil, or_false] at hq'
      have := delimits_cases hr h
      revert this
      rcases hq' with rfl | rfl <;> simp
  | digits hn hs he =>
    refine .digits hn hs fun c hc => ?_
    rcases head c hc with h | h
    · exact he c h
    · rcases delimits_cases hr h with rfl|rfl|rfl|rfl|rfl|rfl|rfl|rfl|⟨rfl, _⟩ <;> decide
  | negative hn hs he =>
    refine .negative hn hs fun c hc => ?_
    rcases head c hc with h | h
    · exact he c h
    · rcases delimits_cases hr h with rfl|rfl|rfl|rfl|rfl|rfl|rfl|rfl|⟨rfl, _⟩ <;> decide
  | fraction hn hs hf he =>
    refine .fraction hn hs hf fun c hc => ?_
    rcases head c hc with h | h
    · exact he c h
    · rcases delimits_cases hr h with rfl|rfl|rfl|rfl|rfl|rfl|rfl|rfl|⟨rfl, _⟩ <;> decide
  | bits hp hb => exact .bits hp hb
  | mark hc => exact .mark hc
  | dot hc => exact .dot hc
  | bracket hm hc => exact .bracket hm hc
  | @operator a t cs _ ho he =>
    refine .operator ho fun c hc hh => ?_
    rcases head _ hh with h | h
    · exact he c hc h
    · have key : ∀ p ∈ operators, ∀ c ∈ p.2.2, c ∉ [' ', '\n', '\r', '\t', '(', ')', ',', ';', '['] := by decide
      have hn := key _ ho c hc
      apply hn
      rcases delimits_cases hr h with rfl|rfl|rfl|rfl|rfl|rfl|rfl|rfl|⟨rfl, _⟩ <;> simp
  | cast hm => exact .cast hm

/-- A text that is laid out, followed by another after a delimiter. -/
theorem lay_part {mode : Mode} {a rest : Str} {ts us : List Token} (ha : Layout mode a ts) (hr : Delimits mode rest)
    (h : Layout mode rest us) : Layout mode (a ++ rest) (ts ++ us) := by
  induction ha with
  | nil hw => exact lay_blank hw h
  | @cons w a b t ts hw hs _ ih =>
    have e : w ++ a ++ b ++ rest = w ++ a ++ (b ++ rest) := by simp
    rw [e]
    exact .cons hw (spells_follow hs hr) ih

/-! ### Files -/

/-- The file consists of the texts, with a semicolon and white space between them. -/
inductive Glued : List Str → Str → Prop
  | one (t : Str) : Glued [t] t
  | cons {t w s : Str} {ts : List Str} : Blank w → Glued ts s → Glued (t :: ts) (t ++ ';' :: (w ++ s))

theorem glued_append {ts us : List Str} {s u w : Str} (h : Glued ts s) (hw : Blank w) (hu : Glued us u) :
    Glued (ts ++ us) (s ++ ';' :: (w ++ u)) := by
  induction h with
  | one t => exact .cons hw hu
  | @cons t v s ts hv _ ih =>
    have e : t ++ ';' :: (v ++ s) ++ ';' :: (w ++ u) = t ++ ';' :: (v ++ (s ++ ';' :: (w ++ u))) := by simp
    rw [e]
    exact .cons hv ih

theorem glued_join {w : Str} (hw : Blank w) (t : Str) (ts : List Str) : Glued (t :: ts) (join (';' :: w) (t :: ts)) := by
  induction ts generalizing t with
  | nil => exact .one t
  | cons u ts ih =>
    rw [join_cons _ _ _ (by simp)]
    have e : t ++ (';' :: w) ++ join (';' :: w) (u :: ts) = t ++ ';' :: (w ++ join (';' :: w) (u :: ts)) := by simp
    rw [e]
    exact .cons hw (ih u)

/-- Files glued together to a file. -/
theorem glued_files {w : Str} (hw : Blank w) {p : List Str × Str} {ps : List (List Str × Str)} (h : ∀ q ∈ p :: ps, Glued q.1 q.2) :
    Glued ((p :: ps).flatMap (·.1)) (join (';' :: w) ((p :: ps).map (·.2))) := by
  induction ps generalizing p with
  | nil => simpa [join] using h p (by simp)
  | cons q ps ih =>
    rw [List.map_cons, join_cons _ _ _ (by simp), List.flatMap_cons]
    have e : p.2 ++ (';' :: w) ++ join (';' :: w) ((q :: ps).map (·.2)) = p.2 ++ ';' :: (w ++ join (';' :: w) ((q :: ps).map (·.2))) := by
      simp
    rw [e]
    exact glued_append (h p (by simp)) hw (ih fun x hx => h x (by simp at hx ⊢; simp [hx]))

theorem noComment_glued {ts : List Str} {s : Str} (h : Glued ts s) (hc : ∀ t ∈ ts, NoComment t) : NoComment s := by
  induction h with
  | one t => exact hc t (by simp)
  | @cons t w s ts hw _ ih =>
    apply noComment_append_sep
    · exact hc t (by simp)
    · exact lines_tail_sep w _ hw (ih fun x hx => hc x (by simp [hx]))
    · intro c r hcr
      simp at hcr
      rw [← hcr.1]
      decide

theorem splitOn_prefix {w s x : Str} {xs : List Str} (hw : ';' ∉ w) (hs : splitOn ';' s = x :: xs) :
    splitOn ';' (w ++ s) = (w ++ x) :: xs := by
  induction w with
  | nil => simpa using hs
  | cons c w ih =>
    simp at hw
    have := ih hw.2
    have hc : c ≠ ';' := fun e => hw.1 e.symm
    simp [splitOn, this, hc]

theorem blank_semicolon {w : Str} (hw : Blank w) : ';' ∉ w := fun hm => absurd (hw ';' hm) (by decide)

theorem splitOn_glued {ts : List Str} {s : Str} (h : Glued ts s) (hc : ∀ t ∈ ts, ';' ∉ t) :
    ∃ x xs, splitOn ';' s = x :: xs ∧ (x :: xs).map trimSpace = ts.map trimSpace := by
  induction h with
  | one t => exact ⟨t, [], splitOn_no_sep ';' t (hc t (by simp)), rfl⟩
  | @cons t w s ts hw _ ih =>
    obtain ⟨x, xs, h1, h2⟩ := ih fun x hx => hc x (by simp [hx])
    refine ⟨t, (w ++ x) :: xs, ?_, ?_⟩
    · rw [splitOn_append_sep ';' t (w ++ s) (hc t (by simp)), splitOn_prefix (blank_semicolon hw) h1]
    · simp only [List.map_cons] at h2 ⊢
      rw [trimSpace_blank_left w x hw, h2]

/-- The statements of such a file are the texts, trimmed, without blank ones. -/
theorem statementTexts_glued {ts : List Str} {s : Str} (h : Glued ts s) (hsemi : ∀ t ∈ ts, ';' ∉ t) (hcom : ∀ t ∈ ts, NoComment t) :
    statementTexts s = (ts.map trimSpace).filter (· ≠ []) := by
  unfold statementTexts
  rw [withoutComments_id _ (noComment_glued h hcom)]
  obtain ⟨x, xs, h1, h2⟩ := splitOn_glued h hsemi
  rw [h1, h2]

/-! ### Texts without comment lines -/

theorem noComment_line {s : Str} (hn : '\n' ∉ s) (hd : ∀ r, s ≠ '-' :: '-' :: r) : NoComment s := by
  intro l hl
  rw [lines, splitOn_no_sep '\n' s hn, List.mem_singleton] at hl
  subst hl
  rintro ⟨r, h⟩
  exact hd r h

theorem noComment_next {a b : Str} (ha : NoComment a) (hb : NoComment b) : NoComment (a ++ '\n' :: b) := by
  apply noComment_append_sep _ _ ha
  · intro l hl
    have e : lines ('\n' :: b) = [] :: lines b := by simp [lines, splitOn]
    rw [e] at hl
    exact hb l hl
  · intro c r h
    simp at h
    rw [← h.1]
    decide

/-- A text that has neither a semicolon nor a line break. -/
def Quiet (s : Str) : Prop := ';' ∉ s ∧ '\n' ∉ s

theorem quiet_append {a b : Str} (ha : Quiet a) (hb : Quiet b) : Quiet (a ++ b) := by
  unfold Quiet at *
  simp [ha, hb]

end Sqldef
