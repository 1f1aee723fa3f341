import Verif.Proofs.YyList

/-!
C54: the parser returns.  C55: what it accepts is a sentence of the grammar, and what it builds is
what the actions make of its derivation.
-/
namespace Sqldef
open Spec Yy

/-! ### C54 -/

/-- Whatever the lexer hands out and whatever the actions do, the driver never indexes a table or its
stack out of range, and it never goes on after a syntax error. -/
theorem C54_parser_never_faults {V L E : Type} (h : Host V L E) (n : Nat) (z : V) (l : L)
    (o : Outcome V L E) (hr : run h n (start z l) = some o) : o ≠ .fault ∧ o ≠ .resumes :=
  run_safe n (shape_start z l) hr

/-- If every token uses up some of the text, the parser returns after at most 23 steps for every unit
of the text and 7 more: it accepts, it refuses, or the lexer or an action has stopped it.  Waiting
longer changes nothing. -/
theorem C54_parser_returns {V L E : Type} (h : Host V L E) (size : L → Nat) (hs : Shrinks h size)
    (z : V) (l : L) :
    ∃ o, (∀ n, 23 * size l + 7 ≤ n → run h n (start z l) = some o) ∧
      ((∃ v l', o = .accepted v l') ∨ (∃ l', o = .rejected l') ∨ (∃ e, o = .stopped e)) := by
  obtain ⟨o, ho⟩ := run_start hs z l
  refine ⟨o, fun n hn => run_more hn ho, ?_⟩
  have := C54_parser_never_faults h _ z l o ho
  cases o with
  | accepted v l' => exact .inl ⟨v, l', rfl⟩
  | rejected l' => exact .inr (.inl ⟨l', rfl⟩)
  | stopped e => exact .inr (.inr ⟨e, rfl⟩)
  | fault => exact absurd rfl this.1
  | resumes => exact absurd rfl this.2

/-- A list of tokens shrinks. -/
theorem listHost_shrinks {V : Type} (z : V) (act : Nat → List V → V) :
    Shrinks (listHost z act) List.length where
  token := by
    intro l char v l' h hc
    cases l with
    | nil => simp only [listHost, Except.ok.injEq, Prod.mk.injEq] at h; omega
    | cons p l =>
      simp only [listHost, Except.ok.injEq, Prod.mk.injEq] at h
      rw [← h.2.2]; simp
  finish := by
    intro l char v l' h
    cases l with
    | nil => simp only [listHost, Except.ok.injEq, Prod.mk.injEq] at h; rw [← h.2.2]; simp
    | cons p l =>
      simp only [listHost, Except.ok.injEq, Prod.mk.injEq] at h
      rw [← h.2.2]; simp
  action := by
    intro r vs l w l' h
    simp only [listHost, Except.ok.injEq, Prod.mk.injEq] at h
    rw [h.2]; exact Nat.le_refl _

/-- Every finite list of tokens is accepted or refused. -/
theorem C54_tokens_are_accepted_or_refused {V : Type} (z : V) (act : Nat → List V → V)
    (toks : List (Int × V)) :
    (∃ v l, run (listHost z act) (23 * toks.length + 7) (start z toks) = some (.accepted v l)) ∨
    (∃ l, run (listHost z act) (23 * toks.length + 7) (start z toks) = some (.rejected l)) := by
  obtain ⟨o, ho, hc⟩ := C54_parser_returns (listHost z act) List.length (listHost_shrinks z act) z toks
  have ho := ho _ (Nat.le_refl _)
  rcases hc with ⟨v, l, rfl⟩ | ⟨l, rfl⟩ | ⟨e, _⟩
  · exact .inl ⟨v, l, ho⟩
  · exact .inr ⟨l, ho⟩
  · cases e

/-- The tokens of `CREATE TABLE t (id int)` (numbers of parser.go 25-338), without values. -/
def exCreateTable : List (Int × Nat) :=
  [(57437, 0), (57444, 0), (57394, 0), (40, 0), (57394, 0), (57510, 0), (41, 0)]

/-- An action that counts the rules of a derivation. -/
def exCount (_ : Nat) (vs : List Nat) : Nat := vs.foldl (· + ·) 1

/-- The value of an accepted text; 1000 if it is refused. -/
def exResult (o : Option (Outcome Nat (List (Int × Nat)) Empty)) : Option Nat :=
  match o with
  | some (.accepted v _) => some v
  | some (.rejected _) => some 1000
  | _ => none


/-- The statement is accepted, by 20 rules. -/
example : exResult (run (listHost 0 exCount) 200 (start 0 exCreateTable)) = some 20 := by decide +kernel

/-- Without its last bracket the statement is refused. -/
example : exResult (run (listHost 0 exCount) 200 (start 0 exCreateTable.dropLast)) = some 1000 := by
  decide +kernel

/-! ### C55 -/

/-- Writing down the tokens changes nothing. -/
theorem C55_notes_change_nothing {V L E : Type} (h : Host V L E) (n : Nat) (z : V) (l : L) :
    (run (noting h) n (start z (l, []))).map forget = run h n (start z l) :=
  (run_plain h n (start z (l, []))).symm

/-- If the parser accepts, the tokens the lexer has handed out, up to the end of the text, are a
sentence of the grammar. -/
theorem C55_accepted_is_a_sentence {V L E : Type} (h : Host V L E) (n : Nat) (z : V) (l : L) (v : V)
    (l' : L × List (Int × V)) (hr : run (noting h) n (start z (l, [])) = some (.accepted v l')) :
    ∃ (d : Tree V) (w : V), Derives "any_command" d ∧ l'.2 = noted d.tokens ++ [(1, w)] := by
  have hR : Kept h (fun (_ : Tree V) (_ : V) => True) := ⟨fun _ _ => trivial, fun _ _ _ _ => trivial⟩
  obtain ⟨t, w, h1, _, h3⟩ := run_sound hR n (inv_start _ z l) hr
  exact ⟨t, w, h1, h3⟩

/-- What the parser returns is built along a derivation: whatever the actions keep between
derivations and values holds of the whole text and the result. -/
theorem C55_result_follows_the_derivation {V L E : Type} (h : Host V L E) (R : Tree V → V → Prop)
    (hR : Kept h R) (n : Nat) (z : V) (l : L) (v : V)
    (l' : L × List (Int × V)) (hr : run (noting h) n (start z (l, [])) = some (.accepted v l')) :
    ∃ (d : Tree V) (w : V), Derives "any_command" d ∧ R d v ∧ l'.2 = noted d.tokens ++ [(1, w)] :=
  run_sound hR n (inv_start _ z l) hr

theorem valuesOf_each {V : Type} (act : Nat → List V → V) : ∀ {cs : List (Tree V)} {vs : List V},
    Each (fun d v => v = d.value act) cs vs → vs = valuesOf act cs
  | [], [], _ => rfl
  | [], _ :: _, h => by cases h
  | _ :: _, [], h => by cases h
  | c :: cs, v :: vs, h => by
    simp only [valuesOf]
    rw [h.1, valuesOf_each act h.2]

/-- Read from a list of tokens: an accepted list is a sentence of the grammar, word for word, and the
result is the value of its derivation. -/
theorem C55_accepted_list {V : Type} (z : V) (act : Nat → List V → V) (toks : List (Int × V))
    (hpos : ∀ p ∈ toks, 0 < p.1) (n : Nat) (v : V) (l : List (Int × V))
    (hr : run (listHost z act) n (start z toks) = some (.accepted v l)) :
    ∃ d : Tree V, Derives "any_command" d ∧
      noted d.tokens = toks.map (fun p => (tokenOf p.1, p.2)) ∧ v = d.value act := by
  have hR : Kept (listHost z act) (fun d v => v = d.value act) := by
    refine ⟨fun _ _ => rfl, ?_⟩
    intro r A rhs cs vs l w l' _ _ he ha
    simp only [listHost, Except.ok.injEq, Prod.mk.injEq] at ha
    rw [← ha.1, valuesOf_each act he]
    rfl
  have hp := run_plain (listHost z act) n (start z (toks, []))
  have e : plain (start z (toks, ([] : List (Int × V)))) = start z toks := rfl
  rw [e, hr] at hp
  cases hx : run (noting (listHost z act)) n (start z (toks, [])) with
  | none => rw [hx] at hp; cases hp
  | some o =>
    rw [hx] at hp
    cases o with
    | accepted v' l' =>
      simp only [Option.map_some, forget, Option.some.injEq, Outcome.accepted.injEq] at hp
      obtain ⟨rfl, _⟩ := hp
      obtain ⟨t, h1, h2, h3⟩ := run_list hR hpos n (inv_start _ z toks) (.inl rfl) hx
      exact ⟨t, h1, h3, h2⟩
    | _ => simp [forget] at hp

/-- The list of the example is accepted, so it has a derivation. -/
example : ∃ d : Tree Nat, Derives "any_command" d ∧
    d.tokens.map (·.1) = [112, 119, 55, 52, 55, 185, 54] := by
  have hr : ∃ l, run (listHost 0 exCount) 200 (start 0 exCreateTable) = some (.accepted 20 l) := by
    have : exResult (run (listHost 0 exCount) 200 (start 0 exCreateTable)) = some 20 := by decide +kernel
    unfold exResult at this
    split at this
    · rename_i v l h
      simp only [Option.some.injEq] at this
      subst this; exact ⟨l, h⟩
    · simp at this
    · cases this
  obtain ⟨l, hr⟩ := hr
  obtain ⟨d, h1, h2, _⟩ := C55_accepted_list 0 exCount exCreateTable (by decide) 200 20 l hr
  refine ⟨d, h1, ?_⟩
  have e : exCreateTable.map (fun p => (tokenOf p.1, p.2)) = noted
    [(112, 0), (119, 0), (55, 0), (52, 0), (55, 0), (185, 0), (54, 0)] := by decide +kernel
  rw [e] at h2
  have := congrArg (List.map (fun p => p.1.toNat)) h2
  simpa [noted, Function.comp_def] using this

end Sqldef
