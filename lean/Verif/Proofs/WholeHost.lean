import Verif.Proofs.WholeTokens
import Verif.Proofs.WholeRules
import Verif.Proofs.YyKeeps
import Verif.Proofs.YyList
import Verif.Proofs.SqlShrinks

/-! The tokenizer and the actions keep complete values complete, so the parser of a text without trouble does not panic. -/
namespace Sqldef.Sql
open Spec Yy

/-- What a value of a symbol keeps. -/
def Complete (m : Mode) (x : Nat) (v : SymType) : Prop := Holds m true (classOf x) v

theorem holdsFrom_cut {m : Mode} {t : Bool} {d : Nat → SymType} : ∀ {cs : List Class} {n : Nat},
    HoldsFrom m t n cs d → HoldsFrom m t n (cutAny cs) d
  | [], _, _ => trivial
  | c :: cs, n, h => by
    have ih := holdsFrom_cut h.2
    unfold cutAny
    generalize cutAny cs = k at ih
    cases k with
    | nil => cases c <;> first | exact trivial | exact ⟨h.1, trivial⟩
    | cons k ks => exact ⟨h.1, ih⟩

theorem holdsFrom_fits {m : Mode} : ∀ {xs : List Nat} {vs : List SymType} (pre : List SymType), Fits (Complete m) xs vs →
    HoldsFrom m true (pre.length + 1) (xs.map classOf) (fun n => (pre ++ vs).getD (n - 1) {})
  | [], [], _, _ => trivial
  | [], _ :: _, _, h => by cases h
  | _ :: _, [], _, h => by cases h
  | x :: xs, v :: vs, pre, h => by
    have ih := holdsFrom_fits (pre ++ [v]) h.2
    simp only [List.append_assoc, List.singleton_append, List.length_append, List.length_singleton] at ih
    refine ⟨?_, ih⟩
    have : (pre ++ v :: vs).getD (pre.length + 1 - 1) {} = v := by simp
    show Holds m true (classOf x) ((pre ++ v :: vs).getD (pre.length + 1 - 1) {})
    rw [this]
    exact h.1

theorem ruleEntry_rhs (r : Nat) : (ruleEntry r).2.2 = cutAny ((rhsCodes r).map classOf) := rfl
theorem ruleEntry_lhs (r : Nat) : (ruleEntry r).2.1 = classOf (lhsCode r) := rfl
theorem ruleEntry_rule (r : Nat) : (ruleEntry r).1 = r := rfl

/-- The values that an action gets. -/
theorem fits_rule {m : Mode} {r : Nat} {vs : List SymType} (h : Fits (Complete m) (rhsCodes r) vs) :
    HoldsFrom m true 1 (ruleEntry r).2.2 (fun n => vs.getD (n - 1) {}) := by
  have := holdsFrom_cut (holdsFrom_fits [] h)
  rw [ruleEntry_rhs]
  exact this

theorem value_complete {m : Mode} {r : Nat} {vs : List SymType} (hr : r < 999) (hn : r ≠ 612)
    (h : Fits (Complete m) (rhsCodes r) vs) :
    Complete m (lhsCode r) (value r (fun n => vs.getD (n - 1) {})) := by
  have hf := fits_rule h
  by_cases hc : (ruleEntry r).2.1 = .any
  · unfold Complete
    rw [← ruleEntry_lhs, hc]
    trivial
  · have hmem : ruleEntry r ∈ wholeTable := by
      rw [← wholeTable_eq]
      refine List.mem_filter.mpr ⟨List.mem_map.mpr ⟨r, List.mem_range.mpr hr, rfl⟩, ?_⟩
      exact decide_eq_true ⟨hc, by rw [ruleEntry_rule]; exact hn⟩
    have := keepsTable (m := m) (t := true) hmem _ hf
    rw [ruleEntry_lhs, ruleEntry_rule] at this
    exact this

theorem rule1_entry : (ruleEntry 1).2.2 = [.stmt] := by decide +kernel
theorem rule131_entry : (ruleEntry 131).2.2 = [.colType, .rendered, .any, .any, .expr] := by decide +kernel
theorem rule132_entry : (ruleEntry 132).2.2 = [.colType, .any, .any, .rendered, .any, .any, .expr] := by decide +kernel
theorem rule139_entry : (ruleEntry 139).2.2 = [.colType, .any, .any, .replication] := by decide +kernel
theorem rule577_entry : (ruleEntry 577).2.2 = [.any, .expr] := by decide +kernel

theorem digits_int {e : Go.ExprNode} (h : FineExpr true (some e)) : isEmptyInt e = false := by
  unfold isEmptyInt
  split
  · next hk => 
    obtain ⟨c, r, _, h | h⟩ := h.digits _ _ rfl hk <;> cases h
  · rfl

theorem ite_fine {α ε : Type} {p : Prop} [Decidable p] {a b : Except ε α} {e : ε}
    (ha : p → a ≠ .error e) (hb : ¬ p → b ≠ .error e) : (if p then a else b) ≠ .error e := by
  by_cases hp : p
  · rw [if_pos hp]; exact ha hp
  · rw [if_neg hp]; exact hb hp

theorem node_some {e : Go.Expr} (h : FineExpr true e) : ¬ e.isNone = true := by
  have := h.node
  cases e with
  | none => cases this
  | some e => intro hx; cases hx

theorem effect_fine {m : Mode} {r : Nat} {d : Nat → SymType} {k : Tokenizer}
    (h : HoldsFrom m true 1 (ruleEntry r).2.2 d) (e : Err) : effect r d k ≠ .error (.inl e) := by
  unfold effect
  refine ite_fine (fun _ hx => by cases hx) (fun _ => ?_)
  refine ite_fine (fun hr => ?_) (fun _ => ?_)
  · subst hr
    rw [rule131_entry] at h
    exact ite_fine (fun hn => absurd hn (node_some h.2.2.2.2.1)) (fun _ hx => by cases hx)
  refine ite_fine (fun hr => ?_) (fun _ => ?_)
  · subst hr
    rw [rule132_entry] at h
    exact ite_fine (fun hn => absurd hn (node_some h.2.2.2.2.2.2.1)) (fun _ hx => by cases hx)
  refine ite_fine (fun hr => ?_) (fun _ => ?_)
  · subst hr
    rw [rule139_entry] at h
    exact absurd h.2.2.2.1 id
  refine ite_fine (fun _ hx => by cases hx) (fun _ => ?_)
  refine ite_fine (fun _ hx => by cases hx) (fun _ => ?_)
  refine ite_fine (fun hr => ?_) (fun _ => ?_)
  · subst hr
    rw [rule577_entry] at h
    have hf : FineExpr true (d 2).expr := h.2.1
    generalize (d 2).expr = x at hf
    refine ite_fine (fun hn => ?_) (fun _ hx => by cases hx)
    cases x with
    | none => cases hn
    | some x => rw [Option.any_some, digits_int hf] at hn; cases hn
  refine ite_fine (fun _ => ite_fine (fun _ hx => by cases hx) (fun _ hx => by cases hx)) (fun _ => ?_)
  refine ite_fine (fun _ => ite_fine (fun _ hx => by cases hx) (fun _ hx => by cases hx)) (fun _ => ?_)
  refine ite_fine (fun _ hx => by cases hx) (fun _ => ?_)
  exact ite_fine (fun _ hx => by cases hx) (fun _ hx => by cases hx)

/-- An action leaves the place in the text alone; only the first rule sets the statement. -/
theorem effect_keeps {r : Nat} {d : Nat → SymType} {k : Tokenizer} : ∀ k', effect r d k = .ok k' →
    unforced k'.scanner = unforced k.scanner ∧
      (k'.parseTree = k.parseTree ∨ r = 1 ∧ k'.parseTree = (d 1).statement) := by
  unfold effect
  repeat' refine ite_ok (fun _ => ?_) (fun _ => ?_)
  all_goals
    intro x h
    cases h
  all_goals first | exact ⟨rfl, .inl rfl⟩ | exact ⟨rfl, .inr ⟨‹_›, rfl⟩⟩

/-- The last token that was noted. -/
def lastNote (l : Tokenizer × List (Int × SymType)) : Option Nat := l.2.getLast?.map fun p => p.1.toNat

/-- What the run of the parser keeps of the tokenizer. -/
structure Quiet (m : Mode) (l : Tokenizer × List (Int × SymType)) : Prop where
  whole : ∀ d, l.1.parseTree = .ddl d → WholeStatement m d
  rest : lastNote l ≠ some 1 → ∃ prev ts, scanAll (unforced l.1.scanner) = .ok ts ∧ GoodFrom m prev ts ∧
    ∀ p, prev = some p → (∃ v, Made ⟨p, v⟩) ∧ lastNote l = some (seen p)

theorem lastNote_snoc {k : Tokenizer} {ns : List (Int × SymType)} {c : Int} {v : SymType} :
    lastNote (k, ns ++ [(c, v)]) = some c.toNat := by
  simp [lastNote]

theorem token_holds {m : Mode} {prev : Option TokenType} {t : Token} {R : Prop} {k : Class} (hm : Made t)
    (hg : t.type = .eof ∨ GoodToken m prev t ∧ R) (hk : classOf (seen t.type + 2000) = k) :
    Holds m true k { bytes := t.val } := by
  rcases hg with ht | ⟨g1, _⟩
  · exact plain_holds (ty := t.type) (by rw [ht]; simp) hk
  · exact good_holds hm g1 hk

theorem keeping_host (m : Mode) : Keeping (noting host) (Complete m) (Quiet m) lastNote where
  stop := by
    intro l e hq hn hl
    obtain ⟨prev, ts, h1, h2, _⟩ := hq.rest hn
    have := (lex_good (b := l.1.allowComments) h1 h2).1
    simp only [noting, host, Tokenizer.next] at hl
    split at hl
    · next e' he =>
      split at he
      · next e2 he2 => exact this _ he2
      · cases he
    · cases hl
  lex := by
    intro l char v l' hq hn hl
    obtain ⟨prev, ts, h1, h2, h3⟩ := hq.rest hn
    have hgood := (lex_good (b := l.1.allowComments) h1 h2).2
    simp only [noting, host, Tokenizer.next] at hl
    split at hl
    · cases hl
    next c0 v0 l0 he =>
    split at he
    · cases he
    next t st hx =>
    simp only [Except.ok.injEq, Prod.mk.injEq] at he hl
    obtain ⟨rfl, rfl, rfl⟩ := he
    obtain ⟨rfl, rfl, rfl⟩ := hl
    obtain ⟨hm, hg⟩ := hgood _ _ hx
    have hseen : (tokenOf (tokenCode t.type : Int)).toNat = seen t.type := rfl
    rw [hseen]
    refine ⟨⟨hq.whole, ?_⟩, lastNote_snoc, ?_, ?_⟩
    · intro hne
      rcases hg with ht | ⟨g1, us, g2, g3⟩
      · refine absurd ?_ hne
        rw [lastNote_snoc, ht]
        exact congrArg some seen_eof
      · refine ⟨_, us, g2, g3, ?_⟩
        intro p hp
        cases hp
        exact ⟨⟨t.val, hm⟩, lastNote_snoc⟩
    · unfold Complete
      generalize hk : classOf (seen t.type + 2000) = k
      exact token_holds hm hg hk
    · intro hc
      have hcast := made_cast hm hc
      rcases hg with ht | ⟨g1, _⟩
      · rw [hcast] at ht; cases ht
      · obtain ⟨p, hp, hq⟩ := g1.casts hcast
        obtain ⟨⟨w, hw⟩, hs⟩ := h3 p hp
        exact ⟨_, hs, made_opener hw hq⟩
  panic := by
    intro r vs l e _ hr hn _ hf ha
    simp only [noting, host, act] at ha
    have := effect_fine (k := l.1) (fits_rule hf)
    split at ha
    · cases ha
    · next e' he =>
      split at he
      · cases he
      · next e2 he2 =>
        cases he
        exact this _ he2
    · cases ha
  act := by
    intro r vs l w l' _ hr hn hq hf ha
    simp only [noting, host] at ha
    split at ha
    · next w0 l0 he =>
      simp only [Except.ok.injEq, Prod.mk.injEq] at ha
      obtain ⟨rfl, rfl⟩ := ha
      obtain ⟨h1, rfl⟩ := act_ok he
      obtain ⟨k1, k2⟩ := effect_keeps _ h1
      refine ⟨⟨?_, ?_⟩, rfl, value_complete hr hn hf⟩
      · rcases k2 with k2 | ⟨rfl, k2⟩
        · intro d hd
          exact hq.whole d (k2 ▸ hd)
        · intro d hd
          have hx := fits_rule hf
          rw [rule1_entry] at hx
          exact hx.1 d (k2 ▸ hd)
      · intro hne
        obtain ⟨prev, ts, h1, h2, h3⟩ := hq.rest hne
        exact ⟨prev, ts, by rw [k1]; exact h1, h2, h3⟩
    · cases ha
    · cases ha

/-- The parser of a text without trouble accepts or refuses; what it accepts is complete. -/
theorem parse_quiet {mode : Mode} {text : Str} (h : PlainText mode text) (n : Nat) {o : Outcome SymType Tokenizer Err}
    (hr : run host n (start {} (newTokenizer text mode)) = some o) :
    (∃ v k, o = .accepted v k ∧ ∀ d, k.parseTree = .ddl d → WholeStatement mode d) ∨ ∃ k, o = .rejected k := by
  obtain ⟨ts, h1, h2⟩ := h
  have hq : Quiet mode (newTokenizer text mode, []) :=
    ⟨(fun d hd => by cases hd), fun _ => ⟨none, ts, h1, good_of_troubleFree h2 ts [] rfl, (fun p hp => by cases hp)⟩⟩
  have hp := run_plain host n (start ({} : SymType) (newTokenizer text mode, []))
  have e : plain (start ({} : SymType) (newTokenizer text mode, ([] : List (Int × SymType)))) = start {} (newTokenizer text mode) := rfl
  rw [e, hr] at hp
  cases hx : run (noting host) n (start {} (newTokenizer text mode, [])) with
  | none => rw [hx] at hp; cases hp
  | some o' =>
    rw [hx] at hp
    simp only [Option.map_some, Option.some.injEq] at hp
    subst hp
    rcases run_sane (keeping_host mode) n (sane_start {} _ hq rfl) hx with ⟨v, l, rfl, hl⟩ | ⟨l, rfl⟩
    · exact .inl ⟨v, l.1, rfl, hl.whole⟩
    · exact .inr ⟨l.1, rfl⟩

end Sqldef.Sql
