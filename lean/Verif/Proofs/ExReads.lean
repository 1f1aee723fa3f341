import Verif.Proofs.ExValue

/-! The tables agree with the derivations of expressions. -/
namespace Sqldef.Sql
open Spec Yy Written

/-! ### The actions go on -/

theorem fineNode {r : Nat} {cs : List (Tree SymType)} (h : asking r = false) (hc : fineAll valueOf asks cs) :
    fine valueOf asks (.node r cs) := ⟨asks_of_tame h _, hc⟩

theorem fine_asExpr {k : Sort3} {d : Tree SymType} (h : fine valueOf asks d) : fine valueOf asks (asExpr k d) := by
  cases k
  · exact fineNode rfl ⟨h, trivial⟩
  · exact fineNode rfl ⟨h, trivial⟩
  · exact h

theorem fine_arg {d : Tree SymType} (h : fine valueOf asks d) : fine valueOf asks (argTree d) :=
  fineNode rfl ⟨h, fineNode rfl trivial, trivial⟩

theorem fine_open : fine valueOf asks openTree := fineNode rfl ⟨trivial, trivial⟩
theorem fine_close : fine valueOf asks closeTree := fineNode rfl ⟨trivial, trivial⟩

theorem tame_castWords : ∀ w ∈ castWords, tame (castToTree (.word w)) = true := by decide +kernel

theorem fine_castTo {t : CastTo} (h : ∀ w, t = .word w → w ∈ castWords) : fine valueOf asks (castToTree t) := by
  cases t with
  | word w => exact fine_of_tame _ (tame_castWords w (h w rfl))
  | varying => exact fine_of_tame _ rfl

theorem asking_now : ∀ w ∈ nowWords, asking (nowRule w) = false := by decide +kernel

theorem not_empty {e : Ex} (h : e.Proper) : (some (exNode e)).any isEmptyInt = false := by
  show isEmptyInt (exNode e) = false
  unfold isEmptyInt
  split
  · next heq =>
    have hn := number_of_kind (e := e) heq
    obtain ⟨d, hd, _, h1 | h1⟩ := good_number h hn
    · exact absurd h1.symm hd
    · cases h1
  · rfl

theorem fine_sign (op : Sign) {e : Ex} (hp : e.Proper) (h : fine valueOf asks (core e)) :
    fine valueOf asks (core (.sign op e)) := by
  rw [core]
  refine ⟨?_, trivial, h, trivial⟩
  cases op with
  | minus =>
    refine ⟨fun e => absurd e (by decide), fun e => absurd e (by decide), fun e => absurd e (by decide), fun _ => ?_⟩
    show (exprOf (core e)).any isEmptyInt = false
    rw [value_core e hp]
    exact not_empty hp
  | _ => exact asks_of_tame rfl _

mutual
theorem fine_core : ∀ e : Ex, e.Proper → fine valueOf asks (core e)
  | .string s, _ => by rw [core]; exact fine_of_tame _ rfl
  | .integer n, _ => by rw [core]; exact fine_of_tame _ rfl
  | .float n, _ => by rw [core]; exact fine_of_tame _ rfl
  | .bits b, _ => by rw [core]; exact fine_of_tame _ rfl
  | .null, _ => by rw [core]; exact fine_of_tame _ rfl
  | .bool true, _ => by rw [core]; exact fine_of_tame _ rfl
  | .bool false, _ => by rw [core]; exact fine_of_tame _ rfl
  | .now w c, h => by
    rw [Ex.Proper] at h
    rw [core]
    exact fineNode rfl ⟨fineNode (asking_now w h) ⟨trivial, fine_of_tame _ (by cases c <;> rfl), trivial⟩, trivial⟩
  | .column n, _ => by rw [core]; exact fine_of_tame _ rfl
  | .qualified t n, _ => by rw [core]; exact fine_of_tame _ rfl
  | .full s t n, _ => by rw [core]; exact fine_of_tame _ rfl
  | .call f [], _ => by rw [core]; exact fine_of_tame _ rfl
  | .call f (a :: as), h => by
    rw [Ex.Proper, Ex.AllProper] at h
    rw [core]
    exact fineNode rfl ⟨fineNode rfl ⟨fine_of_tame _ rfl, fine_open,
      fineNode rfl ⟨fine_args _ as (fineNode rfl ⟨fine_arg (fine_asExpr (fine_core a h.1)), trivial⟩) h.2, trivial⟩,
      fine_close, trivial⟩, trivial⟩
  | .tuple a as, h => by
    rw [Ex.Proper] at h
    rw [core]
    exact fineNode rfl ⟨fineNode rfl ⟨fineNode rfl ⟨fine_open,
      fine_list _ as (fineNode rfl ⟨fine_asExpr (fine_core a h.1), trivial⟩) h.2, fine_close, trivial⟩, trivial⟩, trivial⟩
  | .cast e t, h => by
    rw [Ex.Proper] at h
    rw [core]
    exact fineNode rfl ⟨fine_core e h.2.2, trivial, fine_castTo h.2.1, trivial⟩
  | .collate e n, h => by
    rw [Ex.Proper] at h
    rw [core]
    exact fineNode rfl ⟨fine_core e h.2, trivial, fine_of_tame _ rfl, trivial⟩
  | .sign op e, h => by
    rw [Ex.Proper] at h
    exact fine_sign op h.2 (fine_core e h.2)
  | .arith op l r, h => by
    rw [Ex.Proper] at h
    rw [core]
    exact fineNode (by cases op <;> rfl) ⟨fine_core l h.2.1, trivial, fine_core r h.2.2, trivial⟩
  | .compare op l r, h => by
    rw [Ex.Proper] at h
    rw [core]
    exact fineNode rfl ⟨fine_core l h.2.1, fineNode (by cases op <;> rfl) ⟨trivial, trivial⟩, fine_core r h.2.2, trivial⟩
  | .like false l r, h => by
    rw [Ex.Proper] at h
    rw [core]
    exact fineNode rfl ⟨fine_core l h.2.1, trivial, fine_core r h.2.2, fineNode rfl trivial, trivial⟩
  | .like true l r, h => by
    rw [Ex.Proper] at h
    rw [core]
    exact fineNode rfl ⟨fine_core l h.2.1, trivial, trivial, fine_core r h.2.2, fineNode rfl trivial, trivial⟩
  | .regexp false l r, h => by
    rw [Ex.Proper] at h
    rw [core]
    exact fineNode rfl ⟨fine_core l h.2.1, trivial, fine_core r h.2.2, trivial⟩
  | .regexp true l r, h => by
    rw [Ex.Proper] at h
    rw [core]
    exact fineNode rfl ⟨fine_core l h.2.1, trivial, trivial, fine_core r h.2.2, trivial⟩
  | .among false l a as, h => by
    rw [Ex.Proper] at h
    rw [core]
    exact fineNode rfl ⟨fine_core l h.2.1, trivial, fineNode rfl ⟨fineNode rfl ⟨fine_open,
      fine_list _ as (fineNode rfl ⟨fine_asExpr (fine_core a h.2.2.1), trivial⟩) h.2.2.2, fine_close, trivial⟩, trivial⟩, trivial⟩
  | .among true l a as, h => by
    rw [Ex.Proper] at h
    rw [core]
    exact fineNode rfl ⟨fine_core l h.2.1, trivial, trivial, fineNode rfl ⟨fineNode rfl ⟨fine_open,
      fine_list _ as (fineNode rfl ⟨fine_asExpr (fine_core a h.2.2.1), trivial⟩) h.2.2.2, fine_close, trivial⟩, trivial⟩, trivial⟩
  | .between false l a b, h => by
    rw [Ex.Proper] at h
    rw [core]
    exact fineNode rfl ⟨fine_core l h.2.1, trivial, fine_core a h.2.2.1, trivial, fine_core b h.2.2.2, trivial⟩
  | .between true l a b, h => by
    rw [Ex.Proper] at h
    rw [core]
    exact fineNode rfl ⟨fine_core l h.2.1, trivial, trivial, fine_core a h.2.2.1, trivial, fine_core b h.2.2.2, trivial⟩
  | .is e neg w, h => by
    rw [Ex.Proper] at h
    rw [core]
    exact fineNode rfl ⟨fine_asExpr (fine_core e h.2), trivial, fine_of_tame _ (by cases neg <;> cases w <;> rfl), trivial⟩
  | .not e, h => by
    rw [Ex.Proper] at h
    rw [core]
    exact fineNode rfl ⟨trivial, fine_asExpr (fine_core e h.2), trivial⟩
  | .and l r, h => by
    rw [Ex.Proper] at h
    rw [core]
    exact fineNode rfl ⟨fine_asExpr (fine_core l h.2.1), trivial, fine_asExpr (fine_core r h.2.2), trivial⟩
  | .or l r, h => by
    rw [Ex.Proper] at h
    rw [core]
    exact fineNode rfl ⟨fine_asExpr (fine_core l h.2.1), trivial, fine_asExpr (fine_core r h.2.2), trivial⟩
theorem fine_args : ∀ (d : Tree SymType) (es : List Ex), fine valueOf asks d → Ex.AllProper es →
    fine valueOf asks (argsTree d es)
  | d, [], hd, _ => by rw [argsTree]; exact hd
  | d, e :: es, hd, h => by
    rw [Ex.AllProper] at h
    rw [argsTree]
    exact fine_args _ es (fineNode rfl ⟨hd, trivial, fine_arg (fine_asExpr (fine_core e h.1)), trivial⟩) h.2
theorem fine_list : ∀ (d : Tree SymType) (es : List Ex), fine valueOf asks d → Ex.AllProper es →
    fine valueOf asks (listTree d es)
  | d, [], hd, _ => by rw [listTree]; exact hd
  | d, e :: es, hd, h => by
    rw [Ex.AllProper] at h
    rw [listTree]
    exact fine_list _ es (fineNode rfl ⟨hd, trivial, fine_asExpr (fine_core e h.1), trivial⟩) h.2
end

theorem fine_expr {e : Ex} (h : e.Proper) : fine valueOf asks (exprTree e) := fine_asExpr (fine_core e h)

/-! ### Reading a node -/

/-- A rule: its length and what it makes. -/
def isRule (r len : Nat) (a : Int) : Bool := yyR2.at r = some (len : Int) && yyR1.at r = some a

theorem reads_node {s q s' a : Int} {m m' m'' r la : Nat} {cs : List (Tree SymType)}
    (h : readsAll nestEff s m cs la = some (q, m')) (hd : decideAct q la = .reduce r) (hr : isRule r cs.length a = true)
    (hg : gotoState s a = some s') (he : nestEff r m' = some m'') :
    readsTree nestEff s m (.node r cs) la = some (s', m'') := by
  rw [isRule, Bool.and_eq_true, decide_eq_true_eq, decide_eq_true_eq] at hr
  rw [readsTree, h]
  simp only [hd, hr.1, and_self, if_true, hr.2, hg, he]

theorem reads_leaf {s n : Int} {m la : Nat} {t : Token} (h : decideAct s (no t.type) = .shift n) :
    readsTree nestEff s m (lf t) la = some (n, m) := by
  rw [lf, readsTree, h]

theorem readsAll_cons {s q : Int} {m m' la : Nat} {c : Tree SymType} {cs : List (Tree SymType)}
    (h : readsTree nestEff s m c (headToken cs la) = some (q, m')) :
    readsAll nestEff s m (c :: cs) la = readsAll nestEff q m' cs la := by rw [readsAll, h]

/-- A rule that does nothing to the tokenizer. -/
def quiet (r : Nat) : Bool := !([1, 430, 431, 667, 993, 994].contains r) && r < 995

theorem nestEff_quiet {r : Nat} (h : quiet r = true) (m : Nat) : nestEff r m = some m := by
  simp only [quiet, Bool.and_eq_true, Bool.not_eq_true', decide_eq_true_eq, List.contains_eq_mem, decide_eq_false_iff_not,
    List.mem_cons, List.not_mem_nil, or_false, not_or] at h
  obtain ⟨⟨h1, h2, h3, h4, h5, h6⟩, h7⟩ := h
  unfold nestEff
  rw [if_neg h5, if_neg h6, if_neg]
  simp only [h1, h2, h3, h4, false_or, Nat.not_le]
  exact h7

/-! ### What does not depend on the next token -/

/-- A state with nothing but one reduction. -/
def steady (q : Int) (r : Nat) : Bool :=
  (match yyPact.at q with
   | none => false
   | some p => p ≤ yyFlag) && (match yyDef.at q with
   | none => false
   | some d => d = (r : Int) && 0 < d)

theorem steady_reduces {q : Int} {r : Nat} (h : steady q r = true) (la : Int) : decideAct q la = .reduce r := by
  unfold steady at h
  rw [Bool.and_eq_true] at h
  obtain ⟨h1, h2⟩ := h
  cases hp : yyPact.at q with
  | none => rw [hp] at h1; cases h1
  | some p =>
    rw [hp, decide_eq_true_eq] at h1
    cases hd : yyDef.at q with
    | none => rw [hd] at h2; cases h2
    | some d =>
      rw [hd, Bool.and_eq_true, decide_eq_true_eq, decide_eq_true_eq] at h2
      have hne : d ≠ -2 := by omega
      rw [decideAct, hp]
      simp only [h1, if_true, byDefault, hd, hne, if_false, h2.2, if_true]
      rw [h2.1, Int.toNat_natCast]

mutual
/-- The state after a derivation, if no next token is needed and no parentheses are in it. -/
def still (s : Int) : Tree SymType → Option Int
  | .leaf t _ =>
    match decideAct s t with
    | .shift n => some n
    | _ => none
  | .node r cs =>
    match stillAll s cs with
    | none => none
    | some q =>
      if steady q r && yyR2.at r = some (cs.length : Int) && quiet r then
        match yyR1.at r with
        | none => none
        | some a => gotoState s a
      else none
@[inherit_doc still]
def stillAll (s : Int) : List (Tree SymType) → Option Int
  | [] => some s
  | c :: cs =>
    match still s c with
    | none => none
    | some q => stillAll q cs
end

mutual
theorem reads_still : ∀ (d : Tree SymType) {s q : Int}, still s d = some q → ∀ m la,
    readsTree nestEff s m d la = some (q, m)
  | .leaf t v, s, q, h, m, la => by
    rw [still] at h
    rw [readsTree]
    split at h
    · next n hn =>
      rw [Option.some.injEq] at h
      rw [hn, h]
    · cases h
  | .node r cs, s, q, h, m, la => by
    rw [still] at h
    split at h
    · cases h
    · next q' hq =>
      split at h
      · next hc =>
        simp only [Bool.and_eq_true, decide_eq_true_eq] at hc
        split at h
        · cases h
        · next a ha =>
          refine reads_node (readsAll_still cs hq m la) (steady_reduces hc.1.1 _) (a := a) ?_ h
            (nestEff_quiet hc.2 m)
          rw [isRule, Bool.and_eq_true, decide_eq_true_eq, decide_eq_true_eq]
          exact ⟨hc.1.2, ha⟩
      · cases h
theorem readsAll_still : ∀ (cs : List (Tree SymType)) {s q : Int}, stillAll s cs = some q → ∀ m la,
    readsAll nestEff s m cs la = some (q, m)
  | [], s, q, h, m, la => by
    rw [stillAll, Option.some.injEq] at h
    rw [readsAll, h]
  | c :: cs, s, q, h, m, la => by
    rw [stillAll] at h
    split at h
    · cases h
    · next q' hq =>
      rw [readsAll_cons (reads_still c hq m _)]
      exact readsAll_still cs h m la
end

/-! ### Derivations without parentheses -/

mutual
/-- No parentheses are counted. -/
def level {V : Type} : Tree V → Bool
  | .leaf _ _ => true
  | .node r cs => quiet r && levelAll cs
@[inherit_doc level]
def levelAll {V : Type} : List (Tree V) → Bool
  | [] => true
  | c :: cs => level c && levelAll cs
end

mutual
theorem reads_level : ∀ (d : Tree SymType) {s q : Int} {m' la : Nat}, level d = true →
    readsTree nestEff s 0 d la = some (q, m') → ∀ m, readsTree nestEff s m d la = some (q, m)
  | .leaf t v, s, q, m', la, _, h, m => by
    rw [readsTree] at h
    split at h
    · next n hn =>
      rw [Option.some.injEq, Prod.mk.injEq] at h
      rw [readsTree, hn, h.1]
    · cases h
  | .node r cs, s, q, m', la, hl, h, m => by
    rw [level, Bool.and_eq_true] at hl
    rw [readsTree] at h
    split at h
    · cases h
    · next q' m1 hq =>
      split at h
      · next hc =>
        split at h
        · cases h
        · next a ha =>
          split at h
          · next s' m2 hg he =>
            rw [Option.some.injEq, Prod.mk.injEq] at h
            have := reads_node (cs := cs) (a := a) (readsAll_level cs hl.2 hq m) hc.1 (by
              rw [isRule, Bool.and_eq_true, decide_eq_true_eq, decide_eq_true_eq]
              exact ⟨hc.2, ha⟩) hg (nestEff_quiet hl.1 m)
            rw [this, h.1]
          · cases h
      · cases h
theorem readsAll_level : ∀ (cs : List (Tree SymType)) {s q : Int} {m' la : Nat}, levelAll cs = true →
    readsAll nestEff s 0 cs la = some (q, m') → ∀ m, readsAll nestEff s m cs la = some (q, m)
  | [], s, q, m', la, _, h, m => by
    rw [readsAll, Option.some.injEq, Prod.mk.injEq] at h
    rw [readsAll, h.1]
  | c :: cs, s, q, m', la, hl, h, m => by
    rw [levelAll, Bool.and_eq_true] at hl
    rw [readsAll] at h
    split at h
    · cases h
    · next q' m1 hq =>
      have h1 := reads_level c hl.1 hq
      have : m1 = 0 := by
        have := h1 0
        rw [hq, Option.some.injEq, Prod.mk.injEq] at this
        exact this.2
      subst this
      rw [readsAll_cons (h1 m)]
      exact readsAll_level cs hl.2 h m
end

end Sqldef.Sql
