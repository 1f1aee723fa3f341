import Verif.Proofs.WrittenColReads
import Verif.Proofs.ExReadsCore

/-! Columns are read as written. -/
namespace Sqldef.Sql
open Spec Yy Written

theorem names_1298 : ∃ q ∈ ([1413] : List Int), ∀ la ∈ [53, 54],
    readsTree nestEff 1298 0 (columnListTree [] []) la = some (q, 0) ∧
    readsTree nestEff 1298 0 (.node (nameAdd []).1 (columnListTree [] [] :: (nameAdd []).2)) la = some (q, 0) := by
  decide +kernel

theorem seq_1503 : ∃ q ∈ ([1566] : List Int), (∀ la ∈ afterSeq, readsTree nestEff 1503 0 (seqTree []) la = some (q, 0)) ∧
    ∀ o ∈ seqShapes, ∀ la ∈ afterSeq, headToken (seqAdd o).2 la ∈ afterSeq ∧
      readsTree nestEff 1503 0 (.node (seqAdd o).1 (seqTree [] :: (seqAdd o).2)) la = some (q, 0) := by
  decide +kernel

theorem closing (la : Nat) : headToken [lf (sym ')')] la = 54 := by
  rw [headToken_cons, show first (lf (sym ')')) = some 54 by decide +kernel]
  rfl

/-- Between parentheses, two derivations that lead to the same state are read alike. -/
theorem reads_between {s p o : Int} {r la : Nat} (xs cs : List (Tree SymType)) {d d' : Tree SymType}
    (hx : readsAll nestEff s 0 xs (no (sym '(').type) = some (p, 0)) (h1 : decideAct p (no (sym '(').type) = .shift 50)
    (h2 : gotoState p 207 = some o)
    (h : readsTree nestEff o 1 d (no (sym ')').type) = readsTree nestEff o 1 d' (no (sym ')').type)) :
    readsTree nestEff s 0 (.node r (xs ++ openTree :: d :: closeTree :: cs)) la =
      readsTree nestEff s 0 (.node r (xs ++ openTree :: d' :: closeTree :: cs)) la := by
  have key : ∀ d : Tree SymType, readsAll nestEff s 0 (xs ++ openTree :: d :: closeTree :: cs) la =
      (readsTree nestEff o 1 d (no (sym ')').type)).bind fun q => readsAll nestEff q.1 q.2 (closeTree :: cs) la := by
    intro d
    have e : headToken (openTree :: d :: closeTree :: cs) la = no (sym '(').type := rfl
    rw [readsAll_append, e, hx]
    show readsAll nestEff p 0 (openTree :: d :: closeTree :: cs) la = _
    rw [readsAll_cons (reads_open h1 h2 (by decide) _), readsAll, headToken_close]
    cases readsTree nestEff o 1 d (no (sym ')').type) <;> rfl
  rw [readsTree, readsTree, key d, key d', h]
  simp only [List.length_append, List.length_cons]

theorem check_states : (∀ b, readsAll nestEff 463 0 [plainCol, lf (kw "CHECK"), nfrTree b] (no (sym '(').type) = some (1116, 0)) ∧
    (∀ b, readsAll nestEff 463 0 [plainCol, lf (kw "CONSTRAINT"), sqlId [], lf (kw "CHECK"), nfrTree b] (no (sym '(').type) =
      some (1411, 0)) ∧
    decideAct 1116 (no (sym '(').type) = .shift 50 ∧ decideAct 1411 (no (sym '(').type) = .shift 50 ∧
    gotoState 1116 207 = some 1297 ∧ gotoState 1411 207 = some 1500 ∧
    (1297, 1) ∈ sites ∧ (1500, 1) ∈ sites := by
  decide +kernel

theorem follows_close : Follows 1 (no (sym ')').type) := follows_of (by decide +kernel)

theorem check_reads {e : Ex} (h : e.Proper) (hd : e.depth < 199) {s : Int} (hs : (s, 1) ∈ sites) :
    readsTree nestEff s 1 (exprTree e) (no (sym ')').type) = readsTree nestEff s 1 (exprTree .null) (no (sym ')').type) := by
  rw [expr_reads h hs follows_close (by omega), expr_reads (e := .null) trivial hs follows_close (by decide)]

theorem reads_optShape {o : ColOption} (hc : o.Clear) (la : Nat) :
    readsTree nestEff 463 0 (.node (optAdd o).1 (plainCol :: (optAdd o).2)) la =
    readsTree nestEff 463 0 (.node (optAdd (optShape o)).1 (plainCol :: (optAdd (optShape o)).2)) la := by
  rcases o with _ | _ | ⟨_ | n, w, v⟩ | n | (_ | _) | _ | _ | _ | _ | s | ⟨t, _ | p⟩ | ⟨a, _ | os⟩ | ⟨a, b⟩ | _ | ⟨b, e, i⟩ | ⟨n, b, e⟩
  case check =>
    obtain ⟨h1, _, h2, _, h3, _, h4, _⟩ := check_states
    exact reads_between [plainCol, lf (kw "CHECK"), nfrTree b] [noInheritTree i] (h1 b) h2 h3 (check_reads hc.1 hc.2 h4)
  case namedCheck =>
    obtain ⟨_, h1, _, h2, _, h3, _, h4⟩ := check_states
    refine Eq.trans (b := readsTree nestEff 463 0 (.node 132 ([plainCol, lf (kw "CONSTRAINT"), sqlId [], lf (kw "CHECK"), nfrTree b] ++
      openTree :: exprTree e :: closeTree :: [])) la) (reads_alike ?_ la) ?_
    · simp only [optAdd, List.cons_append, List.nil_append, blank, blankAll]
      rfl
    exact reads_between [plainCol, lf (kw "CONSTRAINT"), sqlId [], lf (kw "CHECK"), nfrTree b] [] (h1 b) h2 h3
      (check_reads hc.2.1 hc.2.2 h4)
  case default.none =>
    refine reads_alike ?_ la
    cases w <;> simp only [optAdd, optShape, defaultTree, blank, blankAll, blank_value v, Option.map]
  case default.some =>
    refine reads_alike ?_ la
    cases w <;>
      (simp only [optAdd, optShape, defaultTree, blank, blankAll, blank_value v, Option.map]
       rfl)
  case onUpdate =>
    refine reads_alike ?_ la
    simp only [optAdd, optShape, blank, blankAll, blank_now n]
  case references.some =>
    obtain ⟨q, _, hq⟩ := names_1298
    refine Eq.trans (b := readsTree nestEff 463 0 (.node 135 [plainCol, lf (kw "REFERENCES"), tableId t, lf (sym '('),
      columnListTree [] [], lf (sym ')')]) la) ?_ ?_
    rotate_left
    · have e : blank (.node 135 [plainCol, lf (kw "REFERENCES"), tableId t, lf (sym '('), columnListTree [] [], lf (sym ')')]) =
        blank (.node (optAdd (optShape (.references t (some p)))).1
          (plainCol :: (optAdd (optShape (.references t (some p)))).2)) := rfl
      rw [reads_alike e]
    refine reads_part_after (n := 0) (q := (1298, 0)) [plainCol, lf (kw "REFERENCES"), tableId t] [lf (sym ')')] (sym '(') ?_ ?_
    · have e : blankAll ([plainCol, lf (kw "REFERENCES"), tableId t] ++ [lf (sym '(')]) =
        blankAll ([plainCol, lf (kw "REFERENCES"), tableId []] ++ [lf (sym '(')]) := rfl
      rw [readsAll_blank, e, ← readsAll_blank]
      decide +kernel
    · rw [closing, columnList_reads hq _ _ 54 (by decide), columnList_reads hq _ _ 54 (by decide)]
  case generated.some =>
    obtain ⟨q, _, h0, h1⟩ := seq_1503
    refine reads_part_after (n := 0) (q := (1503, 0)) [plainCol, lf (kw "GENERATED"), behaviorTree a, lf (kw "AS"),
      lf (kw "IDENTITY")] [lf (sym ')')] (sym '(') ?_ ?_
    · clear hc
      revert a
      decide +kernel
    · have h54 : 54 ∈ afterSeq := by simp [afterSeq]
      rw [closing, seq_reads h0 h1 _ 54 h54, seq_reads h0 h1 _ 54 h54]
  all_goals (refine reads_alike ?_ la; rfl)

theorem reads_opt {o : ColOption} (hc : o.Clear) : ∀ la ∈ afterOpts, (isUnique o = true → la ≠ 135) →
    readsTree nestEff 463 0 (.node (optAdd o).1 (plainCol :: (optAdd o).2)) la = some (673, 0) := by
  rw [isUnique_shape]
  intro la hla hu
  rw [reads_optShape hc]
  exact reads_optShapes _ (optShape_mem o) la hla hu

theorem plainCol_reads : ∀ la ∈ afterOpts, readsTree nestEff 463 0 plainCol la = some (673, 0) := by decide +kernel

theorem typed_reads {r : Nat} {t : Ty} (h : TyRule t r) (a : ArrayMark) : ∀ la ∈ afterOpts,
    readsTree nestEff 463 0 (typedTree r t a) la = some (673, 0) := by
  intro la hla
  have h1 : headToken [arrayTree a] la ∈ afterTy := by
    cases a
    · exact List.mem_cons_of_mem _ (List.mem_cons_of_mem _ hla)
    · have e : headToken [arrayTree .brackets] la = headToken [arrayTree .brackets] 0 := rfl
      rw [e]
      decide +kernel
    · have e : headToken [arrayTree .word] la = headToken [arrayTree .word] 0 := rfl
      rw [e]
      decide +kernel
  refine (reads_first (d' := tyTree 187 (.integer "int" none false false)) ?_).trans ?_
  · rw [ty_reads h _ h1, ty_reads (t := .integer "int" none false false) (show (_, _) ∈ integerRules by simp [integerRules]) _ h1]
  · revert la
    cases a <;> decide +kernel

/-- The options are told apart by the token that comes next. -/
theorem opts_reads (os : List ColOption) (ho : ∀ o ∈ os, o.Clear) (i : Bool) (hc : clearOptions i os) (d : Tree SymType) (u : Bool)
    (hd : ∀ la ∈ afterOpts, (u = true → la ≠ 135) → readsTree nestEff 463 0 d la = some (673, 0))
    (hu : u = true → (os.head?.any isKey) = false) :
    ∀ la ∈ [53, 54], readsTree nestEff 463 0 (grow optAdd d os) la = some (673, 0) := by
  induction os generalizing i d u with
  | nil =>
    intro la hla
    have : la ∈ afterOpts ∧ la ≠ 135 := by
      revert la
      decide
    exact hd la this.1 fun _ => this.2
  | cons o os ih =>
    have hi : (∃ i', clearOptions i' os) ∧ (isUnique o = true → (os.head?.any isKey) = false) := by
      cases o with
      | unique =>
        cases os with
        | nil => exact ⟨⟨i, trivial⟩, fun _ => rfl⟩
        | cons p ps => cases p <;> first | exact ⟨⟨_, hc⟩, fun _ => rfl⟩ | exact hc.elim
      | notForReplication => exact ⟨⟨i, hc.2⟩, fun h => nomatch h⟩
      | _ => exact ⟨⟨_, hc⟩, fun h => nomatch h⟩
    obtain ⟨⟨i', hc'⟩, hu'⟩ := hi
    refine ih (fun p hp => ho p (List.mem_cons_of_mem _ hp)) i' hc' _ (isUnique o) ?_ hu'
    intro la hla hne
    have hs := starter_after o
    refine (reads_first (d' := plainCol) ?_).trans (reads_opt (ho o List.mem_cons_self) la hla hne)
    rw [head_optAdd, plainCol_reads _ hs.1]
    refine hd _ hs.1 fun hu1 => hs.2 ?_
    have := hu hu1
    simpa using this

theorem colTree_reads {r : Nat} {c : Col} (h : TyRule c.type r) (hc : clearOptions false c.options)
    (ho : ∀ o ∈ c.options, o.Clear) :
    ∀ la ∈ [53, 54], readsTree nestEff 65 0 (colTree r c) la = some (462, 0) ∧
      readsTree nestEff 672 0 (colTree r c) la = some (907, 0) := by
  intro la hla
  have h1 := opts_reads c.options ho false hc (typedTree r c.type c.array) false (fun la hla _ => typed_reads h _ la hla)
    (fun h => nomatch h) la hla
  have h2 := plainCol_reads la (by clear h1; revert la; decide)
  have key : ∀ s ∈ ([65, 672] : List Int), readsTree nestEff s 0 (colTree r c) la =
      readsTree nestEff s 0 (.node 113 [lf (nm []), plainCol]) la := by
    intro s hs
    refine Eq.trans (b := readsTree nestEff s 0 (.node 113 [lf (nm c.name), plainCol]) la) ?_ (reads_alike rfl la)
    refine reads_part_after (n := 0) (q := (463, 0)) [] [] (nm c.name) ?_ ?_
    · have e : blankAll ([] ++ [lf (nm c.name)]) = blankAll ([] ++ [lf (nm [])]) := rfl
      rw [readsAll_blank, e, ← readsAll_blank]
      revert s
      decide +kernel
    · exact h1.trans h2.symm
  rw [key 65 (by simp), key 672 (by simp)]
  clear key h1 h2
  revert la
  decide +kernel

/-! ### What the actions ask -/

theorem tame_now (n : Now) : tame (nowTree n) = true := by
  rcases n with (_ | _ | _) | (_ | _ | _) | _ | _ <;> rfl
theorem tame_value (v : Written.Value) : tame (valueTree v) = true := by
  rcases v with ⟨_, _ | _ | (_ | _ | _) | _ | _⟩ | _ | _ | _ | n | _ | (_ | _) | _ <;>
    first | rfl | (simp only [valueTree, tame, tameAll, tame_now]; rfl)
theorem tame_default (w : Wrap) (v : Written.Value) : tame (defaultTree w v) = true := by
  cases w <;> (simp only [defaultTree, tame, tameAll, tame_value, tame_lf]; rfl)
theorem tame_seq (os : List SeqOption) : tame (seqTree os) = true := by
  refine tame_grow _ _ rfl fun o _ => ?_
  rcases o with ⟨_ | _, _⟩ | ⟨_ | _, _⟩ | _ | _ | _ | _ | _ | _ | _ | _ | _ <;> exact ⟨rfl, rfl⟩
theorem tame_columnList (a : Str) (as : List Str) : tame (columnListTree a as) = true :=
  tame_grow _ _ rfl fun _ _ => ⟨rfl, rfl⟩
theorem tame_behavior (a : Bool) : tame (behaviorTree a) = true := by cases a <;> rfl

theorem fine_nfr (b : Bool) : fine valueOf asks (nfrTree b) := fine_of_tame _ (by cases b <;> rfl)
theorem fine_noInherit (b : Bool) : fine valueOf asks (noInheritTree b) := fine_of_tame _ (by cases b <;> rfl)

theorem fine_optAdd {o : ColOption} (hc : o.Clear) : fineAll valueOf asks (optAdd o).2 := by
  rcases o with _ | _ | ⟨_ | n, w, v⟩ | n | (_ | _) | _ | _ | _ | _ | s | ⟨t, _ | p⟩ | ⟨a, _ | os⟩ | ⟨a, b⟩ | _ | ⟨b, e, i⟩ | ⟨n, b, e⟩
  case check => exact ⟨trivial, fine_nfr b, fine_open, fine_expr hc.1, fine_close, fine_noInherit i, trivial⟩
  case namedCheck =>
    exact ⟨trivial, fine_of_tame _ rfl, trivial, fine_nfr b, fine_open, fine_expr hc.2.1, fine_close, trivial⟩
  all_goals refine fineAll_of_tame _ ?_
  all_goals
    first
    | rfl
    | (simp only [optAdd, tameAll, tame_lf, tame_default, tame_now, tame_columnList, tame_seq, tame_behavior]; rfl)

/-- What the actions ask of an option: of a check, that there is a condition; of `NOT FOR REPLICATION`, an identity. -/
theorem asks_optAdd {o : ColOption} (hc : o.Clear) {v : SymType}
    (h : o = .notForReplication → v.columnType.identity.isNone = false) :
    asks (optAdd o).1 (v :: valuesOf valueOf (optAdd o).2) := by
  rcases o with _ | _ | ⟨_ | n, w, x⟩ | n | (_ | _) | _ | _ | _ | _ | s | ⟨t, _ | p⟩ | ⟨a, _ | os⟩ | ⟨a, b⟩ | _ | ⟨b, e, i⟩ | ⟨n, b, e⟩
  case check =>
    refine ⟨fun _ => ?_, (fun h => nomatch h), (fun h => nomatch h), (fun h => nomatch h)⟩
    show (exprOf (exprTree e)).isNone = false
    rw [value_expr hc.1]
    rfl
  case namedCheck =>
    refine ⟨(fun h => nomatch h), fun _ => ?_, (fun h => nomatch h), (fun h => nomatch h)⟩
    show (exprOf (exprTree e)).isNone = false
    rw [value_expr hc.2.1]
    rfl
  case notForReplication =>
    exact ⟨(fun h => nomatch h), (fun h => nomatch h), fun _ => h rfl, (fun h => nomatch h)⟩
  all_goals exact asks_of_tame rfl _

theorem identity_apply (o : ColOption) (t : SqlColumnType) (i : Bool) (h : i = true → t.identity.isNone = false) :
    (i || o.isIdentity) = true → (o.apply t).identity.isNone = false := by
  cases o with
  | generated a os => intro _; rfl
  | identity a b => intro _; rfl
  | notForReplication =>
    intro hi
    have := h (by simpa [ColOption.isIdentity] using hi)
    simpa [ColOption.apply] using this
  | _ =>
    intro hi
    exact h (by simpa [ColOption.isIdentity] using hi)

theorem fine_opts (os : List ColOption) (ho : ∀ o ∈ os, o.Clear) (i : Bool) (hc : clearOptions i os) (d : Tree SymType) (hd : fine valueOf asks d)
    (hi : i = true → (d.value valueOf).columnType.identity.isNone = false) : fine valueOf asks (grow optAdd d os) := by
  induction os generalizing i d with
  | nil => exact hd
  | cons o os ih =>
    have hc' : clearOptions (i || o.isIdentity) os ∧ (o = .notForReplication → i = true) := by
      cases o with
      | unique =>
        cases os with
        | nil => exact ⟨trivial, fun h => nomatch h⟩
        | cons p ps => cases p <;> first | exact ⟨hc, fun h => nomatch h⟩ | exact hc.elim
      | notForReplication => exact ⟨by simpa [ColOption.isIdentity] using hc.2, fun _ => hc.1⟩
      | _ => exact ⟨hc, fun h => nomatch h⟩
    refine ih (fun p hp => ho p (List.mem_cons_of_mem _ hp)) _ hc'.1 _ ?_ ?_
    · exact ⟨asks_optAdd (ho o List.mem_cons_self) fun h => hi (hc'.2 h), hd, fine_optAdd (ho o List.mem_cons_self)⟩
    · intro h
      rw [value_node, valuesOf, value_optAdd (ho o List.mem_cons_self)]
      exact identity_apply o _ i hi h

theorem fine_col {r : Nat} {c : Col} (h : TyRule c.type r) (hc : clearOptions false c.options)
    (ho : ∀ o ∈ c.options, o.Clear) :
    fine valueOf asks (colTree r c) := by
  refine ⟨asks_of_tame (by decide) _, trivial, ?_, trivial⟩
  refine fine_opts _ ho _ hc _ (fine_of_tame _ ?_) (fun h => nomatch h)
  simp only [typedTree, tame, tameAll, tame_ty h, tame_array]
  rfl

end Sqldef.Sql
