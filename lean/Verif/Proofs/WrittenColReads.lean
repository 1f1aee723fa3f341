import Verif.Proofs.WrittenCol

/-! What the tables do with columns. -/
namespace Sqldef.Sql
open Spec Yy Written

theorem first_lf (t : Token) : first (lf t) = some (no t.type) := rfl

/-- The last token of a list decides what is read, not the one after it. -/
theorem reads_last_leaf {s : Int} {m : Nat} (xs : List (Tree SymType)) (t : Token) (a b : Nat) :
    readsAll nestEff s m (xs ++ [lf t]) a = readsAll nestEff s m (xs ++ [lf t]) b := by
  rw [readsAll_append, readsAll_append, headToken_cons, headToken_cons, first_lf]
  rfl

/-- `reads_part` after a token. -/
theorem reads_part_after {s : Int} {r la n : Nat} {q : Int × Nat} (xs cs : List (Tree SymType)) (t : Token) {d d' : Tree SymType}
    (hq : readsAll nestEff s 0 (xs ++ [lf t]) n = some q)
    (h : readsTree nestEff q.1 q.2 d (headToken cs la) = readsTree nestEff q.1 q.2 d' (headToken cs la)) :
    readsTree nestEff s 0 (.node r (xs ++ lf t :: d :: cs)) la = readsTree nestEff s 0 (.node r (xs ++ lf t :: d' :: cs)) la := by
  have e : ∀ d : Tree SymType, xs ++ lf t :: d :: cs = (xs ++ [lf t]) ++ d :: cs := by simp
  have key : readsAll nestEff s 0 (xs ++ lf t :: d :: cs) la = readsAll nestEff s 0 (xs ++ lf t :: d' :: cs) la := by
    rw [e d, e d', readsAll_append (xs ++ [lf t]) (d :: cs), readsAll_append (xs ++ [lf t]) (d' :: cs), reads_last_leaf xs t _ n, reads_last_leaf xs t (headToken (d' :: cs) la) n, hq]
    show readsAll _ _ _ _ _ = readsAll _ _ _ _ _
    rw [readsAll, readsAll, h]
  rw [readsTree, readsTree, key]
  simp only [List.length_append, List.length_cons]

/-! ### Lists of names and of options of a sequence -/

/-- A list of names is read alike wherever it stands: what is needed of the state. -/
def readsNames (s : Int) (t : Int × Nat) : Prop := ∀ la ∈ [53, 54],
  readsTree nestEff s 0 (columnListTree [] []) la = some t ∧
  readsTree nestEff s 0 (.node (nameAdd []).1 (columnListTree [] [] :: (nameAdd []).2)) la = some t

theorem columnList_reads {s : Int} {t : Int × Nat} (h : readsNames s t) (a : Str) (as : List Str) : ∀ la ∈ [53, 54],
    readsTree nestEff s 0 (columnListTree a as) la = some t := by
  refine reads_grow (P := fun la => la ∈ [53, 54]) (d₀ := columnListTree [] []) ?_ (fun la hla => (h la hla).1) ?_
  · intro la hla
    have e : blank (.node 468 [sqlId a]) = blank (columnListTree [] []) := rfl
    rw [reads_alike e]
    exact (h la hla).1
  · intro x _ la hla
    refine ⟨?_, ?_⟩
    · show headToken [lf (sym ','), sqlId x] la ∈ [53, 54]
      rw [headToken_cons, show first (lf (sym ',')) = some 53 by decide +kernel]
      exact List.mem_cons_self
    · have e : blank (.node (nameAdd x).1 (columnListTree [] [] :: (nameAdd x).2)) =
          blank (.node (nameAdd []).1 (columnListTree [] [] :: (nameAdd []).2)) := rfl
      rw [reads_alike e]
      exact (h la hla).2

def seqShape : SeqOption → SeqOption
  | .start w _ => .start w []
  | .increment w _ => .increment w []
  | .minvalue _ => .minvalue []
  | .maxvalue _ => .maxvalue []
  | .cache _ => .cache []
  | .ownedBy _ _ => .ownedBy [] []
  | o => o

def seqShapes : List SeqOption :=
  [.start true [], .start false [], .increment true [], .increment false [], .minvalue [], .maxvalue [], .cache [],
   .noMinvalue, .noMaxvalue, .noCycle, .cycle, .ownedByNone, .ownedBy [] []]

theorem seqShape_mem (o : SeqOption) : seqShape o ∈ seqShapes := by
  rcases o with ⟨_ | _, _⟩ | ⟨_ | _, _⟩ | _ | _ | _ | _ | _ | _ | _ | _ | _ <;> simp [seqShape, seqShapes]

theorem blank_seqAdd (o : SeqOption) (d : Tree SymType) :
    blank (.node (seqAdd o).1 (d :: (seqAdd o).2)) = blank (.node (seqAdd (seqShape o)).1 (d :: (seqAdd (seqShape o)).2)) := by
  rcases o with ⟨_ | _, _⟩ | ⟨_ | _, _⟩ | _ | _ | _ | _ | _ | _ | _ | _ | _ <;> rfl

theorem head_seqAdd (o : SeqOption) (la : Nat) : headToken (seqAdd o).2 la = headToken (seqAdd (seqShape o)).2 la := by
  rcases o with ⟨_ | _, _⟩ | ⟨_ | _, _⟩ | _ | _ | _ | _ | _ | _ | _ | _ | _ <;> rfl

/-- The tokens in a list of options of a sequence that may come next. -/
def afterSeq : List Nat := seqShapes.map (fun o => headToken (seqAdd o).2 0) ++ [54]

theorem seq_reads {s q : Int} (h0 : ∀ la ∈ afterSeq, readsTree nestEff s 0 (seqTree []) la = some (q, 0))
    (h1 : ∀ o ∈ seqShapes, ∀ la ∈ afterSeq, headToken (seqAdd o).2 la ∈ afterSeq ∧
      readsTree nestEff s 0 (.node (seqAdd o).1 (seqTree [] :: (seqAdd o).2)) la = some (q, 0)) (os : List SeqOption) :
    ∀ la ∈ afterSeq, readsTree nestEff s 0 (seqTree os) la = some (q, 0) := by
  refine reads_grow (P := fun la => la ∈ afterSeq) (d₀ := seqTree []) h0 h0 ?_
  intro o _ la hla
  rw [head_seqAdd, reads_alike (blank_seqAdd o _)]
  exact h1 _ (seqShape_mem o) la hla

/-! ### Options -/

/-- A column without options. -/
def plainCol : Tree SymType := typedTree 187 (.integer "int" none false false) .none

def nowShape : Now → Now
  | .timestamp (.some _) => .timestamp (.some [])
  | .time (.some _) => .time (.some [])
  | n => n
def nowShapes : List Now :=
  [.timestamp .none, .timestamp .empty, .timestamp (.some []), .time .none, .time .empty, .time (.some []), .date, .getdate]
theorem nowShape_mem (n : Now) : nowShape n ∈ nowShapes := by
  rcases n with (_ | _ | _) | (_ | _ | _) | _ | _ <;> simp [nowShape, nowShapes]
theorem blank_now (n : Now) : blank (nowTree n) = blank (nowTree (nowShape n)) := by
  rcases n with (_ | _ | _) | (_ | _ | _) | _ | _ <;> rfl

def valueShape : Written.Value → Written.Value
  | .string _ c => .string [] c
  | .integer _ => .integer []
  | .float _ => .float []
  | .now n => .now (nowShape n)
  | .bits _ => .bits []
  | v => v
def castShapes : List Cast := [.none, .varying, .timestamp none, .timestamp (some true), .timestamp (some false), .bpchar, .text]
def valueShapes : List Written.Value :=
  castShapes.map (.string []) ++ nowShapes.map .now ++
    [.integer [], .float [], .null, .bits [], .bool true, .bool false, .nowCall]
theorem valueShape_mem (v : Written.Value) : valueShape v ∈ valueShapes := by
  rcases v with ⟨_, c⟩ | _ | _ | _ | n | _ | (_ | _) | _
  · refine List.mem_append_left _ (List.mem_append_left _ (List.mem_map.mpr ⟨c, ?_, rfl⟩))
    rcases c with _ | _ | (_ | _ | _) | _ | _ <;> simp [castShapes]
  · simp [valueShape, valueShapes]
  · simp [valueShape, valueShapes]
  · simp [valueShape, valueShapes]
  · exact List.mem_append_left _ (List.mem_append_right _ (List.mem_map.mpr ⟨_, nowShape_mem n, rfl⟩))
  · simp [valueShape, valueShapes]
  · simp [valueShape, valueShapes]
  · simp [valueShape, valueShapes]
  · simp [valueShape, valueShapes]
theorem blank_value (v : Written.Value) : blank (valueTree v) = blank (valueTree (valueShape v)) := by
  rcases v with _ | _ | _ | _ | n | _ | (_ | _) | _
  · rfl
  · rfl
  · rfl
  · rfl
  · simp only [valueTree, valueShape, blank, blankAll, blank_now n]
  · rfl
  · rfl
  · rfl
  · rfl

def optShape : ColOption → ColOption
  | .default c w v => .default (c.map fun _ => []) w (valueShape v)
  | .onUpdate n => .onUpdate (nowShape n)
  | .comment _ => .comment []
  | .references _ c => .references [] (c.map fun _ => ([], []))
  | .generated a o => .generated a (o.map fun _ => [])
  | .identity _ _ => .identity [] []
  | .check b _ i => .check b .null i
  | .namedCheck _ b _ => .namedCheck [] b .null
  | o => o

def wraps : List Wrap := [.none, .once, .twice]

def optShapes : List ColOption :=
  [.null, .notNull, .autoIncrement true, .autoIncrement false, .primaryKey, .key, .uniqueKey, .unique, .comment [],
   .references [] none, .references [] (some ([], [])), .generated true none, .generated false none,
   .generated true (some []), .generated false (some []), .identity [] [], .notForReplication,
   .check true .null true, .check true .null false, .check false .null true, .check false .null false,
   .namedCheck [] true .null, .namedCheck [] false .null] ++
  nowShapes.map .onUpdate ++
  ([none, some []] : List (Option Str)).flatMap fun c => wraps.flatMap fun w => valueShapes.map fun v => .default c w v

theorem optShape_mem (o : ColOption) : optShape o ∈ optShapes := by
  rcases o with _ | _ | ⟨c, w, v⟩ | n | (_ | _) | _ | _ | _ | _ | _ | ⟨_, _ | _⟩ | ⟨_ | _, _ | _⟩ | _ | _ | ⟨_ | _, _, _ | _⟩ | ⟨_, _ | _, _⟩ <;>
    first
    | (simp [optShape, optShapes]; done)
    | skip
  · refine List.mem_append_right _ (List.mem_flatMap.mpr ⟨c.map fun _ => [], by cases c <;> simp, List.mem_flatMap.mpr ⟨w,
      by cases w <;> simp [wraps], List.mem_map.mpr ⟨_, valueShape_mem v, rfl⟩⟩⟩)
  · exact List.mem_append_left _ (List.mem_append_right _ (List.mem_map.mpr ⟨_, nowShape_mem n, rfl⟩))

/-- The first token of an option. -/
def starter : ColOption → Nat
  | .null => no (kw "NULL").type
  | .notNull => no (kw "NOT").type
  | .default none _ _ => no (kw "DEFAULT").type
  | .default (some _) _ _ => no (kw "CONSTRAINT").type
  | .onUpdate _ => no (kw "ON").type
  | .autoIncrement true => no (kw "AUTO_INCREMENT").type
  | .autoIncrement false => no (kw "AUTOINCREMENT").type
  | .primaryKey => no (kw "PRIMARY").type
  | .key => no (kw "KEY").type
  | .uniqueKey => no (kw "UNIQUE").type
  | .unique => no (kw "UNIQUE").type
  | .comment _ => no (kw "COMMENT").type
  | .references _ _ => no (kw "REFERENCES").type
  | .generated _ _ => no (kw "GENERATED").type
  | .identity _ _ => no (kw "IDENTITY").type
  | .notForReplication => no (kw "NOT").type
  | .check _ _ _ => no (kw "CHECK").type
  | .namedCheck _ _ _ => no (kw "CONSTRAINT").type

theorem head_optAdd (o : ColOption) (la : Nat) : headToken (optAdd o).2 la = starter o := by
  rcases o with _ | _ | ⟨_ | _, (_ | _ | _), v⟩ | n | (_ | _) | _ | _ | _ | _ | _ | ⟨_, _ | _⟩ | ⟨_ | _, _ | _⟩ | _ | _ | ⟨_ | _, _, _ | _⟩ | ⟨_, _ | _, _⟩ <;> rfl

def isUnique : ColOption → Bool
  | .unique => true
  | _ => false
def isKey : ColOption → Bool
  | .key => true
  | _ => false

theorem starters : ∀ o ∈ optShapes, starter o ∈ afterOpts ∧ (isKey o = false → starter o ≠ 135) := by decide +kernel

theorem starter_shape (o : ColOption) : starter o = starter (optShape o) := by
  rcases o with _ | _ | ⟨_ | _, _, v⟩ | n | (_ | _) | _ | _ | _ | _ | _ | ⟨_, _ | _⟩ | ⟨_ | _, _ | _⟩ | _ | _ | ⟨_ | _, _, _ | _⟩ | ⟨_, _ | _, _⟩ <;> rfl
theorem isKey_shape (o : ColOption) : isKey o = isKey (optShape o) := by cases o <;> rfl
theorem isUnique_shape (o : ColOption) : isUnique o = isUnique (optShape o) := by cases o <;> rfl

theorem starter_after (o : ColOption) : starter o ∈ afterOpts ∧ (isKey o = false → starter o ≠ 135) := by
  rw [starter_shape, isKey_shape]
  exact starters _ (optShape_mem o)

theorem reads_optShapes : ∀ o ∈ optShapes, ∀ la ∈ afterOpts, (isUnique o = true → la ≠ 135) →
    readsTree nestEff 463 0 (.node (optAdd o).1 (plainCol :: (optAdd o).2)) la = some (673, 0) := by
  decide +kernel

end Sqldef.Sql
