import Verif.Base.Str
import Mathlib.Logic.Basic
import Mathlib.Tactic.Tauto
/-! Lists of things with names, changed by adding and dropping things by name. -/
namespace Sqldef

variable {α : Type}

/-- The first thing called `n`. -/
def look (key : α → Str) (l : List α) (n : Str) : Option α := l.find? fun a => decide (key a = n)

theorem look_mem {key : α → Str} {l : List α} {n : Str} {a : α} (h : look key l n = some a) : a ∈ l ∧ key a = n :=
  ⟨List.mem_of_find?_eq_some h, by simpa using List.find?_some h⟩

theorem look_none {key : α → Str} {l : List α} {n : Str} : look key l n = none ↔ n ∉ l.map key := by
  unfold look
  rw [List.find?_eq_none]
  simp only [decide_eq_true_eq, List.mem_map, not_exists, not_and]

theorem look_isSome {key : α → Str} {l : List α} {n : Str} : (look key l n).isSome ↔ n ∈ l.map key := by
  rw [← not_iff_not, ← look_none]
  simp

theorem look_of_mem {key : α → Str} {l : List α} {a : α} (hn : (l.map key).Nodup) (ha : a ∈ l) : look key l (key a) = some a := by
  induction l with
  | nil => cases ha
  | cons b l ih =>
    rw [List.map_cons, List.nodup_cons] at hn
    unfold look at ih ⊢
    rcases List.mem_cons.1 ha with rfl | ha
    · rw [List.find?_cons_of_pos (by simp)]
    · rw [List.find?_cons_of_neg, ih hn.2 ha]
      simp only [decide_eq_true_eq]
      exact fun h => hn.1 (h ▸ List.mem_map_of_mem (f := key) ha)

theorem look_append (key : α → Str) (l m : List α) (n : Str) : look key (l ++ m) n = (look key l n).or (look key m n) := by
  simp [look, List.find?_append]

theorem look_filter (key : α → Str) (p : Str → Bool) (l : List α) (n : Str) :
    look key (l.filter fun a => p (key a)) n = if p n then look key l n else none := by
  induction l with
  | nil => simp [look]
  | cons a l ih =>
    unfold look at ih ⊢
    by_cases ha : p (key a) = true
    · rw [List.filter_cons_of_pos (by simpa using ha)]
      by_cases hn : key a = n
      · rw [List.find?_cons_of_pos (by simpa using hn), List.find?_cons_of_pos (by simpa using hn), if_pos (hn ▸ ha)]
      · rw [List.find?_cons_of_neg (by simpa using hn), List.find?_cons_of_neg (by simpa using hn), ih]
    · rw [List.filter_cons_of_neg (by simpa using ha), ih]
      by_cases hn : key a = n
      · rw [if_neg (hn ▸ ha), if_neg (hn ▸ ha)]
      · rw [List.find?_cons_of_neg (by simpa using hn)]

/-- Adding a thing, or dropping one by name. -/
inductive Op (α : Type) where
  | add (a : α)
  | drop (n : Str)

/-- Effect of an operation: adding fails if the name exists, dropping fails if it does not. -/
def runOp (key : α → Str) (o : Op α) (l : List α) : Option (List α) :=
  match o with
  | .add a => if key a ∈ l.map key then none else some (l ++ [a])
  | .drop n => if n ∈ l.map key then some (l.filter fun a => decide (key a ≠ n)) else none

/-- Effect of operations in turn. -/
def runOps (key : α → Str) : List (Op α) → List α → Option (List α)
  | [], l => some l
  | o :: os, l => (runOp key o l).bind (runOps key os)

theorem runOps_append (key : α → Str) (a b : List (Op α)) (l : List α) :
    runOps key (a ++ b) l = (runOps key a l).bind (runOps key b) := by
  induction a generalizing l with
  | nil => rfl
  | cons o a ih =>
    simp only [List.cons_append, runOps]
    cases runOp key o l with
    | none => rfl
    | some l' => simp [ih]

/-- Brings in the wanted thing `a`, comparing it with what was there at first. -/
def syncOps (key : α → Str) (same : α → α → Bool) (l0 : List α) (a : α) : List (Op α) :=
  match look key l0 (key a) with
  | none => [.add a]
  | some c => if same c a then [] else [.drop (key a), .add a]

/-- What is found under the name of the wanted thing `a` afterwards. -/
def synced (same : α → α → Bool) (c : Option α) (a : α) : α :=
  match c with
  | none => a
  | some c => if same c a then c else a

theorem synced_key {key : α → Str} {same : α → α → Bool} {l0 : List α} {a : α} :
    key (synced same (look key l0 (key a)) a) = key a := by
  unfold synced
  split
  · rfl
  · next c hc =>
    split
    · exact (look_mem hc).2
    · rfl

theorem synced_or {same : α → α → Bool} {c : Option α} {a : α} :
    synced same c a = a ∨ ∃ d, c = some d ∧ synced same c a = d ∧ same d a = true := by
  unfold synced
  split
  · exact .inl rfl
  · next d =>
    split
    · next h => exact .inr ⟨d, rfl, rfl, h⟩
    · exact .inl rfl

theorem nodup_add {key : α → Str} {l : List α} {a : α} (hl : (l.map key).Nodup) (ha : key a ∉ l.map key) :
    ((l ++ [a]).map key).Nodup := by
  rw [List.map_append, List.nodup_append]
  refine ⟨hl, by simp, ?_⟩
  intro x hx y hy h
  simp only [List.map_cons, List.map_nil, List.mem_singleton] at hy
  exact ha (hy ▸ h ▸ hx)

theorem nodup_drop {key : α → Str} {l : List α} {p : α → Bool} (hl : (l.map key).Nodup) : ((l.filter p).map key).Nodup :=
  List.Nodup.sublist ((List.filter_sublist (l := l)).map key) hl

theorem sync_one {key : α → Str} {same : α → α → Bool} {l0 L : List α} {a : α}
    (h : look key L (key a) = look key l0 (key a)) :
    ∃ L', runOps key (syncOps key same l0 a) L = some L' ∧
      (∀ n, look key L' n = if n = key a then some (synced same (look key l0 (key a)) a) else look key L n) ∧
      ((L.map key).Nodup → (L'.map key).Nodup) := by
  unfold syncOps synced
  cases hc : look key l0 (key a) with
  | none =>
    rw [hc] at h
    have hn := look_none.1 h
    refine ⟨L ++ [a], ?_, fun n => ?_, fun hL => nodup_add hL hn⟩
    · simp only [runOps, runOp, if_neg hn, Option.bind_some]
    · rw [look_append]
      by_cases hna : n = key a
      · subst hna; rw [h, if_pos rfl]; simp [look]
      · rw [if_neg hna]
        have : look key [a] n = none := by simp [look, Ne.symm hna]
        rw [this, Option.or_none]
  | some c =>
    rw [hc] at h
    simp only
    by_cases hs : same c a = true
    · rw [if_pos hs, if_pos hs]
      refine ⟨L, rfl, fun n => ?_, id⟩
      by_cases hna : n = key a
      · subst hna; rw [h, if_pos rfl]
      · rw [if_neg hna]
    · rw [if_neg hs, if_neg hs]
      have hmem : key a ∈ L.map key := look_isSome.1 (by rw [h]; rfl)
      have hnot : key a ∉ (L.filter fun b => decide (key b ≠ key a)).map key := by
        simp
      refine ⟨(L.filter fun b => decide (key b ≠ key a)) ++ [a], ?_, fun n => ?_, fun hL => nodup_add (nodup_drop hL) hnot⟩
      · simp only [runOps, runOp, if_pos hmem, if_neg hnot, Option.bind_some]
      · rw [look_append]
        have := look_filter key (fun k => decide (k ≠ key a)) L n
        simp only [ne_eq, decide_not, Bool.not_eq_eq_eq_not, Bool.not_true, decide_eq_false_iff_not, ite_not] at this ⊢
        rw [this]
        by_cases hna : n = key a
        · subst hna; simp [look]
        · rw [if_neg hna, if_neg hna]
          have : look key [a] n = none := by simp [look, Ne.symm hna]
          rw [this, Option.or_none]

/-- Bringing in the wanted things `D`. -/
theorem sync_run {key : α → Str} {same : α → α → Bool} {l0 D L : List α} (hD : (D.map key).Nodup)
    (h : ∀ a ∈ D, look key L (key a) = look key l0 (key a)) :
    ∃ L', runOps key (D.flatMap (syncOps key same l0)) L = some L' ∧
      (∀ n, look key L' n = match look key D n with
        | none => look key L n
        | some a => some (synced same (look key l0 n) a)) ∧
      ((L.map key).Nodup → (L'.map key).Nodup) := by
  induction D generalizing L with
  | nil => exact ⟨L, rfl, fun n => rfl, id⟩
  | cons a D ih =>
    rw [List.map_cons, List.nodup_cons] at hD
    obtain ⟨L1, h1, h2, h3⟩ := sync_one (same := same) (h a (by simp))
    obtain ⟨L2, g1, g2, g3⟩ := ih (L := L1) hD.2 (by
      intro b hb
      rw [h2, if_neg (fun (e : key b = key a) => hD.1 (e ▸ List.mem_map_of_mem (f := key) hb))]
      exact h b (by simp [hb]))
    refine ⟨L2, ?_, fun n => ?_, fun hL => g3 (h3 hL)⟩
    · rw [List.flatMap_cons, runOps_append, h1, Option.bind_some, g1]
    · rw [g2]
      by_cases hna : key a = n
      · have hnone : look key D n = none := look_none.2 (by rw [← hna]; exact hD.1)
        have hsome : look key (a :: D) n = some a := by unfold look; rw [List.find?_cons_of_pos (by simpa using hna)]
        rw [hnone, hsome]
        simp only
        rw [h2, if_pos hna.symm, hna]
      · have heq : look key (a :: D) n = look key D n := by unfold look; rw [List.find?_cons_of_neg (by simpa using hna)]
        rw [heq]
        cases look key D n with
        | none => simp only; rw [h2, if_neg (Ne.symm hna)]
        | some b => rfl

/-- Dropping the names `ns`. -/
theorem drops_run {key : α → Str} {ns : List Str} {L : List α} (hn : ns.Nodup) (h : ∀ n ∈ ns, n ∈ L.map key) :
    ∃ L', runOps key (ns.map Op.drop) L = some L' ∧
      (∀ n, look key L' n = if n ∈ ns then none else look key L n) ∧ ((L.map key).Nodup → (L'.map key).Nodup) := by
  induction ns generalizing L with
  | nil => exact ⟨L, rfl, fun n => by simp, id⟩
  | cons m ns ih =>
    rw [List.nodup_cons] at hn
    have hf : ∀ n, look key (L.filter fun a => decide (key a ≠ m)) n = if n = m then none else look key L n := by
      intro n
      have := look_filter key (fun k => decide (k ≠ m)) L n
      simp only [ne_eq, decide_not, Bool.not_eq_eq_eq_not, Bool.not_true, decide_eq_false_iff_not, ite_not] at this ⊢
      exact this
    obtain ⟨L', h1, h2, h3⟩ := ih (L := L.filter fun a => decide (key a ≠ m)) hn.2 (by
      intro n hn'
      rw [← look_isSome, hf, if_neg (by rintro rfl; exact hn.1 hn')]
      exact look_isSome.2 (h n (by simp [hn'])))
    refine ⟨L', ?_, fun n => ?_, fun hL => h3 (nodup_drop hL)⟩
    · simp only [List.map_cons, runOps, runOp, if_pos (h m (by simp)), Option.bind_some, h1]
    · rw [h2, hf]
      by_cases h1 : n ∈ ns
      · simp [h1]
      · by_cases h2 : n = m <;> simp [h1, h2]

end Sqldef
