import Verif.Proofs.Assemble
import Verif.Spec.Runs
/-! The order of the columns after the script. -/
namespace Sqldef
open Spec

/-! ### Inserting a name -/

theorem nameAfter_append {p n : Str} {A R : List Str} (hp : p ∉ A) : nameAfter p n (A ++ p :: R) = A ++ p :: n :: R := by
  induction A with
  | nil => simp [nameAfter]
  | cons a A ih =>
    simp only [List.mem_cons, not_or] at hp
    simp [nameAfter, Ne.symm hp.1, ih hp.2]

theorem nameAfter_filter {p n : Str} {f : Str → Bool} (hfp : f p = true) (hfn : f n = true) (l : List Str) :
    (nameAfter p n l).filter f = nameAfter p n (l.filter f) := by
  induction l with
  | nil => rfl
  | cons a l ih =>
    simp only [nameAfter]
    by_cases ha : a = p
    · subst ha
      simp [hfp, hfn, nameAfter]
    · rw [if_neg ha]
      by_cases hf : f a = true
      · rw [List.filter_cons_of_pos hf, List.filter_cons_of_pos hf, ih]
        simp [nameAfter, ha]
      · rw [List.filter_cons_of_neg hf, List.filter_cons_of_neg hf, ih]

/-- Placing a name behind those handled so far. -/
theorem place_filter {f : Str → Bool} {P R l : List Str} {n : Str} (hn : f n = true) (hP : ∀ p ∈ P, f p = true) (hnd : P.Nodup)
    (hl : l.filter f = P ++ R) :
    (namePlace (placeAfter P.getLast?) n l).filter f = P ++ n :: R := by
  rcases P.eq_nil_or_concat with rfl | ⟨Q, p, rfl⟩
  · simp only [List.getLast?_nil, placeAfter, namePlace]
    rw [List.filter_cons_of_pos hn, hl]; rfl
  · rw [List.concat_eq_append] at *
    simp only [List.getLast?_append, List.getLast?_singleton, Option.some_or, placeAfter, namePlace]
    rw [nameAfter_filter (hP p (by simp)) hn, hl]
    have : p ∉ Q := by
      rw [List.nodup_append] at hnd
      exact fun hm => hnd.2.2 p hm p (by simp) rfl
    simp only [List.append_assoc, List.singleton_append]
    exact nameAfter_append this

/-! ### One run, if the common columns keep their order -/

theorem fold_in_order {x d : Table} {P Q : List Column} {l : List Str} (hd : ((P ++ Q).map (·.name)).Nodup)
    {f : Str → Bool} (hf : ∀ c ∈ P ++ Q, f c.name = true)
    (hl : l.filter f = P.map (·.name) ++ (Q.map (·.name)).filter fun m => decide (m ∈ x.names)) :
    (foldNames (stepNames x d) (P.map (·.name)).getLast? Q l).filter f = (P ++ Q).map (·.name) := by
  induction Q generalizing P l with
  | nil => simpa [foldNames] using hl
  | cons c Q ih =>
    simp only [foldNames]
    have hlast : some c.name = ((P ++ [c]).map (·.name)).getLast? := by simp
    rw [hlast]
    have hcP : c.name ∉ P.map (·.name) := by
      rw [List.map_append, List.map_cons, List.nodup_append] at hd
      exact fun hm => hd.2.2 c.name hm c.name (by simp) rfl
    have hcQ : c.name ∉ Q.map (·.name) := by
      rw [List.map_append, List.map_cons, List.nodup_append, List.nodup_cons] at hd
      exact hd.2.1.1
    have hPnd : (P.map (·.name)).Nodup := by rw [List.map_append] at hd; exact hd.of_append_left
    have hfc : f c.name = true := hf c (by simp)
    have hfP : ∀ p ∈ P.map (·.name), f p = true := by
      intro p hp
      obtain ⟨e, he, rfl⟩ := List.mem_map.1 hp
      exact hf e (by simp [he])
    refine (ih (P := P ++ [c]) (by simpa using hd) (by simpa using hf) ?_).trans (by simp)
    rw [List.map_append, List.append_assoc, List.map_cons, List.map_nil, List.singleton_append]
    unfold stepNames
    cases hx : x.col c.name with
    | none =>
      have hnot : c.name ∉ x.names := findColumn_none.1 hx
      rw [List.map_cons, List.filter_cons_of_neg (by simpa using hnot)] at hl
      exact place_filter hfc hfP hPnd hl
    | some cur =>
      have hin : c.name ∈ x.names := mem_of_col hx
      rw [List.map_cons, List.filter_cons_of_pos (by simpa using hin)] at hl
      simp only
      split
      · refine place_filter hfc hfP hPnd ?_
        rw [List.filter_filter]
        have : (l.filter fun a => f a && decide (a ≠ c.name)) = (l.filter f).filter fun a => decide (a ≠ c.name) := by
          rw [List.filter_filter]
          exact List.filter_congr fun a _ => Bool.and_comm _ _
        rw [this, hl, List.filter_append, List.filter_cons_of_neg (by simp)]
        have e1 : (P.map (·.name)).filter (fun a => decide (a ≠ c.name)) = P.map (·.name) := by
          rw [List.filter_eq_self]
          intro a ha
          simp only [decide_eq_true_eq]
          exact fun e => hcP (e ▸ ha)
        have e2 : ((Q.map (·.name)).filter fun m => decide (m ∈ x.names)).filter (fun a => decide (a ≠ c.name)) =
            (Q.map (·.name)).filter fun m => decide (m ∈ x.names) := by
          rw [List.filter_eq_self]
          intro a ha
          simp only [decide_eq_true_eq]
          exact fun e => hcQ (e ▸ (List.mem_filter.1 ha).1)
        rw [e1, e2]
      · exact hl

/-- In other dialects new columns come last. -/
theorem fold_append {x : Table} {Q : List Column} {prev : Option Str} {l : List Str} :
    foldNames (appendNames x) prev Q l = l ++ (Q.map (·.name)).filter fun m => decide (m ∉ x.names) := by
  induction Q generalizing prev l with
  | nil => simp [foldNames]
  | cons c Q ih =>
    simp only [foldNames, ih, appendNames]
    cases hx : x.col c.name with
    | none =>
      have hnot : c.name ∉ x.names := findColumn_none.1 hx
      rw [List.map_cons, List.filter_cons_of_pos (by simpa using hnot)]
      simp
    | some cur =>
      have hin : c.name ∈ x.names := mem_of_col hx
      rw [List.map_cons, List.filter_cons_of_neg (by simpa using hin)]

/-! ### Progress of one run -/

/-- Placing a name behind one that comes after a prefix leaves the prefix. -/
theorem nameAfter_prefix {p n : Str} {A R : List Str} (hp : p ∉ A) : nameAfter p n (A ++ R) = A ++ nameAfter p n R := by
  induction A with
  | nil => rfl
  | cons a A ih =>
    simp only [List.mem_cons, not_or] at hp
    simp [nameAfter, Ne.symm hp.1, ih hp.2]

/-- A prefix of the names stays while later columns are handled. -/
theorem fold_keeps_prefix {x d : Table} {A : List Str} {p : Str} {Q : List Column} {prev : Str} {R : List Str}
    (hprev : prev ∉ A) (hA : ∀ c ∈ Q, c.name ∉ A ∧ c.name ≠ p) :
    ∃ R', foldNames (stepNames x d) (some prev) Q (A ++ p :: R) = A ++ p :: R' := by
  induction Q generalizing prev R with
  | nil => exact ⟨R, rfl⟩
  | cons c Q ih =>
    simp only [foldNames]
    have hc := hA c (by simp)
    have hplace : ∀ R, ∃ R', nameAfter prev c.name (A ++ p :: R) = A ++ p :: R' := by
      intro R
      rw [nameAfter_prefix hprev]
      by_cases hpp : p = prev
      · exact ⟨c.name :: R, by simp [nameAfter, hpp]⟩
      · exact ⟨nameAfter prev c.name R, by simp [nameAfter, hpp]⟩
    have step : ∃ R', stepNames x d (some prev) c (A ++ p :: R) = A ++ p :: R' := by
      unfold stepNames
      cases hx : x.col c.name with
      | none => exact hplace R
      | some cur =>
        simp only
        split
        · rw [List.filter_append, List.filter_cons_of_pos (by simpa using Ne.symm hc.2)]
          have : A.filter (fun a => decide (a ≠ c.name)) = A := by
            rw [List.filter_eq_self]
            intro a ha
            simp only [decide_eq_true_eq]
            exact fun e => hc.1 (e ▸ ha)
          rw [this]
          exact hplace _
        · exact ⟨R, rfl⟩
    obtain ⟨R', hR'⟩ := step
    rw [hR']
    exact ih hc.1 fun e he => hA e (by simp [he])

theorem foldNames_append (ord : Option Str → Column → List Str → List Str) (P Q : List Column) (prev : Option Str) (l : List Str) :
    foldNames ord prev (P ++ Q) l = foldNames ord ((P.map (·.name)).getLast?.or prev) Q (foldNames ord prev P l) := by
  induction P generalizing prev l with
  | nil => simp [foldNames]
  | cons c P ih =>
    simp only [List.cons_append, foldNames, ih]
    congr 1
    rw [List.map_cons]
    cases h : (P.map (·.name)).getLast? with
    | none =>
      have : P.map (·.name) = [] := List.getLast?_eq_none_iff.1 h
      simp [this]
    | some q =>
      have : (c.name :: P.map (·.name)).getLast? = some q := by
        rw [List.getLast?_cons, h]; rfl
      rw [this]; rfl

/-- Columns that are in their place are not moved. -/
theorem fold_in_place {x d : Table} {P : List Column} {prev : Option Str} {l : List Str}
    (h : ∀ c ∈ P, ∃ cur, x.col c.name = some cur ∧ changeOrder x d cur c = false) :
    foldNames (stepNames x d) prev P l = l := by
  induction P generalizing prev l with
  | nil => rfl
  | cons c P ih =>
    obtain ⟨cur, h1, h2⟩ := h c (by simp)
    simp only [foldNames]
    have : stepNames x d prev c l = l := by simp [stepNames, h1, h2]
    rw [this]
    exact ih fun e he => h e (by simp [he])

theorem col_at {t : Table} (hn : t.names.Nodup) {i : Nat} {c : Column} (h : t.columns[i]? = some c) : t.col c.name = some c :=
  look_unique (key := fun c : Column => c.name) hn (List.mem_of_getElem? h) rfl

/-- One more column is in its place after the columns have been handled. -/
theorem fold_progress {x d : Table} (hx : Numbered x.columns) (hd : Numbered d.columns) (hxn : x.names.Nodup) (hdn : d.names.Nodup)
    (hp : x.names.Perm d.names) {k : Nat} (hk : k < d.columns.length) (hpre : x.names.take k = d.names.take k) :
    ∃ R, foldNames (stepNames x d) none d.columns x.names = d.names.take (k + 1) ++ R := by
  have hlen : x.columns.length = d.columns.length := by
    have := hp.length_eq
    simpa [Table.names] using this
  -- the desired columns before and after the column `c` number `k`
  set c := d.columns[k] with hc
  have hsplit : d.columns = d.columns.take k ++ c :: d.columns.drop (k + 1) := by
    rw [hc, ← List.drop_eq_getElem_cons hk, List.take_append_drop]
  have hck : d.columns[k]? = some c := by rw [List.getElem?_eq_getElem hk]
  have htake : d.names.take k = (d.columns.take k).map (·.name) := (List.map_take ..).symm
  have hcpos : c.position = k := hd k c hck
  have hco : ∀ (cur e : Column), changeOrder x d cur e = decide (cur.position > e.position) := by
    intro cur e
    simp only [changeOrder, hlen, Int.sub_self]
    by_cases h : cur.position > e.position
    · simp only [h, decide_true, Bool.true_and]
      simp only [gt_iff_lt, decide_eq_true_eq]
      omega
    · simp [h]
  have hsame : ∀ (i : Nat), i < k → ∀ e, d.columns[i]? = some e → ∃ cur, x.col e.name = some cur ∧ changeOrder x d cur e = false := by
    intro i hi e he
    have hdi : d.names[i]? = some e.name := by simp only [Table.names, List.getElem?_map, he, Option.map_some]
    have hxi : x.names[i]? = some e.name := by
      rw [← hdi]
      have := congrArg (fun l => l[i]?) hpre
      simpa [List.getElem?_take, hi] using this
    simp only [Table.names, List.getElem?_map] at hxi
    obtain ⟨cur, hcur, hcn⟩ := Option.map_eq_some_iff.1 hxi
    refine ⟨cur, ?_, ?_⟩
    · rw [← hcn]; exact col_at hxn hcur
    · rw [hco, hx i cur hcur, hd i e he]; simp
  have hP : foldNames (stepNames x d) none (d.columns.take k) x.names = x.names := by
    refine fold_in_place fun e he => ?_
    obtain ⟨i, hi⟩ := List.mem_iff_getElem?.1 he
    rw [List.getElem?_take] at hi
    split at hi
    · next h => exact hsame i h e hi
    · cases hi
  have hnd : (((d.columns.take k) ++ c :: d.columns.drop (k + 1)).map (·.name)).Nodup := by rw [← hsplit]; exact hdn
  rw [List.map_append, List.map_cons, List.nodup_append, List.nodup_cons] at hnd
  obtain ⟨hnd1, ⟨hnd2, -⟩, hnd3⟩ := hnd
  have hcP : c.name ∉ (d.columns.take k).map (·.name) := fun hm => hnd3 c.name hm c.name (by simp) rfl
  -- the column `c`
  have hcx : c.name ∈ x.names := (hp.mem_iff).2 (List.mem_map_of_mem (List.mem_of_getElem? hck))
  obtain ⟨cur, hcur⟩ := findColumn_some_of_mem hcx
  have hcur : x.col c.name = some cur := hcur
  obtain ⟨hcurm, hcurn⟩ := findColumn_mem hcur
  obtain ⟨j, hj⟩ := List.mem_iff_getElem?.1 hcurm
  have hxj : x.names[j]? = some c.name := by simp only [Table.names, List.getElem?_map, hj, Option.map_some, hcurn]
  have hjk : k ≤ j := by
    by_contra hlt
    have hlt : j < k := by omega
    have : (x.names.take k)[j]? = some c.name := by rw [List.getElem?_take, if_pos hlt]; exact hxj
    rw [hpre, htake] at this
    exact hcP (List.mem_of_getElem? this)
  have hmid : ∃ R, stepNames x d ((d.columns.take k).map (·.name)).getLast? c x.names = (d.columns.take k).map (·.name) ++ c.name :: R := by
    unfold stepNames
    rw [hcur]
    simp only [hco, hx j cur hj, hcpos]
    by_cases hlt : k < j
    · rw [if_pos (by simpa using hlt)]
      have hfil : (x.names.filter fun m => decide (m ≠ c.name)) = (d.columns.take k).map (·.name) ++
          (x.names.drop k).filter fun m => decide (m ≠ c.name) := by
        conv_lhs => rw [← List.take_append_drop k x.names]
        rw [List.filter_append, hpre, htake]
        congr 1
        rw [List.filter_eq_self]
        intro a ha
        simp only [decide_eq_true_eq]
        exact fun e => hcP (e ▸ ha)
      rw [hfil]
      have := place_filter (f := fun _ => true) (P := (d.columns.take k).map (·.name))
        (R := (x.names.drop k).filter fun m => decide (m ≠ c.name))
        (l := (d.columns.take k).map (·.name) ++ (x.names.drop k).filter fun m => decide (m ≠ c.name)) (n := c.name)
        rfl (fun _ _ => rfl) hnd1 (by rw [List.filter_eq_self.2]; simp)
      rw [List.filter_eq_self.2 (by simp)] at this
      exact ⟨_, this⟩
    · have hjk' : j = k := by omega
      rw [if_neg (by simpa using hlt)]
      refine ⟨x.names.drop (k + 1), ?_⟩
      have hkx : k < x.names.length := by rw [hp.length_eq]; simpa [Table.names] using hk
      conv_lhs => rw [← List.take_append_drop k x.names, List.drop_eq_getElem_cons hkx]
      rw [hpre, htake]
      congr 2
      rw [hjk', List.getElem?_eq_getElem hkx] at hxj
      exact Option.some.inj hxj
  obtain ⟨R, hR⟩ := hmid
  obtain ⟨R', hR'⟩ := fold_keeps_prefix (x := x) (d := d) (A := (d.columns.take k).map (·.name)) (p := c.name)
    (Q := d.columns.drop (k + 1)) (prev := c.name) (R := R) hcP (by
      intro e he
      have : e.name ∈ (d.columns.drop (k + 1)).map (·.name) := List.mem_map_of_mem he
      exact ⟨fun hm => hnd3 e.name hm e.name (List.mem_cons_of_mem _ this) rfl, fun h => hnd2 (h ▸ this)⟩)
  refine ⟨R', ?_⟩
  have htake1 : d.names.take (k + 1) = (d.columns.take k).map (·.name) ++ [c.name] := by
    rw [← htake, List.take_add_one]
    congr 1
    simp only [Table.names, List.getElem?_map, hck, Option.map_some, Option.toList_some]
  rw [htake1, List.append_assoc, List.singleton_append, ← hR']
  conv_lhs => rw [hsplit]
  rw [foldNames_append, hP, Option.or_none, foldNames, hR]

end Sqldef
