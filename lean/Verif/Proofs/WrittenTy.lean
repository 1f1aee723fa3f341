import Verif.Proofs.WrittenTypeReads

/-! The types of columns are read as written. -/
namespace Sqldef.Sql
open Spec Yy Written

/-! ### The values of an enumeration -/

theorem enum_reads : ∀ s ∈ ([958, 959] : List Int), ∃ q, ∀ (a : Str) (as : List Str), ∀ la ∈ [53, 54],
    readsTree nestEff s 0 (enumTree a as) la = some (q, 0) := by
  have base : ∀ s ∈ ([958, 959] : List Int), ∃ q ∈ ([1153, 1155] : List Int), ∀ la ∈ [53, 54],
      readsTree nestEff s 0 (enumTree [] []) la = some (q, 0) ∧
      readsTree nestEff s 0 (.node (enumAdd []).1 (enumTree [] [] :: (enumAdd []).2)) la = some (q, 0) := by
    decide +kernel
  intro s hs
  obtain ⟨q, _, h⟩ := base s hs
  refine ⟨q, fun a as la hla => ?_⟩
  refine reads_grow (P := fun la => la ∈ [53, 54]) (d₀ := enumTree [] []) ?_ (fun la hla => (h la hla).1) ?_ la hla
  · intro la hla
    exact (reads_alike (d' := enumTree [] []) rfl la).trans (h la hla).1
  · intro x _ la hla
    refine ⟨?_, ?_⟩
    · show headToken [lf (sym ','), lf (str x)] la ∈ [53, 54]
      rw [headToken_cons, show first (lf (sym ',')) = some 53 by decide +kernel]
      exact List.mem_cons_self
    · have e : blank (.node (enumAdd x).1 (enumTree [] [] :: (enumAdd x).2)) =
          blank (.node (enumAdd []).1 (enumTree [] [] :: (enumAdd []).2)) := rfl
      rw [reads_alike e]
      exact (h la hla).2

theorem blank_choice (r : Nat) (w : String) (cs : Charset) (co : Collation) :
    blank (tyTree r (.choice w [] [] cs co)) = blank (tyTree r (.choice w [] [] (charsetShape cs) (collationShape co))) := by
  simp only [tyTree, blank, blankAll, blank_charset cs, blank_collation co]

theorem ty_reads {r : Nat} {t : Ty} (h : TyRule t r) : ∀ la ∈ afterTy,
    readsTree nestEff 463 0 (tyTree r t) la = some (674, 0) := by
  intro la hla
  cases t with
  | integer w l u z =>
    rw [reads_alike (d' := tyTree r (.integer w (lengthShape l) u z)) (by simp only [tyTree, blank, blankAll, blank_length l])]
    exact reads_integer _ h _ (lengthShape_mem l) u z la hla
  | approximate w l u z =>
    rw [reads_alike (d' := tyTree r (.approximate w (floatShape l) u z)) (by simp only [tyTree, blank, blankAll, blank_float l])]
    exact reads_approximate _ h _ (floatShape_mem l) u z la hla
  | doublePrecision l u z =>
    cases h
    rw [reads_alike (d' := tyTree 193 (.doublePrecision (floatShape l) u z))
      (by simp only [tyTree, blank, blankAll, blank_float l])]
    exact reads_double _ (floatShape_mem l) u z la hla
  | exact w l u z =>
    rw [reads_alike (d' := tyTree r (.exact w (decimalShape l) u z)) (by simp only [tyTree, blank, blankAll, blank_decimal l])]
    exact reads_exact _ h _ (decimalShape_mem l) u z la hla
  | money w u z => exact reads_money _ h u z la hla
  | plain w => exact reads_plain _ h la hla
  | sized w l =>
    rw [reads_alike (d' := tyTree r (.sized w (lengthShape l))) (by simp only [tyTree, blank, blankAll, blank_length l])]
    exact reads_sized _ h _ (lengthShape_mem l) la hla
  | zoned w l z =>
    rw [reads_alike (d' := tyTree r (.zoned w (lengthShape l) z)) (by simp only [tyTree, blank, blankAll, blank_length l])]
    exact reads_zoned _ h _ (lengthShape_mem l) _ (zone_mem z) la hla
  | chars w l cs co =>
    rw [reads_alike (d' := tyTree r (.chars w (lengthShape l) (charsetShape cs) (collationShape co)))
      (by simp only [tyTree, blank, blankAll, blank_length l, blank_charset cs, blank_collation co])]
    exact reads_chars _ h _ (lengthShape_mem l) _ (charsetShape_mem cs) _ (collationShape_mem co) la hla
  | varying l cs co =>
    cases h
    rw [reads_alike (d' := tyTree 216 (.varying (lengthShape l) (charsetShape cs) (collationShape co)))
      (by simp only [tyTree, blank, blankAll, blank_length l, blank_charset cs, blank_collation co])]
    exact reads_varying _ (lengthShape_mem l) _ (charsetShape_mem cs) _ (collationShape_mem co) la hla
  | text w cs co =>
    rw [reads_alike (d' := tyTree r (.text w (charsetShape cs) (collationShape co)))
      (by simp only [tyTree, blank, blankAll, blank_charset cs, blank_collation co])]
    exact reads_text _ h _ (charsetShape_mem cs) _ (collationShape_mem co) la hla
  | choice w a as cs co =>
    refine Eq.trans (b := readsTree nestEff 463 0 (tyTree r (.choice w [] [] cs co)) la) ?_ ?_
    · have hs : ∀ p ∈ choiceRules, ∃ q ∈ ([958, 959] : List Int),
          readsAll nestEff 463 0 [lf (kw p.1), lf (sym '(')] 57 = some (q, 0) := by decide +kernel
      obtain ⟨s, hs, hq⟩ := hs _ h
      obtain ⟨q, hr⟩ := enum_reads s hs
      have hf : ∀ a as, first (enumTree a as) = some 57 := by
        intro a as
        have e : first (.node 241 [lf (str a)]) = some 57 := by
          exact (first_blank (d' := .node 241 [lf (str [])]) rfl).trans (by decide +kernel)
        rw [enumTree, first_grow _ _ (by rw [e]; simp), e]
      have ht : headToken [lf (sym ')'), charsetTree cs, collationTree co] la = 54 := by
        rw [headToken_cons, show first (lf (sym ')')) = some 54 by decide +kernel]
        rfl
      refine reads_first ?_
      refine reads_part [lf (kw w), lf (sym '(')] [lf (sym ')'), charsetTree cs, collationTree co]
        (d := enumTree a as) (d' := enumTree [] []) (q := (s, 0)) ?_ ?_ ?_
      · rw [hf, hf]
      · rw [hf]
        exact hq
      · rw [show headToken [lf (sym ')'), charsetTree cs, collationTree co] (headToken [] la) = 54 from ht,
          hr a as 54 (by decide), hr [] [] 54 (by decide)]
    · rw [reads_alike (blank_choice r w cs co)]
      exact reads_choice _ h _ (charsetShape_mem cs) _ (collationShape_mem co) la hla

end Sqldef.Sql
