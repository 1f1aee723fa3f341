import Verif.Proofs.PgTable
/-
The other statements of the dump of a Postgres table.
-/
namespace Sqldef
open Spec Written Dumped

/-! ### Ends of texts -/

/-- The last character is no space. -/
def EndsWell (s : Str) : Prop := ∀ c, s.getLast? = some c → isSpace c = false

theorem endsWell_nil : EndsWell [] := by intro c hc; simp at hc

theorem endsWell_both {a b : Str} (ha : EndsWell a) (hb : EndsWell b) : EndsWell (a ++ b) := by
  intro c hc
  rw [List.getLast?_append] at hc
  cases h : b.getLast? with
  | none => rw [h] at hc; exact ha c hc
  | some d => rw [h] at hc; exact hb c (h.trans hc)

theorem endsWell_right (a : Str) {b : Str} (hne : b ≠ []) (hb : EndsWell b) : EndsWell (a ++ b) := by
  intro c hc
  rw [List.getLast?_append] at hc
  cases h : b.getLast? with
  | none => exact absurd (List.getLast?_eq_none_iff.mp h) hne
  | some d => rw [h] at hc; exact hb c (h.trans hc)

theorem stands_line {text : Str} {ts : List Token} {c : Char} (hl : Layout .postgres text ts) (hq : Quiet text) (hh : text.head? = some c)
    (hc : isSpace c = false ∧ c ≠ '-') (he : EndsWell text) : StatementStands text ts := by
  refine ⟨hl, hq.1, noComment_line hq.2 ?_, trimSpace_id ?_ he, ?_⟩
  · rintro r rfl
    simp at hh
    exact hc.2 hh.symm
  · intro d hd
    rw [hh] at hd
    cases hd
    exact hc.1
  · rintro rfl
    simp at hh

/-! ### Foreign keys -/

/-- The words of an action stand for it. -/
theorem refAction_words : ∀ p ∈ refActions, wordsStand (lit p.1) p.2.tokens = true ∧ (lit p.1).getLast?.any (fun c => !isSpace c) = true := by
  decide +kernel

theorem follow_parens {mode : Mode} {n : Str} (h : BareName n) : Follow mode ('(' :: (n ++ [')'])) (parens [named n]) := by
  refine follow_layout (by simp) (lay_mark (by simp) ?_)
  exact lay_part (lay_bare h) (delimits_char (by simp) _) (lay_mark (by simp) lay_end)

theorem quiet_parens {n : Str} (h : BareName n) : Quiet ('(' :: (n ++ [')'])) :=
  quiet_append (a := lit "(") (by constructor <;> decide) (quiet_append (bare_quiet h) (b := lit ")") (by constructor <;> decide))

theorem quiet_dotted {s n : Str} (hs : BareName s) (hn : BareName n) : Quiet (s ++ '.' :: n) :=
  quiet_append (bare_quiet hs) (quiet_append (a := lit ".") (by constructor <;> decide) (bare_quiet hn))

theorem quiet_space {a : Str} (h : Quiet a) : Quiet (' ' :: a) := quiet_append (a := lit " ") (by constructor <;> decide) h

/-- The foreign key stands for what the row says. -/
theorem foreignKey_stands {r : Pg.FkRow} {a : Alter} (h : ForeignKeySays r a) : StatementStands r.text a.tokens := by
  obtain ⟨n1, n2, n3, n4, n5, n6, n7⟩ := h.names
  obtain ⟨w, u, v, d, hw, hv, ew, ev, rfl⟩ := h.actions
  obtain ⟨w1, w2⟩ := refAction_words _ hw
  obtain ⟨v1, v2⟩ := refAction_words _ hv
  obtain ⟨fw, qw⟩ := follow_words w1
  obtain ⟨fv, qv⟩ := follow_words v1
  have words : ∀ ws : List String, (ws.all fun w => plainWord (lit w)) = true → Follow .postgres (spaced ws) (kws ws) := by
    intro ws h
    exact follow_spaced (by simpa using h)
  have f := follow_append (words ["TABLE", "ONLY"] (by decide +kernel)) (follow_append (follow_part (lay_dotted n1 n2))
    (follow_append (words ["ADD", "CONSTRAINT"] (by decide +kernel)) (follow_append (follow_part (lay_bare n3))
    (follow_append (words ["FOREIGN", "KEY"] (by decide +kernel)) (follow_append (follow_part (layout_of_follow (follow_parens n4)))
    (follow_append (words ["REFERENCES"] (by decide +kernel)) (follow_append (follow_part (lay_dotted n5 n6))
    (follow_append (follow_parens n7) (follow_append (words ["ON", "UPDATE"] (by decide +kernel)) (follow_append fw
    (follow_append (words ["ON", "DELETE"] (by decide +kernel)) fv)))))))))))
  have e : r.text = lit "ALTER" ++ (spaced ["TABLE", "ONLY"] ++ (' ' :: (r.tableSchema ++ '.' :: r.tableName) ++ (spaced ["ADD", "CONSTRAINT"] ++
      (' ' :: r.constraintName ++ (spaced ["FOREIGN", "KEY"] ++ (' ' :: '(' :: (r.columnName ++ [')']) ++ (spaced ["REFERENCES"] ++
      (' ' :: (r.foreignTableSchema ++ '.' :: r.foreignTableName) ++ ('(' :: (r.foreignColumnName ++ [')']) ++ (spaced ["ON", "UPDATE"] ++
      (' ' :: lit w ++ (spaced ["ON", "DELETE"] ++ ' ' :: lit v)))))))))))) := by
    unfold Pg.FkRow.text
    rw [ew, ev]
    simp [lit, spaced]
  rw [e]
  refine stands_line (c := 'A') ?_ ?_ rfl (by decide) ?_
  · have := lay_part (lay_word (mode := .postgres) (w := "ALTER") (by decide +kernel)) (f [] [] (delimits_nil _) lay_end).1
      (f [] [] (delimits_nil _) lay_end).2
    rw [List.append_nil, List.append_nil] at this
    simpa [Alter.tokens, given, Fk.tokens, optionally, tableRef_tokens, nameTokens, RefActions.tokens, kws, parens] using this
  · have q : ∀ s : Str, (decide (';' ∉ s ∧ '\n' ∉ s)) = true → Quiet s := by
      intro s h
      simpa [Quiet] using h
    exact quiet_append (q _ (by decide)) (quiet_append (q _ (by decide)) (quiet_append (quiet_space (quiet_dotted n1 n2))
      (quiet_append (q _ (by decide)) (quiet_append (quiet_space (bare_quiet n3)) (quiet_append (q _ (by decide))
      (quiet_append (quiet_space (quiet_parens n4)) (quiet_append (q _ (by decide)) (quiet_append (quiet_space (quiet_dotted n5 n6))
      (quiet_append (quiet_parens n7) (quiet_append (q _ (by decide)) (quiet_append (quiet_space qw) (quiet_append (q _ (by decide))
      (quiet_space qv)))))))))))))
  · have hne : lit v ≠ [] := by
      intro h0
      rw [h0] at v2
      simp at v2
    have ends : EndsWell (lit v) := by
      intro c hc
      rw [hc] at v2
      simpa using v2
    simp only [← List.append_assoc]
    exact endsWell_right _ (by simp) (endsWell_right [' '] hne ends)

/-! ### Policies -/

theorem permissive_words : wordsStand (lit "PERMISSIVE") [kw (permissiveWord true)] = true ∧
    wordsStand (lit "RESTRICTIVE") [kw (permissiveWord false)] = true := by decide +kernel

theorem scope_words : ∀ p ∈ policyScopes, wordsStand (lit p.1) [kw p.2] = true := by decide +kernel

theorem roles_layout {n : Str} {ns : List Str} (h : ∀ x ∈ n :: ns, BareName x) : Layout .postgres (join (lit ",") (n :: ns)) (nameTokens n ns) := by
  induction ns generalizing n with
  | nil => exact lay_bare (h n (by simp))
  | cons m ns ih =>
    have h1 := ih (n := m) fun x hx => h x (by simp [List.mem_cons.mp hx])
    rw [join_cons _ _ _ (by simp)]
    have := lay_part (lay_bare (mode := .postgres) (h n (by simp))) (delimits_char (c := ',') (by simp) _) (lay_mark (c := ',') (by simp) h1)
    have e : n ++ lit "," ++ join (lit ",") (m :: ns) = n ++ ',' :: join (lit ",") (m :: ns) := by simp [lit]
    rw [e]
    simpa [nameTokens] using this

theorem roles_quiet {n : Str} {ns : List Str} (h : ∀ x ∈ n :: ns, BareName x) :
    Quiet (join (lit ",") (n :: ns)) ∧ join (lit ",") (n :: ns) ≠ [] ∧ EndsWell (join (lit ",") (n :: ns)) := by
  induction ns generalizing n with
  | nil => exact ⟨bare_quiet (h n (by simp)), bare_ne (h n (by simp)), bare_last (h n (by simp))⟩
  | cons m ns ih =>
    obtain ⟨h1, h2, h3⟩ := ih (n := m) fun x hx => h x (by simp [List.mem_cons.mp hx])
    rw [join_cons _ _ _ (by simp)]
    exact ⟨quiet_append (quiet_append (bare_quiet (h n (by simp))) (by constructor <;> decide)) h1, by simp [h2], endsWell_right _ h2 h3⟩

theorem stripBraces_eq (s : Str) : Pg.stripBraces (lit "{" ++ s ++ lit "}") = s := by
  unfold Pg.stripBraces
  exact trimSuffix_append _ _

theorem ex_tokens_ne (e : Ex) : e.tokens ≠ [] := by
  cases e with
  | call f args => cases args <;> simp [Ex.tokens]
  | _ => simp [Ex.tokens, parens]

/-- A condition with words in front of it. -/
def conditionText (ws : List String) : Option Str → Str
  | none => []
  | some c => spaced ws ++ ' ' :: c

/-- The condition of a policy after some words. -/
theorem condition_text {c : Option Str} {e : Option Ex} (h : ConditionSays c e) (ws : List String)
    (hw : (ws.all fun w => plainWord (lit w)) = true) (hq : decide (';' ∉ spaced ws ∧ '\n' ∉ spaced ws) = true) :
    Follow .postgres (conditionText ws c) (optionally e fun e => kws ws ++ e.tokens) ∧
    Quiet (conditionText ws c) ∧
    EndsWell (conditionText ws c) := by
  cases h with
  | none => exact ⟨follow_nil _, by constructor <;> simp [conditionText], endsWell_nil⟩
  | @some c e hs ht _ _ =>
    refine ⟨follow_append (follow_spaced (by simpa using hw)) (follow_part hs.1), quiet_append (by simpa [Quiet] using hq) (quiet_space hs.2), ?_⟩
    have hne : c ≠ [] := layout_text_ne hs.1 (ex_tokens_ne e)
    exact endsWell_right _ (by simp) (endsWell_right [' '] hne (trimSpace_last ht))

/-- The policy stands for what the row says. -/
theorem policy_stands {table : Str} {r : Pg.PolicyRow} {p : NewPolicy} (h : PolicySays table r p) : StatementStands (r.text table) p.tokens := by
  obtain ⟨n1, n2⟩ := h.names
  obtain ⟨b, fp, qp, hp⟩ : ∃ b, Follow .postgres (' ' :: r.permissive) [kw (permissiveWord b)] ∧ Quiet r.permissive ∧ p.permissive = some b := by
    rcases h.permissive with ⟨e, hp⟩ | ⟨e, hp⟩
    · obtain ⟨f, q⟩ := follow_words permissive_words.1
      exact ⟨true, by rw [e]; exact f, by rw [e]; exact q, hp⟩
    · obtain ⟨f, q⟩ := follow_words permissive_words.2
      exact ⟨false, by rw [e]; exact f, by rw [e]; exact q, hp⟩
  obtain ⟨w, v, hw, ew, hv⟩ := h.scope
  obtain ⟨fs, qs⟩ := follow_words (scope_words _ hw)
  obtain ⟨er, hr⟩ := h.roles
  obtain ⟨qr, ner, ewr⟩ := roles_quiet hr
  obtain ⟨f1, q1, e1⟩ := condition_text h.condition ["USING"] (by decide +kernel) (by decide)
  obtain ⟨f2, q2, e2⟩ := condition_text h.check ["WITH", "CHECK"] (by decide +kernel) (by decide)
  have words : ∀ ws : List String, (ws.all fun w => plainWord (lit w)) = true → Follow .postgres (spaced ws) (kws ws) := by
    intro ws h
    exact follow_spaced (by simpa using h)
  have f := follow_append (words ["POLICY"] (by decide +kernel)) (follow_append (follow_part (lay_bare n2))
    (follow_append (words ["ON"] (by decide +kernel)) (follow_append (follow_part (lay_bare n1))
    (follow_append (words ["AS"] (by decide +kernel)) (follow_append fp
    (follow_append (words ["FOR"] (by decide +kernel)) (follow_append fs
    (follow_append (words ["TO"] (by decide +kernel)) (follow_append (follow_part (roles_layout hr))
    (follow_append f1 f2))))))))))
  have e : r.text table = lit "CREATE" ++ (spaced ["POLICY"] ++ (' ' :: r.policyName ++ (spaced ["ON"] ++ (' ' :: table ++ (spaced ["AS"] ++
      (' ' :: r.permissive ++ (spaced ["FOR"] ++ (' ' :: lit w ++ (spaced ["TO"] ++ (' ' :: join (lit ",") (p.first :: p.rest) ++
      ((conditionText ["USING"] r.qual) ++
        (conditionText ["WITH", "CHECK"] r.withCheck)))))))))))) := by
    unfold Pg.PolicyRow.text
    rw [ew, er, stripBraces_eq]
    cases r.qual <;> cases r.withCheck <;> simp [lit, spaced, conditionText]
  rw [e]
  refine stands_line (c := 'C') ?_ ?_ rfl (by decide) ?_
  · have := lay_part (lay_word (mode := .postgres) (w := "CREATE") (by decide +kernel)) (f [] [] (delimits_nil _) lay_end).1
      (f [] [] (delimits_nil _) lay_end).2
    rw [List.append_nil, List.append_nil] at this
    unfold NewPolicy.tokens
    rw [h.table, h.name, hp, hv]
    simpa [TableRef.tokens, optionally, kws] using this
  · have q : ∀ s : Str, (decide (';' ∉ s ∧ '\n' ∉ s)) = true → Quiet s := by
      intro s h
      simpa [Quiet] using h
    exact quiet_append (q _ (by decide)) (quiet_append (q _ (by decide)) (quiet_append (quiet_space (bare_quiet n2))
      (quiet_append (q _ (by decide)) (quiet_append (quiet_space (bare_quiet n1)) (quiet_append (q _ (by decide))
      (quiet_append (quiet_space qp) (quiet_append (q _ (by decide)) (quiet_append (quiet_space qs)
      (quiet_append (q _ (by decide)) (quiet_append (quiet_space qr) (quiet_append q1 q2)))))))))))
  · have : EndsWell (' ' :: join (lit ",") (p.first :: p.rest) ++
      ((conditionText ["USING"] r.qual) ++
        (conditionText ["WITH", "CHECK"] r.withCheck))) :=
      endsWell_both (endsWell_right [' '] ner ewr) (endsWell_both e1 e2)
    have := endsWell_right (lit "CREATE" ++ spaced ["POLICY"] ++ ' ' :: r.policyName ++ spaced ["ON"] ++ ' ' :: table ++ spaced ["AS"] ++
      ' ' :: r.permissive ++ spaced ["FOR"] ++ ' ' :: lit w ++ spaced ["TO"]) (by simp) this
    simpa only [List.append_assoc] using this

/-! ### Indexes -/

theorem index_stands {row : Str × Str} {i : NewIndex} (h : IndexSays row i) : StatementStands row.2 i.tokens := by
  obtain ⟨h1, -, -, h4, h5⟩ := h
  refine ⟨h1.1, h1.2.1, noComment_line h1.2.2 ?_, h4, layout_text_ne h1.1 ?_⟩
  · rintro r e
    exact h5 ⟨r, e.symm⟩
  · simp [NewIndex.tokens]

theorem getIndexDefs_eq {rows : List (Str × Str)} (h : ∀ r ∈ rows, Untrimmed r.1) :
    Pg.getIndexDefs rows = (rows.filter fun r => ¬ IsKeyIndex r).map (·.2) := by
  unfold Pg.getIndexDefs
  congr 1
  refine List.filter_congr fun r hr => ?_
  obtain ⟨h1, h2, h3, h4⟩ := h r hr
  have : trimSet ['"', ' '] r.1 = r.1 := by
    refine trimSet_id ?_ ?_
    · intro c hc hm
      simp only [List.mem_cons, List.not_mem_nil, or_false] at hm
      rcases hm with rfl | rfl
      · exact h2 hc
      · exact h1 hc
    · intro c hc hm
      simp only [List.mem_cons, List.not_mem_nil, or_false] at hm
      rcases hm with rfl | rfl
      · exact h4 hc
      · exact h3 hc
  rw [this]
  unfold IsKeyIndex
  rw [Bool.eq_iff_iff]
  simp [← List.isSuffixOf_iff_suffix]

end Sqldef
