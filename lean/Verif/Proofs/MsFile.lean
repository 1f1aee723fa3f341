import Verif.Proofs.MsDump
/-
The dump of a SQL Server database.
-/
namespace Sqldef
open Spec Written Dumped

theorem join_flat (sep a : Str) (as bs : List Str) : join sep (a :: as) ++ bs.flatMap (sep ++ ·) = join sep (a :: (as ++ bs)) := by
  have one : ∀ (a : Str) (cs : List Str), join sep (a :: cs) = a ++ cs.flatMap (sep ++ ·) := by
    intro a cs
    induction cs generalizing a with
    | nil => simp [join]
    | cons c cs ih =>
      rw [join_cons sep a (c :: cs) (by simp), ih c]
      simp
  rw [one, one, List.flatMap_append, List.append_assoc]

/-- The texts of the items of a table. -/
def itemsText (ts : List Str) : Str := join (lit ",") (ts.map fun t => lit "\n" ++ dumpIndent ++ t)

theorem msCreate_eq (table : Str) (c : Ms.Column) (cs : List Ms.Column) (ds : List Ms.IndexDef) (fs : List Str) :
    Ms.createText table (c :: cs) ds fs = lit "CREATE" ++ ' ' :: (lit "TABLE" ++ ' ' :: (table ++ ' ' :: '(' ::
      (itemsText (c.text :: (cs.map Ms.Column.text ++ (ds.filter (·.primary)).map Ms.IndexDef.primaryText ++ fs)) ++ '\n' :: [')']))) := by
  unfold Ms.createText itemsText
  have e : ∀ (α : Type) (l : List α) (f : α → Str), (l.flatMap fun d => lit ",\n" ++ dumpIndent ++ f d) =
      (l.map fun d => lit "\n" ++ dumpIndent ++ f d).flatMap (lit "," ++ ·) := by
    intro α l f
    rw [List.flatMap_map]
    congr 1
  rw [e, e]
  have h1 := join_flat (lit ",") (lit "\n" ++ dumpIndent ++ c.text) (cs.map fun c => lit "\n" ++ dumpIndent ++ c.text)
    (((ds.filter (·.primary)).map fun d => lit "\n" ++ dumpIndent ++ d.primaryText) ++ fs.map fun v => lit "\n" ++ dumpIndent ++ v)
  rw [List.flatMap_append] at h1
  simp only [List.map_cons, List.map_append, List.map_map, Function.comp_def] at h1 ⊢
  simp only [List.append_assoc] at h1 ⊢
  rw [← h1]
  simp [lit]

theorem items_lined {ts : List Str} (h : ∀ t ∈ ts, Quiet t) : Lined (itemsText ts) ∧ ';' ∉ itemsText ts := by
  unfold itemsText
  have one : ∀ t : Str, Quiet t → Lined (lit "\n" ++ dumpIndent ++ t) ∧ ';' ∉ lit "\n" ++ dumpIndent ++ t := by
    intro t hk
    have q : Quiet (dumpIndent ++ t) := quiet_append (by constructor <;> decide) hk
    constructor
    · have e : lit "\n" ++ dumpIndent ++ t = '\n' :: (dumpIndent ++ t) := rfl
      rw [e]
      exact lined_break q.2 (by simp [dumpIndent, lit])
    · rw [List.append_assoc, List.mem_append, not_or]
      exact ⟨by decide, q.1⟩
  induction ts with
  | nil => exact ⟨lined_nil, by simp [join]⟩
  | cons k ks ih =>
    have h1 := one k (h k (by simp))
    have h2 := ih fun x hx => h x (by simp [hx])
    cases ks with
    | nil => simpa [join] using h1
    | cons k' ks =>
      rw [List.map_cons, join_cons _ _ _ (by simp)]
      refine ⟨lined_append (lined_append h1.1 (lined_quiet (by decide) (by decide))) h2.1, ?_⟩
      rw [List.mem_append, List.mem_append, not_or, not_or]
      exact ⟨⟨h1.2, by decide⟩, h2.2⟩

theorem items_layout {t : Str} {ts : List Str} {i : Item} {is : List Item} (h : MsItemStands t i.tokens)
    (hs : List.Forall₂ (fun t i => MsItemStands t (Item.tokens i)) ts is) :
    Layout .mssql (itemsText (t :: ts)) (i.tokens ++ is.flatMap fun i => sym ',' :: i.tokens) := by
  have := lay_join (mode := .mssql) (w := []) (by simp) (a := lit "\n" ++ dumpIndent ++ t) (lay_blank indent_blank h.1)
    (forall₂_map (R := Layout .mssql) (f := fun t => lit "\n" ++ dumpIndent ++ t) (g := Item.tokens)
      (forall₂_imp (fun _ _ hx => lay_blank indent_blank hx.1) hs))
  rw [List.flatMap_map] at this
  exact this

/-- The CREATE TABLE of a table. -/
theorem msCreate_says {schema name : Str} (hs : BareName schema) (hn : BareName name) {t : Written.Table}
    (href : t.name = { schema := some schema, name := name }) (hf : t.ifNotExists = false) (ho : t.options = []) {x : Str} {xs : List Str}
    (h : List.Forall₂ (fun x i => MsItemStands x (Item.tokens i)) (x :: xs) (.column t.first :: t.rest)) :
    TextReads .mssql (lit "CREATE" ++ ' ' :: (lit "TABLE" ++ ' ' :: ((schema ++ '.' :: name) ++ ' ' :: '(' :: (itemsText (x :: xs) ++ '\n' :: [')']))))
      (.table t) := by
  have hq : ∀ y ∈ x :: xs, Quiet y := by
    have key : ∀ {xs : List Str} {ys : List Item}, List.Forall₂ (fun x i => MsItemStands x (Item.tokens i)) xs ys → ∀ x ∈ xs, Quiet x := by
      intro xs ys hxy
      induction hxy with
      | nil => simp
      | cons hx _ ih =>
        intro x hm
        rcases List.mem_cons.mp hm with rfl | hm
        · exact hx.2
        · exact ih x hm
    exact key h
  obtain ⟨l1, s1⟩ := items_lined hq
  have q0 : Quiet (schema ++ '.' :: name) := quiet_append (bare_quiet hs)
    (quiet_append (a := lit ".") (by constructor <;> decide) (bare_quiet hn))
  cases h with
  | cons h1 h2 =>
  have lay := items_layout h1 h2
  generalize itemsText (x :: xs) = items at *
  constructor
  · have k2 := lay_part lay (delimits_char (c := '\n') (by simp) [')']) (lay_blank (w := ['\n']) (by simp) (lay_mark (c := ')') (by simp) lay_end))
    have k3 := lay_part (lay_dotted (mode := .mssql) hs hn) (delimits_char (c := ' ') (by simp) _)
      (lay_space (lay_mark (c := '(') (by simp) k2))
    have k4 := lay_kw "CREATE" (by decide +kernel) (endsWord_space _) (lay_space (lay_kw "TABLE" (by decide +kernel) (endsWord_space _)
      (lay_space k3)))
    simp only [Sentence.tokens]
    unfold Written.Table.tokens
    rw [hf, ho, href, tableRef_tokens]
    simpa [given, parens, tableOptionTokens, Item.tokens] using k4
  · simp only [List.mem_append, List.mem_cons, not_or]
    have := q0.1
    simp only [List.mem_append, List.mem_cons, not_or] at this
    exact ⟨by decide, by decide, by decide, by decide, this, by decide, by decide, s1, by decide, by decide, by simp⟩
  · have e : lit "CREATE" ++ ' ' :: (lit "TABLE" ++ ' ' :: ((schema ++ '.' :: name) ++ ' ' :: '(' :: (items ++ '\n' :: [')']))) =
        (lit "CREATE TABLE " ++ (schema ++ '.' :: name) ++ lit " (") ++ (items ++ '\n' :: [')']) := by
      simp [lit]
    rw [e]
    refine lined_append l1 (lined_break (by simp) (by simp)) _ (noComment_line ?_ ?_)
    · exact (quiet_append (quiet_append (quiet_lit "CREATE TABLE " (by decide)) q0) (quiet_lit " (" (by decide))).2
    · intro r hr
      have := congrArg List.head? hr
      simp [lit] at this
  · have e : lit "CREATE" ++ ' ' :: (lit "TABLE" ++ ' ' :: ((schema ++ '.' :: name) ++ ' ' :: '(' :: (items ++ '\n' :: [')']))) =
        lit "CREATE TABLE " ++ ((schema ++ '.' :: name) ++ lit " (" ++ items ++ ['\n']) ++ [')'] := by
      simp [lit]
    rw [e]
    exact trimSpace_ends 'C' rfl (by decide) ')' (by decide)

/-! ### The dump of a table -/

theorem perm_short {α : Type} {l l' : List α} (h : l.Perm l') (hl : l'.length ≤ 1) : l = l' := by
  match l', hl with
  | [], _ => exact h.eq_nil
  | [a], _ => exact List.perm_singleton.mp h

theorem defs_parts {rows : List Ms.IndexRow} {cs : List Ms.IndexColumnRow} {defs : List Ms.IndexDef} (h : defs.Perm (Ms.indexDefMap rows cs))
    (h1 : (rows.filter fun r => r.isPrimary).length ≤ 1) (h2 : (rows.filter fun r => !r.isPrimary).length ≤ 1) :
    defs.filter (·.primary) = (rows.filter fun r => r.isPrimary).map (msDef cs) ∧
    (defs.filter fun d => !d.primary) = (rows.filter fun r => !r.isPrimary).map (msDef cs) := by
  rw [indexDefMap_eq] at h
  have e1 : (rows.map (msDef cs)).filter (·.primary) = (rows.filter fun r => r.isPrimary).map (msDef cs) := by
    rw [List.filter_map]
    congr 1
    apply List.filter_congr
    intro r _
    exact (msDef_facts cs r).2.1
  have e2 : (rows.map (msDef cs)).filter (fun d => !d.primary) = (rows.filter fun r => !r.isPrimary).map (msDef cs) := by
    rw [List.filter_map]
    congr 1
    apply List.filter_congr
    intro r _
    simp [(msDef_facts cs r).2.1]
  have p1 := h.filter (·.primary)
  have p2 := h.filter (fun d => !d.primary)
  rw [e1] at p1
  rw [e2] at p2
  exact ⟨perm_short p1 (by simpa using h1), perm_short p2 (by simpa using h2)⟩

/-- The dump of a table that has at most one index besides that of the primary key. -/
theorem msDump_eq {cat : Ms.Catalog} {schema name text : Str} (hs : '.' ∉ schema)
    (h1 : ((cat.indexes schema name).filter fun r => r.isPrimary).length ≤ 1)
    (h2 : ((cat.indexes schema name).filter fun r => !r.isPrimary).length ≤ 1)
    (h : Ms.IsDump cat (schema ++ lit "." ++ name) text) :
    text = trimSuffix (lit ";\n") (Ms.createText (schema ++ '.' :: name) (cat.columns schema name)
      (((cat.indexes schema name).filter fun r => r.isPrimary).map (msDef (cat.indexColumns schema name)))
      ((cat.foreignKeys schema name).map Ms.FkRow.text) ++ lit ";\n" ++
        (((cat.indexes schema name).filter fun r => !r.isPrimary).map (msDef (cat.indexColumns schema name))).flatMap
          (Ms.IndexDef.createText (schema ++ '.' :: name))) := by
  have hsp : splitTableName (lit "dbo") (schema ++ lit "." ++ name) = (schema, name) := by
    unfold splitTableName
    rw [(splitDot_eq_some _ schema name).2 ⟨by simp [lit], hs⟩]
    rfl
  unfold Ms.IsDump at h
  rw [hsp] at h
  obtain ⟨defs, hp, rfl⟩ := h
  obtain ⟨e1, e2⟩ := defs_parts hp h1 h2
  unfold Ms.buildDumpTableDDL
  rw [e2]
  have e : schema ++ lit "." ++ name = schema ++ '.' :: name := by simp [lit]
  rw [e]
  congr 3
  unfold Ms.createText
  rw [e1]
  have e3 : (((cat.indexes schema name).filter fun r => r.isPrimary).map (msDef (cat.indexColumns schema name))).filter (·.primary) =
      ((cat.indexes schema name).filter fun r => r.isPrimary).map (msDef (cat.indexColumns schema name)) := by
    rw [List.filter_eq_self]
    intro x hx
    obtain ⟨r, hr, rfl⟩ := List.mem_map.mp hx
    rw [(msDef_facts _ r).2.1]
    exact (List.mem_filter.mp hr).2
  rw [e3]

theorem trimSuffix_other {suffix s : Str} (h : ¬ suffix <:+ s) : trimSuffix suffix s = s := by
  unfold trimSuffix
  rw [if_neg (by rwa [List.isSuffixOf_iff_suffix])]

theorem optionList_length {α : Type} (o : Option α) : o.toList.length ≤ 1 := by cases o <;> simp

theorem msTable_glued {cat : Ms.Catalog} {schema name : Str} {d : MsDescribed} (h : MsCatalogSays cat schema name d) {text : Str}
    (ht : Ms.IsDump cat (schema ++ lit "." ++ name) text) :
    ∃ texts, Glued texts text ∧ List.Forall₂ (TextReads .mssql) texts d.sentences := by
  obtain ⟨cs, p, fs, hc, hp, hf, hr⟩ := h.items
  have l1 := hp.length_eq ▸ optionList_length p
  have l2 := h.index.length_eq ▸ optionList_length d.index
  have e := msDump_eq (bare_nodot h.bare.1) l1 l2 ht
  have hi := h.index
  generalize (cat.indexes schema name).filter (fun r => !r.isPrimary) = secondary at e hi
  have hprim : ∀ r ∈ (cat.indexes schema name).filter (fun r => r.isPrimary), r.isPrimary = true := fun r hr => (List.mem_filter.mp hr).2
  generalize (cat.indexes schema name).filter (fun r => r.isPrimary) = primary at e hp hprim
  generalize cat.columns schema name = columns at e hc
  cases hc with
  | @cons c _ columns _ hc hcs =>
  have items : List.Forall₂ (fun x i => MsItemStands x (Item.tokens i))
      (c.text :: (columns.map Ms.Column.text ++ ((primary.map (msDef (cat.indexColumns schema name))).filter (·.primary)).map Ms.IndexDef.primaryText ++
        (cat.foreignKeys schema name).map Ms.FkRow.text)) (.column d.table.first :: d.table.rest) := by
    rw [hr]
    refine .cons (msColumn_text hc) (forall₂_both (forall₂_both ?_ ?_) ?_)
    · exact forall₂_map (forall₂_imp (fun _ _ hx => msColumn_text hx) hcs)
    · rw [List.filter_eq_self.2]
      · rw [List.map_map]
        exact forall₂_map (forall₂_imp (fun _ _ hx => msPrimary_text hx) hp)
      · intro x hx
        obtain ⟨r, hr, rfl⟩ := List.mem_map.mp hx
        rw [(msDef_facts _ r).2.1]
        exact hprim r hr
    · exact forall₂_map (forall₂_imp (fun _ _ hx => msForeignKey_text hx) hf)
  have hcreate := msCreate_says h.bare.1 h.bare.2 h.ref h.fresh h.options items
  rw [← msCreate_eq] at hcreate
  rw [e]
  generalize Ms.createText (schema ++ '.' :: name) _ _ _ = create at hcreate
  unfold MsDescribed.sentences
  have hlen := l2
  generalize d.index = i at hi
  cases i with
  | none =>
    cases hi
    refine ⟨[create], ?_, .cons hcreate .nil⟩
    simp only [List.map_nil, List.flatMap_nil, List.append_nil]
    rw [trimSuffix_append]
    exact .one _
  | some i =>
    cases hi with
    | @cons r _ rs _ hr hrs =>
    cases hrs
    have hx := msSecondary_text h.bare.1 h.bare.2 hr
    refine ⟨[create, (msDef (cat.indexColumns schema name) r).createText (schema ++ '.' :: name)], ?_, .cons hcreate (.cons hx .nil)⟩
    simp only [List.map_cons, List.map_nil, List.flatMap_cons, List.flatMap_nil, List.append_nil]
    have hb : Blank ['\n'] := by
      intro c hc
      simp only [List.mem_singleton] at hc
      subst hc
      decide
    have hg := glued_join hb create [(msDef (cat.indexColumns schema name) r).createText (schema ++ '.' :: name)]
    have ej : create ++ lit ";\n" ++ (msDef (cat.indexColumns schema name) r).createText (schema ++ '.' :: name) =
        join (';' :: ['\n']) [create, (msDef (cat.indexColumns schema name) r).createText (schema ++ '.' :: name)] := by
      simp [join, lit]
    rw [ej]
    rw [trimSuffix_other]
    · exact hg
    · rw [← ej]
      rintro ⟨a, ha⟩
      have hne := textSays_ne hx.says
      have hlast := congrArg List.getLast? ha
      rw [List.getLast?_append_of_ne_nil _ hne, List.getLast?_append_of_ne_nil _ (by simp [lit])] at hlast
      have := trimSpace_last hx.trimmed '\n' (by rw [← hlast]; rfl)
      exact absurd this (by decide)

end Sqldef
