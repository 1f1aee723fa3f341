import Verif.Proofs.WrittenColumn
import Verif.Proofs.WrittenIndexReads

/-! The derivation of a whole `CREATE TABLE`. -/
namespace Sqldef.Sql
open Spec Yy Written

/-! ### Options of the table -/

/-- The rules of the keywords: whether they are reserved, and their number. -/
def optionRules : List (String × Bool × Nat) :=
  [("auto_increment", true, 759), ("binary", true, 763), ("character", false, 872), ("charset", false, 873),
    ("collate", true, 768), ("comment", false, 875), ("default", true, 779), ("key_block_size", false, 901),
    ("set", true, 840), ("without", false, 981)]
def optionRule (w : String) : Bool × Nat := (optionRules.lookup w).getD (false, 0)

def optWordTree : OptionWord → Tree SymType
  | .keyword w =>
    match (optionRule w).1 with
    | true => .node 332 [.node 748 [.node (optionRule w).2 [lf (kw w)]]]
    | false => .node 332 [.node 747 [.node 746 [.node (optionRule w).2 [lf (kw w)]]]]
  | .name n => .node 332 [.node 747 [sqlId n]]
  | .string s => .node 333 [lf (str s)]
  | .int n => .node 334 [lf (int n)]

def optWordAdd : Bool × OptionWord → Nat × List (Tree SymType)
  | (false, w) => (330, [optWordTree w])
  | (true, w) => (331, [lf (sym '='), optWordTree w])

def tableOptionTree (o : TableOption) : Tree SymType := grow optWordAdd (.node 329 [optWordTree o.first]) o.rest
def tableOptionAdd (o : TableOption) : Nat × List (Tree SymType) := (328, [lf (sym ','), tableOptionTree o])
def tableOptionsTree : List TableOption → Tree SymType
  | [] => .node 326 []
  | o :: os => grow tableOptionAdd (.node 327 [tableOptionTree o]) os

theorem said_optWord (w : OptionWord) : said (optWordTree w) = [seenAs w.token] := by
  cases w with
  | keyword w =>
    cases h : (optionRule w).1 <;> simp [optWordTree, h, OptionWord.token, said_node, saidAll_cons, saidAll_nil, said_lf]
  | _ => simp [optWordTree, OptionWord.token, said_node, saidAll_cons, saidAll_nil, said_lf, said_sqlId]

theorem said_optWordAdd (p : Bool × OptionWord) :
    saidAll (optWordAdd p).2 = (given (p.1 = true) [sym '='] ++ [p.2.token]).map seenAs := by
  rcases p with ⟨_ | _, w⟩ <;> simp [optWordAdd, given, saidAll_cons, saidAll_nil, said_lf, said_optWord]

theorem said_tableOption (o : TableOption) : said (tableOptionTree o) = o.tokens.map seenAs := by
  rw [tableOptionTree, said_grow, said_node, saidAll_cons, saidAll_nil, said_optWord]
  simp only [said_optWordAdd]
  simp [TableOption.tokens, List.map_flatMap]

theorem said_tableOptions (os : List TableOption) : said (tableOptionsTree os) = (tableOptionTokens os).map seenAs := by
  cases os with
  | nil => simp [tableOptionsTree, tableOptionTokens, said_node, saidAll_nil]
  | cons o os =>
    simp [tableOptionsTree, tableOptionTokens, said_grow, tableOptionAdd, said_node, saidAll_cons, saidAll_nil, said_lf,
      said_tableOption, List.map_flatMap]

theorem value_keyword : ∀ w ∈ optionWords, ((optWordTree (.keyword w)).value valueOf).str = (OptionWord.keyword w).text := by
  decide +kernel

theorem value_optWord {w : OptionWord} (h : w.Known) : ((optWordTree w).value valueOf).str = w.text := by
  cases w with
  | keyword w => exact value_keyword w h
  | _ => rfl

theorem value_tableOption {o : TableOption} (h : o.Known) : ((tableOptionTree o).value valueOf).str = o.text := by
  have e : ((Tree.node 329 [optWordTree o.first]).value valueOf).str = ((optWordTree o.first).value valueOf).str := rfl
  rw [tableOptionTree, value_grow (g := SymType.str)
    (ap := fun s p => s ++ ((if p.1 then lit "=" else lit " ") ++ p.2.text)) _ _ ?_, e, value_optWord h.1, TableOption.text]
  · generalize o.first.text = s
    generalize o.rest = l
    induction l generalizing s with
    | nil => simp
    | cons p ps ih => rw [List.foldl_cons, ih, List.flatMap_cons, List.append_assoc]
  · rintro ⟨b, w⟩ hx v
    rw [← value_optWord (h.2 _ hx)]
    cases b
    · show v.str ++ lit " " ++ ((optWordTree w).value valueOf).str = _
      simp
    · show v.str ++ lit "=" ++ ((optWordTree w).value valueOf).str = _
      simp

theorem value_tableOptions {os : List TableOption} (h : ∀ o ∈ os, o.Known) :
    ((tableOptionsTree os).value valueOf).str = tableOptionText os := by
  cases os with
  | nil => rfl
  | cons o os =>
    have e : ((Tree.node 327 [tableOptionTree o]).value valueOf).str = lit " " ++ ((tableOptionTree o).value valueOf).str := rfl
    rw [tableOptionsTree, value_grow (g := SymType.str) (ap := fun s o => s ++ (lit ", " ++ o.text)) _ _ ?_, e,
      value_tableOption (h o List.mem_cons_self), tableOptionText]
    · generalize lit " " ++ o.text = s
      clear h
      induction os generalizing s with
      | nil => simp
      | cons p ps ih => rw [List.foldl_cons, ih, List.flatMap_cons, List.append_assoc]
    · intro x hx v
      rw [← value_tableOption (h x (List.mem_cons_of_mem _ hx))]
      show v.str ++ lit ", " ++ ((tableOptionTree x).value valueOf).str = _
      simp

def optWordShape : OptionWord → OptionWord
  | .keyword w => .keyword w
  | .name _ => .name []
  | .string _ => .string []
  | .int _ => .int []
def optWordShapes : List OptionWord := optionWords.map .keyword ++ [.name [], .string [], .int []]
theorem optWordShape_mem {w : OptionWord} (h : w.Known) : optWordShape w ∈ optWordShapes := by
  cases w with
  | keyword w => exact List.mem_append_left _ (List.mem_map.mpr ⟨w, h, rfl⟩)
  | _ => simp [optWordShape, optWordShapes]
theorem blank_optWord (w : OptionWord) : blank (optWordTree w) = blank (optWordTree (optWordShape w)) := by cases w <;> rfl

/-- The tokens that may follow the options of a table: the end and `;`. -/
def afterTable : List Nat := [1, 313]
def afterOption : List Nat := 53 :: afterTable
def equals : Nat := headToken [lf (sym '=')] 0
def afterWord : List Nat := equals :: (optWordShapes.map (fun w => headToken [optWordTree w] 0) ++ afterOption)

/-- The states in which an option of a table is read. -/
def comma : Int := ((readsAll nestEff 901 0 [lf (sym ',')] 0).getD (0, 0)).1
def aWord : TableOption := { first := .name [] }
def anOption : Tree SymType := tableOptionTree aWord
def someOptions : Tree SymType := tableOptionsTree [aWord]
/-- After an option: the state. -/
def afterWords (s : Int) : Int := ((readsTree nestEff s 0 anOption 1).getD (0, 0)).1

theorem reads_optWords : ∀ s ∈ [671, comma], ∀ w ∈ optWordShapes, ∀ la ∈ afterWord,
    readsTree nestEff s 0 (.node 329 [optWordTree w]) la = some (afterWords s, 0) ∧
    ∀ b, readsTree nestEff s 0 (.node (optWordAdd (b, w)).1 (anOption :: (optWordAdd (b, w)).2)) la = some (afterWords s, 0) := by
  decide +kernel

theorem optWord_heads : (∀ w ∈ optWordShapes, headToken [optWordTree w] 0 ∈ afterWord) ∧
    ∀ w ∈ optWordShapes, (first (optWordTree w)).isSome = true := by decide +kernel

theorem first_optWord {w : OptionWord} (h : w.Known) : ∃ n ∈ afterWord, first (optWordTree w) = some n := by
  obtain ⟨h1, h2⟩ := optWord_heads
  have e := first_blank (blank_optWord w)
  obtain ⟨n, hn⟩ := Option.isSome_iff_exists.mp (h2 _ (optWordShape_mem h))
  refine ⟨n, ?_, e.trans hn⟩
  have := h1 _ (optWordShape_mem h)
  rw [headToken_cons, hn] at this
  exact this

theorem head_equals (cs : List (Tree SymType)) (la : Nat) : headToken (lf (sym '=') :: cs) la ∈ afterWord := by
  have e : headToken (lf (sym '=') :: cs) la = equals := by
    unfold equals
    rw [headToken_cons, headToken_cons, first_lf]
    rfl
  rw [e]
  exact List.mem_cons_self

theorem tableOption_reads {s : Int} (hs : s ∈ [671, comma]) {o : TableOption} (h : o.Known) : ∀ la ∈ afterOption,
    readsTree nestEff s 0 (tableOptionTree o) la = some (afterWords s, 0) := by
  have key : ∀ la ∈ afterWord, readsTree nestEff s 0 (tableOptionTree o) la = some (afterWords s, 0) := by
    refine reads_grow (P := fun la => la ∈ afterWord) (d₀ := anOption) ?_ ?_ ?_
    · intro la hla
      rw [reads_alike (blank_first_child (blank_optWord o.first) [])]
      exact (reads_optWords s hs _ (optWordShape_mem h.1) la hla).1
    · intro la hla
      exact (reads_optWords s hs _ (optWordShape_mem (w := .name []) trivial) la hla).1
    · rintro ⟨b, w⟩ hx la hla
      have hk := h.2 _ hx
      refine ⟨?_, ?_⟩
      · cases b
        · obtain ⟨n, hn, hf⟩ := first_optWord hk
          show headToken [optWordTree w] la ∈ afterWord
          rw [headToken_cons, hf]
          exact hn
        · exact head_equals _ _
      · have e : blank (.node (optWordAdd (b, w)).1 (anOption :: (optWordAdd (b, w)).2)) =
            blank (.node (optWordAdd (b, optWordShape w)).1 (anOption :: (optWordAdd (b, optWordShape w)).2)) := by
          cases b <;> simp only [optWordAdd, blank, blankAll, blank_optWord w]
        rw [reads_alike e]
        exact (reads_optWords s hs _ (optWordShape_mem hk) la hla).2 b
  intro la hla
  exact key la (List.mem_cons_of_mem _ (List.mem_append_right _ hla))

theorem aWord_known : aWord.Known := ⟨trivial, fun _ h => nomatch h⟩

theorem reads_someOptions : readsAll nestEff 671 0 ([someOptions] ++ [lf (sym ',')]) 0 = some (comma, 0) ∧
    (∀ la ∈ afterTable, readsTree nestEff 671 0 (tableOptionsTree []) la = some (901, 0)) ∧ ∀ la ∈ afterOption,
      readsTree nestEff 671 0 someOptions la = some (901, 0) ∧
      readsTree nestEff 671 0 (.node 328 [someOptions, lf (sym ','), anOption]) la = some (901, 0) := by
  decide +kernel

theorem tableOptions_reads {os : List TableOption} (h : ∀ o ∈ os, o.Known) : ∀ la ∈ afterTable,
    readsTree nestEff 671 0 (tableOptionsTree os) la = some (901, 0) := by
  intro la hla
  obtain ⟨h1, h2, h3⟩ := reads_someOptions
  have hs : (671 : Int) ∈ [671, comma] := List.mem_cons_self
  have hs' : comma ∈ [671, comma] := List.mem_cons_of_mem _ List.mem_cons_self
  cases os with
  | nil => exact h2 la hla
  | cons o os =>
    refine reads_grow (P := fun la => la ∈ afterOption) (d₀ := someOptions) ?_ ?_ ?_ la (List.mem_cons_of_mem _ hla)
    · intro la hla
      refine Eq.trans ?_ (h3 la hla).1
      exact reads_first ((tableOption_reads hs (h o List.mem_cons_self) la hla).trans
        (tableOption_reads hs aWord_known la hla).symm)
    · exact fun la hla => (h3 la hla).1
    · intro x hx la hla
      refine ⟨?_, ?_⟩
      · show headToken [lf (sym ','), tableOptionTree x] la ∈ afterOption
        rw [comma_head]
        exact List.mem_cons_self
      · refine Eq.trans ?_ (h3 la hla).2
        refine reads_part_after (n := 0) (q := (comma, 0)) [someOptions] [] (sym ',') h1 ?_
        exact (tableOption_reads hs' (h x (List.mem_cons_of_mem _ hx)) la hla).trans
          (tableOption_reads hs' aWord_known la hla).symm

theorem keyword_quiet : ∀ w ∈ optionWords, tame (optWordTree (.keyword w)) = true := by decide +kernel
theorem tame_optWord {w : OptionWord} (h : w.Known) : tame (optWordTree w) = true := by
  cases w with
  | keyword w => exact keyword_quiet w h
  | _ => rfl
theorem tame_tableOption {o : TableOption} (h : o.Known) : tame (tableOptionTree o) = true := by
  refine tame_grow _ _ ?_ ?_
  · simp only [tame, tameAll, tame_optWord h.1]; rfl
  · rintro ⟨b, w⟩ hx
    have hk := tame_optWord (h.2 _ hx)
    cases b <;> exact ⟨rfl, by simp only [optWordAdd, tameAll, hk, tame_lf]; rfl⟩
theorem tame_tableOptions {os : List TableOption} (h : ∀ o ∈ os, o.Known) : tame (tableOptionsTree os) = true := by
  cases os with
  | nil => rfl
  | cons o os =>
    refine tame_grow _ _ ?_ fun x hx => ⟨rfl, ?_⟩
    · simp only [tame, tameAll, tame_tableOption (h o List.mem_cons_self)]; rfl
    · simp only [tableOptionAdd, tameAll, tame_tableOption (h x (List.mem_cons_of_mem _ hx)), tame_lf]; rfl

/-! ### What stands between the parentheses -/

open Classical in
/-- The rule for the word of a type. -/
noncomputable def tyRule (t : Ty) : Nat := if h : ∃ r, TyRule t r then h.choose else 0

theorem tyRule_spec {t : Ty} (h : t.Known) : TyRule t (tyRule t) := by
  have hr := tyRule_of_known t h
  rw [tyRule, dif_pos hr]
  exact hr.choose_spec

noncomputable def itemAdd : Item → Nat × List (Tree SymType)
  | .column c => (109, [lf (sym ','), colTree (tyRule c.type) c])
  | .index i => (110, [lf (sym ','), ixTree i])
  | .foreignKey f => (111, [lf (sym ','), fkTree f])
  | .primaryKey p => (112, [lf (sym ','), pkTree p])

noncomputable def itemsTree (c : Col) (is : List Item) : Tree SymType :=
  grow itemAdd (.node 108 [colTree (tyRule c.type) c]) is

theorem said_itemAdd (i : Item) : saidAll (itemAdd i).2 = (sym ',' :: i.tokens).map seenAs := by
  cases i <;> simp [itemAdd, Item.tokens, saidAll_cons, saidAll_nil, said_lf, said_col, said_ix, said_fk, said_pk]

theorem said_items (c : Col) (is : List Item) :
    said (itemsTree c is) = (c.tokens ++ is.flatMap fun i => sym ',' :: i.tokens).map seenAs := by
  rw [itemsTree, said_grow, said_node, saidAll_cons, saidAll_nil, said_col]
  simp only [said_itemAdd]
  simp [List.map_flatMap]

theorem value_itemAdd {i : Item} (h : i.Clear) (v : SymType) :
    (valueOf (itemAdd i).1 (v :: valuesOf valueOf (itemAdd i).2)).tableSpec = i.apply v.tableSpec := by
  cases i with
  | column c =>
    rw [Item.apply, ← value_col (tyRule_spec h.1) h.2.2]
    rfl
  | index i =>
    rw [Item.apply, ← value_ix h]
    rfl
  | foreignKey f =>
    rw [Item.apply, ← value_fk f]
    rfl
  | primaryKey p =>
    rw [Item.apply, ← value_pk h]
    rfl

theorem value_items {c : Col} {is : List Item} (hc : c.Clear) (h : ∀ i ∈ is, i.Clear) :
    ((itemsTree c is).value valueOf).tableSpec = is.foldl Item.apply { columns := [c.meaning] } := by
  have e : ((Tree.node 108 [colTree (tyRule c.type) c]).value valueOf).tableSpec =
    { columns := [((colTree (tyRule c.type) c).value valueOf).columnDefinition] } := rfl
  rw [itemsTree, value_grow (g := SymType.tableSpec) (ap := Item.apply) _ _ fun i hi v => value_itemAdd (h i hi) v, e,
    value_col (tyRule_spec hc.1) hc.2.2]

/-- Parts of a table that stand for all others of their kind. -/
def someCol : Col := { name := [], type := .integer "int" none false false }
def someColTree : Tree SymType := colTree 187 someCol
def someItems : Tree SymType := .node 108 [someColTree]
def someIx : Ix := { head := .primary, first := { name := [] } }
def somePk : Pk := { name := [], first := { name := [] } }

theorem reads_someItems : readsAll nestEff 65 0 ([someItems] ++ [lf (sym ',')]) 0 = some (672, 0) ∧ ∀ la ∈ [53, 54],
    readsTree nestEff 65 0 someItems la = some (461, 0) ∧
    readsTree nestEff 65 0 (.node 109 [someItems, lf (sym ','), someColTree]) la = some (461, 0) ∧
    readsTree nestEff 65 0 (.node 110 [someItems, lf (sym ','), ixTree someIx]) la = some (461, 0) ∧
    readsTree nestEff 65 0 (.node 111 [someItems, lf (sym ','), fkTree (someFk none none { name := [] })]) la = some (461, 0) ∧
    readsTree nestEff 65 0 (.node 112 [someItems, lf (sym ','), pkTree somePk]) la = some (461, 0) := by
  decide +kernel

theorem someCol_rule : TyRule someCol.type 187 := show (_, _) ∈ integerRules by simp [integerRules]

theorem items_reads {c : Col} {is : List Item} (hc : c.Clear) (h : ∀ i ∈ is, i.Clear) : ∀ la ∈ [53, 54],
    readsTree nestEff 65 0 (itemsTree c is) la = some (461, 0) := by
  obtain ⟨h1, h2⟩ := reads_someItems
  have hsc : clearOptions false someCol.options := trivial
  have hso : ∀ o ∈ someCol.options, o.Clear := fun o h => nomatch h
  refine reads_grow (P := fun la => la ∈ [53, 54]) (d₀ := someItems) ?_ (fun la hla => (h2 la hla).1) ?_
  · intro la hla
    refine Eq.trans ?_ (h2 la hla).1
    exact reads_first ((colTree_reads (tyRule_spec hc.1) hc.2.1 hc.2.2 la hla).1.trans (colTree_reads someCol_rule hsc hso la hla).1.symm)
  · intro x hx la hla
    have hx' := h x hx
    obtain ⟨_, ha, hb, hd, he⟩ := h2 la hla
    have hh : ∀ d : Tree SymType, headToken [lf (sym ','), d] la ∈ [53, 54] := by
      intro d
      rw [comma_head]
      exact List.mem_cons_self
    cases x with
    | column c =>
      refine ⟨hh _, Eq.trans ?_ ha⟩
      refine reads_part_after (n := 0) (q := (672, 0)) [someItems] [] (sym ',') h1 ?_
      exact (colTree_reads (tyRule_spec hx'.1) hx'.2.1 hx'.2.2 la hla).2.trans (colTree_reads someCol_rule hsc hso la hla).2.symm
    | index i =>
      refine ⟨hh _, Eq.trans ?_ hb⟩
      refine reads_part_after (n := 0) (q := (672, 0)) [someItems] [] (sym ',') h1 ?_
      exact (ix_reads hx' la hla).trans (ix_reads (i := someIx) (fun _ h => nomatch h) la hla).symm
    | foreignKey f =>
      refine ⟨hh _, Eq.trans ?_ hd⟩
      refine reads_part_after (n := 0) (q := (672, 0)) [someItems] [] (sym ',') h1 ?_
      exact (fk_reads f la hla).trans (fk_reads _ la hla).symm
    | primaryKey p =>
      refine ⟨hh _, Eq.trans ?_ he⟩
      refine reads_part_after (n := 0) (q := (672, 0)) [someItems] [] (sym ',') h1 ?_
      exact (pk_reads hx' la hla).trans (pk_reads (k := somePk) (fun _ h => nomatch h) la hla).symm

theorem fine_items {c : Col} {is : List Item} (hc : c.Clear) (h : ∀ i ∈ is, i.Clear) :
    fine valueOf asks (itemsTree c is) := by
  have key : ∀ (is : List Item) (d : Tree SymType), fine valueOf asks d → (∀ i ∈ is, i.Clear) →
      fine valueOf asks (grow itemAdd d is) := by
    intro is
    induction is with
    | nil => exact fun d hd _ => hd
    | cons i is ih =>
      intro d hd h
      refine ih _ ?_ fun j hj => h j (List.mem_cons_of_mem _ hj)
      have hi := h i List.mem_cons_self
      cases i with
      | column c => exact ⟨asks_of_tame rfl _, hd, trivial, fine_col (tyRule_spec hi.1) hi.2.1 hi.2.2, trivial⟩
      | index i => exact ⟨asks_of_tame rfl _, hd, trivial, fine_of_tame _ (tame_ix hi), trivial⟩
      | foreignKey f => exact ⟨asks_of_tame rfl _, hd, trivial, fine_of_tame _ (tame_fk f), trivial⟩
      | primaryKey p => exact ⟨asks_of_tame rfl _, hd, trivial, fine_of_tame _ (tame_pk hi), trivial⟩
  exact key is _ ⟨asks_of_tame rfl _, fine_col (tyRule_spec hc.1) hc.2.1 hc.2.2, trivial⟩ h

/-! ### The statement -/

def notExistsTree : Bool → Tree SymType
  | false => .node 726 []
  | true => .node 727 [lf (kw "IF"), lf (kw "NOT"), lf (kw "EXISTS")]

def prefixTree (b : Bool) (t : TableRef) : Tree SymType :=
  .node 106 [lf (kw "CREATE"), lf (kw "TABLE"), notExistsTree b, tableRefTree t]

noncomputable def specTree (t : Written.Table) : Tree SymType :=
  .node 107 [lf (sym '('), itemsTree t.first t.rest, lf (sym ')'), tableOptionsTree t.options]

noncomputable def tableTree (t : Written.Table) : Tree SymType :=
  .node 10 [.node 60 [prefixTree t.ifNotExists t.name, specTree t]]

def semiTree : Bool → Tree SymType
  | false => .node 2 []
  | true => .node 3 [lf (sym ';')]

theorem said_notExists (b : Bool) : said (notExistsTree b) = (given (b = true) [kw "IF", kw "NOT", kw "EXISTS"]).map seenAs := by
  cases b <;> simp [notExistsTree, given, said_node, saidAll_cons, saidAll_nil, said_lf]

theorem said_table (t : Written.Table) : said (tableTree t) = t.tokens.map seenAs := by
  simp [tableTree, prefixTree, specTree, Table.tokens, parens, said_node, saidAll_cons, saidAll_nil, said_lf, said_notExists,
    said_tableRef, said_items, said_tableOptions]

theorem said_semi (b : Bool) : said (semiTree b) = (given (b = true) [sym ';']).map seenAs := by
  cases b <;> simp [semiTree, given, said_node, saidAll_cons, saidAll_nil, said_lf]

theorem value_table {t : Written.Table} (h : t.Clear) : ((tableTree t).value valueOf).statement = .ddl t.meaning := by
  have e : ((tableTree t).value valueOf).statement = .ddl
    { action := lit "create", newName := ((tableRefTree t.name).value valueOf).tableName,
      tableSpec := some { ((itemsTree t.first t.rest).value valueOf).tableSpec with
        options := ((tableOptionsTree t.options).value valueOf).str } } := rfl
  rw [e, value_tableRef, value_items h.1 h.2.1, value_tableOptions h.2.2]
  rfl

theorem fine_table {t : Written.Table} (h : t.Clear) (b : Bool) : fineAll valueOf asks [tableTree t, semiTree b] := by
  have h1 : tame (prefixTree t.ifNotExists t.name) = true := by
    have : tame (notExistsTree t.ifNotExists) = true := by cases t.ifNotExists <;> rfl
    simp only [prefixTree, tame, tameAll, tame_lf, tame_tableRef, this]
    rfl
  refine ⟨⟨asks_of_tame (by decide) _, ⟨asks_of_tame (by decide) _, fine_of_tame _ h1,
    ⟨asks_of_tame (by decide) _, trivial, fine_items h.1 h.2.1, trivial, fine_of_tame _ (tame_tableOptions h.2.2), trivial⟩,
    trivial⟩, trivial⟩, fine_of_tame _ (by cases b <;> rfl), trivial⟩

/-- Where the columns start. -/
def atSpec : Int := ((readsTree nestEff 0 0 (prefixTree false { name := [] }) 52).getD (0, 0)).1
def someSpec : Tree SymType := .node 107 [lf (sym '('), someItems, lf (sym ')'), tableOptionsTree []]

theorem reads_prefixes : ∀ b, ∀ t ∈ tableRefShapes, readsTree nestEff 0 0 (prefixTree b t) 52 = some (atSpec, 0) := by
  decide +kernel

theorem reads_spec : readsAll nestEff atSpec 0 ([] ++ [lf (sym '(')]) 0 = some (65, 0) ∧
    readsAll nestEff atSpec 0 ([lf (sym '('), someItems] ++ [lf (sym ')')]) 0 = some (671, 0) := by
  decide +kernel

theorem reads_statement : ∀ b, (readsAll nestEff 0 0
    [.node 10 [.node 60 [prefixTree false { name := [] }, someSpec]], semiTree b] 1).any
      (fun q => decide (decideAct q.1 1 = .reduce 1)) = true := by
  decide +kernel

theorem prefix_reads (b : Bool) (t : TableRef) : readsTree nestEff 0 0 (prefixTree b t) 52 = some (atSpec, 0) := by
  have e : blank (prefixTree b t) = blank (prefixTree b (tableRefShape t)) := by
    simp only [prefixTree, blank, blankAll, blank_tableRef t]
  rw [reads_alike e]
  exact reads_prefixes b _ (tableRefShape_mem t)

theorem spec_reads {t : Written.Table} (h : t.Clear) : ∀ la ∈ afterTable,
    readsTree nestEff atSpec 0 (specTree t) la = readsTree nestEff atSpec 0 someSpec la := by
  intro la hla
  obtain ⟨h1, h2⟩ := reads_spec
  refine Eq.trans (b := readsTree nestEff atSpec 0 (.node 107 [lf (sym '('), someItems, lf (sym ')'), tableOptionsTree t.options]) la)
    ?_ ?_
  · refine reads_part_after (n := 0) (q := (65, 0)) [] [lf (sym ')'), tableOptionsTree t.options] (sym '(') h1 ?_
    rw [close_head]
    exact (items_reads h.1 h.2.1 54 (by decide)).trans (reads_someItems.2 54 (by decide)).1.symm
  · refine reads_part_after (n := 0) (q := (671, 0)) [lf (sym '('), someItems] [] (sym ')') h2 ?_
    exact (tableOptions_reads h.2.2 la hla).trans (tableOptions_reads (os := []) (fun _ h => nomatch h) la hla).symm

theorem open_first (r : Nat) (cs : List (Tree SymType)) : first (.node r (lf (sym '(') :: cs)) = some 52 := by
  have h : first (lf (sym '(')) = some 52 := by decide +kernel
  rw [first_node _ _ _ (by rw [h]; exact fun h => nomatch h), h]

theorem semi_head : ∀ b, headToken [semiTree b] 1 ∈ afterTable := by decide +kernel

theorem table_reads {t : Written.Table} (h : t.Clear) (b : Bool) : ∃ q m,
    readsAll nestEff 0 0 [tableTree t, semiTree b] 1 = some (q, m) ∧ decideAct q 1 = .reduce 1 := by
  have key : ∀ la ∈ afterTable, readsTree nestEff 0 0 (tableTree t) la =
      readsTree nestEff 0 0 (.node 10 [.node 60 [prefixTree false { name := [] }, someSpec]]) la := by
    intro la hla
    refine reads_first ?_
    show readsTree nestEff 0 0 (.node 60 [prefixTree t.ifNotExists t.name, specTree t]) la = _
    have e1 : readsTree nestEff 0 0 (.node 60 [prefixTree t.ifNotExists t.name, specTree t]) la =
        readsTree nestEff 0 0 (.node 60 [prefixTree false { name := [] }, specTree t]) la := by
      refine reads_first ?_
      rw [headToken_cons, specTree, open_first]
      exact (prefix_reads _ _).trans (prefix_reads _ _).symm
    rw [e1]
    refine reads_part (q := (atSpec, 0)) [prefixTree false { name := [] }] [] ?_ ?_ ?_
    · rw [specTree, someSpec, open_first, open_first]
    · rw [readsAll, someSpec, open_first]
      have e : headToken ([] : List (Tree SymType)) ((some 52).getD (headToken ([] : List (Tree SymType)) la)) = 52 := rfl
      rw [e, prefix_reads]
      rfl
    · exact spec_reads h la hla
  have hs := reads_statement b
  have e : readsAll nestEff 0 0 [tableTree t, semiTree b] 1 =
      readsAll nestEff 0 0 [.node 10 [.node 60 [prefixTree false { name := [] }, someSpec]], semiTree b] 1 := by
    rw [readsAll, readsAll, key _ (semi_head b)]
  rw [e]
  cases hq : readsAll nestEff 0 0 [.node 10 [.node 60 [prefixTree false { name := [] }, someSpec]], semiTree b] 1 with
  | none => rw [hq] at hs; cases hs
  | some q =>
    rw [hq] at hs
    exact ⟨q.1, q.2, rfl, of_decide_eq_true hs⟩

/-- A `CREATE TABLE`, with or without a semicolon at the end, means what it says. -/
theorem parse_table {mode : Mode} {sql : Str} {t : Written.Table} (h : t.Clear) (b : Bool)
    (ht : tokenize mode sql = .ok (t.tokens ++ given (b = true) [sym ';'])) :
    parseStrictDDLWithMode mode sql = .ok (.ddl t.meaning) := by
  obtain ⟨q, m, hr, hq⟩ := table_reads h b
  have hd : noted (tokensRead [tableTree t, semiTree b]) = (t.tokens ++ given (b = true) [sym ';']).map seenAs := by
    show saidAll [tableTree t, semiTree b] = _
    rw [saidAll_cons, saidAll_cons, saidAll_nil, said_table, said_semi, List.map_append, List.append_nil]
  rw [parse_of_reads ht hd hr hq (fine_table h b), value_table h]
  rfl

end Sqldef.Sql
