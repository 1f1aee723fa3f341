import Verif.Proofs.WrittenList

/-! The derivations of the types of columns. -/
namespace Sqldef.Sql
open Spec Yy Written

/-- The rules for the words. -/
def integerRules : List (String × Nat) :=
  [("bit", 182), ("tinyint", 183), ("smallint", 184), ("smallserial", 185), ("mediumint", 186), ("int", 187),
   ("integer", 188), ("serial", 189), ("bigint", 190), ("bigserial", 191)]
@[inherit_doc integerRules] def approximateRules : List (String × Nat) := [("real", 192), ("double", 194), ("float", 195)]
@[inherit_doc integerRules] def exactRules : List (String × Nat) := [("decimal", 196), ("numeric", 197)]
@[inherit_doc integerRules] def moneyRules : List (String × Nat) := [("money", 198), ("smallmoney", 199)]
@[inherit_doc integerRules] def plainRules : List (String × Nat) :=
  [("date", 200), ("datetime2", 204), ("smalldatetime", 206), ("year", 207), ("bool", 208), ("boolean", 209),
   ("ntext", 215), ("blob", 224), ("tinyblob", 225), ("mediumblob", 226), ("longblob", 227), ("json", 228),
   ("jsonb", 229), ("uuid", 230), ("geometry", 233), ("point", 234), ("linestring", 235), ("polygon", 236),
   ("geometrycollection", 237), ("multipoint", 238), ("multilinestring", 239), ("multipolygon", 240)]
@[inherit_doc integerRules] def sizedRules : List (String × Nat) :=
  [("datetime", 203), ("datetimeoffset", 205), ("binary", 217), ("varbinary", 218)]
@[inherit_doc integerRules] def zonedRules : List (String × Nat) := [("time", 201), ("timestamp", 202)]
@[inherit_doc integerRules] def charRules : List (String × Nat) :=
  [("char", 210), ("character", 211), ("varchar", 212), ("nchar", 213), ("nvarchar", 214)]
@[inherit_doc integerRules] def textRules : List (String × Nat) :=
  [("text", 219), ("tinytext", 220), ("mediumtext", 221), ("longtext", 222), ("citext", 223)]
@[inherit_doc integerRules] def choiceRules : List (String × Nat) := [("enum", 231), ("set", 232)]

/-- `r` is the rule for the word of the type. -/
def TyRule : Ty → Nat → Prop
  | .integer w _ _ _, r => (w, r) ∈ integerRules
  | .approximate w _ _ _, r => (w, r) ∈ approximateRules
  | .doublePrecision _ _ _, r => r = 193
  | .exact w _ _ _, r => (w, r) ∈ exactRules
  | .money w _ _, r => (w, r) ∈ moneyRules
  | .plain w, r => (w, r) ∈ plainRules
  | .sized w _, r => (w, r) ∈ sizedRules
  | .zoned w _ _, r => (w, r) ∈ zonedRules
  | .chars w _ _ _, r => (w, r) ∈ charRules
  | .varying _ _ _, r => r = 216
  | .text w _ _, r => (w, r) ∈ textRules
  | .choice w _ _ _ _, r => (w, r) ∈ choiceRules

theorem rule_of_word {ws : List String} {t : List (String × Nat)} (h : t.map Prod.fst = ws) {w : String} (hw : w ∈ ws) :
    ∃ r, (w, r) ∈ t := by
  subst h
  obtain ⟨p, hp, rfl⟩ := List.mem_map.mp hw
  exact ⟨p.2, hp⟩

theorem tyRule_of_known : ∀ t : Ty, t.Known → ∃ r, TyRule t r
  | .integer _ _ _ _, h => rule_of_word (t := integerRules) rfl h
  | .approximate _ _ _ _, h => rule_of_word (t := approximateRules) rfl h
  | .doublePrecision _ _ _, _ => ⟨193, rfl⟩
  | .exact _ _ _ _, h => rule_of_word (t := exactRules) rfl h
  | .money _ _ _, h => rule_of_word (t := moneyRules) rfl h
  | .plain _, h => rule_of_word (t := plainRules) rfl h
  | .sized _ _, h => rule_of_word (t := sizedRules) rfl h
  | .zoned _ _ _, h => rule_of_word (t := zonedRules) rfl h
  | .chars _ _ _ _, h => rule_of_word (t := charRules) rfl h
  | .varying _ _ _, _ => ⟨216, rfl⟩
  | .text _ _ _, h => rule_of_word (t := textRules) rfl h
  | .choice _ _ _ _ _, h => rule_of_word (t := choiceRules) rfl h

/-! ### The derivations -/

def lengthTree : Option Str → Tree SymType
  | none => .node 243 []
  | some n => .node 244 [lf (sym '('), lf (int n), lf (sym ')')]

def floatLengthTree : Option (Str × Str) → Tree SymType
  | none => .node 245 []
  | some p => .node 246 [lf (sym '('), lf (int p.1), lf (sym ','), lf (int p.2), lf (sym ')')]

def decimalLengthTree : Option (Str × Option Str) → Tree SymType
  | none => .node 247 []
  | some (a, none) => .node 248 [lf (sym '('), lf (int a), lf (sym ')')]
  | some (a, some b) => .node 249 [lf (sym '('), lf (int a), lf (sym ','), lf (int b), lf (sym ')')]

def zoneTree : Option Bool → Tree SymType
  | none => .node 250 []
  | some true => .node 251 [lf (kw "WITH"), lf (kw "TIME"), lf (kw "ZONE")]
  | some false => .node 252 [lf (kw "WITHOUT"), lf (kw "TIME"), lf (kw "ZONE")]

def unsignedTree : Bool → Tree SymType
  | false => .node 253 []
  | true => .node 254 [lf (kw "UNSIGNED")]

def zerofillTree : Bool → Tree SymType
  | false => .node 255 []
  | true => .node 256 [lf (kw "ZEROFILL")]

def charsetTree : Charset → Tree SymType
  | .none => .node 260 []
  | .name s => .node 261 [lf (kw "CHARACTER"), lf (kw "SET"), lf (nm s)]
  | .binary => .node 262 [lf (kw "CHARACTER"), lf (kw "SET"), lf (kw "BINARY")]

def collationTree : Collation → Tree SymType
  | .none => .node 263 []
  | .name s => .node 265 [lf (kw "COLLATE"), lf (nm s)]
  | .binary => .node 264 [lf (kw "BINARY")]

/-- One more value of an enumeration. -/
def enumAdd (x : Str) : Nat × List (Tree SymType) := (242, [lf (sym ','), lf (str x)])

def enumTree (a : Str) (as : List Str) : Tree SymType := grow enumAdd (.node 241 [lf (str a)]) as

/-- The kind of type that a rule makes. -/
def kindRule (r : Nat) : Nat := if r < 208 then 117 else if r < 210 then 115 else if r < 233 then 116 else 118

def tyTree (r : Nat) : Ty → Tree SymType
  | .integer w l u z => .node 114 [.node 180 [.node r [lf (kw w)], lengthTree l], unsignedTree u, zerofillTree z]
  | .approximate w s u z => .node 114 [.node 181 [.node r [lf (kw w), floatLengthTree s]], unsignedTree u, zerofillTree z]
  | .doublePrecision s u z =>
    .node 114 [.node 181 [.node r [lf (kw "double"), lf (kw "precision"), floatLengthTree s]], unsignedTree u, zerofillTree z]
  | .exact w s u z => .node 114 [.node 181 [.node r [lf (kw w), decimalLengthTree s]], unsignedTree u, zerofillTree z]
  | .money w u z => .node 114 [.node 181 [.node r [lf (kw w)]], unsignedTree u, zerofillTree z]
  | .plain w => .node (kindRule r) [.node r [lf (kw w)]]
  | .sized w l => .node (kindRule r) [.node r [lf (kw w), lengthTree l]]
  | .zoned w l z => .node 117 [.node r [lf (kw w), lengthTree l, zoneTree z]]
  | .chars w l cs co => .node 116 [.node r [lf (kw w), lengthTree l, charsetTree cs, collationTree co]]
  | .varying l cs co =>
    .node 116 [.node r [lf (kw "character"), lf (kw "varying"), lengthTree l, charsetTree cs, collationTree co]]
  | .text w cs co => .node 116 [.node r [lf (kw w), charsetTree cs, collationTree co]]
  | .choice w a as cs co =>
    .node 116 [.node r [lf (kw w), lf (sym '('), enumTree a as, lf (sym ')'), charsetTree cs, collationTree co]]

def arrayTree : ArrayMark → Tree SymType
  | .none => .node 257 []
  | .brackets => .node 258 [lf (sym '['), lf (sym ']')]
  | .word => .node 259 [lf (kw "ARRAY")]

/-! ### Their tokens -/

theorem said_length (l : Option Str) : said (lengthTree l) = (lengthTokens l).map seenAs := by
  cases l <;> simp [lengthTree, lengthTokens, optionally, parens, said_node, saidAll_cons, saidAll_nil, said_lf]
theorem said_floatLength (s : Option (Str × Str)) :
    said (floatLengthTree s) = (optionally s fun p => parens [int p.1, sym ',', int p.2]).map seenAs := by
  cases s <;> simp [floatLengthTree, optionally, parens, said_node, saidAll_cons, saidAll_nil, said_lf]
theorem said_decimalLength (s : Option (Str × Option Str)) : said (decimalLengthTree s) =
    (optionally s fun p => parens (int p.1 :: optionally p.2 fun q => [sym ',', int q])).map seenAs := by
  rcases s with _ | ⟨a, _ | b⟩ <;> simp [decimalLengthTree, optionally, parens, said_node, saidAll_cons, saidAll_nil, said_lf]
theorem said_zone (z : Option Bool) : said (zoneTree z) = (zoneTokens z).map seenAs := by
  rcases z with _ | _ | _ <;> simp [zoneTree, zoneTokens, said_node, saidAll_cons, saidAll_nil, said_lf]
theorem said_sign (u z : Bool) : said (unsignedTree u) ++ said (zerofillTree z) = (signTokens u z).map seenAs := by
  cases u <;> cases z <;> simp [unsignedTree, zerofillTree, signTokens, given, said_node, saidAll_cons, saidAll_nil, said_lf]
theorem said_charset (c : Charset) : said (charsetTree c) = c.tokens.map seenAs := by
  cases c <;> simp [charsetTree, Charset.tokens, said_node, saidAll_cons, saidAll_nil, said_lf]
theorem said_collation (c : Collation) : said (collationTree c) = c.tokens.map seenAs := by
  cases c <;> simp [collationTree, Collation.tokens, said_node, saidAll_cons, saidAll_nil, said_lf]
theorem said_array (a : ArrayMark) : said (arrayTree a) = a.tokens.map seenAs := by
  cases a <;> simp [arrayTree, ArrayMark.tokens, said_node, saidAll_cons, saidAll_nil, said_lf]
theorem said_enum (a : Str) (as : List Str) :
    said (enumTree a as) = (str a :: as.flatMap fun x => [sym ',', str x]).map seenAs := by
  simp [enumTree, said_grow, enumAdd, List.map_flatMap, said_node, saidAll_cons, saidAll_nil, said_lf]

theorem said_ty (r : Nat) (t : Ty) : said (tyTree r t) = t.tokens.map seenAs := by
  cases t <;>
    simp only [tyTree, Ty.tokens, said_node, saidAll_cons, saidAll_nil, said_lf, said_length, said_floatLength,
      said_decimalLength, said_zone, said_charset, said_collation, said_enum, List.map_cons, List.map_append,
      List.append_nil, List.cons_append, List.nil_append, List.append_assoc, said_sign, parens, List.map_nil]

/-! ### Nothing is asked of their values -/

theorem tame_length (l : Option Str) : tame (lengthTree l) = true := by cases l <;> rfl
theorem tame_floatLength (l : Option (Str × Str)) : tame (floatLengthTree l) = true := by cases l <;> rfl
theorem tame_decimalLength (l : Option (Str × Option Str)) : tame (decimalLengthTree l) = true := by
  rcases l with _ | ⟨a, _ | b⟩ <;> rfl
theorem tame_zone (z : Option Bool) : tame (zoneTree z) = true := by rcases z with _ | _ | _ <;> rfl
theorem tame_unsigned (u : Bool) : tame (unsignedTree u) = true := by cases u <;> rfl
theorem tame_zerofill (u : Bool) : tame (zerofillTree u) = true := by cases u <;> rfl
theorem tame_charset (c : Charset) : tame (charsetTree c) = true := by cases c <;> rfl
theorem tame_collation (c : Collation) : tame (collationTree c) = true := by cases c <;> rfl
theorem tame_array (c : ArrayMark) : tame (arrayTree c) = true := by cases c <;> rfl
theorem tame_enum (a : Str) (as : List Str) : tame (enumTree a as) = true :=
  tame_grow _ _ rfl fun _ _ => ⟨rfl, rfl⟩

theorem wordRule_quiet : ∀ p ∈ integerRules ++ approximateRules ++ exactRules ++ moneyRules ++ plainRules ++ sizedRules ++
    zonedRules ++ charRules ++ textRules ++ choiceRules, asking p.2 = false ∧ asking (kindRule p.2) = false := by
  decide +kernel

theorem tame_ty {r : Nat} {t : Ty} (h : TyRule t r) : tame (tyTree r t) = true := by
  have key : ∀ (w : String) (l : List (String × Nat)), (w, r) ∈ l → (∀ p ∈ l, p ∈ integerRules ++ approximateRules ++
      exactRules ++ moneyRules ++ plainRules ++ sizedRules ++ zonedRules ++ charRules ++ textRules ++ choiceRules) →
      asking r = false ∧ asking (kindRule r) = false := fun w l h hl => wordRule_quiet (w, r) (hl _ h)
  cases t <;>
    first
    | (obtain ⟨h1, h2⟩ := key _ _ h (by simp +contextual))
      simp only [tyTree, tame, tameAll, tame_lf, tame_length, tame_floatLength, tame_decimalLength, tame_zone, tame_unsigned,
        tame_zerofill, tame_charset, tame_collation, tame_enum, h1, h2]
      rfl
    | (cases h
       simp only [tyTree, tame, tameAll, tame_lf, tame_length, tame_floatLength, tame_unsigned, tame_zerofill, tame_charset,
         tame_collation]
       rfl)

/-! ### Their values -/

theorem kw_val : ∀ p ∈ integerRules ++ approximateRules ++ exactRules ++ moneyRules ++ plainRules ++ sizedRules ++
    zonedRules ++ charRules ++ textRules ++ choiceRules, (kw p.1).val = lit p.1 := by
  decide +kernel

theorem value_length (l : Option Str) : ((lengthTree l).value valueOf).optVal = l.map intVal := by cases l <;> rfl
theorem value_floatLength (s : Option (Str × Str)) : ((floatLengthTree s).value valueOf).lengthScale =
    { Length := s.map fun p => intVal p.1, Scale := s.map fun p => intVal p.2 } := by cases s <;> rfl
theorem value_decimalLength (s : Option (Str × Option Str)) : ((decimalLengthTree s).value valueOf).lengthScale =
    { Length := s.map fun p => intVal p.1, Scale := s.bind fun p => p.2.map intVal } := by
  rcases s with _ | ⟨a, _ | b⟩ <;> rfl
theorem value_zone (z : Option Bool) : ((zoneTree z).value valueOf).boolVal = decide (z = some true) := by
  rcases z with _ | _ | _ <;> rfl
theorem value_unsigned (u : Bool) : ((unsignedTree u).value valueOf).boolVal = u := by cases u <;> rfl
theorem value_array (a : ArrayMark) :
    ((arrayTree a).value valueOf).boolVal = a.meaning := by cases a <;> rfl

theorem binary_val : (kw "BINARY").val = lit "binary" := by decide +kernel

theorem value_charset (c : Charset) : ((charsetTree c).value valueOf).str = c.meaning := by
  cases c
  · rfl
  · rfl
  · exact binary_val
theorem value_collation (c : Collation) : ((collationTree c).value valueOf).str = c.meaning := by
  cases c
  · rfl
  · rfl
  · exact binary_val

theorem value_enum (a : Str) (as : List Str) :
    ((enumTree a as).value valueOf).strs = (a :: as).map fun x => lit "'" ++ x ++ lit "'" := by
  rw [enumTree, value_grow (g := SymType.strs) (ap := fun l x => l ++ [lit "'" ++ x ++ lit "'"]) _ _ fun _ _ _ => rfl]
  have : ∀ (l : List Str) (xs : List Str), xs.foldl (fun l x => l ++ [lit "'" ++ x ++ lit "'"]) l =
      l ++ xs.map fun x => lit "'" ++ x ++ lit "'" := by
    intro l xs
    induction xs generalizing l with
    | nil => simp
    | cons x xs ih => rw [List.foldl_cons, ih]; simp
  rw [this]
  rfl

theorem value_integer : ∀ p ∈ integerRules, ∀ a, (valueOf p.2 [a]).columnType = { type := a.bytes } := by
  simp only [integerRules, List.forall_mem_cons]
  exact ⟨fun _ => rfl, fun _ => rfl, fun _ => rfl, fun _ => rfl, fun _ => rfl, fun _ => rfl, fun _ => rfl, fun _ => rfl,
    fun _ => rfl, fun _ => rfl, fun _ h => nomatch h⟩

theorem value_approximate : ∀ p ∈ approximateRules, ∀ a b, (valueOf p.2 [a, b]).columnType =
    { type := a.bytes, length := b.lengthScale.Length, scale := b.lengthScale.Scale } := by
  simp only [approximateRules, List.forall_mem_cons]
  exact ⟨fun _ _ => rfl, fun _ _ => rfl, fun _ _ => rfl, fun _ h => nomatch h⟩

theorem value_exact : ∀ p ∈ exactRules, ∀ a b, (valueOf p.2 [a, b]).columnType =
    { type := a.bytes, length := b.lengthScale.Length, scale := b.lengthScale.Scale } := by
  simp only [exactRules, List.forall_mem_cons]
  exact ⟨fun _ _ => rfl, fun _ _ => rfl, fun _ h => nomatch h⟩

theorem value_money : ∀ p ∈ moneyRules, ∀ a, (valueOf p.2 [a]).columnType = { type := a.bytes } := by
  simp only [moneyRules, List.forall_mem_cons]
  exact ⟨fun _ => rfl, fun _ => rfl, fun _ h => nomatch h⟩

theorem value_plain : ∀ p ∈ plainRules, ∀ a, (valueOf (kindRule p.2) [valueOf p.2 [a]]).columnType = { type := a.bytes } := by
  simp only [plainRules, List.forall_mem_cons]
  exact ⟨fun _ => rfl, fun _ => rfl, fun _ => rfl, fun _ => rfl, fun _ => rfl, fun _ => rfl, fun _ => rfl, fun _ => rfl,
    fun _ => rfl, fun _ => rfl, fun _ => rfl, fun _ => rfl, fun _ => rfl, fun _ => rfl, fun _ => rfl, fun _ => rfl,
    fun _ => rfl, fun _ => rfl, fun _ => rfl, fun _ => rfl, fun _ => rfl, fun _ => rfl, fun _ h => nomatch h⟩

theorem value_sized : ∀ p ∈ sizedRules, ∀ a b, (valueOf (kindRule p.2) [valueOf p.2 [a, b]]).columnType =
    { type := a.bytes, length := b.optVal } := by
  simp only [sizedRules, List.forall_mem_cons]
  exact ⟨fun _ _ => rfl, fun _ _ => rfl, fun _ _ => rfl, fun _ _ => rfl, fun _ h => nomatch h⟩

theorem value_zoned : ∀ p ∈ zonedRules, ∀ a b c, (valueOf 117 [valueOf p.2 [a, b, c]]).columnType =
    { type := a.bytes, length := b.optVal, timezone := c.boolVal } := by
  simp only [zonedRules, List.forall_mem_cons]
  exact ⟨fun _ _ _ => rfl, fun _ _ _ => rfl, fun _ h => nomatch h⟩

theorem value_chars : ∀ p ∈ charRules, ∀ a b c d, (valueOf 116 [valueOf p.2 [a, b, c, d]]).columnType =
    { type := a.bytes, length := b.optVal, charset := c.str, collate := d.str } := by
  simp only [charRules, List.forall_mem_cons]
  exact ⟨fun _ _ _ _ => rfl, fun _ _ _ _ => rfl, fun _ _ _ _ => rfl, fun _ _ _ _ => rfl, fun _ _ _ _ => rfl,
    fun _ h => nomatch h⟩

theorem value_text : ∀ p ∈ textRules, ∀ a c d, (valueOf 116 [valueOf p.2 [a, c, d]]).columnType =
    { type := a.bytes, charset := c.str, collate := d.str } := by
  simp only [textRules, List.forall_mem_cons]
  exact ⟨fun _ _ _ => rfl, fun _ _ _ => rfl, fun _ _ _ => rfl, fun _ _ _ => rfl, fun _ _ _ => rfl, fun _ h => nomatch h⟩

theorem value_choice : ∀ p ∈ choiceRules, ∀ a b c d e f, (valueOf 116 [valueOf p.2 [a, b, c, d, e, f]]).columnType =
    { type := a.bytes, enumValues := c.strs, charset := e.str, collate := f.str } := by
  simp only [choiceRules, List.forall_mem_cons]
  exact ⟨fun _ _ _ _ _ _ => rfl, fun _ _ _ _ _ _ => rfl, fun _ h => nomatch h⟩

theorem value_signed (a b c : SymType) : (valueOf 114 [a, b, c]).columnType = { a.columnType with unsigned := b.boolVal } := rfl
theorem value_numeric (a b : SymType) : (valueOf 180 [a, b]).columnType = { a.columnType with length := b.optVal } := rfl
theorem value_decimal (a : SymType) : (valueOf 181 [a]).columnType = a.columnType := rfl

theorem value_double (a b c : SymType) : (valueOf 193 [a, b, c]).columnType =
    { type := a.bytes ++ lit " " ++ b.bytes, length := c.lengthScale.Length, scale := c.lengthScale.Scale } := rfl
theorem value_varying (a b c d e : SymType) : (valueOf 116 [valueOf 216 [a, b, c, d, e]]).columnType =
    { type := a.bytes ++ lit " " ++ b.bytes, length := c.optVal, charset := d.str, collate := e.str } := rfl

theorem double_val : (kw "double").val ++ lit " " ++ (kw "precision").val = lit "double precision" := by decide +kernel
theorem varying_val : (kw "character").val ++ lit " " ++ (kw "varying").val = lit "character varying" := by decide +kernel

theorem value_ty {r : Nat} {t : Ty} (h : TyRule t r) : ((tyTree r t).value valueOf).columnType = t.meaning := by
  have hv : ∀ (w : String) (l : List (String × Nat)), (w, r) ∈ l → (∀ p ∈ l, p ∈ integerRules ++ approximateRules ++
      exactRules ++ moneyRules ++ plainRules ++ sizedRules ++ zonedRules ++ charRules ++ textRules ++ choiceRules) →
      (kw w).val = lit w := fun w l h hl => kw_val (w, r) (hl _ h)
  cases t with
  | integer w l u z =>
    simp only [tyTree, value_node, valuesOf, value_lf, value_signed, value_numeric, value_integer _ h, value_length,
      value_unsigned, hv _ _ h (by simp +contextual), Ty.meaning]
  | approximate w s u z =>
    simp only [tyTree, value_node, valuesOf, value_lf, value_signed, value_decimal, value_approximate _ h, value_floatLength,
      value_unsigned, hv _ _ h (by simp +contextual), Ty.meaning]
  | doublePrecision s u z =>
    cases h
    simp only [tyTree, value_node, valuesOf, value_lf, value_signed, value_decimal, value_unsigned, Ty.meaning]
    simp only [value_double, value_floatLength, double_val]
  | exact w s u z =>
    simp only [tyTree, value_node, valuesOf, value_lf, value_signed, value_decimal, value_exact _ h, value_decimalLength,
      value_unsigned, hv _ _ h (by simp +contextual), Ty.meaning]
  | money w u z =>
    simp only [tyTree, value_node, valuesOf, value_lf, value_signed, value_decimal, value_money _ h,
      value_unsigned, hv _ _ h (by simp +contextual), Ty.meaning]
  | plain w =>
    simp only [tyTree, value_node, valuesOf, value_lf, value_plain _ h, hv _ _ h (by simp +contextual), Ty.meaning]
  | sized w l =>
    simp only [tyTree, value_node, valuesOf, value_lf, value_sized _ h, value_length, hv _ _ h (by simp +contextual), Ty.meaning]
  | zoned w l z =>
    simp only [tyTree, value_node, valuesOf, value_lf, value_zoned _ h, value_length, value_zone,
      hv _ _ h (by simp +contextual), Ty.meaning]
  | chars w l cs co =>
    simp only [tyTree, value_node, valuesOf, value_lf, value_chars _ h, value_length, value_charset, value_collation,
      hv _ _ h (by simp +contextual), Ty.meaning]
  | varying l cs co =>
    cases h
    simp only [tyTree, value_node, valuesOf, value_lf, value_varying, value_length, value_charset, value_collation, varying_val, Ty.meaning]
  | text w cs co =>
    simp only [tyTree, value_node, valuesOf, value_lf, value_text _ h, value_charset, value_collation,
      hv _ _ h (by simp +contextual), Ty.meaning]
  | choice w a as cs co =>
    simp only [tyTree, value_node, valuesOf, value_lf, value_choice _ h, value_enum, value_charset, value_collation,
      hv _ _ h (by simp +contextual), Ty.meaning]

end Sqldef.Sql
