import Verif.Proofs.WrittenType

/-! What the tables do with the types of columns. -/
namespace Sqldef.Sql
open Spec Yy Written

/-- The tokens that may follow a column: `,` and `)`, and the ones that an option begins with. -/
def afterOpts : List Nat := [53, 54, 66, 72, 28, 127, 50, 241, 247, 125, 135, 134, 64, 128, 297, 299, 312]
/-- The tokens that may follow a type: `[` and `ARRAY` too. -/
def afterTy : List Nat := 314 :: 236 :: afterOpts

/-! ### Shapes: one of each kind -/

def lengthShape (l : Option Str) : Option Str := l.map fun _ => []
def lengthShapes : List (Option Str) := [none, some []]
theorem lengthShape_mem (l : Option Str) : lengthShape l ∈ lengthShapes := by cases l <;> simp [lengthShape, lengthShapes]
theorem blank_length (l : Option Str) : blank (lengthTree l) = blank (lengthTree (lengthShape l)) := by cases l <;> rfl

def floatShape (l : Option (Str × Str)) : Option (Str × Str) := l.map fun _ => ([], [])
def floatShapes : List (Option (Str × Str)) := [none, some ([], [])]
theorem floatShape_mem (l : Option (Str × Str)) : floatShape l ∈ floatShapes := by cases l <;> simp [floatShape, floatShapes]
theorem blank_float (l : Option (Str × Str)) : blank (floatLengthTree l) = blank (floatLengthTree (floatShape l)) := by
  cases l <;> rfl

def decimalShape (l : Option (Str × Option Str)) : Option (Str × Option Str) := l.map fun p => ([], p.2.map fun _ => [])
def decimalShapes : List (Option (Str × Option Str)) := [none, some ([], none), some ([], some [])]
theorem decimalShape_mem (l : Option (Str × Option Str)) : decimalShape l ∈ decimalShapes := by
  rcases l with _ | ⟨_, _ | _⟩ <;> simp [decimalShape, decimalShapes]
theorem blank_decimal (l : Option (Str × Option Str)) :
    blank (decimalLengthTree l) = blank (decimalLengthTree (decimalShape l)) := by
  rcases l with _ | ⟨_, _ | _⟩ <;> rfl

def charsetShape : Charset → Charset
  | .name _ => .name []
  | c => c
def charsetShapes : List Charset := [.none, .name [], .binary]
theorem charsetShape_mem (c : Charset) : charsetShape c ∈ charsetShapes := by cases c <;> simp [charsetShape, charsetShapes]
theorem blank_charset (c : Charset) : blank (charsetTree c) = blank (charsetTree (charsetShape c)) := by cases c <;> rfl

def collationShape : Collation → Collation
  | .name _ => .name []
  | c => c
def collationShapes : List Collation := [.none, .name [], .binary]
theorem collationShape_mem (c : Collation) : collationShape c ∈ collationShapes := by
  cases c <;> simp [collationShape, collationShapes]
theorem blank_collation (c : Collation) : blank (collationTree c) = blank (collationTree (collationShape c)) := by
  cases c <;> rfl

def zones : List (Option Bool) := [none, some true, some false]
theorem zone_mem (z : Option Bool) : z ∈ zones := by rcases z with _ | _ | _ <;> simp [zones]

/-! ### The tables -/

theorem reads_integer : ∀ p ∈ integerRules, ∀ l ∈ lengthShapes, ∀ u z, ∀ la ∈ afterTy,
    readsTree nestEff 463 0 (tyTree p.2 (.integer p.1 l u z)) la = some (674, 0) := by
  decide +kernel

theorem reads_approximate : ∀ p ∈ approximateRules, ∀ l ∈ floatShapes, ∀ u z, ∀ la ∈ afterTy,
    readsTree nestEff 463 0 (tyTree p.2 (.approximate p.1 l u z)) la = some (674, 0) := by
  decide +kernel

theorem reads_double : ∀ l ∈ floatShapes, ∀ u z, ∀ la ∈ afterTy,
    readsTree nestEff 463 0 (tyTree 193 (.doublePrecision l u z)) la = some (674, 0) := by
  decide +kernel

theorem reads_exact : ∀ p ∈ exactRules, ∀ l ∈ decimalShapes, ∀ u z, ∀ la ∈ afterTy,
    readsTree nestEff 463 0 (tyTree p.2 (.exact p.1 l u z)) la = some (674, 0) := by
  decide +kernel

theorem reads_money : ∀ p ∈ moneyRules, ∀ u z, ∀ la ∈ afterTy,
    readsTree nestEff 463 0 (tyTree p.2 (.money p.1 u z)) la = some (674, 0) := by
  decide +kernel

theorem reads_plain : ∀ p ∈ plainRules, ∀ la ∈ afterTy,
    readsTree nestEff 463 0 (tyTree p.2 (.plain p.1)) la = some (674, 0) := by
  decide +kernel

theorem reads_sized : ∀ p ∈ sizedRules, ∀ l ∈ lengthShapes, ∀ la ∈ afterTy,
    readsTree nestEff 463 0 (tyTree p.2 (.sized p.1 l)) la = some (674, 0) := by
  decide +kernel

theorem reads_zoned : ∀ p ∈ zonedRules, ∀ l ∈ lengthShapes, ∀ z ∈ zones, ∀ la ∈ afterTy,
    readsTree nestEff 463 0 (tyTree p.2 (.zoned p.1 l z)) la = some (674, 0) := by
  decide +kernel

theorem reads_chars : ∀ p ∈ charRules, ∀ l ∈ lengthShapes, ∀ c ∈ charsetShapes, ∀ o ∈ collationShapes, ∀ la ∈ afterTy,
    readsTree nestEff 463 0 (tyTree p.2 (.chars p.1 l c o)) la = some (674, 0) := by
  decide +kernel

theorem reads_varying : ∀ l ∈ lengthShapes, ∀ c ∈ charsetShapes, ∀ o ∈ collationShapes, ∀ la ∈ afterTy,
    readsTree nestEff 463 0 (tyTree 216 (.varying l c o)) la = some (674, 0) := by
  decide +kernel

theorem reads_text : ∀ p ∈ textRules, ∀ c ∈ charsetShapes, ∀ o ∈ collationShapes, ∀ la ∈ afterTy,
    readsTree nestEff 463 0 (tyTree p.2 (.text p.1 c o)) la = some (674, 0) := by
  decide +kernel

theorem reads_choice : ∀ p ∈ choiceRules, ∀ c ∈ charsetShapes, ∀ o ∈ collationShapes, ∀ la ∈ afterTy,
    readsTree nestEff 463 0 (tyTree p.2 (.choice p.1 [] [] c o)) la = some (674, 0) := by
  decide +kernel

end Sqldef.Sql
