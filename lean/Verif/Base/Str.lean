/-
Go strings and the handful of functions of Go's `strings`/`strconv` packages
that the modelled code calls.

A Go `string` is modelled as a list of Unicode scalar values (`List Char`).
The modelled code only ever compares, concatenates, searches and splits strings at
ASCII separators; on valid UTF-8 these operations agree on bytes and on characters.
Strings that are not valid UTF-8 are outside the model.
-/
namespace Sqldef

/-- A Go string. -/
abbrev Str := List Char

/-- A Go string literal. -/
def lit (s : String) : Str := s.toList

/-- The bytes are those of ASCII characters. -/
def asciiBytes (bs : List UInt8) : Bool := bs.all fun b => Nat.blt b.toNat (nat_lit 128)

/-- A longer text, as it is written in the examples. It is `lit` (`txt_eq`); the kernel computes it from the bytes
much faster than with `toList`. -/
def txt (s : String) : Str :=
  match asciiBytes s.toByteArray.data.toList with
  | true => s.toByteArray.data.toList.map fun b => Char.ofNat b.toNat
  | false => s.toList

theorem ascii_char {c : Char} (h : asciiBytes (String.utf8EncodeChar c) = true) :
    (String.utf8EncodeChar c).map (fun b => Char.ofNat b.toNat) = [c] := by
  unfold String.utf8EncodeChar at h ⊢
  have hc : Char.ofNat c.val.toNat = c := Char.ofNat_toNat c
  generalize hv : c.val.toNat = v at h ⊢
  simp only at h ⊢
  split at h
  · rename_i hl
    rw [if_pos hl, List.map_singleton, show (UInt8.ofNat v).toNat = v by rw [UInt8.toNat_ofNat']; omega, ← hv, hc]
  · exfalso
    revert h
    have big : ∀ (n : Nat) (bs : List UInt8), 128 ≤ n → n < 256 → asciiBytes (UInt8.ofNat n :: bs) = true → False := by
      intro n bs h1 h2 h
      simp only [asciiBytes, List.all_cons, Bool.and_eq_true] at h
      have := Nat.blt_eq.mp h.1
      rw [UInt8.toNat_ofNat'] at this
      change n % 2 ^ 8 < 128 at this
      omega
    split
    · exact big _ _ (by omega) (by omega)
    · split
      · exact big _ _ (by omega) (by omega)
      · exact big _ _ (by omega) (by omega)

theorem txt_eq (s : String) : txt s = lit s := by
  have e : s.toByteArray.data.toList = s.toList.flatMap String.utf8EncodeChar := by
    rw [← String.utf8Encode_toList, List.utf8Encode, List.toList_data_toByteArray]
  unfold txt lit
  split
  · rename_i h
    rw [e] at h ⊢
    revert h
    generalize s.toList = l
    induction l with
    | nil => intro _; rfl
    | cons c l ih =>
      intro h
      rw [List.flatMap_cons, asciiBytes, List.all_append, Bool.and_eq_true] at h
      rw [List.flatMap_cons, List.map_append, ascii_char h.1, ih h.2]
      rfl
  · rfl

/-- `strings.HasPrefix(s, p)`. -/
def hasPrefix (p s : Str) : Bool := p.isPrefixOf s

/-- `strings.Contains(s, sub)`: some suffix of `s` starts with `sub`. -/
def contains (sub : Str) : Str → Bool
  | [] => sub.isEmpty
  | c :: s => sub.isPrefixOf (c :: s) || contains sub s

/-- `strings.Join(parts, sep)`. -/
def join (sep : Str) : List Str → Str
  | [] => []
  | [s] => s
  | s :: t :: rest => s ++ sep ++ join sep (t :: rest)

/-- `strings.Split(s, string(c))` for a one-character separator: always at least one piece. -/
def splitOn (sep : Char) : Str → List Str
  | [] => [[]]
  | c :: s =>
    if c = sep then [] :: splitOn sep s
    else match splitOn sep s with
      | [] => [[c]]
      | p :: ps => (c :: p) :: ps

/-- `strings.SplitN(s, ".", 2)`: `none` if the result has one element (there is no dot),
otherwise the text before and after the first dot. -/
def splitDot : Str → Option (Str × Str)
  | [] => none
  | c :: s =>
    if c = '.' then some ([], s)
    else match splitDot s with
      | none => none
      | some (a, b) => some (c :: a, b)

/-- `strings.Replace(s, old, "", 1)`: delete the first occurrence of `old`. -/
def deleteFirst (old : Str) : Str → Str
  | [] => []
  | c :: s => if old.isPrefixOf (c :: s) then (c :: s).drop old.length else c :: deleteFirst old s

/-- `strings.Replace(s, " ", "", -1)`. -/
def deleteSpaces (s : Str) : Str := s.filter (· ≠ ' ')

/-- `strings.TrimSuffix(s, " ")`: removes at most one trailing space. -/
def trimSuffixSpace : Str → Str
  | [] => []
  | [c] => if c = ' ' then [] else [c]
  | c :: d :: s => c :: trimSuffixSpace (d :: s)

/-- `unicode.IsSpace`. -/
def isSpace (c : Char) : Bool :=
  c.toNat ∈ [0x09, 0x0a, 0x0b, 0x0c, 0x0d, 0x20, 0x85, 0xa0, 0x1680,
    0x2000, 0x2001, 0x2002, 0x2003, 0x2004, 0x2005, 0x2006, 0x2007, 0x2008, 0x2009, 0x200a,
    0x2028, 0x2029, 0x202f, 0x205f, 0x3000]

/-- `strings.TrimLeftFunc(s, unicode.IsSpace)`. -/
def trimLeft (s : Str) : Str := s.dropWhile isSpace

/-- `strings.TrimRightFunc(s, unicode.IsSpace)`. -/
def trimRight (s : Str) : Str := (s.reverse.dropWhile isSpace).reverse

/-- `strings.TrimSpace(s)`. -/
def trimSpace (s : Str) : Str := trimRight (trimLeft s)

/-- `strings.ToLower(s)`. Simplification: only ASCII letters are mapped. -/
def toLower (s : Str) : Str := s.map Char.toLower

/-- `strings.ToUpper(s)`. Simplification: only ASCII letters are mapped. -/
def toUpper (s : Str) : Str := s.map Char.toUpper

/-- `fmt.Sprintf("%d", n)`. -/
def showInt : Int → Str
  | .ofNat n => Nat.toDigits 10 n
  | .negSucc n => '-' :: Nat.toDigits 10 (n + 1)

/-- Value of a string of decimal digits; `none` if a character is not a digit. -/
def digitsVal : Nat → Str → Option Nat
  | acc, [] => some acc
  | acc, c :: s => if '0' ≤ c ∧ c ≤ '9' then digitsVal (acc * 10 + (c.toNat - '0'.toNat)) s else none

/-- The two error kinds of `strconv.Atoi`. -/
inductive AtoiErr
  | syntax
  | range
  deriving DecidableEq, Repr

/-- `strconv.Atoi(s)` on a 64-bit platform: the returned value together with the error, if any.
On a syntax error the value is 0, on a range error it is the nearest representable value. -/
def atoi (s : Str) : Int × Option AtoiErr :=
  let parse (neg : Bool) (t : Str) : Int × Option AtoiErr :=
    match t with
    | [] => (0, some .syntax)
    | _ :: _ =>
      match digitsVal 0 t with
      | none => (0, some .syntax)
      | some n =>
        if neg then
          if n ≤ 9223372036854775808 then (-(n : Int), none) else (-9223372036854775808, some .range)
        else
          if n ≤ 9223372036854775807 then ((n : Int), none) else (9223372036854775807, some .range)
  match s with
  | '-' :: t => parse true t
  | '+' :: t => parse false t
  | t => parse false t

end Sqldef
