import Verif.Py.Base
import Verif.Py.UnicodeData
/-!
# Python `str` / `bytes` methods and integer conversion used by pynmeagps

CPython built-ins (3.11), not pynmeagps code.
-/
namespace Py

/-! ## Splitting, stripping, joining -/

/-- `s.split(c)` for a one-character separator `c` (always returns at least one piece). -/
def splitAll (c : Nat) : Str → List Str
  | [] => [[]]
  | x :: xs =>
    if x = c then [] :: splitAll c xs
    else match splitAll c xs with
      | [] => [[x]]
      | h :: t => (x :: h) :: t

/-- `s.split(c, 1)` when it yields two pieces: text before and after the first `c`;
`none` when `c` does not occur (the Python list then has one element). -/
def splitFirst (c : Nat) : Str → Option (Str × Str)
  | [] => none
  | x :: xs =>
    if x = c then some ([], xs)
    else match splitFirst c xs with
      | none => none
      | some (a, b) => some (x :: a, b)

/-- `s.strip(chars)`: remove characters satisfying `p` from both ends. -/
def stripBy (p : Nat → Bool) (s : Str) : Str :=
  ((s.dropWhile p).reverse.dropWhile p).reverse

/-- Python slice `s[a:b]` for `0 ≤ a`, `0 ≤ b`. -/
def slice {α} (s : List α) (a b : Nat) : List α := (s.drop a).take (b - a)

/-- `s.find(c)` for one character: index of the first occurrence, or `none` for `-1`. -/
def findChar (c : Nat) : Str → Option Nat
  | [] => none
  | x :: xs => if x = c then some 0 else (findChar c xs).map (· + 1)

/-- `s.replace(c, "")` for one character `c`. -/
def removeChar (c : Nat) (s : Str) : Str := s.filter (fun x => x != c)

/-- `sep.join(l)` for a one-character separator. -/
def joinWith (c : Nat) : List Str → Str
  | [] => []
  | [x] => x
  | x :: y :: ys => x ++ c :: joinWith c (y :: ys)

/-! ## Character classes and case -/

/-- ASCII decimal digit. -/
def isAsciiDigit (c : Nat) : Bool := 48 ≤ c && c ≤ 57

/-- `unicodedata.decimal(c)`. -/
def decimalValue (c : Nat) : Option Nat :=
  if c < 128 then (if isAsciiDigit c then some (c - 48) else none)
  else (Uni.decimalZeros.find? (fun z => z ≤ c && c ≤ z + 9)).map (fun z => c - z)

def inRanges (rs : List (Nat × Nat)) (c : Nat) : Bool := rs.any (fun r => r.1 ≤ c && c ≤ r.2)

/-- `c.isdigit()` for one character. -/
def isDigitChar (c : Nat) : Bool :=
  if c < 128 then isAsciiDigit c else inRanges Uni.digitRanges c

/-- `c.isnumeric()` for one character. -/
def isNumericChar (c : Nat) : Bool :=
  if c < 128 then isAsciiDigit c else inRanges Uni.numericRanges c

/-- `s.isnumeric()`: non-empty and all characters numeric. -/
def isNumeric (s : Str) : Bool := !s.isEmpty && s.all isNumericChar

/-- Full upper-case mapping of one character. -/
def upperChar (c : Nat) : Str :=
  if c < 128 then (if 97 ≤ c && c ≤ 122 then [c - 32] else [c])
  else match Uni.upperMulti.lookup c with
    | some m => m
    | none =>
      match Uni.upperRuns.find? (fun r => r.1 ≤ c && c ≤ r.2.1 && (c - r.1) % r.2.2.1 == 0) with
      | some r => [((c : Int) + r.2.2.2).toNat]
      | none => [c]

/-- `s.upper()`. -/
def upper (s : Str) : Str := s.flatMap upperChar

/-! ## Integers to text -/

/-- Digits of `n` in base `b`, most significant first, structurally on fuel. -/
def digitsAux (b : Nat) : Nat → Nat → List Nat → List Nat
  | 0, _, acc => acc
  | fuel + 1, n, acc =>
    if n < b then n :: acc else digitsAux b fuel (n / b) (n % b :: acc)

/-- Digits of `n` in base `b ≥ 2`, most significant first; `[0]` for `0`. -/
def digits (b n : Nat) : List Nat := digitsAux b (n + 1) n []

/-- Upper-case digit character. -/
def digitUpper (d : Nat) : Nat := if d < 10 then 48 + d else 55 + d

/-- Lower-case digit character. -/
def digitLower (d : Nat) : Nat := if d < 10 then 48 + d else 87 + d

/-- `str(n)` for a natural number (no digit limit, see `strOfInt`). -/
def natDec (n : Nat) : Str := (digits 10 n).map digitUpper

/-- Left-pad with zeros to width `w`. -/
def padZero (w : Nat) (s : Str) : Str := List.replicate (w - s.length) 48 ++ s

/-- `f"{n:02d}"` for a natural number. -/
def fmt02d (n : Nat) : Str := padZero 2 (natDec n)

/-- `f"{n:02X}"` for a natural number. -/
def fmt02X (n : Nat) : Str := padZero 2 ((digits 16 n).map digitUpper)

/-- CPython's default limit on the number of decimal digits in int<->str conversion
(`sys.int_info.default_max_str_digits`). -/
def maxStrDigits : Nat := 4300

/-- `str(i)` for an integer, including the ValueError above 4300 digits. -/
def strOfInt (i : Int) : Except Err Str :=
  let ds := natDec i.natAbs
  if ds.length > maxStrDigits then .error .value
  else .ok (if i < 0 then 45 :: ds else ds)

/-- `s.zfill(w)`: pad with zeros after an optional sign. -/
def zfill (w : Nat) (s : Str) : Str :=
  match s with
  | c :: cs => if c = 43 ∨ c = 45 then c :: padZero (w - 1) cs else padZero w s
  | [] => padZero w []

/-! ## Text to integers -/

/-- `Py_ISSPACE`: ASCII white space accepted around numbers. -/
def isAsciiSpace (c : Nat) : Bool := c = 32 || (9 ≤ c && c ≤ 13)

/-- `_PyUnicode_TransformDecimalAndSpaceToASCII`: non-ASCII spaces become `' '`, decimal digits
ASCII digits, every other character from 127 up becomes `'?'`. -/
def toAsciiNum (s : Str) : Str :=
  s.map fun c =>
    if c < 127 then c
    else if Uni.spacesHi.contains c then 32
    else match decimalValue c with
      | some d => 48 + d
      | none => 63

/-- Digit value in bases up to 16. -/
def digitVal (c : Nat) : Option Nat :=
  if 48 ≤ c && c ≤ 57 then some (c - 48)
  else if 97 ≤ c && c ≤ 102 then some (c - 87)
  else if 65 ≤ c && c ≤ 70 then some (c - 55)
  else none

/-- Digit value below base `b`. -/
def digitValB (b c : Nat) : Option Nat :=
  match digitVal c with
  | some d => if d < b then some d else none
  | none => none

/-- Digits with single underscores between them; the whole text must be consumed.
`prev` says whether the previous character was a digit. -/
def scanDigits (b : Nat) : Bool → Str → Option (List Nat)
  | prev, [] => if prev then some [] else none
  | prev, c :: cs =>
    if c = 95 then (if prev then scanDigits b false cs else none)
    else match digitValB b c with
      | some d => (scanDigits b true cs).map (d :: ·)
      | none => none

/-- Value of a most-significant-first digit list. -/
def ofDigits (b : Nat) (ds : List Nat) : Nat := ds.foldl (fun a d => a * b + d) 0

/-- Split an optional sign: `(negative, rest)`. -/
def splitSign : Str → Bool × Str
  | [] => (false, [])
  | c :: cs => if c = 45 then (true, cs) else if c = 43 then (false, cs) else (false, c :: cs)

def applySign (neg : Bool) (n : Nat) : Int := if neg then -(n : Int) else (n : Int)

/-- `int(s)` for a `str` (base 10), including the 4300-digit limit. -/
def intOfStr (s : Str) : Except Err Int :=
  let (neg, body) := splitSign (stripBy isAsciiSpace (toAsciiNum s))
  match scanDigits 10 false body with
  | some ds => if ds.length > maxStrDigits then .error .value else .ok (applySign neg (ofDigits 10 ds))
  | none => .error .value

/-- Strip the optional `0x` prefix (and one following underscore) of base-16 literals. -/
def stripHexPrefix : Str → Str
  | c0 :: c1 :: cs =>
    if c0 = 48 ∧ (c1 = 120 ∨ c1 = 88) then
      match cs with
      | c2 :: cs' => if c2 = 95 then cs' else c2 :: cs'
      | [] => []
    else c0 :: c1 :: cs
  | s => s

/-- `int(b.strip(), 16)` for `bytes` (white space is ASCII white space in both steps). -/
def intOfBytes16 (b : Bytes) : Except Err Int :=
  let (neg, body) := splitSign (stripBy isAsciiSpace (b.map UInt8.toNat))
  match scanDigits 16 false (stripHexPrefix body) with
  | some ds => .ok (applySign neg (ofDigits 16 ds))
  | none => .error .value

/-! ## Dictionaries -/

/-- `d[k]` / `d.get(k)` on an insertion-ordered dictionary. -/
def lookup {β} (k : Str) : List (Str × β) → Option β
  | [] => none
  | (k', v) :: r => if k = k' then some v else lookup k r

/-- `k in d`. -/
def hasKey {β} (k : Str) (d : List (Str × β)) : Bool := (lookup k d).isSome

/-- `d[k] = v`: overwrite in place or append at the end (insertion order). -/
def insert {β} (k : Str) (v : β) : List (Str × β) → List (Str × β)
  | [] => [(k, v)]
  | (k', v') :: r => if k = k' then (k', v) :: r else (k', v') :: insert k v r

end Py
