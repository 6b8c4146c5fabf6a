import Verif.Spec.Socket
/-!
# Specification: chunked transfer encoding
-/
namespace Spec
open Py Nmea

/-- Value of a hexadecimal digit, upper or lower case. -/
def hexOf (b : UInt8) : Option Nat :=
  if 48 ≤ b.toNat ∧ b.toNat ≤ 57 then some (b.toNat - 48)
  else if 65 ≤ b.toNat ∧ b.toNat ≤ 70 then some (b.toNat - 65 + 10)
  else if 97 ≤ b.toNat ∧ b.toNat ≤ 102 then some (b.toNat - 97 + 10)
  else none

/-- `ds` are hexadecimal digits, at least one, with value `n`. -/
def HexNumber (ds : Bytes) (n : Nat) : Prop :=
  ∃ vs : List Nat, vs ≠ [] ∧ ds.map hexOf = vs.map some ∧ vs.foldl (fun a v => 16 * a + v) 0 = n

/-- `line` gives the length `n` of a chunk: hexadecimal digits, CR, LF. -/
def LengthLine (line : Bytes) (n : Nat) : Prop := ∃ ds, HexNumber ds n ∧ line = ds ++ [13, 10]

/-- A chunk: its length line and its data. -/
structure Chunk where
  line : Bytes
  data : Bytes

/-- A proper chunk: not the final one, which is empty. -/
def Chunk.Ok (c : Chunk) : Prop := c.data ≠ [] ∧ LengthLine c.line c.data.length

/-- The chunk on the wire. -/
def Chunk.bytes (c : Chunk) : Bytes := c.line ++ c.data ++ [13, 10]

/-- What may follow the chunks: nothing (yet), or the final empty chunk. -/
def ChunkedEnd (e : Bytes) : Prop := e = [] ∨ ∃ line, LengthLine line 0 ∧ e = line ++ [13, 10]

/-- A chunked stream: chunks and end. -/
def chunked (cs : List Chunk) (e : Bytes) : Bytes := cs.flatMap Chunk.bytes ++ e

/-- A place to cut a chunked stream, given as the part before it, that does not fall between the end of
a chunk's data and the end of the CR LF after them. -/
def CleanCut (cs : List Chunk) (e : Bytes) (p : Bytes) : Prop :=
  (∃ done c rest q, cs = done ++ c :: rest ∧ p = done.flatMap Chunk.bytes ++ q ∧ q <+: c.line ++ c.data ∧
    q ≠ c.line ++ c.data) ∨
  (∃ q, p = cs.flatMap Chunk.bytes ++ q ∧ q <+: e)

/-- Decompression stages, applied in order up to the first one that fails. -/
inductive Staged : List (Bytes → Option Bytes) → Bytes → Bytes → Prop
  | done (x) : Staged [] x x
  | step (f fs x y r) : f x = some y → Staged fs y r → Staged (f :: fs) x r
  | fail (f fs x) : f x = none → Staged (f :: fs) x x

/-- The stages selected by the encoding flags. -/
def stages (z : Zlib) (enc : Nat) : List (Bytes → Option Bytes) :=
  (if enc &&& 2 ≠ 0 then [z.gzip] else []) ++ (if enc &&& 4 ≠ 0 then [z.compress] else []) ++
    (if enc &&& 8 ≠ 0 then [z.deflate] else [])

/-- A line that Python's `int(line, 16)` reads as `n`. -/
def ReadsAs (line : Bytes) (n : Int) : Prop :=
  (∃ x, 10 ∉ x ∧ line = x ++ [13, 10]) ∧ intOfBytes16 line = .ok n

/-- What the code makes of any data: `Unchunk b cs p`: from `b`, `cs` are the data of the complete
chunks, and `p` is kept for later. -/
inductive Unchunk : Bytes → List Bytes → Bytes → Prop
  /-- a complete chunk: length line, data, and the rest of the line after them -/
  | chunk (line c t r cs p) : ReadsAs line (c.length : Int) → c ≠ [] →
      ((∃ x, 10 ∉ x ∧ t = x ++ [10]) ∨ (10 ∉ t ∧ r = [])) → Unchunk r cs p → Unchunk (line ++ c ++ t ++ r) (c :: cs) p
  /-- an incomplete length line (or nothing) is kept -/
  | cutLine (l) : 10 ∉ l → Unchunk l [] l
  /-- an incomplete chunk is kept -/
  | cutData (line c n) : ReadsAs line n → n ≠ 0 → (c.length : Int) < n ∨ n < 0 → Unchunk (line ++ c) [] (line ++ c)
  /-- the final chunk: everything after it is ignored -/
  | final (line r) : ReadsAs line 0 → Unchunk (line ++ r) [] []
  /-- a line that is not a number: everything after it is ignored -/
  | garbage (line r) : (∃ x, 10 ∉ x ∧ line = x ++ [13, 10]) → (∀ n, intOfBytes16 line ≠ .ok n) → Unchunk (line ++ r) [] []
  /-- a line that ends in a bare LF is kept, everything after it is lost -/
  | bareLf (x r) : 10 ∉ x → x.getLast? ≠ some 13 → Unchunk (x ++ 10 :: r) [] (x ++ [10])

end Spec
