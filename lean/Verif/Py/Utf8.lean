import Verif.Py.Base
/-!
# UTF-8 (CPython `bytes.decode("utf-8")` and `str.encode("utf-8")`, strict)
-/
namespace Py

/-- Continuation byte `10xxxxxx`. -/
def isCont (b : Nat) : Bool := 0x80 ≤ b && b ≤ 0xBF

/-- Strict UTF-8 decoding on byte values; `none` is `UnicodeDecodeError`. -/
def utf8DecodeN : List Nat → Option Str
  | [] => some []
  | b0 :: rest =>
    if b0 < 0x80 then (utf8DecodeN rest).map (b0 :: ·)
    else match rest with
      | [] => none
      | b1 :: rest1 =>
        if 0xC2 ≤ b0 && b0 ≤ 0xDF then
          if isCont b1 then (utf8DecodeN rest1).map (((b0 - 0xC0) * 64 + (b1 - 0x80)) :: ·) else none
        else match rest1 with
          | [] => none
          | b2 :: rest2 =>
            if 0xE0 ≤ b0 && b0 ≤ 0xEF then
              let c := (b0 - 0xE0) * 4096 + (b1 - 0x80) * 64 + (b2 - 0x80)
              if isCont b1 && isCont b2 && 0x800 ≤ c && !(0xD800 ≤ c && c ≤ 0xDFFF) then
                (utf8DecodeN rest2).map (c :: ·)
              else none
            else match rest2 with
              | [] => none
              | b3 :: rest3 =>
                if 0xF0 ≤ b0 && b0 ≤ 0xF4 then
                  let c := (b0 - 0xF0) * 262144 + (b1 - 0x80) * 4096 + (b2 - 0x80) * 64 + (b3 - 0x80)
                  if isCont b1 && isCont b2 && isCont b3 && 0x10000 ≤ c && c ≤ 0x10FFFF then
                    (utf8DecodeN rest3).map (c :: ·)
                  else none
                else none

/-- `b.decode("utf-8")`; `none` is `UnicodeDecodeError`. -/
def utf8Decode (b : Bytes) : Option Str := utf8DecodeN (b.map UInt8.toNat)

/-- Code points that occur in a `str` and can be encoded (no surrogates). -/
def isScalar (c : Nat) : Bool := c < 0x110000 && !(0xD800 ≤ c && c ≤ 0xDFFF)

/-- UTF-8 encoding of one code point (byte values). -/
def utf8EncodeChar (c : Nat) : List Nat :=
  if c < 0x80 then [c]
  else if c < 0x800 then [0xC0 + c / 64, 0x80 + c % 64]
  else if c < 0x10000 then [0xE0 + c / 4096, 0x80 + c / 64 % 64, 0x80 + c % 64]
  else [0xF0 + c / 262144, 0x80 + c / 4096 % 64, 0x80 + c / 64 % 64, 0x80 + c % 64]

/-- `s.encode("utf-8")`; `UnicodeEncodeError` (a `ValueError`) for surrogates. -/
def utf8Encode (s : Str) : Except Err Bytes :=
  if s.all isScalar then .ok ((s.flatMap utf8EncodeChar).map UInt8.ofNat) else .error .value

end Py
