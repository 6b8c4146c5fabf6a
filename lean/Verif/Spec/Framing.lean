import Verif.Model.Reader
/-!
# Specification of checksums and sentence framing

These definitions describe NMEA 0183 framing independently of how the code computes it.
-/
namespace Spec
open Py

/-- XOR of all characters. -/
def xorAll : Str → Nat
  | [] => 0
  | c :: cs => c ^^^ xorAll cs

/-- The sixteen upper-case hexadecimal digits. -/
def hexDigits : Str := py!"0123456789ABCDEF"

/-- Value of a hexadecimal text, most significant digit first. -/
def hexValue (s : Str) : Nat := s.foldl (fun a c => 16 * a + hexDigits.idxOf c) 0

/-- `s` is the upper-case hexadecimal rendering of `n` with at least two digits (and no other
leading zeros). -/
def IsHexText (s : Str) (n : Nat) : Prop :=
  (∀ c ∈ s, c ∈ hexDigits) ∧ hexValue s = n ∧ 2 ≤ s.length ∧ (2 < s.length → s.head? ≠ some 48)

/-- Characters that frame a sentence: `$`, CR, LF. -/
def FrameChar (c : Nat) : Prop := c = 36 ∨ c = 13 ∨ c = 10

/-- The sentence text carried by the `message` argument: `bytes` are UTF-8 text. -/
inductive TextOf : Nmea.RawMsg → Str → Prop
  | bytes (b : Bytes) (s : Str) (h : utf8Encode s = .ok b) : TextOf (.bytes b) s
  | str (s : Str) : TextOf (.str s) s

/-- `msg` is framed text: framing characters, then `body`, then framing characters, where `body`
neither begins nor ends with a framing character. -/
def FramedBody (msg body : Str) : Prop :=
  ∃ pre post, msg = pre ++ body ++ post ∧ (∀ c ∈ pre, FrameChar c) ∧ (∀ c ∈ post, FrameChar c) ∧
    (∀ c ∈ body.head?, ¬ FrameChar c) ∧ (∀ c ∈ body.getLast?, ¬ FrameChar c)

/-- Fields joined by commas. -/
def commaJoin : List Str → Str
  | [] => []
  | [f] => f
  | f :: fs => f ++ py!"," ++ commaJoin fs

/-- The sentence text `msg` has content `content` (before the first `*`) and checksum text
`cksum` (after it). -/
def HasContent (msg content cksum : Str) : Prop :=
  FramedBody msg (content ++ py!"*" ++ cksum) ∧ 42 ∉ content

/-- The content consists of the header `talker ++ msgid` and the comma-separated fields
`payload`; the talker is `P`, or the first two characters of a header not beginning with `P`. -/
def HasFields (content talker msgid : Str) (payload : List Str) : Prop :=
  content = commaJoin ((talker ++ msgid) :: payload) ∧
  (∀ f ∈ (talker ++ msgid) :: payload, 44 ∉ f) ∧
  (talker = py!"P" ∨
    (talker.head? ≠ some 80 ∧ (talker.length = 2 ∨ (talker.length < 2 ∧ msgid = []))))

end Spec

namespace Spec

/-- The `VALCKSUM` flag (1) is set in a `validate` argument. -/
def ValCksum (validate : Nat) : Prop := validate.testBit 0 = true

/-- The `VALMSGID` flag (2) is set in a `validate` argument. -/
def ValMsgid (validate : Nat) : Prop := validate.testBit 1 = true

instance (v : Nat) : Decidable (ValCksum v) := by unfold ValCksum; infer_instance
instance (v : Nat) : Decidable (ValMsgid v) := by unfold ValMsgid; infer_instance

end Spec

namespace Spec
open Py Nmea

/-- A fixed clock, for examples. -/
def clock0 : Nat → DateTime := fun _ => ⟨⟨2024, 1, 2⟩, ⟨3, 4, 5, 678900⟩⟩

/-- `parse` returned a message. -/
def accepted : Except Err (Option Msg) → Bool
  | .ok (some _) => true
  | _ => false

theorem accepted_iff (r : Except Err (Option Msg)) : accepted r = true ↔ ∃ m, r = .ok (some m) := by
  match r with
  | .ok (some m) => simp [accepted]
  | .ok none => simp [accepted]
  | .error e => simp [accepted]

end Spec

namespace Spec
open Py Nmea

/-- `parse` returned a message with property `P`. -/
def acceptedWith (P : Msg → Bool) : Except Err (Option Msg) → Bool
  | .ok (some m) => P m
  | _ => false

theorem acceptedWith_iff (P : Msg → Bool) (r : Except Err (Option Msg)) :
    acceptedWith P r = true ↔ ∃ m, r = .ok (some m) ∧ P m = true := by
  match r with
  | .ok (some m) => simp [acceptedWith]
  | .ok none => simp [acceptedWith]
  | .error e => simp [acceptedWith]

/-- `msg` is a sentence: its text has the given content and checksum text, and the content has the
given header (talker and message id) and fields. -/
def IsSentence (msg : RawMsg) (content talker msgid : Str) (fields : List Str) (cksum : Str) : Prop :=
  ∃ text, TextOf msg text ∧ HasContent text content cksum ∧ HasFields content talker msgid fields

/-- Framing bytes: `$`, CR, LF. -/
def FrameByte (b : UInt8) : Prop := b = 36 ∨ b = 13 ∨ b = 10

/-- `raw` is framed data: framing bytes, then `body`, then framing bytes, where `body` neither
begins nor ends with a framing byte. -/
def FramedBytes (raw body : Bytes) : Prop :=
  ∃ pre post, raw = pre ++ body ++ post ∧ (∀ c ∈ pre, FrameByte c) ∧ (∀ c ∈ post, FrameByte c) ∧
    (∀ c ∈ body.head?, ¬ FrameByte c) ∧ (∀ c ∈ body.getLast?, ¬ FrameByte c)

end Spec
