import Verif.Spec.Layout
import Verif.Spec.Lookup
import Verif.Spec.Stream
import Verif.Model.ErrorText
/-!
# Specification: what error texts say
-/
namespace Spec
open Py Nmea

/-- The first `n` entries (attributes and groups) of a definition. -/
def firstEntries : Nat → PDict → PDict
  | 0, _ => .nil
  | _ + 1, .nil => .nil
  | n + 1, .single k t r => .single k t (firstEntries n r)
  | n + 1, .group k rep b r => .group k rep b (firstEntries n r)

/-- The name of the entry number `n` (from 0) of a definition: of an attribute, or of a group. -/
def entryName : PDict → Nat → Option Str
  | .nil, _ => none
  | .single k _ _, 0 => some k
  | .group k _ _ _, 0 => some k
  | .single _ _ r, n + 1 => entryName r n
  | .group _ _ _ r, n + 1 => entryName r n

/-- The definition can be filled from the fields. -/
def Fillable (mode : Nat) (fields : List Str) (d : PDict) : Prop :=
  ∃ slots attrs, Expand mode fields d [] [] slots ∧ readSlots slots fields [] = .ok attrs

/-- The attribute types of a definition, at every depth. -/
def allTypes : PDict → List Str
  | .nil => []
  | .single _ t r => t :: allTypes r
  | .group _ _ b r => allTypes b ++ allTypes r

/-- The attribute types a received field can have. -/
def receivedTypes : List Str :=
  [py!"CH", py!"DE", py!"DT", py!"DM", py!"HX", py!"IN", py!"LA", py!"LAD", py!"LN", py!"LND", py!"QS", py!"ST", py!"TM"]

/-- The word for a message mode. -/
def modeName (mode : Int) : Str := if mode = 0 then py!"GET" else if mode = 1 then py!"SET" else py!"POLL"

/-- The texts of the library's exceptions. -/
inductive ErrorText
  | badlyFormed (message : Str)
  | parseMode (mode : Str)
  | checksum (talker msgid given expected : Str)
  | talker (talker : Str)
  | msgid (talker msgid mode : Str)
  | definition (id mode : Str)
  | attribute (name msgid : Str)
  | type (ty : Str)
  | header (bytes : Str)
  | cutOff (bytes : Nat)

/-- An exception's text in full. -/
def ErrorText.text : ErrorText → Str
  | .badlyFormed m => py!"Badly formed message " ++ m
  | .parseMode m => py!"Invalid parse mode " ++ m ++ py!" - must be 0, 1 or 2."
  | .checksum t i k k' => py!"Message " ++ t ++ i ++ py!" invalid checksum " ++ k ++ py!" - should be " ++ k' ++ py!"."
  | .talker t => py!"Unknown talker " ++ t ++ py!"."
  | .msgid t i m => py!"Unknown msgID " ++ t ++ i ++ py!", msgmode " ++ m ++ py!"."
  | .definition i m => py!"Unknown msgID " ++ i ++ py!" msgmode " ++ m ++ py!"."
  | .attribute k i => py!"Incorrect type for attribute " ++ k ++ py!" in msgID " ++ i ++ py!"."
  | .type t => py!"Unknown attribute type " ++ t ++ py!"."
  | .header b => py!"Unknown protocol header " ++ b ++ py!"."
  | .cutOff n => py!"Serial stream terminated unexpectedly. Line requested, " ++ natDec n ++ py!" bytes returned."

/-- The entry number `n` (from 0) of a definition, named `k`, is the first that cannot be filled from the fields. -/
structure FirstUnfillable (mode : Nat) (fields : List Str) (d : PDict) (n : Nat) (k : Str) : Prop where
  name : entryName d n = some k
  before : ∀ m ≤ n, Fillable mode fields (firstEntries m d)
  after : ¬ Fillable mode fields (firstEntries (n + 1) d)

/-- A message as it is shown: text as it is, bytes that are UTF-8 as the text they encode, other bytes as Python writes bytes. -/
inductive Shown : RawMsg → Str → Prop
  | text (msg s) : TextOf msg s → Shown msg s
  | bytes (b) : (∀ s, ¬ TextOf (.bytes b) s) → Shown (.bytes b) (reprBytes b)

/-- What is wrong with a message, or the mode, when `parse` raises an exception with the given text. The validations are made in
this order: form, checksum, talker, message type, definition, fields. -/
inductive Explains (mode : Int) (v : Nat) (u : UDefs) (msg : RawMsg) : ErrorText → Prop
  /-- The mode is not one of the three. -/
  | parseMode (s : Str) : ¬ (mode = 0 ∨ mode = 1 ∨ mode = 2) → strOfInt mode = .ok s → Explains mode v u msg (.parseMode s)
  /-- The message is not a sentence at all. -/
  | badlyFormed (s : Str) : (mode = 0 ∨ mode = 1 ∨ mode = 2) → ValMsgid v → (¬ ∃ c t i f k, IsSentence msg c t i f k) →
      Shown msg s → Explains mode v u msg (.badlyFormed s)
  /-- The checksum is not the XOR of the content, which the text gives. -/
  | checksum (c t i k k' : Str) (f : List Str) : (mode = 0 ∨ mode = 1 ∨ mode = 2) → ValCksum v → IsSentence msg c t i f k →
      IsHexText k' (xorAll c) → upper k ≠ k' → Explains mode v u msg (.checksum t i k k')
  /-- The talker is unknown. -/
  | talker (c t i k : Str) (f : List Str) : (mode = 0 ∨ mode = 1 ∨ mode = 2) → ValMsgid v → IsSentence msg c t i f k →
      (ValCksum v → IsHexText (upper k) (xorAll c)) → t ∉ NMEA_TALKERS → Explains mode v u msg (.talker t)
  /-- The message type is unknown. -/
  | msgid (c t i k : Str) (f : List Str) : (mode = 0 ∨ mode = 1 ∨ mode = 2) → ValMsgid v → IsSentence msg c t i f k →
      (ValCksum v → IsHexText (upper k) (xorAll c)) → t ∈ NMEA_TALKERS → ¬ Recognised u i →
      Explains mode v u msg (.msgid t i (modeName mode))
  /-- The message type is known, but not in this mode, or not with this first field. -/
  | definition (c t i k id : Str) (f : List Str) : (mode = 0 ∨ mode = 1 ∨ mode = 2) → ValMsgid v → IsSentence msg c t i f k →
      (ValCksum v → IsHexText (upper k) (xorAll c)) → t ∈ NMEA_TALKERS → Recognised u i → fullId i f = .ok id →
      definitionFor mode.toNat u i f = .ok none → Explains mode v u msg (.definition (upper id) (modeName mode))
  /-- The named entry of the definition is the first that cannot be filled from the fields. -/
  | attribute (c t i k name : Str) (f : List Str) (d : PDict) (n : Nat) : (mode = 0 ∨ mode = 1 ∨ mode = 2) →
      IsSentence msg c t i f k → (ValCksum v → IsHexText (upper k) (xorAll c)) →
      (ValMsgid v → t ∈ NMEA_TALKERS ∧ Recognised u i) → definitionFor mode.toNat u i f = .ok (some d) →
      FirstUnfillable mode.toNat (fieldTexts t i f) d n name → Explains mode v u msg (.attribute name i)
  /-- A definition of the user's has an attribute of a type that does not exist, and there is a field for it. -/
  | type (c t i k name ty : Str) (f : List Str) (d : PDict) (n : Nat) : (mode = 0 ∨ mode = 1 ∨ mode = 2) →
      IsSentence msg c t i f k → (ValCksum v → IsHexText (upper k) (xorAll c)) →
      (ValMsgid v → t ∈ NMEA_TALKERS ∧ Recognised u i) → definitionFor mode.toNat u i f = .ok (some d) →
      FirstUnfillable mode.toNat (fieldTexts t i f) d n name → ty ∈ allTypes d → ty ∉ receivedTypes →
      Explains mode v u msg (.type ty)

/-- The texts of `NMEATypeError`; the others are of `NMEAParseError`. -/
def ErrorText.isType : ErrorText → Bool
  | .attribute _ _ => true
  | .type _ => true
  | _ => false

/-- A session as `Session`, with the texts: each entry has the exceptions given to the error handler or the log during the call,
with their texts, the outcome of the call, and the text if it raised. -/
inductive SessionT {σ} (now : Nat → DateTime) (ops : StreamOps σ) (cfg : RCfg) :
    σ → List (List TExc × ReadResult × Option Str) → Prop
  | last (s s' t log) : readMsgT now ops cfg s = (.none, t, log, s') → SessionT now ops cfg s [(log, .none, t)]
  | more (s s' r t log rest) : readMsgT now ops cfg s = (r, t, log, s') → r ≠ .none → SessionT now ops cfg s' rest →
      SessionT now ops cfg s ((log, r, t) :: rest)

/-- The transcript in which logged exceptions are listed like raised ones. -/
def transcriptT (entries : List (List TExc × ReadResult × Option Str)) : List (ReadResult × Option Str) :=
  entries.flatMap fun e => e.1.map (fun x => (.raised x.1, x.2)) ++ [e.2]

/-- What the reader returns, or says, for one piece of a stream. -/
def replyT (now : Nat → DateTime) (cfg : RCfg) : Piece → Option (ReadResult × Option Str)
  | .junk _ => none
  | .foreign h =>
    if cfg.nmeaonly then some (.raised .nmeaParse, some (ErrorText.header (reprBytes [36, h])).text) else none
  | .line raw =>
    match parseT now (.bytes raw) cfg.mode cfg.validate cfg.udefs with
    | .ok m => some (.item raw m, none)
    | .error (e, t) => some (.raised e, if LibraryError e then t else none)
  | .cut raw => some (.raised .nmeaStream, some (ErrorText.cutOff (raw.length - 2)).text)

end Spec
