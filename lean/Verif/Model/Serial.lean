import Verif.Model.Reader
/-!
# A serial port as the stream of an `NMEAReader`

`NMEAReader` is documented for `Serial` streams (/repo/src/pynmeagps/nmeareader.py:70,
/repo/README.md). This models the environment, not pynmeagps code: `read(1)` returns one byte, or `b""`
when the port's timeout expires; `readline()` is that of `io.IOBase`: `read(1)` until LF or until
`read(1)` returns `b""`.
-/
namespace Nmea
open Py

/-- What a port will deliver: bytes, and `none` where a call of `read(1)` times out. After the end
of the list every call times out. -/
abbrev Line := List (Option UInt8)

/-- `Serial.read(1)`. -/
def serialRead1 : Line → Bytes × Line
  | [] => ([], [])
  | none :: r => ([], r)
  | some b :: r => ([b], r)

/-- `io.IOBase.readline()` over `Serial.read(1)`. -/
def serialLine : Line → Bytes × Line
  | [] => ([], [])
  | none :: r => ([], r)
  | some b :: r => if b = 10 then ([b], r) else let (l, r') := serialLine r; (b :: l, r')

theorem serialLine_len (s : Line) : (serialLine s).2 = s ∨ (serialLine s).2.length < s.length := by
  induction s with
  | nil => exact .inl rfl
  | cons x r ih =>
    right
    cases x with
    | none => simp [serialLine]
    | some b =>
      simp only [serialLine]
      split
      · simp
      · rcases ih with h | h
        · simp [h]
        · simp only [List.length_cons]; omega

/-- The serial port. -/
def serialStream : StreamOps Line where
  read1 := serialRead1
  readline := serialLine
  rel := measure List.length
  rel_trans a b c h1 h2 := Nat.lt_trans (m := b.length) h1 h2
  read1_len s := by
    cases s with
    | nil => simp [serialRead1]
    | cons x r => cases x <;> simp [serialRead1]
  read1_dec s h := by
    cases s with
    | nil => simp [serialRead1] at h
    | cons x r =>
      cases x with
      | none => simp [serialRead1] at h
      | some b => show r.length < (some b :: r).length; simp
  readline_dec s := serialLine_len s

end Nmea
