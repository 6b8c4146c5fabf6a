import Verif.Model.Reader
/-!
# Exceptions from the stream object and from the error handler
(/repo/src/pynmeagps/nmeareader.py:120-223)

`Model/Reader.lean` takes streams whose `read` and `readline` return, and error handlers that return.
Here both may raise. This model contains the other one: `Props.C72_plain`.
-/
namespace Nmea
open Py

/-- An exception object: one of those known to the model of the library, or any other (`OSError`,
`serial.SerialException`, `TimeoutError`, `KeyboardInterrupt` ...), told apart by a number. -/
inductive Exc where
  | py (e : Err)
  | other (n : Nat)
  deriving DecidableEq

/-- What one pass through the `while` loop of `read` does (compare `Event`). -/
inductive XEvent where
  | skip
  | msg (raw : Bytes) (parsed : Option Msg)
  | err (e : Err)
  | eof
  | crash (x : Exc)

/-- The `except` clauses of `read` (/repo/src/pynmeagps/nmeareader.py:155-165): `EOFError` ends the
call, the four library errors go to the error policy, everything else propagates. -/
def caught : Exc → XEvent
  | .py .eof => .eof
  | .py .nmeaMessage => .err .nmeaMessage
  | .py .nmeaType => .err .nmeaType
  | .py .nmeaParse => .err .nmeaParse
  | .py .nmeaStream => .err .nmeaStream
  | x => .crash x

/-- A stream object whose methods may raise (`self._stream.read(1)`, `self._stream.readline()`,
/repo/src/pynmeagps/nmeareader.py:179, 198). The order decreases whenever data are handed out or a
library error is raised: as long as `read()` loops, the history of the stream is finite. Other
exceptions may be raised without end. -/
structure XStream (σ : Type) where
  read1 : σ → Except Exc Bytes × σ
  readline : σ → Except Exc Bytes × σ
  rel : WellFoundedRelation σ
  rel_trans : ∀ a b c, rel.rel a b → rel.rel b c → rel.rel a c
  read1_len : ∀ s b, (read1 s).1 = .ok b → b.length ≤ 1
  read1_data : ∀ s b, (read1 s).1 = .ok b → b ≠ [] → rel.rel (read1 s).2 s
  read1_err : ∀ s x e, (read1 s).1 = .error x → caught x = .err e → rel.rel (read1 s).2 s
  readline_dec : ∀ s, (readline s).2 = s ∨ rel.rel (readline s).2 s

/-- `_read_bytes(1)` (/repo/src/pynmeagps/nmeareader.py:169-187). -/
def readByteX {σ} (ops : XStream σ) (s : σ) : Except Exc Bytes × σ :=
  match ops.read1 s with
  | (.error x, s') => (.error x, s')
  | (.ok data, s') => if data = [] then (.error (.py .eof), s') else (.ok data, s')

/-- `_read_line` (/repo/src/pynmeagps/nmeareader.py:189-206). -/
def readLineX {σ} (ops : XStream σ) (s : σ) : Except Exc Bytes × σ :=
  match ops.readline s with
  | (.error x, s') => (.error x, s')
  | (.ok data, s') =>
    if data = [] then (.error (.py .eof), s')
    else if data.getLast? ≠ some 10 then (.error (.py .nmeaStream), s')
    else (.ok data, s')

/-- One pass through the loop of `read` (/repo/src/pynmeagps/nmeareader.py:135-165). -/
def stepX {σ} (now : Nat → DateTime) (ops : XStream σ) (cfg : RCfg) (s : σ) : XEvent × σ :=
  match readByteX ops s with
  | (.error x, s1) => (caught x, s1)
  | (.ok byte1, s1) =>
    if byte1 ≠ pb!"$" then (.skip, s1)
    else
      match readByteX ops s1 with
      | (.error x, s2) => (caught x, s2)
      | (.ok byte2, s2) =>
        if byte1 ++ byte2 ∈ NMEA_HDR then
          match readLineX ops s2 with
          | (.error x, s3) => (caught x, s3)
          | (.ok byten, s3) =>
            let raw := byte1 ++ byte2 ++ byten
            match parse now (.bytes raw) cfg.mode cfg.validate cfg.udefs with
            | .ok m => (.msg raw m, s3)
            | .error e => (caught (.py e), s3)
        else if cfg.nmeaonly then (caught (.py .nmeaParse), s2)
        else (.skip, s2)

/-- An error handler (`errorhandler`, /repo/src/pynmeagps/nmeareader.py:54-98), which may keep state:
given all errors it has been called with, the newest last, it returns (`none`) or raises. Without a
handler the error goes to the logger, which returns. Handlers that use the reader or its stream
themselves: `Model/Reentrant`. -/
abbrev Handler := List Err → Option Exc

/-- Outcome of one call of `read()`. -/
inductive XResult where
  | item (raw : Bytes) (parsed : Option Msg)
  | none
  | raised (x : Exc)

theorem readByteX_dec {σ} (ops : XStream σ) (s : σ) :
    (∀ b, (readByteX ops s).1 = .ok b → ops.rel.rel (readByteX ops s).2 s) ∧
    (∀ x e, (readByteX ops s).1 = .error x → caught x = .err e → ops.rel.rel (readByteX ops s).2 s) := by
  have hd := ops.read1_data s
  have he := ops.read1_err s
  simp only [readByteX]
  split
  · rename_i x s' h
    rw [h] at hd he
    exact ⟨fun b hb => (by simp at hb), fun x e hx hc => he x e hx hc⟩
  · rename_i data s' h
    rw [h] at hd he
    split
    · exact ⟨fun b hb => (by simp at hb), fun x e hx hc => (by cases hx; cases hc)⟩
    · rename_i hne
      exact ⟨fun b hb => hd data rfl hne, fun x e hx _ => (by simp at hx)⟩

theorem readLineX_rel {σ} (ops : XStream σ) (s : σ) :
    (readLineX ops s).2 = s ∨ ops.rel.rel (readLineX ops s).2 s := by
  have h := ops.readline_dec s
  simp only [readLineX]
  split
  · rename_i h'; rw [h'] at h; exact h
  · rename_i h'; rw [h'] at h
    split
    · exact h
    · split <;> exact h

/-- Every pass after which `read` goes on has moved the stream forward. -/
theorem stepX_dec {σ} (now : Nat → DateTime) (ops : XStream σ) (cfg : RCfg) (s s' : σ) :
    (stepX now ops cfg s = (.skip, s') → ops.rel.rel s' s) ∧
    (∀ e, stepX now ops cfg s = (.err e, s') → ops.rel.rel s' s) := by
  have hsk : ∀ x, caught x ≠ .skip := by
    intro x; cases x with
    | other n => simp [caught]
    | py e => cases e <;> simp [caught]
  have h1 := readByteX_dec ops s
  have key : ∀ ev, stepX now ops cfg s = (ev, s') → (ev = .skip ∨ ∃ e, ev = .err e) → ops.rel.rel s' s := by
    intro ev h hev
    have hc : ∀ x, caught x = ev → ∃ e, caught x = .err e := by
      intro x hx
      rcases hev with rfl | ⟨e, rfl⟩
      · exact absurd hx (hsk x)
      · exact ⟨e, hx⟩
    simp only [stepX] at h
    split at h
    · rename_i x s1 hr
      rw [hr] at h1
      simp only [Prod.mk.injEq] at h
      obtain ⟨e, hne⟩ := hc x h.1
      rw [← h.2]; exact h1.2 x e rfl hne
    · rename_i b1 s1 hr
      rw [hr] at h1
      have d1 : ops.rel.rel s1 s := h1.1 b1 rfl
      have h2 := readByteX_dec ops s1
      split at h
      · simp only [Prod.mk.injEq] at h; rw [← h.2]; exact d1
      · split at h
        · rename_i x s2 hr2
          rw [hr2] at h2
          simp only [Prod.mk.injEq] at h
          obtain ⟨e, hne⟩ := hc x h.1
          rw [← h.2]; exact ops.rel_trans _ _ _ (h2.2 x e rfl hne) d1
        · rename_i b2 s2 hr2
          rw [hr2] at h2
          have d2 : ops.rel.rel s2 s := ops.rel_trans _ _ _ (h2.1 b2 rfl) d1
          have h3 := readLineX_rel ops s2
          split at h
          · have d3 : ∀ s3, (s3 = s2 ∨ ops.rel.rel s3 s2) → ops.rel.rel s3 s := by
              rintro s3 (rfl | h')
              · exact d2
              · exact ops.rel_trans _ _ _ h' d2
            split at h
            · rename_i hr3; rw [hr3] at h3
              simp only [Prod.mk.injEq] at h; rw [← h.2]; exact d3 _ h3
            · rename_i hr3; rw [hr3] at h3
              split at h
              all_goals
                simp only [Prod.mk.injEq] at h; rw [← h.2]; exact d3 _ h3
          · split at h
            all_goals
              simp only [Prod.mk.injEq] at h; rw [← h.2]; exact d2
  exact ⟨fun h => key _ h (.inl rfl), fun e h => key _ h (.inr ⟨e, rfl⟩)⟩

/-- The `while` loop of `read` (/repo/src/pynmeagps/nmeareader.py:120-167) together with `_do_error`
(208-223). `hist` are the errors the handler has been called with so far. An exception raised by the
handler is raised inside the `except` clause of `read`, where nothing catches it: it propagates. -/
def readX {σ} (now : Nat → DateTime) (ops : XStream σ) (cfg : RCfg) (handler : Handler)
    (hist : List Err) (s : σ) : XResult × List Err × σ :=
  match _h : stepX now ops cfg s with
  | (.eof, s') => (.none, hist, s')
  | (.msg raw m, s') => (.item raw m, hist, s')
  | (.crash x, s') => (.raised x, hist, s')
  | (.skip, s') => readX now ops cfg handler hist s'
  | (.err e, s') =>
    if cfg.quitonerror = 2 then (.raised (.py e), hist, s')
    else if cfg.quitonerror = 1 then
      match handler (hist ++ [e]) with
      | some x => (.raised x, hist ++ [e], s')
      | none => readX now ops cfg handler (hist ++ [e]) s'
    else readX now ops cfg handler hist s'
termination_by ops.rel.wf.wrap s
decreasing_by
  · exact (stepX_dec now ops cfg s s').1 _h
  · exact (stepX_dec now ops cfg s s').2 e _h
  · exact (stepX_dec now ops cfg s s').2 e _h

/-- A stream object whose methods do not raise. -/
def noRaise {σ} (ops : StreamOps σ) : XStream σ where
  read1 s := (.ok (ops.read1 s).1, (ops.read1 s).2)
  readline s := (.ok (ops.readline s).1, (ops.readline s).2)
  rel := ops.rel
  rel_trans := ops.rel_trans
  read1_len s b h := by cases h; exact ops.read1_len s
  read1_data s b h hb := by cases h; exact ops.read1_dec s hb
  read1_err s x e h := by cases h
  readline_dec := ops.readline_dec

/-! ## A port that fails now and then -/

/-- What is to come from a port: bytes, and exceptions that `read` or `readline` will raise. -/
abbrev FaultLine := List (UInt8 ⊕ Exc)

/-- `readline()` on such a port, as in `serial.Serial` (`io.RawIOBase.readline` on `read(1)`): the
bytes collected before an exception are lost with it. -/
def faultReadline : FaultLine → Except Exc Bytes × FaultLine
  | [] => (.ok [], [])
  | .inr x :: r => (.error x, r)
  | .inl b :: r =>
    if b = 10 then (.ok [b], r)
    else match faultReadline r with
      | (.ok l, r') => (.ok (b :: l), r')
      | (.error x, r') => (.error x, r')

theorem faultReadline_len (l : FaultLine) : (faultReadline l).2 = l ∨ (faultReadline l).2.length < l.length := by
  induction l with
  | nil => exact .inl rfl
  | cons a r ih =>
    right
    cases a with
    | inr x => simp [faultReadline]
    | inl b =>
      simp only [faultReadline]
      split
      · simp
      · generalize hg : faultReadline r = fr at ih ⊢
        obtain ⟨a, r'⟩ := fr
        have : r'.length ≤ r.length := by
          rcases ih with h | h
          · simp only at h; rw [h]; exact Nat.le_refl _
          · simp only at h; omega
        cases a <;> (simp only [List.length_cons]; omega)

/-- The port as a stream object: `read(1)` gives the next byte or raises the next exception. -/
def faultStream : XStream FaultLine where
  read1
    | [] => (.ok [], [])
    | .inl b :: r => (.ok [b], r)
    | .inr x :: r => (.error x, r)
  readline := faultReadline
  rel := measure List.length
  rel_trans a b c h1 h2 := Nat.lt_trans (m := b.length) h1 h2
  read1_len s b h := by
    match s with
    | [] => cases h; simp
    | .inl b :: r => cases h; simp
    | .inr x :: r => cases h
  read1_data s b h hb := by
    match s with
    | [] => cases h; exact absurd rfl hb
    | .inl b :: r => show r.length < (_ :: r).length; simp
    | .inr x :: r => cases h
  read1_err s x e h _ := by
    match s with
    | [] => cases h
    | .inl b :: r => cases h
    | .inr x :: r => show r.length < (_ :: r).length; simp
  readline_dec := faultReadline_len

end Nmea
