import Verif.Model.Message
/-!
# Model of class `NMEAReader` (/repo/src/pynmeagps/nmeareader.py)
-/
namespace Nmea
open Py

/-- `NMEA_HDR` (/repo/src/pynmeagps/nmeatypes_core.py:234): `$` and the first character of each
talker. Talker names are ASCII, so their first byte is their first character. -/
def NMEA_HDR : List Bytes :=
  NMEA_TALKERS.map fun t => pb!"$" ++ (t.take 1).map UInt8.ofNat

/-! ## Parsing one sentence -/

/-- `NMEAReader.parse` (/repo/src/pynmeagps/nmeareader.py:236-284). `ok none` is the return value
`None`. -/
def parse (now : Nat → DateTime) (message : RawMsg) (msgmode : Int) (validate : Nat)
    (udefs : UDefs) : Except Err (Option Msg) :=
  if ¬ (msgmode = 0 ∨ msgmode = 1 ∨ msgmode = 2) then .error .nmeaParse
  else
    let body : Except Err Msg := do
      let p ← getParts message
      if valCksum validate && upper p.cksum != calcChecksum p.content then .error .nmeaParse
      else
        mkMsg now p.talker p.msgid msgmode false validate udefs (some p.cksum)
          { payload := some p.payload, others := [] }
    match body with
    | .ok m => .ok (some m)
    | .error .nmeaMessage => if valMsgid validate then .error .nmeaParse else .ok none
    | .error e => .error e

/-! ## Byte streams -/

/-- A stream object as the reader uses it: `read(1)` and `readline()`
(/repo/src/pynmeagps/nmeareader.py:179, 198). `rel` is a well-founded order that decreases
whenever data are returned: the history of the stream is finite. -/
structure StreamOps (σ : Type) where
  read1 : σ → Bytes × σ
  readline : σ → Bytes × σ
  rel : WellFoundedRelation σ
  rel_trans : ∀ a b c, rel.rel a b → rel.rel b c → rel.rel a c
  read1_len : ∀ s, (read1 s).1.length ≤ 1
  read1_dec : ∀ s, (read1 s).1 ≠ [] → rel.rel (read1 s).2 s
  readline_dec : ∀ s, (readline s).2 = s ∨ rel.rel (readline s).2 s

/-- `readline()` of a binary file or `BytesIO`: up to and including the first LF. -/
def fileLine : Bytes → Bytes × Bytes
  | [] => ([], [])
  | b :: r => if b = 10 then ([b], r) else let (l, r') := fileLine r; (b :: l, r')

theorem fileLine_append (b : Bytes) : (fileLine b).1 ++ (fileLine b).2 = b := by
  induction b with
  | nil => rfl
  | cons x r ih => simp only [fileLine]; split <;> simp [ih]

theorem fileLine_len (b : Bytes) : (fileLine b).1.length + (fileLine b).2.length = b.length := by
  rw [← List.length_append, fileLine_append]

theorem fileLine_pos (b : Bytes) (h : b ≠ []) : (fileLine b).1 ≠ [] := by
  cases b with
  | nil => exact absurd rfl h
  | cons x r => simp only [fileLine]; split <;> simp

/-- A binary file (or `BytesIO`) positioned at its remaining bytes. -/
def fileStream : StreamOps Bytes where
  read1 b := (b.take 1, b.drop 1)
  readline := fileLine
  rel := measure List.length
  rel_trans a b c h1 h2 := Nat.lt_trans (m := b.length) h1 h2
  read1_len b := by simp; omega
  read1_dec b h := by
    cases b with
    | nil => simp at h
    | cons x r => show r.length < (x :: r).length; simp
  readline_dec b := by
    cases b with
    | nil => left; rfl
    | cons x r =>
      right
      show (fileLine (x :: r)).2.length < (x :: r).length
      have h1 := fileLine_len (x :: r)
      have h2 := List.length_pos_iff.2 (fileLine_pos (x :: r) (by simp))
      omega

/-! ## The reader -/

/-- Reader settings (/repo/src/pynmeagps/nmeareader.py:54-98). `quitonerror` 0 = ignore, 1 = log,
2 = raise. -/
structure RCfg where
  mode : Int
  validate : Nat
  nmeaonly : Bool
  quitonerror : Nat
  udefs : UDefs

/-- What one pass through the `while` loop of `read` does. -/
inductive Event where
  /-- byte discarded, or header ignored: go on (lines 137-138, 151-152) -/
  | skip
  /-- a sentence was accepted: the loop ends with this return value (lines 141-150) -/
  | msg (raw : Bytes) (parsed : Option Msg)
  /-- a library error was raised inside the `try` (lines 153, 157-165) -/
  | err (e : Err)
  /-- end of stream: `(None, None)` (lines 155-156) -/
  | eof
  /-- any other exception: propagates to the caller of `read` -/
  | crash (e : Err)

/-- `_read_line` (/repo/src/pynmeagps/nmeareader.py:189-206). -/
def readLine {σ} (ops : StreamOps σ) (s : σ) : Except Err Bytes × σ :=
  let (data, s') := ops.readline s
  if data = [] then (.error .eof, s')
  else if data.getLast? ≠ some 10 then (.error .nmeaStream, s')
  else (.ok data, s')

/-- One pass through the loop of `read` (/repo/src/pynmeagps/nmeareader.py:135-165).
`_read_bytes(1)` (169-187) returns one byte or raises `EOFError`. -/
def step {σ} (now : Nat → DateTime) (ops : StreamOps σ) (cfg : RCfg) (s : σ) : Event × σ :=
  let (byte1, s1) := ops.read1 s
  if byte1 = [] then (.eof, s1)
  else if byte1 ≠ pb!"$" then (.skip, s1)
  else
    let (byte2, s2) := ops.read1 s1
    if byte2 = [] then (.eof, s2)
    else if byte1 ++ byte2 ∈ NMEA_HDR then
      match readLine ops s2 with
      | (.error .eof, s3) => (.eof, s3)
      | (.error e, s3) => (.err e, s3)
      | (.ok byten, s3) =>
        let raw := byte1 ++ byte2 ++ byten
        match parse now (.bytes raw) cfg.mode cfg.validate cfg.udefs with
        | .ok m => (.msg raw m, s3)
        | .error .nmeaMessage => (.err .nmeaMessage, s3)
        | .error .nmeaType => (.err .nmeaType, s3)
        | .error .nmeaParse => (.err .nmeaParse, s3)
        | .error .nmeaStream => (.err .nmeaStream, s3)
        | .error e => (.crash e, s3)
    else if cfg.nmeaonly then (.err .nmeaParse, s2)
    else (.skip, s2)

/-- Outcome of one call of `read()`. -/
inductive ReadResult where
  /-- returns `(raw, parsed)` -/
  | item (raw : Bytes) (parsed : Option Msg)
  /-- returns `(None, None)` -/
  | none
  /-- raises -/
  | raised (e : Err)

theorem readLine_rel {σ} (ops : StreamOps σ) (s : σ) :
    (readLine ops s).2 = s ∨ ops.rel.rel (readLine ops s).2 s := by
  have h := ops.readline_dec s
  simp only [readLine]
  split
  · exact h
  · split <;> exact h

/-- Every pass that goes on has moved the stream forward. -/
theorem step_dec {σ} (now : Nat → DateTime) (ops : StreamOps σ) (cfg : RCfg) (s : σ) :
    (∃ s', step now ops cfg s = (.eof, s')) ∨
      ops.rel.rel (step now ops cfg s).2 s := by
  have h1 := ops.read1_dec s
  simp only [step]
  split
  · exact .inl ⟨_, rfl⟩
  · rename_i hne
    have d1 := h1 hne
    split
    · exact .inr d1
    · split
      · exact .inl ⟨_, rfl⟩
      · rename_i hne2
        have d2 := ops.read1_dec _ hne2
        have d12 : ops.rel.rel (ops.read1 (ops.read1 s).2).2 s := ops.rel_trans _ _ _ d2 d1
        split
        · have h3 := readLine_rel ops (ops.read1 (ops.read1 s).2).2
          generalize readLine ops (ops.read1 (ops.read1 s).2).2 = rl at h3 ⊢
          obtain ⟨r, s3⟩ := rl
          have d3 : ops.rel.rel s3 s := by
            rcases h3 with h | h
            · simp only at h; rw [h]; exact d12
            · exact ops.rel_trans _ _ _ h d12
          split
          · exact .inl ⟨_, rfl⟩
          · rename_i heq; cases heq; exact .inr d3
          · rename_i heq; cases heq
            split <;> exact .inr d3
        · split <;> exact .inr d12
/-- The `while` loop of `read` (/repo/src/pynmeagps/nmeareader.py:120-167) together with
`_do_error` (208-223): result, the errors passed to the error handler (or logger), and the stream
afterwards. Error handlers and streams that raise are in `Model/ReaderExc.lean`. -/
def readMsg {σ} (now : Nat → DateTime) (ops : StreamOps σ) (cfg : RCfg) (s : σ) :
    ReadResult × List Err × σ :=
  match _h : step now ops cfg s with
  | (.eof, s') => (.none, [], s')
  | (.msg raw m, s') => (.item raw m, [], s')
  | (.crash e, s') => (.raised e, [], s')
  | (.skip, s') => readMsg now ops cfg s'
  | (.err e, s') =>
    if cfg.quitonerror = 2 then (.raised e, [], s')
    else
      let (r, log, s'') := readMsg now ops cfg s'
      (r, (if cfg.quitonerror = 1 then e :: log else log), s'')
termination_by ops.rel.wf.wrap s
decreasing_by
  all_goals
    have h := step_dec now ops cfg s
    simp only [_h, Prod.mk.injEq, reduceCtorEq, false_and, exists_false, false_or] at h
    exact h

/-- A `read` that returns an item has moved the stream forward. -/
theorem readMsg_item_dec {σ} (now : Nat → DateTime) (ops : StreamOps σ) (cfg : RCfg) (s : σ)
    (raw : Bytes) (m : Option Msg) (log : List Err) (s' : σ)
    (h : readMsg now ops cfg s = (.item raw m, log, s')) : ops.rel.rel s' s := by
  induction s using ops.rel.wf.induction generalizing log with
  | _ s ih =>
    have hd := step_dec now ops cfg s
    rw [readMsg] at h
    split at h <;> rename_i heq
    · simp at h
    · simp only [heq, Prod.mk.injEq, reduceCtorEq, false_and, exists_false, false_or] at hd
      simp only [Prod.mk.injEq] at h; rw [← h.2.2]; exact hd
    · simp at h
    · simp only [heq, Prod.mk.injEq, reduceCtorEq, false_and, exists_false, false_or] at hd
      exact ops.rel_trans _ _ _ (ih _ hd _ h) hd
    · simp only [heq, Prod.mk.injEq, reduceCtorEq, false_and, exists_false, false_or] at hd
      rename_i s1
      split at h
      · simp at h
      · simp only [Prod.mk.injEq] at h
        refine ops.rel_trans _ _ _ (ih _ hd (readMsg now ops cfg s1).2.1 ?_) hd
        rw [← h.1, ← h.2.2]

/-- A whole iteration (`for raw, parsed in reader`, `__next__`,
/repo/src/pynmeagps/nmeareader.py:105-118): the items yielded in order, the error log, and how it
ended: `none` for `StopIteration`, or the exception that escaped. `read()` returns a raw value
of `None` only together with a parsed value of `None` (constructor `ReadResult.none`). -/
def readAll {σ} (now : Nat → DateTime) (ops : StreamOps σ) (cfg : RCfg) (s : σ) :
    List (Bytes × Option Msg) × List Err × Option Err :=
  match _h : readMsg now ops cfg s with
  | (.none, log, _) => ([], log, none)
  | (.raised e, log, _) => ([], log, some e)
  | (.item raw m, log, s') =>
    let (items, log', fin) := readAll now ops cfg s'
    ((raw, m) :: items, log ++ log', fin)
termination_by ops.rel.wf.wrap s
decreasing_by exact readMsg_item_dec now ops cfg s _ _ _ _ _h

/-- `n` successive calls of `read()`, each continuing where the last one stopped whatever its
outcome (a caller that handles exceptions and goes on). -/
def reads {σ} (now : Nat → DateTime) (ops : StreamOps σ) (cfg : RCfg) :
    Nat → σ → List ReadResult × List Err × σ
  | 0, s => ([], [], s)
  | n + 1, s =>
    let (r, log, s1) := readMsg now ops cfg s
    let (rs, log', s2) := reads now ops cfg n s1
    (r :: rs, log ++ log', s2)

end Nmea
