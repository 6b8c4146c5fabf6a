import Verif.Model.Reader
/-!
# Model of class `SocketWrapper` (/repo/src/pynmeagps/socketwrapper.py)

The socket is a finite script of the results of its future `recv` calls; after the script the
peer has closed the connection (`recv` returns `b""`). `zlib` is a parameter.
-/
namespace Nmea
open Py

/-- Result of one `socket.recv` call: data (empty = connection closed) or an
`OSError`/`TimeoutError` (/repo/src/pynmeagps/socketwrapper.py:67-79). -/
inductive RecvEv where
  | data (seg : Bytes)
  | fail
  deriving DecidableEq

/-- `zlib.decompress` with the three `wbits` settings used at socketwrapper.py:170-175; `none` is
`zlib.error`. Its behaviour is not modelled. -/
structure Zlib where
  gzip : Bytes → Option Bytes
  compress : Bytes → Option Bytes
  deflate : Bytes → Option Bytes

/-- Encoding flags (/repo/src/pynmeagps/nmeatypes_core.py:57-66; socketwrapper.py:71, 170-174). -/
def encChunked (e : Nat) : Bool := e &&& 1 != 0
@[inherit_doc encChunked] def encGzip (e : Nat) : Bool := e &&& 2 != 0
@[inherit_doc encChunked] def encCompress (e : Nat) : Bool := e &&& 4 != 0
@[inherit_doc encChunked] def encDeflate (e : Nat) : Bool := e &&& 8 != 0

/-- The `try` block of `dechunk` (/repo/src/pynmeagps/socketwrapper.py:169-178): the stages in
order; a failing stage leaves the chunk as it was and skips the remaining stages. -/
def decompressChunk (z : Zlib) (enc : Nat) (chunk : Bytes) : Bytes :=
  let s1 := if encGzip enc then z.gzip chunk else some chunk
  match s1 with
  | none => chunk
  | some c1 =>
    let s2 := if encCompress enc then z.compress c1 else some c1
    match s2 with
    | none => c1
    | some c2 =>
      let s3 := if encDeflate enc then z.deflate c2 else some c2
      match s3 with
      | none => c2
      | some c3 => c3

/-- `instream.read(n)`: a negative count reads everything. -/
def readN (n : Int) (b : Bytes) : Bytes × Bytes :=
  if n < 0 then (b, []) else (b.take n.toNat, b.drop n.toNat)

/-- `b[-2:] == b"\r\n"`. -/
def endsCrLf (b : Bytes) : Bool := b.drop (b.length - 2) == [13, 10]

theorem readN_le (n : Int) (b : Bytes) : (readN n b).2.length ≤ b.length := by
  unfold readN; split <;> simp

/-- The loop of `dechunk` (/repo/src/pynmeagps/socketwrapper.py:140-192) on the unread part of the
segment: (chunks, partial). -/
def dechunk (z : Zlib) (enc : Nat) (b : Bytes) : Bytes × Bytes :=
  let lb := (fileLine b).1
  let rest := (fileLine b).2
  if _h : endsCrLf lb then
    match intOfBytes16 lb with
    | .error _ => ([], [])
    | .ok n =>
      if n = 0 then ([], [])
      else
        let chunk := (readN n rest).1
        let rest2 := (readN n rest).2
        if (chunk.length : Int) ≠ n then ([], lb ++ chunk)
        else
          let (cs, p) := dechunk z enc (fileLine rest2).2
          (decompressChunk z enc chunk ++ cs, p)
  else ([], lb)
termination_by b.length
decreasing_by
  have h1 := fileLine_len b
  have h2 := readN_le n (fileLine b).2
  have h3 := fileLine_len (readN n (fileLine b).2).2
  have h4 : (fileLine b).1.length ≠ 0 := by
    intro h0
    have h := _h
    simp only [lb] at h
    rw [List.length_eq_zero_iff.1 h0] at h
    simp [endsCrLf] at h
  omega

/-- State of a `SocketWrapper` and its socket (/repo/src/pynmeagps/socketwrapper.py:36-57). -/
structure Sock where
  buffer : Bytes
  pending : Bytes
  script : List RecvEv
  deriving DecidableEq

/-- What `_recv` does with received data (/repo/src/pynmeagps/socketwrapper.py:71-76). -/
def Sock.accept (z : Zlib) (enc : Nat) (s : Sock) (data : Bytes) (script : List RecvEv) : Sock :=
  if encChunked enc then
    let (chunks, p) := dechunk z enc (s.pending ++ data)
    { buffer := s.buffer ++ chunks, pending := p, script := script }
  else { buffer := s.buffer ++ data, pending := s.pending, script := script }

/-- `_recv` (/repo/src/pynmeagps/socketwrapper.py:59-79). -/
def Sock.recv (z : Zlib) (enc : Nat) (s : Sock) : Bool × Sock :=
  match s.script with
  | [] => (false, s)
  | .fail :: r => (false, { s with script := r })
  | .data d :: r => if d = [] then (false, { s with script := r }) else (true, s.accept z enc d r)

/-- The constructor (/repo/src/pynmeagps/socketwrapper.py:36-57): one initial `_recv`. -/
def Sock.open (z : Zlib) (enc : Nat) (script : List RecvEv) : Sock :=
  (Sock.recv z enc { buffer := [], pending := [], script := script }).2

/-- The `while` loop of `read` (/repo/src/pynmeagps/socketwrapper.py:91-94): receive until `num`
bytes are buffered; `false` when `_recv` fails first. -/
def Sock.fill (z : Zlib) (enc : Nat) (num : Nat) (s : Sock) : Bool × Sock :=
  if num ≤ s.buffer.length then (true, s)
  else match _h : s.recv z enc with
    | (false, s') => (false, s')
    | (true, s') => Sock.fill z enc num s'
termination_by s.script.length
decreasing_by
  have h := _h
  simp only [Sock.recv] at h
  split at h
  · simp at h
  · simp at h
  · rename_i heq
    split at h
    · simp at h
    · simp only [Prod.mk.injEq, true_and] at h
      rw [heq, ← h]
      simp only [Sock.accept]
      split <;> simp

/-- `read` (/repo/src/pynmeagps/socketwrapper.py:81-97). -/
def Sock.read (z : Zlib) (enc : Nat) (num : Nat) (s : Sock) : Bytes × Sock :=
  match s.fill z enc num with
  | (false, s') => ([], s')
  | (true, s') => (s'.buffer.take num, { s' with buffer := s'.buffer.drop num })

/-- Progress order: fewer pending `recv` results, or as many and fewer buffered bytes. -/
@[instance_reducible] def Sock.lt : WellFoundedRelation Sock :=
  invImage (fun s => (s.script.length, s.buffer.length)) (Prod.lex Nat.lt_wfRel Nat.lt_wfRel)

theorem Sock.lt_iff (a b : Sock) : Sock.lt.rel a b ↔
    a.script.length < b.script.length ∨
      (a.script.length = b.script.length ∧ a.buffer.length < b.buffer.length) := by
  show Prod.Lex _ _ _ _ ↔ _
  exact Prod.lex_def

theorem Sock.recv_script (z : Zlib) (enc : Nat) (s : Sock) :
    (s.recv z enc).2 = s ∨ (s.recv z enc).2.script.length < s.script.length := by
  simp only [Sock.recv]
  split
  · left; rfl
  · rename_i h; right; simp [h]
  · rename_i h; right
    split
    · simp [h]
    · simp only [Sock.accept]; split <;> simp [h]

theorem Sock.fill_script (z : Zlib) (enc num : Nat) (s : Sock) :
    (s.fill z enc num).2 = s ∨ (s.fill z enc num).2.script.length < s.script.length := by
  induction hn : s.script.length using Nat.strongRecOn generalizing s with
  | _ n ih =>
    rw [Sock.fill]
    split
    · left; rfl
    · have hr := Sock.recv_script z enc s
      split
      · rename_i s' h; rw [h] at hr; rw [← hn]; exact hr
      · rename_i s' h
        rw [h] at hr
        simp only [] at hr
        have hlt : s'.script.length < s.script.length := by
          rcases hr with hr | hr
          · exfalso
            simp only [Sock.recv] at h
            split at h
            · simp at h
            · simp at h
            · rename_i heq
              split at h
              · simp at h
              · simp only [Prod.mk.injEq, true_and] at h
                have : s'.script.length < s.script.length := by
                  rw [heq, ← h]; simp only [Sock.accept]; split <;> simp
                rw [hr] at this; omega
          · exact hr
        have := ih _ (hn ▸ hlt) s' rfl
        rcases this with h1 | h1
        · right; rw [h1]; omega
        · right; omega

theorem Sock.fill_true (z : Zlib) (enc num : Nat) (s s' : Sock) (h : s.fill z enc num = (true, s')) :
    num ≤ s'.buffer.length := by
  induction hn : s.script.length using Nat.strongRecOn generalizing s with
  | _ n ih =>
    rw [Sock.fill] at h
    split at h
    · simp only [Prod.mk.injEq, true_and] at h; rw [← h]; assumption
    · split at h
      · simp at h
      · rename_i s1 heq
        refine ih s1.script.length ?_ s1 h rfl
        have h2 := Sock.recv_script z enc s
        rw [heq] at h2
        simp only at h2
        rcases h2 with h2 | h2
        · exfalso
          simp only [Sock.recv] at heq
          split at heq
          · simp at heq
          · simp at heq
          · rename_i hs
            split at heq
            · simp at heq
            · simp only [Prod.mk.injEq, true_and] at heq
              have : s1.script.length < s.script.length := by
                rw [hs, ← heq]; simp only [Sock.accept]; split <;> simp
              rw [h2] at this; omega
        · omega

theorem Sock.read_dec (z : Zlib) (enc : Nat) (s : Sock) (n : Nat)
    (hne : (s.read z enc (n + 1)).1 ≠ []) : Sock.lt.rel (s.read z enc (n + 1)).2 s := by
  rw [Sock.lt_iff]
  simp only [Sock.read] at hne ⊢
  have h1 := Sock.fill_script z enc (n + 1) s
  split at hne
  · simp at hne
  · rename_i s' heq
    rw [heq] at h1
    have h2 := Sock.fill_true z enc _ _ _ heq
    simp only at h1 ⊢
    rcases h1 with h1 | h1
    · right; subst h1; refine ⟨rfl, ?_⟩; simp; omega
    · left; exact h1

theorem Sock.read_len (z : Zlib) (enc : Nat) (s : Sock) (n : Nat) :
    (s.read z enc n).1.length ≤ n := by
  simp only [Sock.read]; split <;> simp; omega

/-- The loop of `readline` (/repo/src/pynmeagps/socketwrapper.py:99-118); `line` is the data
collected so far. -/
def Sock.readlineFrom (z : Zlib) (enc : Nat) (line : Bytes) (s : Sock) : Bytes × Sock :=
  let data := (s.read z enc 1).1
  if _h : data ≠ [] then
    let line := line ++ data
    if endsCrLf line then (line, (s.read z enc 1).2)
    else Sock.readlineFrom z enc line (s.read z enc 1).2
  else (line, (s.read z enc 1).2)
termination_by Sock.lt.wf.wrap s
decreasing_by exact Sock.read_dec z enc s 0 _h

/-- `readline` (/repo/src/pynmeagps/socketwrapper.py:99-118). -/
def Sock.readline (z : Zlib) (enc : Nat) (s : Sock) : Bytes × Sock := Sock.readlineFrom z enc [] s

/-- `in_waiting` (/repo/src/pynmeagps/socketwrapper.py:130-138). -/
def Sock.inWaiting (s : Sock) : Nat := s.buffer.length

theorem Sock.lt_trans (a b c : Sock) (h1 : Sock.lt.rel a b) (h2 : Sock.lt.rel b c) :
    Sock.lt.rel a c := by
  rw [Sock.lt_iff] at *; omega

theorem Sock.read_le (z : Zlib) (enc : Nat) (s : Sock) (n : Nat) :
    (s.read z enc (n + 1)).2 = s ∨ Sock.lt.rel (s.read z enc (n + 1)).2 s := by
  by_cases hne : (s.read z enc (n + 1)).1 ≠ []
  · exact .inr (Sock.read_dec z enc s n hne)
  · have h1 := Sock.fill_script z enc (n + 1) s
    rw [Sock.lt_iff]
    simp only [Sock.read] at hne ⊢
    split at hne
    · rename_i s' heq
      rw [heq] at h1
      rcases h1 with h1 | h1
      · left; exact h1
      · right; left; exact h1
    · rename_i s' heq
      have h2 := Sock.fill_true z enc _ _ _ heq
      simp only [ne_eq, Decidable.not_not, List.take_eq_nil_iff] at hne
      rcases hne with h | h
      · omega
      · rw [h] at h2; simp at h2

theorem Sock.readlineFrom_le (z : Zlib) (enc : Nat) (line : Bytes) (s : Sock) :
    (s.readlineFrom z enc line).2 = s ∨ Sock.lt.rel (s.readlineFrom z enc line).2 s := by
  induction s using Sock.lt.wf.induction generalizing line with
  | _ s ih =>
    rw [Sock.readlineFrom]
    simp only
    split
    · rename_i hne
      have hd := Sock.read_dec z enc s 0 hne
      split
      · exact .inr hd
      · rcases ih _ hd (line ++ (s.read z enc 1).1) with h | h
        · right; rw [h]; exact hd
        · right; exact Sock.lt_trans _ _ _ h hd
    · exact Sock.read_le z enc s 0

/-- The stream object the reader sees on a socket
(/repo/src/pynmeagps/nmeareader.py:83-86). -/
def sockStream (z : Zlib) (enc : Nat) : StreamOps Sock where
  read1 s := s.read z enc 1
  readline s := s.readline z enc
  rel := Sock.lt
  rel_trans := Sock.lt_trans
  read1_len s := Sock.read_len z enc s 1
  read1_dec s h := Sock.read_dec z enc s 0 h
  readline_dec s := Sock.readlineFrom_le z enc [] s

end Nmea
