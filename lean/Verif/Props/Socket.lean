import Verif.Lemmas.Socket
import Verif.Props.Reader
/-!
# Sockets (C29 – C32)

`wire z enc s` (in `Spec/Socket.lean`) is what the wrapper `s` has buffered followed by what it will get
from its socket: bytes, and failures of `recv`, without the segment boundaries. `enc` is any
combination of encoding flags; `encChunked enc = false` means that `CHUNKED` is not among them (the
wrapper looks at the others only when dechunking).
-/
set_option linter.unusedSimpArgs false
namespace Nmea
open Py Spec

theorem call_wire (z : Zlib) (enc : Nat) (c : Call) (s t : Sock) (h : wire z enc s = wire z enc t) :
    (call z enc s c).1 = (call z enc t c).1 ∧ wire z enc (call z enc s c).2 = wire z enc (call z enc t c).2 := by
  cases c with
  | read n =>
    have e := (read_wire z enc n s).trans ((congrArg _ h).trans (read_wire z enc n t).symm)
    exact Prod.mk.inj e
  | readline =>
    have e := (readline_wire z enc s).trans ((congrArg _ h).trans (readline_wire z enc t).symm)
    exact Prod.mk.inj e

theorem deliveries_plain (z : Zlib) (enc : Nat) (henc : encChunked enc = false) (p : Bytes) (script : List RecvEv) :
    deliveries z enc p script = script.flatMap delivered := by
  induction script with
  | nil => rfl
  | cons ev r ih =>
    cases ev with
    | fail => simp [deliveries, delivered, ih]
    | data d =>
      by_cases hd : d = []
      · simp [deliveries, delivered, ih, hd]
      · simp [deliveries, delivered, ih, hd, henc]

theorem open_wire (z : Zlib) (enc : Nat) (henc : encChunked enc = false) (script : List RecvEv) :
    wire z enc (Sock.open z enc script) =
      match script.flatMap delivered with | none :: w => w | w => w := by
  unfold Sock.open Sock.recv wire
  cases script with
  | nil => rfl
  | cons ev r =>
    cases ev with
    | fail => simp [delivered, deliveries_plain z enc henc]
    | data d =>
      by_cases hd : d = []
      · simp [delivered, hd, deliveries_plain z enc henc]
      · obtain ⟨b, bs, rfl⟩ := List.exists_cons_of_ne_nil hd
        simp [delivered, Sock.accept, henc, deliveries_plain z enc henc]

/-- Without a failure at the beginning the constructor changes nothing in what is delivered. -/
theorem open_wire_data (z : Zlib) (enc : Nat) (segs : List Bytes) (hne : ∀ d ∈ segs, d ≠ []) :
    wire z enc (Sock.open z enc (segs.map .data)) = deliveries z enc [] (segs.map .data) := by
  cases segs with
  | nil => rfl
  | cons d r =>
    unfold Sock.open Sock.recv
    simp only [List.map_cons, if_neg (hne d (by simp))]
    simp only [wire, Sock.accept, deliveries, if_neg (hne d (by simp))]
    split <;> simp

/-- What calls return depends only on what is buffered and delivered, not on the segments: two
wrappers with the same wire return the same values for every sequence of calls, for every encoding. -/
theorem C29_calls_of_wire (z : Zlib) (enc : Nat) (s t : Sock) (h : wire z enc s = wire z enc t) (cs : List Call) :
    (calls z enc s cs).1 = (calls z enc t cs).1 ∧ wire z enc (calls z enc s cs).2 = wire z enc (calls z enc t cs).2 := by
  induction cs generalizing s t with
  | nil => exact ⟨rfl, h⟩
  | cons c cs ih =>
    obtain ⟨h1, h2⟩ := call_wire z enc c s t h
    simp only [calls]
    rw [h1, (ih _ _ h2).1]
    exact ⟨rfl, (ih _ _ h2).2⟩

/-- Two sockets that deliver the same bytes with failures at the same places, cut into segments in any
two ways: every sequence of `read(n)` and `readline()` calls returns the same values. -/
theorem C29_segmentation (z : Zlib) (enc : Nat) (henc : encChunked enc = false) (a b : List RecvEv)
    (h : a.flatMap delivered = b.flatMap delivered) (cs : List Call) :
    (calls z enc (Sock.open z enc a) cs).1 = (calls z enc (Sock.open z enc b) cs).1 := by
  have hw : wire z enc (Sock.open z enc a) = wire z enc (Sock.open z enc b) := by
    rw [open_wire z enc henc, open_wire z enc henc, h]
  exact (C29_calls_of_wire z enc _ _ hw cs).1

/-- And `NMEAReader` reads the same from both: the same results, the same errors, in the same order. -/
theorem C29_reader (z : Zlib) (enc : Nat) (henc : encChunked enc = false) (now : Nat → DateTime) (cfg : RCfg)
    (a b : List RecvEv) (h : a.flatMap delivered = b.flatMap delivered) (es)
    (hs : Session now (sockStream z enc) cfg (Sock.open z enc a) es) :
    Session now (sockStream z enc) cfg (Sock.open z enc b) es := by
  have hw : wire z enc (Sock.open z enc a) = wire z enc (Sock.open z enc b) := by
    rw [open_wire z enc henc, open_wire z enc henc, h]
  refine session_sim now _ _ cfg (fun s t => wire z enc s = wire z enc t) ?_ _ _ hw es hs
  intro s t hst
  have hread : ∀ s t : Sock, wire z enc s = wire z enc t →
      ((sockStream z enc).read1 s).1 = ((sockStream z enc).read1 t).1 ∧
        wire z enc ((sockStream z enc).read1 s).2 = wire z enc ((sockStream z enc).read1 t).2 :=
    fun s t h => call_wire z enc (.read 1) s t h
  refine step_sim now _ _ cfg (fun s t => wire z enc s = wire z enc t) (fun s t => wire z enc s = wire z enc t) (fun s t => wire z enc s = wire z enc t)
    s t (hread s t hst).1 (hread s t hst).2 (fun _ => (hread s t hst).2)
    (fun s t h => ⟨(hread s t h).1, (hread s t h).2, fun _ => (hread s t h).2⟩)
    (fun s t h => call_wire z enc .readline s t h)

/-! ## C30: all or nothing, first in first out -/

/-- `read(n)` returns `n` bytes or none. -/
theorem C30_all_or_nothing (z : Zlib) (enc : Nat) (s : Sock) (n : Nat) :
    (s.read z enc n).1.length = n ∨ (s.read z enc n).1 = [] := by
  simp only [Sock.read]
  split
  · exact .inr rfl
  · rename_i s' h
    have := Sock.fill_true z enc n s s' h
    left; simp; omega

/-- Over every history of calls, of any segments and any failures: the values returned, followed by
what is still buffered or undelivered, are the bytes there were at the beginning. -/
theorem C30_fifo (z : Zlib) (enc : Nat) (s : Sock) (cs : List Call) :
    (calls z enc s cs).1.flatten ++ content z enc (calls z enc s cs).2 = content z enc s := by
  induction cs generalizing s with
  | nil => simp [calls]
  | cons c cs ih =>
    have hc : (call z enc s c).1 ++ content z enc (call z enc s c).2 = content z enc s := by
      cases c with
      | read n =>
        have h := read_wire z enc n s
        have h' := wireRead_bytesOf n (wire z enc s)
        rw [← h] at h'; exact h'
      | readline => exact (sock_lossless z enc s).2
    simp only [calls, List.flatten_cons]
    rw [List.append_assoc, ih, hc]

/-- The bytes there were at the beginning are those the socket delivers. -/
theorem C30_content (z : Zlib) (enc : Nat) (henc : encChunked enc = false) (script : List RecvEv) :
    content z enc (Sock.open z enc script) = script.flatMap fun ev => match ev with | .data d => d | .fail => [] := by
  unfold content
  rw [open_wire z enc henc]
  have h : (script.flatMap delivered).filterMap id =
      script.flatMap fun ev => match ev with | .data d => d | .fail => [] := by
    induction script with
    | nil => rfl
    | cons ev r ih =>
      rw [List.flatMap_cons, List.filterMap_append, ih, List.flatMap_cons]
      cases ev with
      | fail => simp [delivered]
      | data d =>
        by_cases hd : d = []
        · simp [delivered, hd]
        · simp only [delivered, if_neg hd, filterMap_some]
  rw [← h]
  split
  · rename_i heq; rw [heq]; rfl
  · rfl

/-- `read(n)` succeeds exactly if the next `n` deliveries are bytes; it then returns these. A failure
before the `n`-th byte is used up, and the bytes before it stay. -/
theorem C30_read_result (z : Zlib) (enc : Nat) (s : Sock) (n : Nat) :
    (∀ (d : Bytes) w, wire z enc s = d.map some ++ w → d.length = n →
      (s.read z enc n).1 = d ∧ wire z enc (s.read z enc n).2 = w) ∧
    (∀ (d : Bytes) w, wire z enc s = d.map some ++ none :: w → d.length < n →
      (s.read z enc n).1 = [] ∧ wire z enc (s.read z enc n).2 = d.map some ++ w) ∧
    (∀ d : Bytes, wire z enc s = d.map some → d.length < n →
      (s.read z enc n).1 = [] ∧ wire z enc (s.read z enc n).2 = d.map some) := by
  have h := read_wire z enc n s
  refine ⟨fun d w hw hd => ?_, fun d w hw hd => ?_, fun d hw hd => ?_⟩
  · rw [hw, wireRead, wireFill_enough d n (by omega)] at h
    simp only [Prod.mk.injEq] at h
    rw [List.take_append_of_le_length (by simp [hd]), List.drop_append_of_le_length (by simp [hd]),
      List.take_of_length_le (by simp [hd]), List.drop_of_length_le (by simp [hd]), filterMap_some] at h
    exact h
  · obtain ⟨k, hk⟩ : ∃ k, n - d.length = k + 1 := ⟨n - d.length - 1, by omega⟩
    rw [hw, wireRead, wireFill_bytes d n (by omega), hk] at h
    simpa [wireFill] using h
  · obtain ⟨k, hk⟩ : ∃ k, n - d.length = k + 1 := ⟨n - d.length - 1, by omega⟩
    have e := wireFill_bytes d n (by omega) []
    rw [List.append_nil, hk] at e
    rw [hw, wireRead, e] at h
    simpa [wireFill] using h

/-- The raw data read from a socket are disjoint slices, in order, of the bytes the socket delivers,
whatever the segments and failures; each begins with `$` and ends with LF. -/
theorem C24_raw_slices_socket (z : Zlib) (enc : Nat) (henc : encChunked enc = false) (now : Nat → DateTime)
    (cfg : RCfg) (script : List RecvEv) (es)
    (h : Session now (sockStream z enc) cfg (Sock.open z enc script) es) :
    SlicesOf (script.flatMap fun ev => match ev with | .data d => d | .fail => []) (rawOf (es.map Prod.snd)) ∧
      ∀ raw ∈ rawOf (es.map Prod.snd), raw.head? = some 36 ∧ raw.getLast? = some 10 := by
  have := C24_raw_slices now (sockStream z enc) (content z enc) (sock_lossless z enc) cfg _ es h
  rwa [C30_content z enc henc] at this

/-! ## C31: `readline` -/

/-- `readline` returns the shortest prefix of the data that ends in CR LF, if no failure comes before
its end. If a failure or the end of the data comes first, it returns everything before that; the
failure, and these data, are used up. These cases are exhaustive (`C31_exhaustive`). -/
theorem C31_readline (z : Zlib) (enc : Nat) (s : Sock) :
    (∀ (d : Bytes) w, wire z enc s = (d ++ [13, 10]).map some ++ w → ¬ HasCrLf (d ++ [13]) →
      (s.readline z enc).1 = d ++ [13, 10] ∧ wire z enc (s.readline z enc).2 = w) ∧
    (∀ (d : Bytes) w, wire z enc s = d.map some ++ none :: w → ¬ HasCrLf d →
      (s.readline z enc).1 = d ∧ wire z enc (s.readline z enc).2 = w) ∧
    (∀ d : Bytes, wire z enc s = d.map some → ¬ HasCrLf d →
      (s.readline z enc).1 = d ∧ wire z enc (s.readline z enc).2 = []) := by
  have h := readline_wire z enc s
  refine ⟨fun d w hw hd => ?_, fun d w hw hd => ?_, fun d hw hd => ?_⟩
  · have e : (d ++ [13, 10]).map some ++ w = (d ++ [13]).map some ++ some 10 :: w := by simp
    rw [hw, e, wireLine_bytes _ _ _ (no_crlf hd)] at h
    simp only [List.nil_append, wireLine] at h
    rw [if_pos ((endsCrLf_iff _).2 ⟨d, by simp⟩)] at h
    simpa using h
  · rw [hw, wireLine_bytes _ _ _ (no_crlf hd)] at h
    simpa [wireLine] using h
  · have e := wireLine_bytes _ _ [] (no_crlf hd)
    rw [List.append_nil] at e
    rw [hw, e] at h
    simpa [wireLine] using h

/-- Every socket is in exactly one of the three situations. -/
theorem C31_exhaustive (z : Zlib) (enc : Nat) (s : Sock) :
    (∃ (d : Bytes) (w : _), wire z enc s = (d ++ [13, 10]).map some ++ w ∧ ¬ HasCrLf (d ++ [13])) ∨
    (∃ (d : Bytes) (w : _), wire z enc s = d.map some ++ none :: w ∧ ¬ HasCrLf d) ∨
    (∃ d : Bytes, wire z enc s = d.map some ∧ ¬ HasCrLf d) := by
  generalize wire z enc s = w
  suffices h : ∀ acc : Bytes, ¬ HasCrLf acc → 
      (∃ (d : Bytes) (w' : _), acc.map some ++ w = (d ++ [13, 10]).map some ++ w' ∧ ¬ HasCrLf (d ++ [13])) ∨
      (∃ (d : Bytes) (w' : _), acc.map some ++ w = d.map some ++ none :: w' ∧ ¬ HasCrLf d) ∨
      (∃ d : Bytes, acc.map some ++ w = d.map some ∧ ¬ HasCrLf d) by
    exact h [] (by rintro ⟨x, y, e⟩; simp at e)
  induction w with
  | nil => intro acc h; exact .inr (.inr ⟨acc, by simp, h⟩)
  | cons x w ih =>
    intro acc h
    cases x with
    | none => exact .inr (.inl ⟨acc, w, rfl, h⟩)
    | some b =>
      by_cases hc : HasCrLf (acc ++ [b])
      · left
        obtain ⟨x, y, e⟩ := hc
        rcases List.eq_nil_or_concat y with rfl | ⟨y', c, rfl⟩
        · have e' : acc ++ [b] = (x ++ [13]) ++ [10] := by rw [e]; simp
          obtain ⟨rfl, hb⟩ := List.append_inj' e' rfl
          simp only [List.cons.injEq, and_true] at hb
          subst hb
          exact ⟨x, w, by simp, h⟩
        · exfalso
          have e' : acc ++ [b] = (x ++ 13 :: 10 :: y') ++ [c] := by rw [e]; simp
          obtain ⟨rfl, hb⟩ := List.append_inj' e' rfl
          exact h ⟨x, y', rfl⟩
      · have := ih (acc ++ [b]) hc
        simpa using this

/-! ## C32: a socket and a file with the same bytes -/

/-- `p` is the byte before. -/
def Good : UInt8 → Bytes → Prop
  | _, [] => True
  | p, x :: r => (x = 10 → p = 13) ∧ Good x r

theorem good_of (b : Bytes) (h : LfAfterCr b) : Good 13 b := by
  suffices hh : ∀ (pre r : Bytes) (p : UInt8), b = pre ++ r → (pre = [] → p = 13) → (∀ q, pre.getLast? = some q → p = q) → Good p r from
    hh [] b 13 rfl (fun _ => rfl) (fun q h => by simp at h)
  intro pre r
  induction r generalizing pre with
  | nil => intros; trivial
  | cons x r ih =>
    intro p e h1 h2
    refine ⟨fun hx => ?_, ?_⟩
    · subst hx
      exact h2 13 (h pre r e)
    · refine ih (pre ++ [x]) x (by simp [e]) (by simp) (fun q hq => ?_)
      simpa using hq

theorem good_lf (p : UInt8) (body r : Bytes) (h : Good p (body ++ 10 :: r)) :
    (body = [] ∧ p = 13) ∨ ∃ d, body = d ++ [13] := by
  induction body generalizing p with
  | nil => exact .inl ⟨rfl, h.1 rfl⟩
  | cons x body ih =>
    right
    rcases ih x h.2 with ⟨rfl, rfl⟩ | ⟨d, rfl⟩
    · exact ⟨[], rfl⟩
    · exact ⟨x :: d, rfl⟩

theorem good_tail (p : UInt8) (a r : Bytes) (h : Good p (a ++ r)) : ∃ q, Good q r := by
  induction a generalizing p with
  | nil => exact ⟨p, h⟩
  | cons x a ih => exact ih x h.2

theorem hasCrLf_lf (b : Bytes) (h : HasCrLf b) : 10 ∈ b := by
  obtain ⟨x, y, rfl⟩ := h; simp

/-- A socket whose data has CR before every LF and a file with the same data, side by side. -/
def CrLfAlike (z : Zlib) (enc : Nat) (s : Sock) (b : Bytes) : Prop := wire z enc s = b.map some ∧ ∃ p, Good p b

theorem crlf_step (z : Zlib) (enc : Nat) (now : Nat → DateTime) (cfg : RCfg) (s : Sock) (b : Bytes)
    (hR : CrLfAlike z enc s b) :
    (step now (sockStream z enc) cfg s).1 = (step now fileStream cfg b).1 ∧
      CrLfAlike z enc (step now (sockStream z enc) cfg s).2 (step now fileStream cfg b).2 := by
  have hread : ∀ (s : Sock) (b : Bytes), wire z enc s = b.map some →
      ((sockStream z enc).read1 s).1 = (fileStream.read1 b).1 ∧
        wire z enc ((sockStream z enc).read1 s).2 = (fileStream.read1 b).2.map some := by
    intro s b h
    have e := read_wire z enc 1 s
    rw [h, wireRead1] at e
    cases b with
    | nil => exact Prod.mk.inj e
    | cons x b => exact Prod.mk.inj e
  refine step_sim now _ _ cfg (CrLfAlike z enc) (fun s b => wire z enc s = b.map some ∧ Good 36 b)
    (fun s b => wire z enc s = b.map some ∧ ∃ h, TalkerLetter h ∧ Good h b) s b (hread s b hR.1).1
    ⟨(hread s b hR.1).2, ?_⟩ ?_ ?_ ?_
  · obtain ⟨_, p, hg⟩ := hR
    cases b with
    | nil => exact ⟨p, hg⟩
    | cons x b => exact ⟨x, hg.2⟩
  · intro h36
    refine ⟨(hread s b hR.1).2, ?_⟩
    rw [(hread s b hR.1).1] at h36
    obtain ⟨_, p, hg⟩ := hR
    cases b with
    | nil => simp [fileStream] at h36
    | cons x b => simp [fileStream] at h36; subst h36; exact hg.2
  · rintro s b ⟨h, hg⟩
    refine ⟨(hread s b h).1, ⟨(hread s b h).2, ?_⟩, ?_⟩
    · cases b with
      | nil => exact ⟨13, trivial⟩
      | cons x b => exact ⟨x, hg.2⟩
    · rintro ⟨c, hc, e⟩
      refine ⟨(hread s b h).2, c, hc, ?_⟩
      rw [(hread s b h).1] at e
      cases b with
      | nil => simp [fileStream] at e
      | cons x b => simp [fileStream] at e; subst e; exact hg.2
  · rintro s b ⟨h, c, hc, hg⟩
    have hreadline := C31_readline z enc s
    rcases split_lf b with hn | ⟨body, r, hn, rfl⟩
    · have := hreadline.2.2 b h (fun hcl => hn (hasCrLf_lf b hcl))
      have e := fileLine_nolf b hn
      show (s.readline z enc).1 = (fileLine b).1 ∧ wire z enc (s.readline z enc).2 = (fileLine b).2.map some ∧ _
      rw [e]
      exact ⟨this.1, this.2, 13, by rw [show fileStream.readline b = _ from e]; trivial⟩
    · rcases good_lf c body r hg with ⟨_, rfl⟩ | ⟨d, rfl⟩
      · exact absurd hc (by decide +kernel)
      · have := hreadline.1 d (r.map some) (by rw [h]; simp) (fun hcl => hn (hasCrLf_lf _ hcl))
        have e := fileLine_lf (d ++ [13]) r hn
        show (s.readline z enc).1 = (fileLine _).1 ∧ wire z enc (s.readline z enc).2 = (fileLine _).2.map some ∧ _
        rw [e]
        refine ⟨by rw [this.1]; simp, this.2, ?_⟩
        obtain ⟨q, hq⟩ := good_tail c (d ++ [13]) (10 :: r) hg
        exact ⟨10, by rw [show fileStream.readline _ = _ from e]; exact hq.2⟩

theorem crlf_stream (z : Zlib) (enc : Nat) (now : Nat → DateTime) (cfg : RCfg)
    (s : Sock) (b : Bytes) (hw : wire z enc s = b.map some) (hb : LfAfterCr b) (es)
    (hs : Session now (sockStream z enc) cfg s es) : Session now fileStream cfg b es :=
  session_sim now _ _ cfg (CrLfAlike z enc) (crlf_step z enc now cfg) s b ⟨hw, 13, good_of b hb⟩ es hs

/-- For every encoding: if the bytes `b` are what the wrapper gets out of the segments received, and
every LF in them is preceded by CR, then reading the socket gives the same results and errors, in the
same order, as reading a file with the bytes `b`. -/
theorem C32_decoded_is_file (z : Zlib) (enc : Nat) (now : Nat → DateTime) (cfg : RCfg)
    (segs : List Bytes) (hne : ∀ d ∈ segs, d ≠ []) (b : Bytes) (hd : deliveries z enc [] (segs.map .data) = b.map some)
    (hb : LfAfterCr b) (es) :
    Session now (sockStream z enc) cfg (Sock.open z enc (segs.map .data)) es ↔ Session now fileStream cfg b es := by
  have hw : wire z enc (Sock.open z enc (segs.map .data)) = b.map some := by
    rw [open_wire_data z enc segs hne, hd]
  constructor
  · exact crlf_stream z enc now cfg _ _ hw hb es
  · intro h
    obtain ⟨evs, hr⟩ := run_exists now (sockStream z enc) cfg (Sock.open z enc (segs.map .data))
    have h1 := session_of_run hr
    rw [session_det h (crlf_stream z enc now cfg _ _ hw hb _ h1)]
    exact h1

/-- If every LF is preceded by CR, reading a socket that delivers the bytes `b` in any segments
without failures gives the same results and errors, in the same order, as reading a file with these
bytes. -/
theorem C32_socket_is_file (z : Zlib) (enc : Nat) (henc : encChunked enc = false) (now : Nat → DateTime) (cfg : RCfg)
    (segs : List Bytes) (hne : ∀ d ∈ segs, d ≠ []) (hb : LfAfterCr segs.flatten) (es) :
    Session now (sockStream z enc) cfg (Sock.open z enc (segs.map .data)) es ↔
      Session now fileStream cfg segs.flatten es := by
  have hd : (segs.map RecvEv.data).flatMap delivered = segs.flatten.map some := by
    clear hb
    induction segs with
    | nil => rfl
    | cons d segs ih =>
      rw [List.map_cons, List.flatMap_cons, ih (fun x hx => hne x (by simp [hx]))]
      simp [delivered, hne d (by simp)]
  exact C32_decoded_is_file z enc now cfg segs hne _ (by rw [deliveries_plain z enc henc, hd]) hb es

/-- The restriction is needed: a line that ends in a bare LF is read from a file but not from a socket. -/
theorem C32_bare_lf_counterexample (z : Zlib) :
    ∃ b : Bytes, ∃ m, (readAll clock0 fileStream ⟨0, 1, false, 0, []⟩ b).1 = [(b, some m)] ∧
      (readAll clock0 (sockStream z 0) ⟨0, 1, false, 0, []⟩ (Sock.open z 0 [.data (b ++ b)])).1 = [] := by
  refine ⟨pb!"$GNGLL,5327.04319,S,00214.41396,E,223232.00,A,A*68\n", ?_⟩
  have hx : CompleteLine (pb!"$GNGLL,5327.04319,S,00214.41396,E,223232.00,A,A*68\n") :=
    ⟨71, pb!"NGLL,5327.04319,S,00214.41396,E,223232.00,A,A*68", by decide +kernel, by decide +kernel, rfl⟩
  have hm : ∃ m, parse clock0 (.bytes (pb!"$GNGLL,5327.04319,S,00214.41396,E,223232.00,A,A*68\n")) 0 1 [] = .ok (some m) := by
    have h : (match parse clock0 (.bytes (pb!"$GNGLL,5327.04319,S,00214.41396,E,223232.00,A,A*68\n")) 0 1 [] with | .ok (some _) => true | _ => false) = true := by decide +kernel
    split at h
    · rename_i m hm; exact ⟨m, hm⟩
    · cases h
  obtain ⟨m, hm⟩ := hm
  refine ⟨m, ?_, ?_⟩
  · have := C23_sentences_in_order clock0 ⟨0, 1, false, 0, []⟩ [([], _, some m)] [] (by simp) (by simp)
      (by intro x h; simp at h; subst h; exact hx) (by intro x h; simp at h; subst h; exact hm)
    simp at this
    rw [this]
  · have hp : parse clock0 (.bytes (pb!"$GNGLL,5327.04319,S,00214.41396,E,223232.00,A,A*68\n" ++
        pb!"$GNGLL,5327.04319,S,00214.41396,E,223232.00,A,A*68\n")) 0 1 [] = .error .nmeaParse := by decide +kernel
    generalize hs : Sock.open z 0 _ = s
    have hw : wire z 0 s = (pb!"$GNGLL,5327.04319,S,00214.41396,E,223232.00,A,A*68\n" ++
        pb!"$GNGLL,5327.04319,S,00214.41396,E,223232.00,A,A*68\n").map some := by
      rw [← hs, open_wire z 0 rfl]; rfl
    obtain ⟨a1, a2⟩ := (C30_read_result z 0 s 1).1 [36] _ hw rfl
    obtain ⟨b1, b2⟩ := (C30_read_result z 0 _ 1).1 [71] _ a2 rfl
    obtain ⟨c1, c2⟩ := (C31_readline z 0 _).2.2 (pb!"NGLL,5327.04319,S,00214.41396,E,223232.00,A,A*68\n" ++
        pb!"$GNGLL,5327.04319,S,00214.41396,E,223232.00,A,A*68\n") b2 (by
          rintro ⟨x, y, e⟩
          have : (13 : UInt8) ∈ (pb!"NGLL,5327.04319,S,00214.41396,E,223232.00,A,A*68\n" ++
            pb!"$GNGLL,5327.04319,S,00214.41396,E,223232.00,A,A*68\n") := by rw [e]; simp
          revert this; decide +kernel)
    have hrun : Run clock0 (sockStream z 0) ⟨0, 1, false, 0, []⟩ s [.err .nmeaParse] := by
      refine .more s _ (Sock.readline z 0 (Sock.read z 0 1 (Sock.read z 0 1 s).2).2).2 [] ?_ (by simp) ?_
      · exact step_reject_of clock0 (sockStream z 0) ⟨0, 1, false, 0, []⟩ s _ _ _ 71 _
          (Prod.ext a1 rfl) (Prod.ext b1 rfl) (by decide +kernel) (Prod.ext c1 rfl) (by decide +kernel) hp
      · obtain ⟨d1, d2⟩ := (C30_read_result z 0 _ 1).2.2 [] c2 (by simp)
        exact .done _ _ (step_eof_of clock0 (sockStream z 0) _ _ d1)
    rw [readAll_session (session_of_run hrun)]
    rfl

/-! ## Concrete cases -/

/-- Two segmentations of the same data, with a timeout in the middle. -/
example : ([.data (pb!"$GN"), .data (pb!"GLL"), .fail, .data (pb!"\r\n")] : List RecvEv).flatMap delivered =
    ([.data (pb!"$GNG"), .data (pb!"LL"), .fail, .data (pb!"\r"), .data (pb!"\n")] : List RecvEv).flatMap delivered := by
  decide +kernel

/-- Data in which every LF is preceded by CR, in three segments cut anywhere. -/
example : LfAfterCr ([pb!"x$GN", pb!"GLL\r", pb!"\n$G"] : List Bytes).flatten := by
  have key : ∀ (b : Bytes) (k : Nat), Good 13 b → b.head? ≠ some 10 → LfAfterCr b := by
    intro b _ hg hh x y e
    subst e
    rcases good_lf 13 x y hg with ⟨rfl, _⟩ | ⟨d, rfl⟩
    · simp at hh
    · simp
  refine key _ 0 ?_ (by decide +kernel)
  simp [Good]

end Nmea
