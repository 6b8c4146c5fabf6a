import Verif.Model.SocketIO
import Verif.Props.Socket
/-!
# Reading and writing on one socket (C77)
-/
namespace Props
open Py Nmea Spec

/-- An action that is not a `write`. -/
def IsReading : Action → Bool
  | .write _ => false
  | _ => true

/-- An answer that is not that of a `write`. -/
def IsReadingAnswer : Answer → Bool
  | .written _ => false
  | _ => true

/-- Writing does not disturb reading: the answers of all other actions, of any interleaving with writes, are
those of these actions alone, and the wrapper is left in the same state, whatever happens to the writes. -/
theorem C77_reading_undisturbed (now : Nat → DateTime) (z : Zlib) (enc : Nat) (cfg : RCfg) (as : List Action) :
    ∀ (d d' : Duplex), d.sock = d'.sock →
      ((d.acts now z enc cfg as).1.filter IsReadingAnswer) = (d'.acts now z enc cfg (as.filter IsReading)).1 ∧
      (d.acts now z enc cfg as).2.sock = (d'.acts now z enc cfg (as.filter IsReading)).2.sock := by
  induction as with
  | nil => intro d d' h; exact ⟨rfl, h⟩
  | cons a as ih =>
    intro d d' h
    by_cases ha : IsReading a = true
    · have hstep : (d.act now z enc cfg a).1 = (d'.act now z enc cfg a).1 ∧
          IsReadingAnswer (d.act now z enc cfg a).1 = true ∧
          (d.act now z enc cfg a).2.sock = (d'.act now z enc cfg a).2.sock := by
        cases a with
        | write => cases ha
        | _ => simp only [Duplex.act, h]; exact ⟨trivial, rfl, trivial⟩
      obtain ⟨s1, s2, s3⟩ := hstep
      obtain ⟨h1, h2⟩ := ih _ _ s3
      rw [List.filter_cons_of_pos ha]
      simp only [Duplex.acts]
      exact ⟨by rw [List.filter_cons_of_pos s2, h1, s1], h2⟩
    · rw [List.filter_cons_of_neg ha]
      cases a with
      | write data =>
        have hs : (d.write data).2.sock = d.sock := by unfold Duplex.write; split <;> rfl
        exact ih _ _ (hs.trans h)
      | _ => exact absurd rfl ha

/-- What the peer gets according to actions and their answers: of each write, as many bytes as it returned. -/
def sentBy : List Action → List Answer → Bytes
  | .write data :: as, .written (some n) :: rs => data.take n ++ sentBy as rs
  | _ :: as, _ :: rs => sentBy as rs
  | _, _ => []

/-- Reading does not disturb writing: the peer gets, in order and nothing else, from each write as many of
its bytes as the call returned; nothing from a write that raised. -/
theorem C77_peer_gets (now : Nat → DateTime) (z : Zlib) (enc : Nat) (cfg : RCfg) (as : List Action) :
    ∀ d : Duplex, (d.acts now z enc cfg as).2.peer = d.peer ++ sentBy as (d.acts now z enc cfg as).1 := by
  induction as with
  | nil => intro d; simp [Duplex.acts, sentBy]
  | cons a as ih =>
    intro d
    simp only [Duplex.acts]
    rw [ih]
    cases a with
    | write data =>
      simp only [Duplex.act, Duplex.write]
      split
      · simp [sentBy]
      · simp [sentBy]
      · rename_i n r _
        simp only [sentBy, List.append_assoc]
        congr 2
        rcases Nat.le_total n data.length with hn | hn
        · rw [Nat.min_eq_left hn]
        · rw [Nat.min_eq_right hn, List.take_length, List.take_of_length_le hn]
    | read n => simp [Duplex.act, sentBy]
    | readline => simp [Duplex.act, sentBy]
    | waiting => simp [Duplex.act, sentBy]
    | message => simp [Duplex.act, sentBy]

/-- The data of the writes. -/
def dataOf : List Action → Bytes
  | .write data :: as => data ++ dataOf as
  | _ :: as => dataOf as
  | [] => []

/-- Every write was accepted in full. -/
def AllWritten : List Action → List Answer → Prop
  | .write data :: as, .written r :: rs => r = some data.length ∧ AllWritten as rs
  | _ :: as, _ :: rs => AllWritten as rs
  | _, _ => True

/-- If every write returned the length of its data, the peer gets all the data. -/
theorem C77_all_written (now : Nat → DateTime) (z : Zlib) (enc : Nat) (cfg : RCfg) (as : List Action) (d : Duplex)
    (h : AllWritten as (d.acts now z enc cfg as).1) :
    (d.acts now z enc cfg as).2.peer = d.peer ++ dataOf as := by
  rw [C77_peer_gets]
  congr 1
  induction as generalizing d with
  | nil => rfl
  | cons a as ih =>
    simp only [Duplex.acts] at h ⊢
    cases a with
    | write data =>
      simp only [Duplex.act, AllWritten] at h
      obtain ⟨h1, h2⟩ := h
      simp only [Duplex.act, sentBy, dataOf, h1, List.take_length]
      rw [ih _ h2]
    | _ =>
      simp only [Duplex.act, AllWritten] at h
      simp only [Duplex.act, sentBy, dataOf]
      exact ih _ h

/-- A write may be accepted in part only; the rest is not sent, and there is no error. -/
theorem C77_partial_write (now : Nat → DateTime) (z : Zlib) (enc : Nat) (cfg : RCfg) (s : Sock) :
    ((Duplex.mk s [.room 5] []).acts now z enc cfg [.write pb!"$PUBX,00*33\r\n"]).2.peer = pb!"$PUBX" := rfl

/-! ## in_waiting -/

/-- Up to `in_waiting()` bytes can be read without asking the socket for more (so without blocking): `read(n)`
returns the next `n` bytes, and only the count goes down. -/
theorem C77_waiting (z : Zlib) (enc : Nat) (s : Sock) (n : Nat) (h : n ≤ s.inWaiting) :
    (s.read z enc n).1.length = n ∧ (s.read z enc n).1 <+: content z enc s ∧
      (s.read z enc n).2.script = s.script ∧ (s.read z enc n).2.inWaiting = s.inWaiting - n := by
  unfold Sock.inWaiting at *
  have hf : s.fill z enc n = (true, s) := by
    rw [Sock.fill, if_pos h]
  simp only [Sock.read, hf]
  refine ⟨by rw [List.length_take]; omega, ?_, trivial, by rw [List.length_drop]⟩
  unfold content wire
  rw [List.filterMap_append]
  refine (List.take_prefix n s.buffer).trans ?_
  have : (s.buffer.map some).filterMap id = s.buffer := by
    rw [List.filterMap_map]; simp
  rw [this]
  exact List.prefix_append _ _

/-- More cannot be read without asking the socket. -/
theorem C77_not_waiting (z : Zlib) (enc : Nat) (s : Sock) (n : Nat) (h : s.inWaiting < n) (hne : s.script ≠ []) :
    (s.read z enc n).2.script.length < s.script.length := by
  have hfill : (s.fill z enc n).2.script.length < s.script.length := by
    unfold Sock.inWaiting at h
    rcases Sock.fill_script z enc n s with h1 | h1
    · exfalso
      rw [Sock.fill, if_neg (by omega)] at h1
      split at h1
      · rename_i s' heq
        simp only at h1
        subst h1
        unfold Sock.recv at heq
        split at heq
        · exact hne ‹_›
        · rename_i e
          have := congrArg (fun x => x.2.script.length) heq
          simp [e] at this
        · rename_i e
          split at heq
          · have := congrArg (fun x => x.2.script.length) heq
            simp [e] at this
          · cases heq
      · rename_i s' heq
        have h2 := Sock.fill_script z enc n s'
        rw [h1] at h2
        have h3 : s'.script.length < s.script.length := by
          unfold Sock.recv at heq
          split at heq
          · cases heq
          · cases heq
          · rename_i e
            split at heq
            · cases heq
            · simp only [Prod.mk.injEq, true_and] at heq
              rw [← heq, e]
              unfold Sock.accept
              split <;> simp
        rcases h2 with h2 | h2
        · rw [h2] at h3; omega
        · omega
    · exact h1
  unfold Sock.read
  split
  · rename_i e; rw [e] at hfill; exact hfill
  · rename_i e; rw [e] at hfill; exact hfill

/-- The bytes a `recv` result carries. -/
def carried : RecvEv → Bytes
  | .data d => d
  | .fail => []

theorem sock_recv_used (z : Zlib) (enc : Nat) (henc : encChunked enc = false) (s : Sock) :
    ∃ used, s.script = used ++ (s.recv z enc).2.script ∧
      (s.recv z enc).2.buffer = s.buffer ++ used.flatMap carried := by
  unfold Sock.recv
  split
  · exact ⟨[], rfl, by simp⟩
  · rename_i r e
    exact ⟨[.fail], by simp [e], by simp [carried]⟩
  · rename_i d r e
    split
    · rename_i h
      exact ⟨[.data d], by simp [e], by simp [carried, h]⟩
    · refine ⟨[.data d], by simp [e, Sock.accept, henc], by simp [carried, Sock.accept, henc]⟩

theorem sock_fill_used (z : Zlib) (enc : Nat) (henc : encChunked enc = false) (n : Nat) (s : Sock) :
    ∃ used, s.script = used ++ (s.fill z enc n).2.script ∧
      (s.fill z enc n).2.buffer = s.buffer ++ used.flatMap carried := by
  induction hn : s.script.length using Nat.strongRecOn generalizing s with
  | _ k ih =>
    rw [Sock.fill]
    split
    · exact ⟨[], rfl, by simp⟩
    · obtain ⟨u, h1, h2⟩ := sock_recv_used z enc henc s
      split
      · rename_i s' heq
        rw [heq] at h1 h2
        exact ⟨u, h1, h2⟩
      · rename_i s' heq
        rw [heq] at h1 h2
        have hlt : s'.script.length < s.script.length := by
          unfold Sock.recv at heq
          split at heq
          · cases heq
          · cases heq
          · rename_i e
            split at heq
            · cases heq
            · simp only [Prod.mk.injEq, true_and] at heq
              rw [← heq, e]
              unfold Sock.accept
              split <;> simp
        obtain ⟨u', h3, h4⟩ := ih _ (hn ▸ hlt) s' rfl
        exact ⟨u ++ u', by rw [h1, List.append_assoc, ← h3], by rw [h4, h2]; simp⟩

theorem sock_read_used (z : Zlib) (enc : Nat) (henc : encChunked enc = false) (n : Nat) (s : Sock) :
    ∃ used, s.script = used ++ (s.read z enc n).2.script ∧
      (s.read z enc n).1 ++ (s.read z enc n).2.buffer = s.buffer ++ used.flatMap carried := by
  obtain ⟨u, h1, h2⟩ := sock_fill_used z enc henc n s
  unfold Sock.read
  split
  · rename_i e; rw [e] at h1 h2; exact ⟨u, h1, by simpa using h2⟩
  · rename_i e; rw [e] at h1 h2; exact ⟨u, h1, by simpa using h2⟩

theorem sock_readline_used (z : Zlib) (enc : Nat) (henc : encChunked enc = false) (s : Sock) : ∀ line : Bytes,
    ∃ used, s.script = used ++ (s.readlineFrom z enc line).2.script ∧
      (s.readlineFrom z enc line).1 ++ (s.readlineFrom z enc line).2.buffer = line ++ s.buffer ++ used.flatMap carried := by
  induction s using Sock.lt.wf.induction with
  | _ s ih =>
    intro line
    obtain ⟨u, h1, h2⟩ := sock_read_used z enc henc 1 s
    rw [Sock.readlineFrom]
    simp only
    split
    · rename_i hd
      split
      · exact ⟨u, h1, by rw [List.append_assoc, h2, List.append_assoc]⟩
      · obtain ⟨u', h3, h4⟩ := ih _ (Sock.read_dec z enc s 0 hd) (line ++ (s.read z enc 1).1)
        refine ⟨u ++ u', by rw [h1, List.append_assoc, ← h3], ?_⟩
        rw [h4, List.append_assoc line, h2]
        simp
    · rename_i hd
      rw [ne_eq, Decidable.not_not] at hd
      rw [hd, List.nil_append] at h2
      exact ⟨u, h1, by rw [h2, List.append_assoc]⟩

/-- After any history of calls (without transfer encoding), `in_waiting()` is the number of bytes received from
the socket since, less the number of bytes returned. -/
theorem C77_waiting_count (z : Zlib) (enc : Nat) (henc : encChunked enc = false) (cs : List Call) : ∀ s : Sock,
    ∃ used, s.script = used ++ (calls z enc s cs).2.script ∧
      (calls z enc s cs).2.inWaiting + (calls z enc s cs).1.flatten.length =
        s.inWaiting + (used.flatMap carried).length := by
  induction cs with
  | nil => intro s; exact ⟨[], rfl, by simp [calls]⟩
  | cons c cs ih =>
    intro s
    have hc : ∃ used, s.script = used ++ (call z enc s c).2.script ∧
        (call z enc s c).1 ++ (call z enc s c).2.buffer = s.buffer ++ used.flatMap carried := by
      cases c with
      | read n => exact sock_read_used z enc henc n s
      | readline =>
        obtain ⟨u, h1, h2⟩ := sock_readline_used z enc henc s []
        exact ⟨u, h1, by rw [List.nil_append] at h2; exact h2⟩
    obtain ⟨u, h1, h2⟩ := hc
    obtain ⟨u', h3, h4⟩ := ih (call z enc s c).2
    refine ⟨u ++ u', by rw [h1, List.append_assoc]; exact congrArg (u ++ ·) h3, ?_⟩
    have hl := congrArg List.length h2
    simp only [List.length_append] at hl
    simp only [calls, List.flatten_cons, List.length_append, List.flatMap_append]
    unfold Sock.inWaiting at *
    omega

/-! ## Opening a reader -/

/-- A reader is opened exactly with one of the three modes. -/
theorem C77_open (z : Zlib) (enc : Nat) (mode : Int) (script : List RecvEv) :
    (openReader z enc mode script).1 =
      if mode = 0 ∨ mode = 1 ∨ mode = 2 then .ok (Sock.open z enc script) else .error .nmeaParse := rfl

/-- The mode is checked too late: the first segment is taken from the socket, and lost, when the mode is
refused. -/
theorem C77_refused_loses_data (z : Zlib) (enc : Nat) (mode : Int) (hm : ¬ (mode = 0 ∨ mode = 1 ∨ mode = 2)) (ev : RecvEv)
    (script : List RecvEv) :
    openReader z enc mode (ev :: script) = (.error .nmeaParse, script) := by
  unfold openReader
  simp only [if_neg hm, Prod.mk.injEq, true_and]
  unfold Sock.open Sock.recv
  cases ev with
  | fail => rfl
  | data d =>
    simp only
    split
    · rfl
    · unfold Sock.accept
      split <;> rfl

/-! ## Example -/

/-- A program polls a receiver while sentences come in. -/
example :
    let z : Zlib := ⟨fun _ => none, fun _ => none, fun _ => none⟩
    let d : Duplex := ⟨⟨pb!"ab", [], [.data pb!"cd\r\n"]⟩, [.room 100, .fail], []⟩
    let as : List Action := [.write pb!"x", .waiting, .read 1, .write pb!"y", .read 5, .waiting]
    let r := d.acts (fun _ => ⟨⟨2024, 1, 1⟩, ⟨0, 0, 0, 0⟩⟩) z 0 ⟨0, 1, false, 1, []⟩ as
    r.2.peer = pb!"x" ∧ sentBy as r.1 = pb!"x" ∧
    r.1.map (fun | .bytes b => b | .count n => [n.toUInt8] | .written (some n) => [n.toUInt8] | _ => []) =
      [[1], [2], pb!"a", [], pb!"bcd\r\n", [0]] := by
  decide +kernel

end Props
