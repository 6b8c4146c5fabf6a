import Verif.Spec.Poller
import Verif.Props.Queries
import Verif.Props.Reader
/-!
# The example program nmeapoller.py (C85)
-/
namespace Props.Poller
open Py Nmea Spec Spec.Poller Props

variable {σ : Type} {now : Nat → DateTime} {ops : StreamOps σ} {cfg : RCfg} {wr : Writes}

theorem messages_append (a b : List ReadResult) : messages (a ++ b) = messages a ++ messages b := by
  induction a with
  | nil => rfl
  | cons x a ih =>
    rcases x with ⟨raw, _ | m⟩ | _ | e <;> simp [messages, ih]

theorem raising_append (a b : List ReadResult) : raising (a ++ b) = raising a + raising b := by
  induction a with
  | nil => simp [raising]
  | cons x a ih =>
    rcases x with ⟨raw, _ | m⟩ | _ | e <;> simp [raising, ih]
    omega

theorem puts_append (a b : List Act) : puts (a ++ b) = puts a ++ puts b := by
  induction a with
  | nil => rfl
  | cons x a ih => cases x <;> simp [puts, ih]

theorem reads_snoc (n : Nat) (s : σ) (r : ReadResult) (log : List Err) (s' : σ)
    (h : readMsg now ops cfg (reads now ops cfg n s).2.2 = (r, log, s')) :
    (reads now ops cfg (n + 1) s).1 = (reads now ops cfg n s).1 ++ [r] ∧ (reads now ops cfg (n + 1) s).2.2 = s' := by
  induction n generalizing s with
  | zero =>
    simp only [reads] at h ⊢
    rw [h]
    simp
  | succ n ih =>
    have := ih (readMsg now ops cfg s).2.2 (by simpa only [reads] using h)
    rw [reads]
    simp only [this.1, this.2, true_and, and_true]
    simp [reads]

theorem deliver_snoc (k : Nat) (a : List (Option Msg)) (d : Option Msg) :
    deliver wr k (a ++ [d]) =
      ((deliver wr k a).1 ++ (delivery wr (k + (deliver wr k a).1.length) d).1,
        (deliver wr k a).2 + if (delivery wr (k + (deliver wr k a).1.length) d).2 then 1 else 0) := by
  induction a generalizing k with
  | nil => simp [deliver]
  | cons x a ih =>
    simp only [List.cons_append, deliver, ih, List.length_append, List.append_assoc, Nat.add_assoc]
    simp only [Prod.mk.injEq, true_and]
    omega

theorem run_snoc (p : Poller σ) (a : List Act) (x : Act) :
    p.run now ops cfg wr (a ++ [x]) = (p.run now ops cfg wr a).step now ops cfg wr x := by
  simp [Poller.run, List.foldl_append]

theorem run_append (p : Poller σ) (a b : List Act) :
    p.run now ops cfg wr (a ++ b) = (p.run now ops cfg wr a).run now ops cfg wr b := by
  simp [Poller.run, List.foldl_append]

/-- The read made in one step. -/
def made (now : Nat → DateTime) (ops : StreamOps σ) (cfg : RCfg) (p : Poller σ) : Act → List ReadResult
  | .io => match p.io with
    | .read => [(readMsg now ops cfg p.stream).1]
    | _ => []
  | _ => []

theorem readsMade_cons (p : Poller σ) (x : Act) (b : List Act) :
    readsMade now ops cfg wr p (x :: b) = made now ops cfg p x ++ readsMade now ops cfg wr (p.step now ops cfg wr x) b := by
  cases x with
  | io => cases h : p.io <;> simp [readsMade, made, h]
  | _ => simp [readsMade, made]

theorem run_cons (p : Poller σ) (x : Act) (b : List Act) :
    p.run now ops cfg wr (x :: b) = (p.step now ops cfg wr x).run now ops cfg wr b := rfl

theorem readsMade_append (p : Poller σ) (a b : List Act) :
    readsMade now ops cfg wr p (a ++ b) = readsMade now ops cfg wr p a ++ readsMade now ops cfg wr (p.run now ops cfg wr a) b := by
  induction a generalizing p with
  | nil => simp [readsMade, Poller.run]
  | cons x a ih => rw [List.cons_append, readsMade_cons, readsMade_cons, ih, run_cons, List.append_assoc]

theorem readsMade_snoc (p : Poller σ) (a : List Act) (x : Act) :
    readsMade now ops cfg wr p (a ++ [x]) = readsMade now ops cfg wr p a ++ made now ops cfg (p.run now ops cfg wr a) x := by
  rw [readsMade_append, readsMade_cons]
  simp [readsMade]

theorem step_stream (p : Poller σ) (x : Act) :
    (p.step now ops cfg wr x).stream = (reads now ops cfg (made now ops cfg p x).length p.stream).2.2 ∧
      made now ops cfg p x = (reads now ops cfg (made now ops cfg p x).length p.stream).1 := by
  cases x with
  | io =>
    cases h : p.io with
    | read =>
      simp only [Poller.step, ioStep, made, h]
      split <;> rename_i heq <;> simp [reads, heq]
    | write d =>
      cases d with
      | none => simp [Poller.step, ioStep, made, h, reads]
      | some m =>
        simp only [Poller.step, ioStep, made, h]
        split
        · simp [reads]
        · split <;> simp [reads]
    | _ =>
      simp only [Poller.step, ioStep, made, h]
      (try split) <;> simp [reads]
  | process =>
    have h : (processStep p).stream = p.stream := by
      unfold processStep
      split <;> (try split) <;> rfl
    exact ⟨h, rfl⟩
  | put d => simp [Poller.step, made, reads]
  | stop => simp [Poller.step, made, reads]

theorem reads_add (m n : Nat) (s : σ) :
    (reads now ops cfg (m + n) s).1 = (reads now ops cfg m s).1 ++ (reads now ops cfg n (reads now ops cfg m s).2.2).1 ∧
      (reads now ops cfg (m + n) s).2.2 = (reads now ops cfg n (reads now ops cfg m s).2.2).2.2 := by
  induction m generalizing s with
  | zero => simp [reads]
  | succ m ih =>
    rw [Nat.add_right_comm]
    simp only [reads]
    obtain ⟨h1, h2⟩ := ih (readMsg now ops cfg s).2.2
    simp [h1, h2]

/-- The reads made are consecutive reads of the stream. -/
theorem reads_made (p : Poller σ) (sched : List Act) :
    (p.run now ops cfg wr sched).stream =
        (reads now ops cfg (readsMade now ops cfg wr p sched).length p.stream).2.2 ∧
      readsMade now ops cfg wr p sched = (reads now ops cfg (readsMade now ops cfg wr p sched).length p.stream).1 := by
  induction sched generalizing p with
  | nil => exact ⟨rfl, rfl⟩
  | cons x b ih =>
    rw [readsMade_cons, run_cons, List.length_append]
    obtain ⟨h1, h2⟩ := step_stream (now := now) (ops := ops) (cfg := cfg) (wr := wr) p x
    obtain ⟨h3, h4⟩ := reads_add (now := now) (ops := ops) (cfg := cfg) (made now ops cfg p x).length
      (readsMade now ops cfg wr (p.step now ops cfg wr x) b).length p.stream
    obtain ⟨h5, h6⟩ := ih (p.step now ops cfg wr x)
    rw [h3, h4, ← h1, ← h2, ← h6]
    exact ⟨h5, rfl⟩

/-- Messages between `get` and `task_done`. -/
def busy : IoAt → Nat
  | .write _ => 1
  | .task => 1
  | _ => 0

/-- Messages between `get` and `task_done`. -/
def prBusy : PrAt → Nat
  | .show _ => 1
  | .task => 1
  | _ => 0

/-- What holds at all times. -/
structure Inv (now : Nat → DateTime) (ops : StreamOps σ) (cfg : RCfg) (wr : Writes) (s : σ) (sched : List Act) (p : Poller σ) :
    Prop where
  reading : messages (readsMade now ops cfg wr (start s) sched) = p.shown ++ unshown p.pr ++ p.readq.map Prod.snd ++ unqueued p.io
  sending : ∃ handled, puts sched = handled ++ unwritten p.io ++ p.sendq ∧ p.sent = (deliver wr 0 handled).1 ∧
    p.sendOpen = p.sendq.length + busy p.io + (deliver wr 0 handled).2
  readOpen : p.readOpen = p.readq.length + prBusy p.pr
  alive : p.pr ≠ .died
  pget : p.pr = .get → p.readq ≠ []
  iget : p.io = .get → p.sendq ≠ []

theorem inv_process {s : σ} {sched : List Act} {p : Poller σ} (h : Inv now ops cfg wr s sched p) :
    Inv now ops cfg wr s (sched ++ [.process]) (processStep p) := by
  have hmade : readsMade now ops cfg wr (start s) (sched ++ [.process]) = readsMade now ops cfg wr (start s) sched := by
    simp [readsMade_snoc, made]
  obtain ⟨hr, hs, ho, ha, hp, hi⟩ := h
  have hput : puts (sched ++ [.process]) = puts sched := by simp [puts_append, puts]
  unfold processStep
  cases hpr : p.pr with
  | top =>
    simp only
    rw [hpr] at hr ho
    split <;> exact ⟨by rw [hmade]; simpa [unshown] using hr, by rw [hput]; exact hs, by simpa [prBusy] using ho, by simp, by simp, hi⟩
  | empty =>
    simp only
    rw [hpr] at hr ho
    split
    · exact ⟨by rw [hmade]; simpa [unshown] using hr, by rw [hput]; exact hs, by simpa [prBusy] using ho, by simp, by simp, hi⟩
    · rename_i hne
      exact ⟨by rw [hmade]; simpa [unshown] using hr, by rw [hput]; exact hs, by simpa [prBusy] using ho, by simp, fun _ => hne, hi⟩
  | get =>
    simp only
    rw [hpr] at hr ho
    cases hq : p.readq with
    | nil => exact absurd hq (hp hpr)
    | cons x r =>
      obtain ⟨raw, m⟩ := x
      rw [hq] at hr ho
      exact ⟨by rw [hmade]; simpa [unshown] using hr, by rw [hput]; exact hs, by simpa [prBusy] using ho, by simp, by simp, hi⟩
  | «show» m =>
    simp only
    rw [hpr] at hr ho
    exact ⟨by rw [hmade]; simpa [unshown] using hr, by rw [hput]; exact hs, by simpa [prBusy] using ho, by simp, by simp, hi⟩
  | task =>
    simp only
    rw [hpr] at hr ho
    simp only [prBusy] at ho
    rw [if_neg (by omega)]
    exact ⟨by rw [hmade]; simpa [unshown] using hr, by rw [hput]; exact hs, by simp [prBusy]; omega, by simp, by simp, hi⟩
  | ended => exact ⟨by rw [hmade]; exact hr, by rw [hput]; exact hs, ho, ha, hp, hi⟩
  | died => exact absurd hpr ha

theorem inv_io {s : σ} {sched : List Act} {p : Poller σ} (h : Inv now ops cfg wr s sched p)
    (hrun : p = (start s).run now ops cfg wr sched) :
    Inv now ops cfg wr s (sched ++ [.io]) (ioStep now ops cfg wr p) := by
  have hmade : readsMade now ops cfg wr (start s) (sched ++ [.io]) =
      readsMade now ops cfg wr (start s) sched ++ made now ops cfg p .io := by rw [readsMade_snoc, hrun]
  obtain ⟨hr, hs, ho, ha, hp, hi⟩ := h
  have hput : puts (sched ++ [.io]) = puts sched := by simp [puts_append, puts]
  unfold ioStep
  cases hio : p.io with
  | top =>
    simp only
    rw [hio] at hr hs
    split <;> exact ⟨by rw [hmade]; simpa [unqueued, made, hio] using hr, by rw [hput]; simpa [unwritten, busy] using hs, ho, ha, hp, by simp⟩
  | read =>
    simp only
    rw [hio] at hr hs
    have hs' : ∀ q, unwritten q = [] → busy q = 0 → ∃ handled, puts (sched ++ [.io]) = handled ++ unwritten q ++ p.sendq ∧
        p.sent = (deliver wr 0 handled).1 ∧ p.sendOpen = p.sendq.length + busy q + (deliver wr 0 handled).2 := by
      intro q e1 e2
      rw [hput, e1, e2]
      simpa [unwritten, busy] using hs
    have hr' : ∀ r log s' q, readMsg now ops cfg p.stream = (r, log, s') → messages [r] = unqueued q →
        messages (readsMade now ops cfg wr (start s) (sched ++ [.io])) = p.shown ++ unshown p.pr ++ p.readq.map Prod.snd ++ unqueued q := by
      intro r log s' q e1 e2
      have hm : made now ops cfg p .io = [r] := by simp [made, hio, e1]
      rw [hmade, hm, messages_append, hr, e2]
      simp [unqueued]
    split <;> rename_i heq
    · exact ⟨hr' _ _ _ (.put _ _) heq rfl, hs' (.put _ _) rfl rfl, ho, ha, hp, by simp⟩
    · exact ⟨hr' _ _ _ .empty heq rfl, hs' .empty rfl rfl, ho, ha, hp, by simp⟩
    · exact ⟨hr' _ _ _ .empty heq rfl, hs' .empty rfl rfl, ho, ha, hp, by simp⟩
    · exact ⟨hr' _ _ _ .top heq rfl, hs' .top rfl rfl, ho, ha, hp, by simp⟩
  | put raw m =>
    simp only
    rw [hio] at hr hs
    exact ⟨by rw [hmade]; simpa [unqueued, made, hio] using hr, by rw [hput]; simpa [unwritten, busy] using hs, by simp [ho]; omega, ha, by simp, by simp⟩
  | empty =>
    simp only
    rw [hio] at hr hs
    split
    · exact ⟨by rw [hmade]; simpa [unqueued, made, hio] using hr, by rw [hput]; simpa [unwritten, busy] using hs, ho, ha, hp, by simp⟩
    · rename_i hne
      exact ⟨by rw [hmade]; simpa [unqueued, made, hio] using hr, by rw [hput]; simpa [unwritten, busy] using hs, ho, ha, hp, fun _ => hne⟩
  | get =>
    simp only
    rw [hio] at hr hs
    cases hq : p.sendq with
    | nil => exact absurd hq (hi hio)
    | cons d r =>
      rw [hq] at hs
      obtain ⟨hd, a, b, c⟩ := hs
      refine ⟨by rw [hmade]; simpa [unqueued, made, hio] using hr, ⟨hd, by rw [hput, a]; simp [unwritten], b, ?_⟩, ho, ha, hp, by simp⟩
      simp only [busy, List.length_cons] at c ⊢
      omega
  | write d =>
    rw [hio] at hr hs
    obtain ⟨hd, a, b, c⟩ := hs
    have key : ∀ q sent', unwritten q = [] → unqueued q = [] →
        sent' = p.sent ++ (delivery wr p.sent.length d).1 →
        busy q = (if (delivery wr p.sent.length d).2 then 0 else 1) → q ≠ .get →
        Inv now ops cfg wr s (sched ++ [.io]) { p with sent := sent', io := q } := by
      intro q sent' e1 e2 e3 e4 e5
      refine ⟨by rw [e2, hmade]; simpa [unqueued, made, hio] using hr, ⟨hd ++ [d], ?_, ?_, ?_⟩, ho, ha, hp, fun e => absurd e e5⟩
      · rw [hput, a, e1]; simp [unwritten]
      · rw [e3, deliver_snoc, Nat.zero_add, ← b]
      · rw [deliver_snoc, Nat.zero_add, ← b, e4]
        simp only [busy] at c
        simp only
        rw [c]
        split <;> omega
    cases d with
    | none => exact key .task p.sent rfl rfl (by simp [delivery]) rfl (by simp)
    | some m =>
      simp only
      split
      · rename_i e he
        exact key .top p.sent rfl rfl (by simp [delivery, he]) (by simp [delivery, he, busy]) (by simp)
      · rename_i bb he
        split
        · rename_i hw
          exact key .task _ rfl rfl (by simp [delivery, he, hw]) (by simp [delivery, he, hw, busy]) (by simp)
        · rename_i n hw
          exact key .top _ rfl rfl (by simp [delivery, he, hw]) (by simp [delivery, he, hw, busy]) (by simp)
  | task =>
    simp only
    rw [hio] at hr hs
    obtain ⟨hd, a, b, c⟩ := hs
    simp only [busy] at c
    rw [if_neg (by omega)]
    refine ⟨by rw [hmade]; simpa [unqueued, made, hio] using hr, ⟨hd, by rw [hput, a]; simp [unwritten], b, ?_⟩, ho, ha, hp, by simp⟩
    simp only [busy]
    omega
  | ended =>
    exact ⟨by rw [hmade]; simpa [made, hio] using hr, by rw [hput]; exact hs, ho, ha, hp, hi⟩

theorem inv (s : σ) (sched : List Act) : Inv now ops cfg wr s sched ((start s).run now ops cfg wr sched) := by
  induction sched using List.reverseRecOn with
  | nil =>
    exact ⟨rfl, ⟨[], rfl, rfl, rfl⟩, rfl, by simp [Poller.run, start], by simp [Poller.run, start],
      by simp [Poller.run, start]⟩
  | append_singleton a x ih =>
    rw [run_snoc]
    cases x with
    | io => exact inv_io ih rfl
    | process => exact inv_process ih
    | put d =>
      obtain ⟨hr, ⟨hd, a1, b, c⟩, ho, ha, hp, hi⟩ := ih
      refine ⟨by rw [readsMade_snoc]; simpa [made, Poller.step] using hr, ⟨hd, by simp [puts_append, puts, a1, Poller.step], b, ?_⟩, ho, ha, hp, by simp [Poller.step]⟩
      simp only [Poller.step, List.length_append, List.length_singleton]
      omega
    | stop =>
      obtain ⟨hr, ⟨hd, a1, b, c⟩, ho, ha, hp, hi⟩ := ih
      exact ⟨by rw [readsMade_snoc]; simpa [made, Poller.step] using hr, ⟨hd, by simpa [puts_append, puts, Poller.step] using a1, b, c⟩, ho, ha, hp, hi⟩

/-! ## The theorems -/

/-- Reading, at any moment, whatever the schedule: the reads made are the first reads of the stream, and the messages
they returned, in this order, are those printed, then the one about to be printed, then those in the queue, then the
one about to be queued. -/
theorem C85_reading (s : σ) (sched : List Act) :
    let p := (start s).run now ops cfg wr sched
    let made := readsMade now ops cfg wr (start s) sched
    made = (reads now ops cfg made.length s).1 ∧ p.stream = (reads now ops cfg made.length s).2.2 ∧
      messages made = p.shown ++ unshown p.pr ++ p.readq.map Prod.snd ++ unqueued p.io := by
  obtain ⟨h1, h2⟩ := reads_made (now := now) (ops := ops) (cfg := cfg) (wr := wr) (start s) sched
  exact ⟨h2, h1, (inv s sched).reading⟩

/-- Sending, at any moment: the messages put on the send queue, in this order, are those handled, then the one about to
be written, then those in the queue; and the device got what the handled ones give, one write each. `sendOpen` counts
those not handled to the end: one whose write failed counts for ever. -/
theorem C85_sending (s : σ) (sched : List Act) :
    let p := (start s).run now ops cfg wr sched
    ∃ handled, puts sched = handled ++ unwritten p.io ++ p.sendq ∧ p.sent = (deliver wr 0 handled).1 ∧
      p.sendq.length + (deliver wr 0 handled).2 ≤ p.sendOpen ∧
      p.sendOpen ≤ p.sendq.length + 1 + (deliver wr 0 handled).2 := by
  obtain ⟨hd, a, b, c⟩ := (inv (now := now) (ops := ops) (cfg := cfg) (wr := wr) s sched).sending
  refine ⟨hd, a, b, by omega, ?_⟩
  have : busy ((start s).run now ops cfg wr sched).io ≤ 1 := by unfold busy; split <;> omega
  omega

/-- Neither thread ever waits for a queue or fails at one: when a thread is about to take something, there is something;
`task_done()` does not raise. -/
theorem C85_queues (s : σ) (sched : List Act) :
    let p := (start s).run now ops cfg wr sched
    (p.io = .get → p.sendq ≠ []) ∧ (p.pr = .get → p.readq ≠ []) ∧ (p.io = .task → p.sendOpen ≠ 0) ∧ p.pr ≠ .died := by
  obtain ⟨_, ⟨hd, _, _, c⟩, _, ha, hp, hi⟩ := inv (now := now) (ops := ops) (cfg := cfg) (wr := wr) s sched
  refine ⟨hi, hp, ?_, ha⟩
  intro e
  rw [e] at c
  simp only [busy] at c
  omega

/-! ### Stopping -/

/-- Steps of the processing thread left after `stop`. -/
def prLeft : PrAt → Nat
  | .top => 1 | .empty => 5 | .get => 4 | .show _ => 3 | .task => 2 | .ended => 0 | .died => 0

/-- Steps of the I/O thread left after `stop`. -/
def ioLeft (q : Nat) : IoAt → Nat
  | .top => 1 | .read => 4 + 4 * q | .put _ _ => 3 + 4 * q | .empty => 2 + 4 * q | .get => 1 + 4 * q
  | .write _ => 4 + 4 * q | .task => 3 + 4 * q | .ended => 0

theorem step_stop (p : Poller σ) (x : Act) (h : p.stop = true) : (p.step now ops cfg wr x).stop = true := by
  cases x with
  | io =>
    simp only [Poller.step, ioStep]
    split <;> (try split) <;> (try split) <;> exact h
  | process =>
    simp only [Poller.step, processStep]
    split <;> (try split) <;> exact h
  | put d => exact h
  | stop => rfl

theorem io_pr (p : Poller σ) : (ioStep now ops cfg wr p).pr = p.pr := by
  unfold ioStep
  split <;> (try split) <;> (try split) <;> rfl

theorem process_io (p : Poller σ) : (processStep p).io = p.io ∧ (processStep p).sendq = p.sendq := by
  unfold processStep
  split <;> (try split) <;> exact ⟨rfl, rfl⟩

theorem process_left (p : Poller σ) (hstop : p.stop = true) (hq : p.pr = .get → p.readq ≠ []) :
    prLeft (processStep p).pr ≤ prLeft p.pr - 1 := by
  unfold processStep
  cases h : p.pr with
  | get =>
    simp only
    split
    · exact absurd (by assumption) (hq h)
    · simp [prLeft]
  | top => simp [prLeft, hstop]
  | empty => simp only; split <;> simp [prLeft]
  | «show» m => simp [prLeft]
  | task => simp only; split <;> simp [prLeft]
  | ended => simp [prLeft, h]
  | died => simp [prLeft, h]

theorem pr_left {s : σ} {a b : List Act} (hstop : ((start s).run now ops cfg wr a).stop = true)
    (hb : prLeft ((start s).run now ops cfg wr a).pr ≤ b.count .process) :
    ((start s).run now ops cfg wr (a ++ b)).pr = .ended := by
  induction b generalizing a with
  | nil =>
    have := (inv (now := now) (ops := ops) (cfg := cfg) (wr := wr) s a).alive
    simp only [List.count_nil, Nat.le_zero] at hb
    rw [List.append_nil]
    revert hb
    cases h : ((start s).run now ops cfg wr a).pr <;> simp_all [prLeft]
  | cons x b ih =>
    have e : a ++ x :: b = (a ++ [x]) ++ b := by simp
    rw [e]
    refine ih (by rw [run_snoc]; exact step_stop _ _ hstop) ?_
    rw [run_snoc]
    cases x with
    | process =>
      rw [List.count_cons_self] at hb
      have := process_left _ hstop (inv (now := now) (ops := ops) (cfg := cfg) (wr := wr) s a).pget
      simp only [Poller.step]
      omega
    | io =>
      simp only [Poller.step, io_pr]
      simpa using hb
    | put d => simpa [Poller.step] using hb
    | stop => simpa [Poller.step] using hb

theorem stop_stays {p : Poller σ} (d : List Act) (h : p.stop = true) : (p.run now ops cfg wr d).stop = true := by
  induction d generalizing p with
  | nil => exact h
  | cons x d ih => rw [run_cons]; exact ih (step_stop _ _ h)

theorem stopped (p : Poller σ) (a : List Act) (ha : Act.stop ∈ a) : (p.run now ops cfg wr a).stop = true := by
  obtain ⟨c, d, rfl⟩ := List.append_of_mem ha
  have : c ++ Act.stop :: d = (c ++ [Act.stop]) ++ d := by simp
  rw [this, run_append]
  exact stop_stays d (by rw [run_snoc]; rfl)

theorem io_left_step (p : Poller σ) (hstop : p.stop = true) (hg : p.io ≠ .get) :
    (ioStep now ops cfg wr p).sendq = p.sendq ∧
      ioLeft p.sendq.length (ioStep now ops cfg wr p).io ≤ ioLeft p.sendq.length p.io - 1 ∧
      ((ioStep now ops cfg wr p).io = .get → p.sendq ≠ []) := by
  unfold ioStep
  cases h : p.io with
  | top => simp [ioLeft, hstop]
  | read =>
    simp only
    split <;> refine ⟨rfl, ?_, by simp⟩ <;> simp only [ioLeft] <;> omega
  | put raw m => exact ⟨rfl, by simp only [ioLeft]; omega, by simp⟩
  | empty =>
    simp only
    split
    · exact ⟨rfl, by simp only [ioLeft]; omega, by simp⟩
    · exact ⟨rfl, by simp only [ioLeft]; omega, fun _ => by assumption⟩
  | get => exact absurd h hg
  | write d =>
    cases d with
    | none => exact ⟨rfl, by simp only [ioLeft]; omega, by simp⟩
    | some m =>
      simp only
      split
      · exact ⟨rfl, by simp only [ioLeft]; omega, by simp⟩
      · split <;> exact ⟨rfl, by simp only [ioLeft]; omega, by simp⟩
  | task =>
    simp only
    split <;> exact ⟨rfl, by simp only [ioLeft]; omega, by simp⟩
  | ended => exact ⟨rfl, by simp only [h, ioLeft]; omega, by simp [h]⟩

theorem io_left {p : Poller σ} {b : List Act} (hstop : p.stop = true) (hq : p.io = .get → p.sendq ≠ [])
    (hput : puts b = []) (hb : ioLeft p.sendq.length p.io ≤ b.count .io) :
    (p.run now ops cfg wr b).io = .ended := by
  induction b generalizing p with
  | nil =>
    simp only [List.count_nil, Nat.le_zero] at hb
    simp only [Poller.run, List.foldl_nil]
    revert hb
    cases h : p.io <;> simp [ioLeft]
  | cons x b ih =>
    rw [run_cons]
    cases x with
    | process =>
      obtain ⟨h1, h2⟩ := process_io p
      refine ih (step_stop _ _ hstop) (by simpa only [Poller.step, h1, h2] using hq) hput ?_
      simp only [Poller.step, h1, h2]
      simpa using hb
    | put d => cases hput
    | stop => exact ih rfl hq hput (by simpa [Poller.step] using hb)
    | io =>
      rw [List.count_cons_self] at hb
      have hst := step_stop (now := now) (ops := ops) (cfg := cfg) (wr := wr) p .io hstop
      simp only [Poller.step] at hst ⊢
      by_cases hio : p.io = .get
      · cases hs : p.sendq with
        | nil => exact absurd hs (hq hio)
        | cons d r =>
          have e : ioStep now ops cfg wr p = { p with sendq := r, io := .write d } := by simp only [ioStep, hio, hs]
          rw [e] at hst ⊢
          refine ih hst (by simp) hput ?_
          simp only [hio, hs, ioLeft, List.length_cons] at hb ⊢
          omega
      · obtain ⟨e1, e2, e3⟩ := io_left_step (now := now) (ops := ops) (cfg := cfg) (wr := wr) p hstop hio
        exact ih hst (by rw [e1]; exact e3) hput (by rw [e1]; omega)

/-- Stopping: once `stop` is set and if nothing more is put on the send queue, the I/O thread ends within four steps of its
own for every message in the queue and four more (one read among them); so `join()` returns. -/
theorem C85_io_stops (s : σ) (a b : List Act) (ha : Act.stop ∈ a) (hput : puts b = [])
    (hb : 4 + 4 * ((start s).run now ops cfg wr a).sendq.length ≤ b.count .io) :
    ((start s).run now ops cfg wr (a ++ b)).io = .ended := by
  rw [run_append]
  refine io_left (stopped _ a ha) (inv s a).iget hput (Nat.le_trans ?_ hb)
  have hg := (inv (now := now) (ops := ops) (cfg := cfg) (wr := wr) s a).iget
  unfold ioLeft
  split <;> omega

/-- What has ended stays so: nothing more is printed, nothing more is sent or read. -/
theorem C85_over (s : σ) (a b : List Act) :
    (((start s).run now ops cfg wr a).pr = .ended →
      ((start s).run now ops cfg wr (a ++ b)).shown = ((start s).run now ops cfg wr a).shown) ∧
    (((start s).run now ops cfg wr a).io = .ended →
      ((start s).run now ops cfg wr (a ++ b)).sent = ((start s).run now ops cfg wr a).sent ∧
      ((start s).run now ops cfg wr (a ++ b)).stream = ((start s).run now ops cfg wr a).stream) := by
  rw [run_append]
  generalize (start s).run now ops cfg wr a = p
  constructor
  · intro h
    suffices hh : (p.run now ops cfg wr b).pr = .ended ∧ (p.run now ops cfg wr b).shown = p.shown from hh.2
    induction b using List.reverseRecOn with
    | nil => exact ⟨h, rfl⟩
    | append_singleton b x ih =>
      rw [run_snoc]
      generalize p.run now ops cfg wr b = q at ih
      obtain ⟨h1, h2⟩ := ih
      cases x with
      | io =>
        refine ⟨by simpa only [Poller.step, io_pr] using h1, ?_⟩
        rw [← h2]
        simp only [Poller.step, ioStep]
        split <;> (try split) <;> (try split) <;> rfl
      | process => simpa only [Poller.step, processStep, h1, true_and] using h2
      | put d => exact ⟨h1, h2⟩
      | stop => exact ⟨h1, h2⟩
  · intro h
    suffices hh : (p.run now ops cfg wr b).io = .ended ∧ (p.run now ops cfg wr b).sent = p.sent ∧
      (p.run now ops cfg wr b).stream = p.stream from hh.2
    induction b using List.reverseRecOn with
    | nil => exact ⟨h, rfl, rfl⟩
    | append_singleton b x ih =>
      rw [run_snoc]
      generalize p.run now ops cfg wr b = q at ih
      obtain ⟨h1, h2, h3⟩ := ih
      cases x with
      | process =>
        refine ⟨by simpa only [Poller.step, process_io] using h1, ?_⟩
        rw [← h2, ← h3]
        simp only [Poller.step, processStep]
        split <;> (try split) <;> exact ⟨rfl, rfl⟩
      | io => simpa only [Poller.step, ioStep, h1, true_and] using ⟨h2, h3⟩
      | put d => exact ⟨h1, h2, h3⟩
      | stop => exact ⟨h1, h2, h3⟩

/-- Stopping: once `stop` is set, the processing thread ends within five steps of its own, in whatever state it is. -/
theorem C85_process_stops (s : σ) (a b : List Act) (ha : Act.stop ∈ a) (hb : 5 ≤ b.count .process) :
    ((start s).run now ops cfg wr (a ++ b)).pr = .ended := by
  refine pr_left ?_ (Nat.le_trans ?_ hb)
  · exact stopped _ a ha
  · unfold prLeft; split <;> omega

/-! ### Progress -/

/-- Messages that have reached the read queue, in order. -/
def pend (p : Poller σ) : List Msg := p.shown ++ unshown p.pr ++ p.readq.map Prod.snd

/-- Steps of the processing thread until `T` messages are printed. -/
def prNeed (T : Nat) (p : Poller σ) : Nat :=
  let d := T - p.shown.length
  if d = 0 then 0 else
  match p.pr with
  | .top => 5 * d - 1 | .empty => 5 * d - 2 | .get => 5 * d - 3 | .show _ => 5 * d - 4 | .task => 5 * d
  | .ended => 0 | .died => 0

theorem io_pend (p : Poller σ) : (ioStep now ops cfg wr p).shown = p.shown ∧ (ioStep now ops cfg wr p).pr = p.pr ∧
    p.readq <+: (ioStep now ops cfg wr p).readq ∧ (ioStep now ops cfg wr p).stop = p.stop := by
  unfold ioStep
  split <;> (try split) <;> (try split) <;> exact ⟨rfl, rfl, by simp, rfl⟩

theorem process_pend (p : Poller σ) : pend (processStep p) = pend p ∧ (processStep p).stop = p.stop := by
  unfold processStep pend
  cases h : p.pr with
  | get => simp only; split <;> rename_i hq <;> simp [unshown, hq, h]
  | top => simp only; split <;> simp [unshown]
  | empty => simp only; split <;> simp [unshown]
  | «show» m => simp [unshown]
  | task => simp only; split <;> simp [unshown]
  | ended => simp [unshown, h]
  | died => simp [unshown, h]

theorem step_pend (p : Poller σ) (x : Act) : pend p <+: pend (p.step now ops cfg wr x) := by
  cases x with
  | io =>
    obtain ⟨h1, h2, h3, _⟩ := io_pend (now := now) (ops := ops) (cfg := cfg) (wr := wr) p
    simp only [Poller.step, pend, h1, h2]
    exact (List.prefix_append_right_inj _).2 (h3.map Prod.snd)
  | process => simp only [Poller.step, (process_pend p).1]; exact List.prefix_refl _
  | put d => exact List.prefix_refl _
  | stop => exact List.prefix_refl _

theorem run_pend (p : Poller σ) (b : List Act) : pend p <+: pend (p.run now ops cfg wr b) := by
  induction b generalizing p with
  | nil => exact List.prefix_refl _
  | cons x b ih => rw [run_cons]; exact (step_pend p x).trans (ih _)

theorem process_need (T : Nat) (p : Poller σ) (hstop : p.stop = false) (he : p.pr ≠ .ended) (hd : p.pr ≠ .died)
    (ht : p.pr = .task → p.readOpen ≠ 0) (hT : T ≤ (pend p).length) :
    prNeed T (processStep p) ≤ prNeed T p - 1 ∧ (processStep p).pr ≠ .ended := by
  unfold prNeed processStep
  simp only [pend, List.length_append, List.length_map] at hT
  cases h : p.pr with
  | top =>
    simp only [hstop, Bool.false_eq_true, ↓reduceIte]
    refine ⟨?_, by simp⟩
    split <;> omega
  | empty =>
    simp only
    split
    · rename_i hq
      refine ⟨?_, by simp⟩
      rw [hq, h] at hT
      simp only [unshown, List.length_nil] at hT
      rw [if_pos (by show T - p.shown.length = 0; omega)]
      omega
    · refine ⟨?_, by simp⟩
      simp only
      split <;> omega
  | get =>
    simp only
    split
    · rename_i hq
      refine ⟨?_, by simp [h]⟩
      rw [hq, h] at hT
      simp only [unshown, List.length_nil] at hT
      rw [if_pos (by show T - p.shown.length = 0; omega)]
      omega
    · refine ⟨?_, by simp⟩
      simp only
      split <;> omega
  | «show» m =>
    refine ⟨?_, by simp⟩
    simp only [List.length_append, List.length_singleton]
    split <;> split <;> omega
  | task =>
    simp only
    rw [if_neg (ht h)]
    refine ⟨?_, by simp⟩
    simp only
    split <;> omega
  | ended => exact absurd h he
  | died => exact absurd h hd

theorem pr_needed {s : σ} {a b : List Act} (T : Nat) (hstop : ((start s).run now ops cfg wr a).stop = false)
    (he : ((start s).run now ops cfg wr a).pr ≠ .ended) (hns : Act.stop ∉ b)
    (hT : T ≤ (pend ((start s).run now ops cfg wr a)).length)
    (hb : prNeed T ((start s).run now ops cfg wr a) ≤ b.count .process) :
    T ≤ ((start s).run now ops cfg wr (a ++ b)).shown.length := by
  induction b generalizing a with
  | nil =>
    have := (inv (now := now) (ops := ops) (cfg := cfg) (wr := wr) s a).alive
    simp only [List.count_nil, Nat.le_zero] at hb
    rw [List.append_nil]
    unfold prNeed at hb
    simp only at hb
    split at hb
    · omega
    · split at hb <;> first | omega | contradiction
  | cons x b ih =>
    have e : a ++ x :: b = (a ++ [x]) ++ b := by simp
    have hI := inv (now := now) (ops := ops) (cfg := cfg) (wr := wr) s a
    rw [e]
    simp only [List.mem_cons, not_or] at hns
    have key : ((start s).run now ops cfg wr (a ++ [x])).stop = false ∧
        ((start s).run now ops cfg wr (a ++ [x])).pr ≠ .ended ∧
        prNeed T ((start s).run now ops cfg wr (a ++ [x])) ≤ b.count .process := by
      rw [run_snoc]
      cases x with
      | process =>
        rw [List.count_cons_self] at hb
        obtain ⟨h1, h2⟩ := process_need T _ hstop he hI.alive (by
          intro e
          have := hI.readOpen
          rw [e] at this
          simp only [prBusy] at this
          omega) hT
        exact ⟨(process_pend _).2.trans hstop, h2, by simp only [Poller.step]; omega⟩
      | io =>
        obtain ⟨h1, h2, _, h4⟩ := io_pend (now := now) (ops := ops) (cfg := cfg) (wr := wr) ((start s).run now ops cfg wr a)
        refine ⟨h4.trans hstop, by simpa only [Poller.step, h2] using he, ?_⟩
        have e : prNeed T (ioStep now ops cfg wr ((start s).run now ops cfg wr a)) = prNeed T ((start s).run now ops cfg wr a) := by
          unfold prNeed
          rw [h1, h2]
        simp only [Poller.step, e]
        simpa using hb
      | put d => exact ⟨hstop, he, by rw [List.count_cons_of_ne (by simp)] at hb; exact hb⟩
      | stop => exact absurd rfl hns.1
    refine ih key.1 key.2.1 hns.2 (Nat.le_trans hT ?_) key.2.2
    rw [run_snoc]
    exact (step_pend _ _).length_le

theorem no_stop (p : Poller σ) (b : List Act) (h : Act.stop ∉ b) (hp : p.stop = false) (he : p.pr ≠ .ended) (hi : p.io ≠ .ended) :
    (p.run now ops cfg wr b).stop = false ∧ (p.run now ops cfg wr b).pr ≠ .ended ∧ (p.run now ops cfg wr b).io ≠ .ended := by
  induction b generalizing p with
  | nil => exact ⟨hp, he, hi⟩
  | cons x b ih =>
    simp only [List.mem_cons, not_or] at h
    rw [run_cons]
    cases x with
    | io =>
      obtain ⟨_, h2, _, h4⟩ := io_pend (now := now) (ops := ops) (cfg := cfg) (wr := wr) p
      refine ih _ h.2 (h4.trans hp) (by simpa only [Poller.step, h2] using he) ?_
      simp only [Poller.step, ioStep]
      cases hio : p.io with
      | ended => exact absurd hio hi
      | write d =>
        cases d with
        | none => simp
        | some m => simp only; split <;> (try split) <;> simp
      | top => simp [hp]
      | _ => simp only <;> (try split) <;> simp
    | process =>
      obtain ⟨h1, _⟩ := process_io p
      refine ih _ h.2 ((process_pend p).2.trans hp) ?_ (by simpa only [Poller.step, h1] using hi)
      simp only [Poller.step, processStep]
      cases hpr : p.pr with
      | ended => exact absurd hpr he
      | get => simp only; split <;> simp [hpr]
      | died => simp [hpr]
      | top => simp [hp]
      | _ => simp only <;> (try split) <;> simp
    | put d => exact ih _ h.2 hp he hi
    | stop => exact absurd rfl h.1

/-- Progress: as long as `stop` is not set, five steps of the processing thread for each message in the queue, and five
more, print everything that was in the queue, whatever else happens meanwhile. -/
theorem C85_printed (s : σ) (a b : List Act) (hns : Act.stop ∉ a ++ b)
    (hb : 5 * (((start s).run now ops cfg wr a).readq.length + 1) ≤ b.count .process) :
    let p := (start s).run now ops cfg wr a
    ∃ more, ((start s).run now ops cfg wr (a ++ b)).shown = p.shown ++ unshown p.pr ++ p.readq.map Prod.snd ++ more := by
  simp only [List.mem_append, not_or] at hns
  obtain ⟨h1, h2, _⟩ := no_stop (now := now) (ops := ops) (cfg := cfg) (wr := wr) (start s) a hns.1 rfl (by simp [start])
    (by simp [start])
  have hlen : (unshown ((start s).run now ops cfg wr a).pr).length ≤ 1 := by unfold unshown; split <;> simp
  have h3 := pr_needed (b := b) _ h1 h2 hns.2 (Nat.le_refl _) (Nat.le_trans (by
    unfold prNeed pend
    simp only [List.length_append, List.length_map]
    split
    · omega
    · split <;> omega) hb)
  have h4 := run_pend (now := now) (ops := ops) (cfg := cfg) (wr := wr) ((start s).run now ops cfg wr a) b
  rw [← run_append] at h4
  have h5 : ((start s).run now ops cfg wr (a ++ b)).shown <+: pend ((start s).run now ops cfg wr (a ++ b)) := by
    unfold pend
    rw [List.append_assoc]
    exact List.prefix_append _ _
  obtain ⟨more, h6⟩ := List.prefix_of_prefix_length_le h4 h5 h3
  exact ⟨more, h6.symm⟩

/-- Messages put on the send queue and not handled. -/
def waits (p : Poller σ) : Nat := (unwritten p.io).length + p.sendq.length

/-- Steps of the I/O thread until `d` more messages are handled, if no read raises. -/
def ioNeed (d : Nat) : IoAt → Nat
  | .top => 6 * d | .read => 6 * d - 1 | .put _ _ => 6 * d - 2 | .empty => 6 * d - 3 | .get => 6 * d - 4
  | .write _ => 6 * d - 5 | .task => 6 * d - 2 | .ended => 0

theorem ioNeed_zero (q : IoAt) : ioNeed 0 q = 0 := by cases q <;> rfl

/-- One step of the I/O thread: a message is handled, or the need for `d` more has become smaller. -/
theorem io_need (d : Nat) (p : Poller σ) (hd : d + 1 ≤ waits p) (hstop : p.stop = false) (he : p.io ≠ .ended)
    (ht : p.io = .task → p.sendOpen ≠ 0) :
    (waits (ioStep now ops cfg wr p) + 1 = waits p ∧
      ioNeed d (ioStep now ops cfg wr p).io + 1 ≤ ioNeed (d + 1) p.io + 2 * raising (made now ops cfg p .io)) ∨
    (waits (ioStep now ops cfg wr p) = waits p ∧
      ioNeed (d + 1) (ioStep now ops cfg wr p).io + 1 ≤ ioNeed (d + 1) p.io + 2 * raising (made now ops cfg p .io)) := by
  unfold ioStep made
  cases h : p.io with
  | top => right; simp only [hstop, waits, unwritten, h, ioNeed]; simp [unwritten, ioNeed, raising]; omega
  | read =>
    right
    simp only
    split <;> rename_i hr <;> simp [waits, unwritten, h, ioNeed, hr, raising] <;> omega
  | put raw m => right; simp [waits, unwritten, h, ioNeed, raising]; omega
  | empty =>
    right
    simp only
    split
    · rename_i hq; simp [waits, h, unwritten, hq] at hd
    · simp [waits, unwritten, h, ioNeed, raising]; omega
  | get =>
    right
    simp only
    split
    · rename_i hq; simp [waits, h, unwritten, hq] at hd
    · rename_i hq; simp [waits, unwritten, h, hq, ioNeed, raising]; omega
  | write x =>
    left
    cases x with
    | none => simp [waits, unwritten, h, ioNeed, raising]; omega
    | some m =>
      simp only
      split
      · simp [waits, unwritten, h, ioNeed, raising]; omega
      · split <;> simp [waits, unwritten, h, ioNeed, raising] <;> omega
  | task =>
    right
    simp only
    rw [if_neg (ht h)]
    simp [waits, unwritten, h, ioNeed, raising]; omega
  | ended => exact absurd h he

theorem io_waits (p : Poller σ) : waits (ioStep now ops cfg wr p) ≤ waits p := by
  unfold waits ioStep
  cases h : p.io with
  | write d =>
    cases d with
    | none => simp [unwritten]
    | some m => simp only; split <;> (try split) <;> simp [unwritten]
  | get => simp only; split <;> rename_i hq <;> simp [unwritten, hq] <;> omega
  | ended => simp [unwritten, h]
  | _ => simp only <;> (try split) <;> simp [unwritten]

theorem waits_le (p : Poller σ) (b : List Act) : waits (p.run now ops cfg wr b) ≤ waits p + (puts b).length := by
  induction b generalizing p with
  | nil => simp [Poller.run]
  | cons x b ih =>
    rw [run_cons]
    refine Nat.le_trans (ih _) ?_
    cases x with
    | io =>
      have := io_waits (now := now) (ops := ops) (cfg := cfg) (wr := wr) p
      simp only [puts, Poller.step]
      omega
    | process =>
      simp only [puts, Poller.step, waits, process_io]
      omega
    | put d => simp only [puts, Poller.step, waits, List.length_append, List.length_cons, List.length_nil]; omega
    | stop => exact Nat.le_refl _

theorem io_needed {s : σ} {a b : List Act} (d : Nat) (hns : Act.stop ∉ a ++ b)
    (hd : d ≤ waits ((start s).run now ops cfg wr a))
    (hb : ioNeed d ((start s).run now ops cfg wr a).io +
      2 * raising (readsMade now ops cfg wr ((start s).run now ops cfg wr a) b) ≤ b.count .io) :
    waits ((start s).run now ops cfg wr (a ++ b)) + d ≤ waits ((start s).run now ops cfg wr a) + (puts b).length := by
  induction b generalizing a d with
  | nil =>
    have hne := (no_stop (now := now) (ops := ops) (cfg := cfg) (wr := wr) (start s) a (by simpa using hns) rfl
      (by simp [start]) (by simp [start])).2.2
    rw [List.append_nil]
    simp only [List.count_nil, Nat.le_zero, readsMade, raising, Nat.mul_zero, Nat.add_zero] at hb
    have : d = 0 := by
      revert hb hne
      cases ((start s).run now ops cfg wr a).io <;> simp [ioNeed] <;> omega
    simp only [puts, List.length_nil]
    omega
  | cons x b ih =>
    have e : a ++ x :: b = (a ++ [x]) ++ b := by simp
    have hna : Act.stop ∉ a := fun h => hns (List.mem_append_left _ h)
    obtain ⟨hs1, _, hs3⟩ := no_stop (now := now) (ops := ops) (cfg := cfg) (wr := wr) (start s) a hna rfl
      (by simp [start]) (by simp [start])
    rw [readsMade_cons, raising_append] at hb
    rw [e] at hns ⊢
    have hrun := run_snoc (now := now) (ops := ops) (cfg := cfg) (wr := wr) (start s) a x
    cases x with
    | stop => simp at hns
    | process =>
      rw [List.count_cons_of_ne (by simp)] at hb
      obtain ⟨h1, h2⟩ := process_io ((start s).run now ops cfg wr a)
      simp only [Poller.step] at hrun hb
      have hw : waits ((start s).run now ops cfg wr (a ++ [.process])) = waits ((start s).run now ops cfg wr a) := by
        rw [hrun]; unfold waits; rw [h1, h2]
      have := ih (a := a ++ [.process]) d hns (by rw [hw]; exact hd) (by rw [hrun, h1]; omega)
      rw [hw] at this
      simpa only [puts] using this
    | put y =>
      rw [List.count_cons_of_ne (by simp)] at hb
      simp only [Poller.step] at hrun hb
      have hw : waits ((start s).run now ops cfg wr (a ++ [.put y])) = waits ((start s).run now ops cfg wr a) + 1 := by
        rw [hrun]; simp [waits]; omega
      have := ih (a := a ++ [.put y]) d hns (by rw [hw]; omega) (by rw [hrun]; simp only; omega)
      rw [hw] at this
      simp only [puts, List.length_cons]
      omega
    | io =>
      rw [List.count_cons_self] at hb
      simp only [Poller.step] at hrun hb
      cases d with
      | zero =>
        rw [← e, run_append]
        exact waits_le _ _
      | succ d =>
        have hI := inv (now := now) (ops := ops) (cfg := cfg) (wr := wr) s a
        rcases io_need (now := now) (ops := ops) (cfg := cfg) (wr := wr) d _ hd hs1 hs3 (by
          intro e
          obtain ⟨_, _, _, c⟩ := hI.sending
          rw [e] at c
          simp only [busy] at c
          omega) with ⟨h1, h2⟩ | ⟨h1, h2⟩
        · have := ih (a := a ++ [.io]) d hns (by rw [hrun]; omega) (by rw [hrun]; omega)
          rw [hrun] at this
          simp only [puts]
          omega
        · have := ih (a := a ++ [.io]) (d + 1) hns (by rw [hrun]; omega) (by rw [hrun]; omega)
          rw [hrun] at this
          simp only [puts]
          omega

/-- Progress: as long as `stop` is not set, six steps of the I/O thread for each message in the send queue, and six more,
handle everything that was put before, in this order; but every read that raises costs two steps more. -/
theorem C85_sent (s : σ) (a b : List Act) (hns : Act.stop ∉ a ++ b)
    (hb : 6 * (((start s).run now ops cfg wr a).sendq.length + 1) +
      2 * raising (readsMade now ops cfg wr ((start s).run now ops cfg wr a) b) ≤ b.count .io) :
    let p := (start s).run now ops cfg wr (a ++ b)
    ∃ more, puts a ++ more ++ unwritten p.io ++ p.sendq = puts (a ++ b) ∧ p.sent = (deliver wr 0 (puts a ++ more)).1 := by
  have hlen : (unwritten ((start s).run now ops cfg wr a).io).length ≤ 1 := by unfold unwritten; split <;> simp
  have h1 := io_needed (now := now) (ops := ops) (cfg := cfg) (wr := wr) (s := s) (a := a) (b := b) _ hns (Nat.le_refl _)
    (Nat.le_trans (Nat.add_le_add_right (by
      unfold waits
      have : ∀ d q, ioNeed d q ≤ 6 * d := by intro d q; cases q <;> simp only [ioNeed] <;> omega
      refine Nat.le_trans (this _ _) ?_
      omega) _) hb)
  obtain ⟨hd, h2, h3, _⟩ := (inv (now := now) (ops := ops) (cfg := cfg) (wr := wr) s (a ++ b)).sending
  have h4 : puts a <+: puts (a ++ b) := by rw [puts_append]; exact List.prefix_append _ _
  have h5 : hd <+: puts (a ++ b) := by rw [h2, List.append_assoc]; exact List.prefix_append _ _
  have h6 : (puts a).length ≤ hd.length := by
    have e := congrArg List.length h2
    rw [puts_append] at e
    simp only [List.length_append] at e
    unfold waits at h1
    omega
  obtain ⟨more, h7⟩ := List.prefix_of_prefix_length_le h4 h5 h6
  refine ⟨more, ?_, ?_⟩
  · rw [h7]; exact h2.symm
  · rw [h7]; exact h3

/-- ... and as long as every read raises, nothing is ever sent. -/
theorem C85_not_sent (s : σ) (sched : List Act)
    (h : ∀ r ∈ readsMade now ops cfg wr (start s) sched, ∃ e, r = .raised e) :
    ((start s).run now ops cfg wr sched).sent = [] ∧ ((start s).run now ops cfg wr sched).sendq = puts sched := by
  suffices hh : (((start s).run now ops cfg wr sched).io = .top ∨ ((start s).run now ops cfg wr sched).io = .read ∨
      ((start s).run now ops cfg wr sched).io = .ended) ∧ ((start s).run now ops cfg wr sched).sent = [] ∧
      ((start s).run now ops cfg wr sched).sendq = puts sched from hh.2
  induction sched using List.reverseRecOn with
  | nil => exact ⟨.inl rfl, rfl, rfl⟩
  | append_singleton a x ih =>
    rw [readsMade_snoc] at h
    obtain ⟨h1, h2, h3⟩ := ih (fun r hr => h r (List.mem_append_left _ hr))
    rw [run_snoc, puts_append]
    generalize (start s).run now ops cfg wr a = p at *
    cases x with
    | process =>
      have h4 : (processStep p).sent = p.sent := by
        unfold processStep
        split <;> (try split) <;> rfl
      simp only [Poller.step, process_io, h4, puts, List.append_nil]
      exact ⟨h1, h2, h3⟩
    | put d => exact ⟨h1, h2, by simp [Poller.step, puts, h3]⟩
    | stop => exact ⟨h1, h2, by simp [Poller.step, puts, h3]⟩
    | io =>
      simp only [Poller.step, puts, List.append_nil]
      rcases h1 with h1 | h1 | h1
      · simp only [ioStep, h1]
        split
        · exact ⟨.inr (.inr rfl), h2, h3⟩
        · exact ⟨.inr (.inl rfl), h2, h3⟩
      · obtain ⟨e, he⟩ := h (readMsg now ops cfg p.stream).1 (by simp [made, h1])
        simp only [ioStep, h1]
        split <;> rename_i hr <;> rw [hr] at he <;> first | cases he | skip
        exact ⟨.inl rfl, h2, h3⟩
      · have e : ioStep now ops cfg wr p = p := by simp only [ioStep, h1]
        rw [e]
        exact ⟨.inr (.inr h1), h2, h3⟩

/-- The queries put on the send queue: for each standard id there is one, it serializes, and whoever parses it as a
query gets the id. -/
theorem C85_queries : ∀ msgid ∈ NMEA_MSGIDS.map Prod.fst, ∃ m raw ck, pollerQuery now msgid = .ok m ∧ m.serialize = .ok raw ∧
    IsHexText ck (xorAll (py!"EIGNQ," ++ msgid)) ∧
    utf8Encode (py!"$EIGNQ," ++ msgid ++ py!"*" ++ ck ++ py!"\r\n") = .ok raw ∧
    ∀ now' v' u', ∃ m', parse now' (.bytes raw) 2 v' u' = .ok (some m') ∧ m'.talker = py!"EI" ∧ m'.msgID = py!"GNQ" ∧
      m'.attrs = [(py!"msgId", .str msgid)] := by
  have hp : ∀ msgid ∈ NMEA_MSGIDS.map Prod.fst, PlainText msgid := by decide +kernel
  intro msgid hm
  obtain ⟨m, raw, ck, h1, h2, h3, h4, h5⟩ := Queries.C83_sent now py!"EI" py!"GN" msgid false 1 [] (by decide) (by decide +kernel)
    (hp msgid hm)
  exact ⟨m, raw, ck, h1, h4, h2, h3, h5⟩

/-- So a query is written whole, unless `write()` raises. -/
theorem C85_query_written (wr : Writes) (k : Nat) : ∀ msgid ∈ NMEA_MSGIDS.map Prod.fst, ∀ m, pollerQuery now msgid = .ok m →
    ∃ raw, m.serialize = .ok raw ∧ (wr k = none → delivery wr k (some m) = ([raw], false)) := by
  intro msgid hm m h
  obtain ⟨m', raw, _, h1, h2, _⟩ := C85_queries (now := now) msgid hm
  rw [h] at h1
  cases h1
  exact ⟨raw, h2, fun hw => by simp [delivery, h2, hw]⟩

/-- That nothing more is put on the send queue cannot be left out of `C85_io_stops`: `stop` is not looked at while
messages are sent, so if some are put again and again the I/O thread makes as many steps as one likes. -/
theorem C85_endless (s : σ) (hs : (readMsg now ops cfg s).1 = .none) (n : Nat) :
    ∃ a b, Act.stop ∈ a ∧ n ≤ b.count .io ∧ ((start s).run now ops cfg wr (a ++ b)).io ≠ .ended := by
  refine ⟨[.io, .put none, .io, .stop], (List.replicate n [Act.io, .io, .put none, .io, .io]).flatten, by simp, ?_, ?_⟩
  · induction n with
    | zero => simp
    | succ n ih =>
      rw [List.replicate_succ, List.flatten_cons, List.count_append]
      have : List.count Act.io [Act.io, .io, .put none, .io, .io] = 4 := by decide
      omega
  · rw [run_append]
    have h0 : ((start s).run now ops cfg wr [.io, .put none, .io, .stop]).io = .empty ∧
        ((start s).run now ops cfg wr [.io, .put none, .io, .stop]).sendq = [none] ∧
        ((start s).run now ops cfg wr [.io, .put none, .io, .stop]).sendOpen = 1 := by
      obtain ⟨r, l, s', h⟩ : ∃ r l s', readMsg now ops cfg s = (r, l, s') := ⟨_, _, _, rfl⟩
      rw [h] at hs
      simp only at hs
      subst hs
      simp [Poller.run, Poller.step, start, ioStep, h]
    generalize (start s).run now ops cfg wr [.io, .put none, .io, .stop] = p at h0
    suffices hh : ∀ n, (p.run now ops cfg wr (List.replicate n [Act.io, .io, .put none, .io, .io]).flatten).io = .empty ∧
        (p.run now ops cfg wr (List.replicate n [Act.io, .io, .put none, .io, .io]).flatten).sendq = [none] ∧
        (p.run now ops cfg wr (List.replicate n [Act.io, .io, .put none, .io, .io]).flatten).sendOpen = 1 by
      rw [(hh n).1]; simp
    intro n
    induction n generalizing p with
    | zero => exact h0
    | succ n ih =>
      rw [List.replicate_succ, List.flatten_cons, run_append]
      refine ih _ ?_
      obtain ⟨h1, h2, h3⟩ := h0
      simp [Poller.run, Poller.step, ioStep, h1, h2, h3]

/-! ## Examples -/

/-- The configuration of the reader of the program. -/
def cfg0 : RCfg := ⟨0, 1, true, 1, []⟩

theorem read_gll : ∃ m, readMsg clock0 fileStream cfg0 gll = (.item gll (some m), [], []) ∧
    readMsg clock0 fileStream cfg0 [] = (.none, [], []) := by
  have h : (match step clock0 fileStream cfg0 gll with | (.msg raw (some _), s) => raw == gll && s == [] | _ => false) = true := by
    decide +kernel
  refine ⟨((match step clock0 fileStream cfg0 gll with | (.msg _ m, _) => m | _ => none).get (by decide +kernel)), ?_, ?_⟩
  · rw [readMsg_eq]
    split at h
    · rename_i raw m s hs
      simp only [Bool.and_eq_true, beq_iff_eq] at h
      simp [hs, h.1, h.2]
    · cases h
  · rw [readMsg_eq]
    rfl

/-- A sentence is read, queued and printed while a message is sent: the hypotheses of `C85_printed`, `C85_sent`. -/
example : ∃ m, (((start gll).run clock0 fileStream cfg0 (fun _ => none)
      ([.io, .io, .io] ++ List.replicate 10 .process)).shown = [m]) ∧
    Act.stop ∉ ([.io, .io, .io] ++ List.replicate 10 Act.process) ∧
    5 * (((start gll).run clock0 fileStream cfg0 (fun _ => none) [.io, .io, .io]).readq.length + 1) ≤
      (List.replicate 10 Act.process).count .process := by
  obtain ⟨m, h1, h2⟩ := read_gll
  refine ⟨m, ?_, by decide, ?_⟩
  · simp [Poller.run, Poller.step, start, ioStep, processStep, h1, List.replicate]
  · simp [Poller.run, Poller.step, start, ioStep, h1, List.replicate]

/-- A message in the queue when `stop` is set is never printed. -/
example : ∃ m, ∀ b, ((start gll).run clock0 fileStream cfg0 (fun _ => none) ([.io, .io, .io, .stop, .process] ++ b)).shown = [] ∧
    ((start gll).run clock0 fileStream cfg0 (fun _ => none) [.io, .io, .io, .stop, .process]).readq = [(gll, m)] := by
  obtain ⟨m, h1, h2⟩ := read_gll
  refine ⟨m, fun b => ⟨?_, ?_⟩⟩
  · rw [(C85_over gll [.io, .io, .io, .stop, .process] b).1 (by simp [Poller.run, Poller.step, start, ioStep, processStep, h1])]
    simp [Poller.run, Poller.step, start, ioStep, processStep, h1]
  · simp [Poller.run, Poller.step, start, ioStep, processStep, h1]

/-- A message is sent. -/
example : ∃ m, pollerQuery clock0 py!"RMC" = .ok m ∧
    ((start []).run clock0 fileStream cfg0 (fun _ => none) (.put (some m) :: List.replicate 12 .io)).sent =
      [pb!"$EIGNQ,RMC*24\r\n"] := by
  obtain ⟨m, raw, ck, h1, h2, h3, h4, _⟩ := C85_queries (now := clock0) py!"RMC" (by decide +kernel)
  obtain ⟨_, _, h6⟩ := read_gll
  have hr : raw = pb!"$EIGNQ,RMC*24\r\n" := by
    have : ck = py!"24" := C01_hex_text_unique ck _ _ h3 (C01_checksum_is_hex_of_xor _) |>.trans (by decide +kernel)
    rw [this] at h4
    have h' : utf8Encode (py!"$EIGNQ," ++ py!"RMC" ++ py!"*" ++ py!"24" ++ py!"\r\n") = .ok pb!"$EIGNQ,RMC*24\r\n" := by
      decide +kernel
    rw [h4] at h'
    exact Except.ok.inj h'
  refine ⟨m, h1, ?_⟩
  obtain ⟨more, e1, e2⟩ := C85_sent (now := clock0) (ops := fileStream) (cfg := cfg0) (wr := fun _ => none) []
    [.put (some m)] (List.replicate 12 .io) (by simp) (by
      simp [readsMade, Poller.run, Poller.step, start, ioStep, List.replicate, h6, raising, h2])
  have : more = [] := by
    simp [puts, List.replicate] at e1
    exact e1.1
  subst this
  simp only [List.append_nil] at e2
  rw [show Act.put (some m) :: List.replicate 12 .io = [Act.put (some m)] ++ List.replicate 12 .io from rfl, e2]
  simp [puts, deliver, delivery, h2, hr]

/-- A write fails: the counter behind `join()` of the send queue never reaches zero. -/
example : ∃ m, pollerQuery clock0 py!"RMC" = .ok m ∧
    ((start []).run clock0 fileStream cfg0 (fun _ => some 3) (.put (some m) :: List.replicate 12 .io)).sent =
      [pb!"$EI"] ∧
    ((start []).run clock0 fileStream cfg0 (fun _ => some 3) (.put (some m) :: List.replicate 12 .io)).sendOpen = 1 := by
  obtain ⟨m, raw, ck, h1, h2, h3, h4, _⟩ := C85_queries (now := clock0) py!"RMC" (by decide +kernel)
  obtain ⟨_, _, h6⟩ := read_gll
  have h7 : raw.take 3 = pb!"$EI" := by
    have : ck = py!"24" := C01_hex_text_unique ck _ _ h3 (C01_checksum_is_hex_of_xor _) |>.trans (by decide +kernel)
    rw [this] at h4
    have h' : (utf8Encode (py!"$EIGNQ," ++ py!"RMC" ++ py!"*" ++ py!"24" ++ py!"\r\n")).toOption.map (List.take 3) =
        some pb!"$EI" := by decide +kernel
    rw [h4] at h'
    exact Option.some.inj h'
  refine ⟨m, h1, ?_⟩
  simp [Poller.run, Poller.step, start, ioStep, List.replicate, h6, h2, h7]

end Props.Poller
