import Verif.Spec.QuectelDemo
import Verif.Props.Poller
import Verif.Props.WebJson
import Verif.Props.Invariance
/-!
# The example program quecteldemo.py (C90)
-/
namespace Props.QuectelDemo
open Py Nmea Spec Props
open Spec.Poller (messages raising delivery deliver puts unshown unqueued unwritten)

variable {σ : Type} {now : Nat → DateTime} {ops : StreamOps σ} {cfg : RCfg} {wr : Writes} {q : Bool}

/-! ## The messages made -/

/-- A definition without dates and times. -/
def clockless : PDict → Bool
  | .nil => true
  | .single _ t r => !usesClock t && clockless r
  | .group _ _ b r => clockless b && clockless r

theorem setSingle_clockless (c : Ctx) (now now' : Nat → DateTime) (k t : Str) (g : List Nat) (st : St)
    (h : usesClock t = false) : setSingle c now k t g st = setSingle c now' k t g st := by
  have hv : ∀ a b, nomval t c.mode a = nomval t c.mode b := by
    intro a b
    unfold usesClock at h
    simp only [Bool.or_eq_false_iff, beq_eq_false_iff_ne, ne_eq] at h
    exact nomval_now t c.mode a b (by simp only [List.mem_cons, List.not_mem_nil, or_false, not_or]; exact ⟨h.1.1.1, h.1.1.2, h.1.2, h.2⟩)
  unfold setSingle setSingleGen genValue
  rw [hv (now st.tick) (now' st.tick)]

theorem setPDict_clockless (c : Ctx) (now now' : Nat → DateTime) (d : PDict) (h : clockless d = true) (g : List Nat) (st : St) :
    setPDict c now d g st = setPDict c now' d g st := by
  induction d generalizing g st with
  | nil => rfl
  | single k t r ih =>
    simp only [clockless, Bool.and_eq_true, Bool.not_eq_true'] at h
    simp only [setPDict, bind, Except.bind, setSingle_clockless c now now' k t g st h.1]
    split
    · rfl
    · exact ih h.2 g _
  | group k rep b r ihb ihr =>
    simp only [clockless, Bool.and_eq_true] at h
    have : (fun i st => setPDict c now b (g ++ [i]) st) = (fun i st => setPDict c now' b (g ++ [i]) st) := by
      funext i st; exact ihb h.1 _ _
    simp only [setPDict, bind, Except.bind, this]
    split
    · rfl
    · split
      · rfl
      · exact ihr h.2 _ _

/-- The constructor does not look at the clock for such a definition. -/
def clocklessCall (t i : Str) (mode : Int) (kw : List (Str × PyVal)) : Bool :=
  decide (mode = 0 ∨ mode = 1 ∨ mode = 2) &&
    match getDict (ctxOf t i mode.toNat false 1 [] ⟨none, kw⟩) with
    | .ok (some d) => clockless d
    | _ => true

theorem mkMsg_clockless (now now' : Nat → DateTime) (t i : Str) (mode : Int) (kw : List (Str × PyVal))
    (h : clocklessCall t i mode kw = true) :
    mkMsg now t i mode false 1 [] none ⟨none, kw⟩ = mkMsg now' t i mode false 1 [] none ⟨none, kw⟩ := by
  unfold clocklessCall at h
  simp only [Bool.and_eq_true, decide_eq_true_eq] at h
  rw [mkMsg_eq _ _ _ _ _ _ _ _ _ h.1, mkMsg_eq _ _ _ _ _ _ _ _ _ h.1]
  have : outcome (ctxOf t i mode.toNat false 1 [] ⟨none, kw⟩) now = outcome (ctxOf t i mode.toNat false 1 [] ⟨none, kw⟩) now' := by
    unfold outcome rawOutcome
    congr 1
    revert h
    cases getDict (ctxOf t i mode.toNat false 1 [] ⟨none, kw⟩) with
    | error e => intro _; rfl
    | ok o =>
      cases o with
      | none => intro _; rfl
      | some d => intro h; simp only; rw [setPDict_clockless _ now now' d h.2]
  rw [this]

/-- The messages statements send, given the variables; `none` if one of them raises. -/
def sends (now : Nat → DateTime) : List DemoStmt → List (Str × Msg) → Option (List Msg)
  | [], _ => some []
  | .make x id mode kw :: r, vars =>
    match mkMsg now py!"P" id mode false 1 [] none ⟨none, kw⟩ with
    | .error _ => none
    | .ok m => sends now r (match x with | none => vars | some x => Py.insert x m vars)
  | .send x :: r, vars =>
    match lookup x vars with
    | none => none
    | some m => (sends now r vars).map (m :: ·)

def clocklessStmt : DemoStmt → Bool
  | .make _ id mode kw => clocklessCall py!"P" id mode kw
  | .send _ => true

theorem sends_clockless (now now' : Nat → DateTime) (l : List DemoStmt) (h : l.all clocklessStmt = true) (vars : List (Str × Msg)) :
    sends now l vars = sends now' l vars := by
  induction l generalizing vars with
  | nil => rfl
  | cons x l ih =>
    simp only [List.all_cons, Bool.and_eq_true] at h
    cases x with
    | make x id mode kw =>
      simp only [sends]
      rw [mkMsg_clockless now now' _ _ _ _ h.1]
      split
      · rfl
      · exact ih h.2 _
    | send x =>
      simp only [sends]
      rw [ih h.2]

theorem demoMain_clockless : demoMain.all clocklessStmt = true := by decide +kernel

/-- Texts of all messages, or nothing. -/
def textsOf (o : Option (List Msg)) : Option (List (Except Err Bytes)) := o.map (List.map Msg.serialize)

theorem demoMain_texts0 : textsOf (sends clock0 demoMain []) = some (QuectelDemo.sentences.map Except.ok) := by decide +kernel

/-- All constructors succeed at any time, and this is what is sent. -/
theorem demoMain_sends (now : Nat → DateTime) :
    ∃ ms, sends now demoMain [] = some ms ∧ ms.map Msg.serialize = QuectelDemo.sentences.map Except.ok := by
  have h := demoMain_texts0
  rw [sends_clockless clock0 now _ demoMain_clockless, textsOf] at h
  obtain ⟨ms, h1, h2⟩ := Option.map_eq_some_iff.1 h
  exact ⟨ms, h1, h2⟩

/-! ## The threads -/

/-- The identity of a parsed message can be looked at. -/
theorem identity_ok (s : σ) (n : Nat) : ∀ m ∈ messages (reads now ops cfg n s).1, ∃ id, m.identity = .ok id := by
  induction n generalizing s with
  | zero => intro m hm; simp [reads, messages] at hm
  | succ n ih =>
    intro m hm
    simp only [reads] at hm
    have hp := Web.readMsg_item (now := now) (ops := ops) (cfg := cfg) s
    generalize (readMsg now ops cfg s).1 = r at hm hp
    rcases r with ⟨raw, _ | m'⟩ | _ | e
    · exact ih _ m (by simpa [messages] using hm)
    · simp only [messages, List.mem_cons] at hm
      rcases hm with rfl | hm
      · have h := hp raw (some m) rfl
        obtain ⟨_, p, hg, _⟩ := parse_accepted _ _ _ _ _ _ h
        obtain ⟨id, _, hid⟩ := C50_identity _ _ _ _ _ _ _ _ _ _ _ ((getParts_sentence _ _).1 hg) h
        exact ⟨_, hid⟩
      · exact ih _ m hm
    · exact ih _ m (by simpa [messages] using hm)
    · exact ih _ m (by simpa [messages] using hm)

/-- The state of the threads of nmeapoller.py, with fewer messages printed. -/
def thin (q : Bool) (p : Poller σ) : Poller σ := { p with shown := p.shown.filter (QuectelDemo.wanted q) }

theorem io_thin (p : Poller σ) : ioStep now ops cfg wr (thin q p) = thin q (ioStep now ops cfg wr p) := by
  obtain ⟨stream, readq, sendq, ro, so, stop, io, pr, shown, sent⟩ := p
  cases io with
  | top => simp only [ioStep, thin]; by_cases h : stop = true <;> simp [h]
  | read =>
    simp only [ioStep, thin]
    rcases readMsg now ops cfg stream with ⟨⟨raw, _ | m⟩ | _ | e, log, s'⟩ <;> rfl
  | put raw m => rfl
  | empty => simp only [ioStep, thin]; by_cases h : sendq = [] <;> simp [h]
  | get => cases sendq <;> rfl
  | write d =>
    cases d with
    | none => rfl
    | some m =>
      simp only [ioStep, thin]
      cases m.serialize with
      | error e => rfl
      | ok b => simp only; cases wr sent.length <;> rfl
  | task => simp only [ioStep, thin]; by_cases h : so = 0 <;> simp [h]
  | ended => rfl

theorem process_thin (p : Poller σ) (h : ∀ m, p.pr = .show m → ∃ id, m.identity = .ok id) :
    demoProcessStep q (thin q p) = thin q (processStep p) := by
  obtain ⟨stream, readq, sendq, ro, so, stop, io, pr, shown, sent⟩ := p
  cases pr with
  | «show» m =>
    obtain ⟨id, hid⟩ := h m rfl
    simp only [demoProcessStep, processStep, thin, hid]
    cases q with
    | false => simp [QuectelDemo.wanted]
    | true =>
      by_cases hc : py!"QTM" <:+: id
      · simp [QuectelDemo.wanted, hid, hc]
      · simp [QuectelDemo.wanted, hid, hc]
  | top => simp only [demoProcessStep, processStep, thin]; by_cases h : stop = true <;> simp [h]
  | empty => simp only [demoProcessStep, processStep, thin]; by_cases h : readq = [] <;> simp [h]
  | get => cases readq <;> rfl
  | task => simp only [demoProcessStep, processStep, thin]; by_cases h : ro = 0 <;> simp [h]
  | ended => rfl
  | died => rfl

/-- What the other program would have done. -/
def act (d : Demo σ) : DemoAct → List Act
  | .io => [.io]
  | .process => [.process]
  | .ctrlC => [.stop]
  | .main =>
    match d.rest with
    | .send x :: _ => (match lookup x d.vars with | none => [] | some m => [.put (some m)])
    | _ => []

/-- The schedule of the other program. -/
def acts (now : Nat → DateTime) (ops : StreamOps σ) (cfg : RCfg) (wr : Writes) (q : Bool) : Demo σ → List DemoAct → List Act
  | _, [] => []
  | d, x :: r => act d x ++ acts now ops cfg wr q (d.step now ops cfg wr q x) r

theorem drun_cons (d : Demo σ) (x : DemoAct) (b : List DemoAct) :
    d.run now ops cfg wr q (x :: b) = (d.step now ops cfg wr q x).run now ops cfg wr q b := rfl

theorem drun_append (d : Demo σ) (a b : List DemoAct) :
    d.run now ops cfg wr q (a ++ b) = (d.run now ops cfg wr q a).run now ops cfg wr q b := by
  simp [Demo.run, List.foldl_append]

theorem acts_append (d : Demo σ) (a b : List DemoAct) :
    acts now ops cfg wr q d (a ++ b) = acts now ops cfg wr q d a ++ acts now ops cfg wr q (d.run now ops cfg wr q a) b := by
  induction a generalizing d with
  | nil => rfl
  | cons x a ih => rw [List.cons_append, acts, acts, ih, drun_cons, List.append_assoc]

theorem drun_snoc (d : Demo σ) (a : List DemoAct) (x : DemoAct) :
    d.run now ops cfg wr q (a ++ [x]) = (d.run now ops cfg wr q a).step now ops cfg wr q x := by
  rw [drun_append]; rfl

theorem acts_snoc (d : Demo σ) (a : List DemoAct) (x : DemoAct) :
    acts now ops cfg wr q d (a ++ [x]) = acts now ops cfg wr q d a ++ act (d.run now ops cfg wr q a) x := by
  rw [acts_append]; simp [acts]

theorem counts (d : Demo σ) (a : List DemoAct) :
    (acts now ops cfg wr q d a).count .io = a.count .io ∧ (acts now ops cfg wr q d a).count .process = a.count .process ∧
      (Act.stop ∈ acts now ops cfg wr q d a ↔ DemoAct.ctrlC ∈ a) := by
  induction a generalizing d with
  | nil => simp [acts]
  | cons x a ih =>
    obtain ⟨h1, h2, h3⟩ := ih (d.step now ops cfg wr q x)
    rw [acts]
    cases x with
    | io => simp [act, h1, h2, h3, List.count_cons]
    | process => simp [act, h1, h2, h3, List.count_cons]
    | ctrlC => simp [act, h1, h2, List.count_cons]
    | main =>
      simp only [act]
      split
      · split <;> simp [h1, h2, h3, List.count_cons]
      · simp [h1, h2, h3, List.count_cons]

/-- The threads do what those of the other program do, but for what they print. -/
theorem sim (s : σ) (sched : List DemoAct) :
    ((QuectelDemo.start s).run now ops cfg wr q sched).threads =
      thin q ((Spec.Poller.start s).run now ops cfg wr (acts now ops cfg wr q (QuectelDemo.start s) sched)) := by
  induction sched using List.reverseRecOn with
  | nil => rfl
  | append_singleton a x ih =>
    rw [drun_snoc, acts_snoc, Poller.run_append]
    generalize hd : (QuectelDemo.start s).run now ops cfg wr q a = d at ih
    cases x with
    | io => simp only [Demo.step, ih, act, io_thin]; rfl
    | process =>
      simp only [Demo.step, ih, act]
      rw [process_thin]
      · rfl
      · intro m hm
        obtain ⟨h1, -, h3⟩ := Poller.C85_reading (now := now) (ops := ops) (cfg := cfg) (wr := wr) s
          (acts now ops cfg wr q (QuectelDemo.start s) a)
        rw [h1] at h3
        refine identity_ok (now := now) (ops := ops) (cfg := cfg) s _ m (?_ : m ∈ messages (reads now ops cfg
          (Spec.Poller.readsMade now ops cfg wr (Spec.Poller.start s) (acts now ops cfg wr q (QuectelDemo.start s) a)).length s).1)
        rw [h3, hm]
        simp [unshown]
    | ctrlC => simp only [Demo.step, ih, act]; rfl
    | main =>
      simp only [Demo.step, demoMainStep, act]
      split
      · rename_i h; simp only [h]; exact ih
      · rename_i h; simp only [h]; split <;> exact ih
      · rename_i h; simp only [h]
        split
        · rename_i h'; simp only [h']; exact ih
        · rename_i h'; simp only [h', ih]; rfl

theorem reads_made (s : σ) (b : List DemoAct) (d : Demo σ) (p : Nmea.Poller σ) (h : d.threads.io = p.io ∧ d.threads.stream = p.stream) (a : List DemoAct)
    (hd : d = (QuectelDemo.start s).run now ops cfg wr q a)
    (hp : p = (Spec.Poller.start s).run now ops cfg wr (acts now ops cfg wr q (QuectelDemo.start s) a)) :
    QuectelDemo.readsMade now ops cfg wr q d b = Spec.Poller.readsMade now ops cfg wr p (acts now ops cfg wr q d b) := by
  induction b generalizing d p a with
  | nil => rfl
  | cons x b ih =>
    have hs := sim (now := now) (ops := ops) (cfg := cfg) (wr := wr) (q := q) s (a ++ [x])
    have := ih (d.step now ops cfg wr q x) (p.run now ops cfg wr (act d x))
      (by
        rw [drun_snoc, acts_snoc, Poller.run_append, ← hd, ← hp] at hs
        rw [hs]; exact ⟨rfl, rfl⟩) (a ++ [x]) (by rw [drun_snoc, hd]) (by rw [acts_snoc, Poller.run_append, ← hd, ← hp])
    rw [acts, Poller.readsMade_append, ← this]
    cases x with
    | io =>
      simp only [QuectelDemo.readsMade, act, Spec.Poller.readsMade, h.1, h.2]
      cases p.io <;> rfl
    | process => simp [QuectelDemo.readsMade, act, Spec.Poller.readsMade]
    | ctrlC => simp [QuectelDemo.readsMade, act, Spec.Poller.readsMade]
    | main =>
      simp only [QuectelDemo.readsMade, act]
      split
      · split <;> simp [Spec.Poller.readsMade]
      · simp [Spec.Poller.readsMade]

/-- The main thread: what is put and what is still to be. -/
theorem main_inv (s : σ) (sched : List DemoAct) (all : List Msg) (hall : sends now demoMain [] = some all) :
    let d := (QuectelDemo.start s).run now ops cfg wr q sched
    let p := puts (acts now ops cfg wr q (QuectelDemo.start s) sched)
    d.failed = false ∧ ∃ ms, sends now d.rest d.vars = some ms ∧ p ++ ms.map some <+: all.map some ∧
      (DemoAct.ctrlC ∉ sched → p ++ ms.map some = all.map some ∧ d.rest.length = demoMain.length - sched.count .main) := by
  induction sched using List.reverseRecOn with
  | nil => exact ⟨rfl, all, hall, by simp [acts, puts], fun _ => by simp [acts, puts, Demo.run, QuectelDemo.start]⟩
  | append_singleton a x ih =>
    simp only at ih ⊢
    rw [drun_snoc, acts_snoc, Poller.puts_append]
    generalize (QuectelDemo.start s).run now ops cfg wr q a = d at ih ⊢
    obtain ⟨h0, ms, h1, h2, h3⟩ := ih
    cases x with
    | io => exact ⟨h0, ms, h1, by simpa [act, puts] using h2, fun h => by
        simpa [act, puts, Demo.step, List.count_append, List.count_cons] using h3 (by simpa using h)⟩
    | process => exact ⟨h0, ms, h1, by simpa [act, puts] using h2, fun h => by
        simpa [act, puts, Demo.step, List.count_append, List.count_cons] using h3 (by simpa using h)⟩
    | ctrlC =>
      refine ⟨h0, [], rfl, ?_, fun h => absurd h (by simp)⟩
      simp only [act, puts, List.append_nil, List.map_nil]
      exact (List.prefix_append _ _).trans h2
    | main =>
      simp only [Demo.step, demoMainStep, act, List.mem_append, List.mem_singleton, reduceCtorEq, or_false,
        List.count_append, List.count_singleton, beq_self_eq_true, if_true]
      rcases hr : d.rest with _ | ⟨⟨x, id, mode, kw⟩ | x, r⟩
      · rw [hr] at h1 h3
        simp only [hr]
        refine ⟨h0, ms, h1, by simpa [puts] using h2, fun h => ?_⟩
        obtain ⟨h4, h5⟩ := h3 h
        refine ⟨by simpa [puts] using h4, ?_⟩
        simp only [List.length_nil] at h5 ⊢
        omega
      · rw [hr] at h1 h3
        simp only [sends] at h1
        split at h1
        · cases h1
        · rename_i m hm
          simp only [hm]
          refine ⟨h0, ms, h1, by simpa [puts] using h2, fun h => ?_⟩
          obtain ⟨h4, h5⟩ := h3 h
          refine ⟨by simpa [puts] using h4, ?_⟩
          simp only [List.length_cons] at h5
          omega
      · rw [hr] at h1 h3
        simp only [sends] at h1
        split at h1
        · cases h1
        · rename_i m hm
          obtain ⟨ms', h6, rfl⟩ := Option.map_eq_some_iff.1 h1
          simp only [hm]
          refine ⟨h0, ms', h6, by simpa [puts] using h2, fun h => ?_⟩
          obtain ⟨h4, h5⟩ := h3 h
          refine ⟨by simpa [puts] using h4, ?_⟩
          simp only [List.length_cons] at h5
          omega

/-! ## The theorems -/

theorem deliver_get (ms : List Msg) (bs : List Bytes) (h : ms.map Msg.serialize = bs.map Except.ok) (k : Nat) :
    (deliver wr k (ms.map some)).1.length = bs.length ∧ ∀ (j : Nat) (b : Bytes), bs[j]? = some b →
      (deliver wr k (ms.map some)).1[j]? = some (match wr (k + j) with | none => b | some n => b.take n) := by
  induction ms generalizing bs k with
  | nil =>
    cases bs with
    | nil => simp [deliver]
    | cons b bs => cases h
  | cons m ms ih =>
    cases bs with
    | nil => cases h
    | cons b bs =>
      simp only [List.map_cons, List.cons.injEq] at h
      obtain ⟨hm, hr⟩ := h
      have hd : ∃ x, delivery wr k (some m) = ([match wr k with | none => b | some n => b.take n], x) := by
        simp only [delivery, hm]
        cases wr k <;> exact ⟨_, rfl⟩
      obtain ⟨x, hd⟩ := hd
      obtain ⟨i1, i2⟩ := ih bs hr (k + 1)
      simp only [List.map_cons, deliver, hd]
      refine ⟨by simp [i1], ?_⟩
      intro j c hj
      cases j with
      | zero => simp only [List.getElem?_cons_zero, Option.some.injEq] at hj; subst hj; simp
      | succ j =>
        have := i2 j c (by simpa using hj)
        simpa [Nat.add_assoc, Nat.add_comm 1] using this

/-- Sending, whatever the schedule and whatever comes from the device: the writes made are the first ones of the list of
sentences, in order, each whole unless `write()` raised. The main thread never fails. -/
theorem C90_sending (s : σ) (sched : List DemoAct) :
    let d := (QuectelDemo.start s).run now ops cfg wr q sched
    d.failed = false ∧ d.threads.sent.length ≤ QuectelDemo.sentences.length ∧
      ∀ k b, k < d.threads.sent.length → QuectelDemo.sentences[k]? = some b →
        d.threads.sent[k]? = some (match wr k with | none => b | some n => b.take n) := by
  obtain ⟨all, h1, h2⟩ := demoMain_sends now
  obtain ⟨h0, ms, -, h4, -⟩ := main_inv (now := now) (ops := ops) (cfg := cfg) (wr := wr) (q := q) s sched all h1
  have hs := sim (now := now) (ops := ops) (cfg := cfg) (wr := wr) (q := q) s sched
  obtain ⟨hd, e1, e2, -⟩ := Poller.C85_sending (now := now) (ops := ops) (cfg := cfg) (wr := wr) s
    (acts now ops cfg wr q (QuectelDemo.start s) sched)
  simp only at h0 h4 ⊢
  rw [hs]
  simp only [thin]
  rw [e2]
  have hpre : hd <+: all.map some := by
    rw [e1, List.append_assoc, List.append_assoc] at h4
    exact (List.prefix_append _ _).trans h4
  obtain ⟨n, hn⟩ : ∃ n, hd = (all.take n).map some :=
    ⟨hd.length, by rw [List.map_take]; exact List.prefix_iff_eq_take.1 hpre⟩
  have hser : (all.take n).map Msg.serialize = (QuectelDemo.sentences.take n).map Except.ok := by
    rw [List.map_take, List.map_take, h2]
  obtain ⟨g1, g2⟩ := deliver_get (wr := wr) _ _ hser 0
  rw [hn, g1]
  refine ⟨h0, by simp, ?_⟩
  intro k b hk hb
  have := g2 k b (by rw [List.getElem?_take, if_pos (by rw [List.length_take] at hk; omega)]; exact hb)
  rw [Nat.zero_add] at this
  exact this

/-- If no write fails, the device got the first sentences of the list. -/
theorem C90_prefix (s : σ) (sched : List DemoAct) (hw : ∀ k, wr k = none) :
    ((QuectelDemo.start s).run now ops cfg wr q sched).threads.sent <+: QuectelDemo.sentences := by
  obtain ⟨-, h1, h2⟩ := C90_sending (now := now) (ops := ops) (cfg := cfg) (wr := wr) (q := q) s sched
  rw [List.prefix_iff_eq_take]
  apply List.ext_getElem?
  intro k
  by_cases hk : k < ((QuectelDemo.start s).run now ops cfg wr q sched).threads.sent.length
  · have hb := List.getElem?_eq_getElem (Nat.lt_of_lt_of_le hk h1)
    have := h2 k _ hk hb
    rw [hw k] at this
    rw [this, List.getElem?_take, if_pos hk, hb]
  · rw [List.getElem?_eq_none (by omega), List.getElem?_eq_none (by simp; omega)]

/-- Nothing sent configures a port, the satellites or the signals, although the program makes the messages that would:
they are not assigned, and the message before them is sent again. -/
theorem C90_not_configured (s : σ) (sched : List DemoAct) : ∀ b ∈ ((QuectelDemo.start s).run now ops cfg wr q sched).threads.sent,
    ∀ c ∈ [pb!"$PQTMCFGUART,W", pb!"$PQTMCFGSAT,W", pb!"$PQTMCFGSIGNAL,W"], ¬ c <+: b := by
  intro b hb c hc hcb
  obtain ⟨-, h1, h2⟩ := C90_sending (now := now) (ops := ops) (cfg := cfg) (wr := wr) (q := q) s sched
  obtain ⟨k, hk, rfl⟩ := List.getElem_of_mem hb
  have hx := List.getElem?_eq_getElem (Nat.lt_of_lt_of_le hk h1)
  have h3 := h2 k _ hk hx
  rw [List.getElem?_eq_getElem hk, Option.some.injEq] at h3
  have hno : ∀ x ∈ QuectelDemo.sentences, ∀ c ∈ [pb!"$PQTMCFGUART,W", pb!"$PQTMCFGSAT,W", pb!"$PQTMCFGSIGNAL,W"], ¬ c <+: x := by
    decide +kernel
  refine hno _ (List.getElem_mem (Nat.lt_of_lt_of_le hk h1)) c hc (hcb.trans ?_)
  rw [h3]
  split
  · exact List.prefix_refl _
  · exact List.take_prefix _ _

/-- ... they do get made. -/
theorem C90_made : ∀ x ∈ demoMain, ∀ id kw, x = .make none id 1 kw →
    ∃ m b, mkMsg now py!"P" id 1 false 1 [] none ⟨none, kw⟩ = .ok m ∧ m.serialize = .ok b ∧
      ∃ c ∈ [pb!"$PQTMCFGUART,W", pb!"$PQTMCFGSAT,W", pb!"$PQTMCFGSIGNAL,W"], c <+: b := by
  have key : demoMain.all (fun x => match x with
      | .make none id 1 kw => (match mkMsg clock0 py!"P" id 1 false 1 [] none ⟨none, kw⟩ with
        | .ok m => (match m.serialize with
          | .ok b => [pb!"$PQTMCFGUART,W", pb!"$PQTMCFGSAT,W", pb!"$PQTMCFGSIGNAL,W"].any (fun c => decide (c <+: b))
          | _ => false)
        | _ => false)
      | _ => true) = true := by decide +kernel
  rintro x hx id kw rfl
  have h1 := List.all_eq_true.1 key _ hx
  have h2 := List.all_eq_true.1 demoMain_clockless _ hx
  simp only at h1
  rw [mkMsg_clockless clock0 now _ _ _ _ h2] at h1
  split at h1
  · rename_i m hm
    split at h1
    · rename_i b hb
      refine ⟨m, b, hm, hb, ?_⟩
      simpa only [List.any_eq_true, decide_eq_true_eq] using h1
    · cases h1
  · cases h1

/-- Progress: if Ctrl-C is not pressed, once the main thread has executed its statements the I/O thread sends the
whole list in a bounded number of steps, two more for every read that raises. -/
theorem C90_complete (s : σ) (a b : List DemoAct) (hns : DemoAct.ctrlC ∉ a ++ b) (hm : demoMain.length ≤ a.count .main)
    (hb : 6 * (QuectelDemo.sentences.length + 1) +
      2 * raising (QuectelDemo.readsMade now ops cfg wr q ((QuectelDemo.start s).run now ops cfg wr q a) b) ≤ b.count .io)
    (hw : ∀ k, wr k = none) :
    ((QuectelDemo.start s).run now ops cfg wr q (a ++ b)).threads.sent = QuectelDemo.sentences := by
  obtain ⟨all, h1, h2⟩ := demoMain_sends now
  obtain ⟨-, ms, m1, -, m2⟩ := main_inv (now := now) (ops := ops) (cfg := cfg) (wr := wr) (q := q) s a all h1
  obtain ⟨-, ms', -, -, m4⟩ := main_inv (now := now) (ops := ops) (cfg := cfg) (wr := wr) (q := q) s (a ++ b) all h1
  have hna : DemoAct.ctrlC ∉ a := fun h => hns (List.mem_append_left _ h)
  obtain ⟨m5, m6⟩ := m2 hna
  obtain ⟨m7, -⟩ := m4 hns
  have hrest : ((QuectelDemo.start s).run now ops cfg wr q a).rest = [] := by
    rw [← List.length_eq_zero_iff, m6]; omega
  rw [hrest] at m1
  cases m1
  rw [List.map_nil, List.append_nil] at m5
  have hs := sim (now := now) (ops := ops) (cfg := cfg) (wr := wr) (q := q) s (a ++ b)
  rw [acts_append] at m7 hs
  set A := acts now ops cfg wr q (QuectelDemo.start s) a with hA
  set B := acts now ops cfg wr q ((QuectelDemo.start s).run now ops cfg wr q a) b with hB
  have hall : all.length = QuectelDemo.sentences.length := by
    have := congrArg List.length h2
    simpa using this
  have hq : (((Spec.Poller.start s).run now ops cfg wr A).sendq).length ≤ QuectelDemo.sentences.length := by
    obtain ⟨hd, e1, -⟩ := Poller.C85_sending (now := now) (ops := ops) (cfg := cfg) (wr := wr) s A
    have := congrArg List.length (e1.symm.trans m5)
    simp only [List.length_append, List.length_map] at this
    omega
  have hsa := sim (now := now) (ops := ops) (cfg := cfg) (wr := wr) (q := q) s a
  have hr := reads_made (now := now) (ops := ops) (cfg := cfg) (wr := wr) (q := q) s b _ _
    (by rw [hsa]; exact ⟨rfl, rfl⟩) a rfl rfl
  have c1 := counts (now := now) (ops := ops) (cfg := cfg) (wr := wr) (q := q) (QuectelDemo.start s) (a ++ b)
  have c2 := counts (now := now) (ops := ops) (cfg := cfg) (wr := wr) (q := q) ((QuectelDemo.start s).run now ops cfg wr q a) b
  rw [acts_append, ← hA, ← hB] at c1
  rw [← hB] at c2
  rw [hr, ← hA, ← hB] at hb
  obtain ⟨more, f1, f2⟩ := Poller.C85_sent (now := now) (ops := ops) (cfg := cfg) (wr := wr) s A B
    (fun h => hns (c1.2.2.1 h)) (by rw [c2.1]; omega)
  rw [hs]
  simp only [thin]
  rw [f2]
  have hmore : more = [] := by
    have e := congrArg List.length (m7.trans m5.symm)
    rw [← f1] at e
    simp only [List.length_append] at e
    exact List.length_eq_zero_iff.1 (by omega)
  rw [hmore, List.append_nil, m5]
  obtain ⟨g1, g2⟩ := deliver_get (wr := wr) _ _ h2 0
  apply List.ext_getElem?
  intro k
  by_cases hk : k < QuectelDemo.sentences.length
  · have hx := List.getElem?_eq_getElem hk
    have := g2 k _ hx
    rw [hw] at this
    rw [this, hx]
  · rw [List.getElem?_eq_none (by omega), List.getElem?_eq_none (by omega)]

/-- Printing, whatever the schedule: the reads made are the first reads of the stream, and what is printed are, in order,
the wanted ones among the messages read, but for those that are on their way. -/
theorem C90_printing (s : σ) (sched : List DemoAct) :
    let d := (QuectelDemo.start s).run now ops cfg wr q sched
    let made := QuectelDemo.readsMade now ops cfg wr q (QuectelDemo.start s) sched
    made = (reads now ops cfg made.length s).1 ∧ d.threads.stream = (reads now ops cfg made.length s).2.2 ∧
      (messages made).filter (QuectelDemo.wanted q) = d.threads.shown ++
        (unshown d.threads.pr ++ d.threads.readq.map Prod.snd ++ unqueued d.threads.io).filter (QuectelDemo.wanted q) := by
  have hs := sim (now := now) (ops := ops) (cfg := cfg) (wr := wr) (q := q) s sched
  obtain ⟨h1, h2, h3⟩ := Poller.C85_reading (now := now) (ops := ops) (cfg := cfg) (wr := wr) s
    (acts now ops cfg wr q (QuectelDemo.start s) sched)
  have hr := reads_made (now := now) (ops := ops) (cfg := cfg) (wr := wr) (q := q) s sched (QuectelDemo.start s)
    (Spec.Poller.start s) ⟨rfl, rfl⟩ [] rfl rfl
  simp only
  rw [hr, hs]
  refine ⟨h1, h2, ?_⟩
  rw [h3]
  simp [thin, List.filter_append]

/-- Progress of printing: without Ctrl-C, everything in the queue gets printed if it is wanted. -/
theorem C90_printed (s : σ) (a b : List DemoAct) (hns : DemoAct.ctrlC ∉ a ++ b)
    (hb : 5 * (((QuectelDemo.start s).run now ops cfg wr q a).threads.readq.length + 1) ≤ b.count .process) :
    let p := ((QuectelDemo.start s).run now ops cfg wr q a).threads
    ∃ more, ((QuectelDemo.start s).run now ops cfg wr q (a ++ b)).threads.shown =
      p.shown ++ (unshown p.pr ++ p.readq.map Prod.snd).filter (QuectelDemo.wanted q) ++ more := by
  have hsa := sim (now := now) (ops := ops) (cfg := cfg) (wr := wr) (q := q) s a
  have hs := sim (now := now) (ops := ops) (cfg := cfg) (wr := wr) (q := q) s (a ++ b)
  rw [acts_append] at hs
  have c1 := counts (now := now) (ops := ops) (cfg := cfg) (wr := wr) (q := q) (QuectelDemo.start s) (a ++ b)
  have c2 := counts (now := now) (ops := ops) (cfg := cfg) (wr := wr) (q := q) ((QuectelDemo.start s).run now ops cfg wr q a) b
  rw [acts_append] at c1
  rw [hsa] at hb
  obtain ⟨more, h⟩ := Poller.C85_printed (now := now) (ops := ops) (cfg := cfg) (wr := wr) s _ _
    (fun h => hns (c1.2.2.1 h)) (by rw [c2.2.1]; exact hb)
  refine ⟨more.filter (QuectelDemo.wanted q), ?_⟩
  rw [hs, hsa]
  simp only [thin]
  rw [h]
  simp [List.filter_append]

/-- Neither thread fails or waits at a queue: `task_done()` and `identity` do not raise. -/
theorem C90_queues (s : σ) (sched : List DemoAct) :
    let p := ((QuectelDemo.start s).run now ops cfg wr q sched).threads
    (p.io = .get → p.sendq ≠ []) ∧ (p.pr = .get → p.readq ≠ []) ∧ (p.io = .task → p.sendOpen ≠ 0) ∧ p.pr ≠ .died := by
  have hs := sim (now := now) (ops := ops) (cfg := cfg) (wr := wr) (q := q) s sched
  simp only
  rw [hs]
  exact Poller.C85_queues s _

/-- Once Ctrl-C is pressed both threads end: the I/O thread sends what is left in the queue first. Nothing is put any more. -/
theorem C90_stops (s : σ) (a b : List DemoAct) (ha : DemoAct.ctrlC ∈ a) :
    (5 ≤ b.count .process → ((QuectelDemo.start s).run now ops cfg wr q (a ++ b)).threads.pr = .ended) ∧
    (4 + 4 * ((QuectelDemo.start s).run now ops cfg wr q a).threads.sendq.length ≤ b.count .io →
      ((QuectelDemo.start s).run now ops cfg wr q (a ++ b)).threads.io = .ended) := by
  have hsa := sim (now := now) (ops := ops) (cfg := cfg) (wr := wr) (q := q) s a
  have hs := sim (now := now) (ops := ops) (cfg := cfg) (wr := wr) (q := q) s (a ++ b)
  rw [acts_append] at hs
  have c1 := counts (now := now) (ops := ops) (cfg := cfg) (wr := wr) (q := q) (QuectelDemo.start s) a
  have c2 := counts (now := now) (ops := ops) (cfg := cfg) (wr := wr) (q := q) ((QuectelDemo.start s).run now ops cfg wr q a) b
  have hrest : ∀ (d : Demo σ) (c : List DemoAct), (d.rest = [] ∨ DemoAct.ctrlC ∈ c) → (d.run now ops cfg wr q c).rest = [] := by
    intro d c
    induction c generalizing d with
    | nil => intro h; simpa [Demo.run] using h
    | cons x c ih =>
      intro h
      rw [drun_cons]
      apply ih
      cases x with
      | ctrlC => exact .inl rfl
      | io => simpa [Demo.step] using h
      | process => simpa [Demo.step] using h
      | main =>
        rcases h with h | h
        · left; simp [Demo.step, demoMainStep, h]
        · right; simpa using h
  have hput : puts (acts now ops cfg wr q ((QuectelDemo.start s).run now ops cfg wr q a) b) = [] := by
    have h := hrest (QuectelDemo.start s) a (.inr ha)
    generalize (QuectelDemo.start s).run now ops cfg wr q a = d at h
    clear hsa hs c1 c2
    induction b generalizing d with
    | nil => rfl
    | cons x b ih =>
      rw [acts, Poller.puts_append, ih (d.step now ops cfg wr q x) (hrest d [x] (.inl h))]
      cases x <;> simp [act, h, puts]
  rw [hs, hsa]
  constructor
  · intro h
    exact Poller.C85_process_stops s _ _ (c1.2.2.2 ha) (by rw [c2.2.1]; exact h)
  · intro h
    exact Poller.C85_io_stops s _ _ (c1.2.2.2 ha) hput (by rw [c2.1]; exact h)

/-! ## Examples -/

theorem raising_nothing (n : Nat) : raising (reads clock0 fileStream Poller.cfg0 n []).1 = 0 ∧
    (reads clock0 fileStream Poller.cfg0 n []).2.2 = [] := by
  obtain ⟨_, _, h⟩ := Poller.read_gll
  induction n with
  | zero => exact ⟨rfl, rfl⟩
  | succ n ih => simp only [reads, h, raising, ih, and_self]

/-- The hypotheses of `C90_complete` are met: a device that says nothing gets all the sentences. -/
example : ((QuectelDemo.start []).run clock0 fileStream Poller.cfg0 (fun _ => none) true
    (List.replicate 100 .main ++ List.replicate 300 .io)).threads.sent = QuectelDemo.sentences := by
  refine C90_complete [] _ _ (by decide) (by decide +kernel) ?_ (fun _ => rfl)
  have hsa := sim (now := clock0) (ops := fileStream) (cfg := Poller.cfg0) (wr := fun _ => none) (q := true) ([] : Bytes) (List.replicate 100 .main)
  rw [reads_made (now := clock0) (ops := fileStream) (cfg := Poller.cfg0) (wr := fun _ => none) (q := true) ([] : Bytes) _ _ _
    (by rw [hsa]; exact ⟨rfl, rfl⟩) (List.replicate 100 .main) rfl rfl,
    (Poller.reads_made (now := clock0) (ops := fileStream) (cfg := Poller.cfg0) (wr := fun _ => none) _ _).2,
    (Poller.C85_reading (now := clock0) (ops := fileStream) (cfg := Poller.cfg0) (wr := fun _ => none) ([] : Bytes) _).2.1,
    (raising_nothing _).2, (raising_nothing _).1]
  decide +kernel

/-- With `qtmonly` a `GLL` message is read and not printed; without it is. -/
example : ∃ m, ∀ q, ((QuectelDemo.start gll).run clock0 fileStream Poller.cfg0 (fun _ => none) q
      ([.io, .io, .io] ++ List.replicate 4 .process)).threads.shown = if q then [] else [m] := by
  obtain ⟨m, h1, -⟩ := Poller.read_gll
  have hid : m.identity = .ok py!"GNGLL" := by
    have hp := Web.readMsg_item (now := clock0) (ops := fileStream) (cfg := Poller.cfg0) gll gll (some m) (by rw [h1])
    have : acceptedWith (fun m => m.identity == .ok py!"GNGLL") (parse clock0 (.bytes gll) 0 1 []) = true := by decide +kernel
    unfold acceptedWith at this
    simp only [Poller.cfg0] at hp
    rw [hp] at this
    simpa using this
  have hq : ¬ py!"QTM" <:+: py!"GNGLL" := by decide
  refine ⟨m, fun q => ?_⟩
  cases q <;> simp [Demo.run, Demo.step, QuectelDemo.start, ioStep, demoProcessStep, h1, hid, hq, List.replicate]

end Props.QuectelDemo
