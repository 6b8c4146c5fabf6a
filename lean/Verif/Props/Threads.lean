import Verif.Model.Threads
import Verif.Spec.Framing
/-!
# C78: several threads and one reader
-/
namespace Props
open Py Nmea Spec

section
variable {σ : Type}

/-! ## The machine and `read()` -/

/-- What the loop of `read()` makes of the outcome of one pass. -/
private def afterStep (now : Nat → DateTime) (ops : StreamOps σ) (cfg : RCfg) : Event × σ → ReadResult × List Err × σ
  | (.eof, s') => (.none, [], s')
  | (.msg raw m, s') => (.item raw m, [], s')
  | (.crash e, s') => (.raised e, [], s')
  | (.skip, s') => readMsg now ops cfg s'
  | (.err e, s') =>
    if cfg.quitonerror = 2 then (.raised e, [], s')
    else ((readMsg now ops cfg s').1, (if cfg.quitonerror = 1 then [e] else []) ++ (readMsg now ops cfg s').2.1,
      (readMsg now ops cfg s').2.2)

private theorem readMsg_afterStep (now : Nat → DateTime) (ops : StreamOps σ) (cfg : RCfg) (s : σ) :
    readMsg now ops cfg s = afterStep now ops cfg (step now ops cfg s) := by
  conv => lhs; rw [readMsg]
  generalize step now ops cfg s = e
  obtain ⟨e, s'⟩ := e
  cases e <;> simp only [afterStep]
  split
  · rfl
  · split <;> simp

/-- What the rest of a call returns. -/
private def rest (now : Nat → DateTime) (ops : StreamOps σ) (cfg : RCfg) (s : σ) : At → ReadResult × List Err × σ
  | .first => readMsg now ops cfg s
  | .second => afterStep now ops cfg <|
    let (byte2, s2) := ops.read1 s
    if byte2 = [] then (.eof, s2)
    else if pb!"$" ++ byte2 ∈ NMEA_HDR then
      match readLine ops s2 with
      | (.error .eof, s3) => (.eof, s3)
      | (.error e, s3) => (.err e, s3)
      | (.ok byten, s3) =>
        let raw := pb!"$" ++ byte2 ++ byten
        match parse now (.bytes raw) cfg.mode cfg.validate cfg.udefs with
        | .ok m => (.msg raw m, s3)
        | .error .nmeaMessage => (.err .nmeaMessage, s3)
        | .error .nmeaType => (.err .nmeaType, s3)
        | .error .nmeaParse => (.err .nmeaParse, s3)
        | .error .nmeaStream => (.err .nmeaStream, s3)
        | .error e => (.crash e, s3)
    else if cfg.nmeaonly then (.err .nmeaParse, s2)
    else (.skip, s2)
  | .line byte2 => afterStep now ops cfg <|
      match readLine ops s with
      | (.error .eof, s3) => (.eof, s3)
      | (.error e, s3) => (.err e, s3)
      | (.ok byten, s3) =>
        let raw := pb!"$" ++ byte2 ++ byten
        match parse now (.bytes raw) cfg.mode cfg.validate cfg.udefs with
        | .ok m => (.msg raw m, s3)
        | .error .nmeaMessage => (.err .nmeaMessage, s3)
        | .error .nmeaType => (.err .nmeaType, s3)
        | .error .nmeaParse => (.err .nmeaParse, s3)
        | .error .nmeaStream => (.err .nmeaStream, s3)
        | .error e => (.crash e, s3)

/-- What a tick says about the rest of the call. -/
private def Fits (now : Nat → DateTime) (ops : StreamOps σ) (cfg : RCfg) (s' : σ) (k : Tick) (r : ReadResult × List Err × σ) : Prop :=
  match k with
  | .go pc es => r = ((rest now ops cfg s' pc).1, es ++ (rest now ops cfg s' pc).2.1, (rest now ops cfg s' pc).2.2)
  | .ret x => r = (x, [], s')

private theorem fits_error (now : Nat → DateTime) (ops : StreamOps σ) (cfg : RCfg) (s' : σ) (e : Err) :
    Fits now ops cfg s' (tickError cfg e) (afterStep now ops cfg (.err e, s')) := by
  unfold tickError
  split
  · rename_i h; simp [Fits, afterStep, h]
  · rename_i h; simp [Fits, afterStep, h, rest]

private theorem tick_fits (now : Nat → DateTime) (ops : StreamOps σ) (cfg : RCfg) (pc : At) (s : σ) :
    Fits now ops cfg (tick now ops cfg pc s).2.2 (tick now ops cfg pc s).1 (rest now ops cfg s pc) := by
  cases pc with
  | first =>
    simp only [tick, rest]
    rw [readMsg_afterStep]
    simp only [step]
    split
    · simp [Fits, afterStep]
    · split
      · rename_i h1 h2
        simp [Fits, afterStep, rest]
      · rename_i h1 h2
        simp only [Fits, rest]
        simp only [ne_eq, Decidable.not_not] at h2
        simp only [h2, List.nil_append]
        rfl
  | second =>
    simp only [tick, rest]
    split
    · simp [Fits, afterStep]
    · split
      · simp [Fits, rest]
      · split
        · exact fits_error ..
        · simp [Fits, afterStep, rest]
  | line b2 =>
    simp only [tick, rest, readLine]
    split
    · simp [Fits, afterStep]
    · split
      · exact fits_error ..
      · simp only []
        generalize hp : parse now (.bytes (pb!"$" ++ b2 ++ (ops.readline s).1)) cfg.mode cfg.validate cfg.udefs = pr
        cases pr with
        | ok m => simp [Fits, afterStep]
        | error e => cases e <;> first | exact fits_error .. | simp [Fits, afterStep]

/-! ## With a lock -/

private def restReads (now : Nat → DateTime) (ops : StreamOps σ) (cfg : RCfg) (s : σ) (pc : At) :
    Nat → List ReadResult × List Err × σ
  | 0 => ([], [], s)
  | n + 1 =>
    let r := rest now ops cfg s pc
    let q := reads now ops cfg n r.2.2
    (r.1 :: q.1, r.2.1 ++ q.2.1, q.2.2)

private theorem restReads_first (now : Nat → DateTime) (ops : StreamOps σ) (cfg : RCfg) (s : σ) (n : Nat) :
    restReads now ops cfg s .first n = reads now ops cfg n s := by
  cases n <;> rfl

private def pcOf : Option (Nat × At) → At
  | none => .first
  | some (_, pc) => pc

private theorem locked_core (now : Nat → DateTime) (ops : StreamOps σ) (cfg : RCfg) (sched : List Nat) :
    ∀ (h0 : Option (Nat × At)) (s : σ), ∃ n,
      (returned (locked now ops cfg sched h0 s).1).map Prod.snd = (restReads now ops cfg s (pcOf h0) n).1 ∧
      ((locked now ops cfg sched h0 s).2.1 = none →
        (h0 = none ∨ 1 ≤ n) ∧
        reportedIn (locked now ops cfg sched h0 s).1 = (restReads now ops cfg s (pcOf h0) n).2.1 ∧
        (locked now ops cfg sched h0 s).2.2 = (restReads now ops cfg s (pcOf h0) n).2.2) ∧
      reportedIn (locked now ops cfg sched h0 s).1 <+: (restReads now ops cfg s (pcOf h0) (n + 1)).2.1 := by
  induction sched with
  | nil =>
    intro h0 s
    refine ⟨0, rfl, ?_, List.nil_prefix⟩
    intro h
    exact ⟨.inl h, rfl, rfl⟩
  | cons t sched ih =>
    intro h0 s
    have main : ∀ pc, pcOf h0 = pc → (∀ t' pc', h0 = some (t', pc') → t' = t) → ∃ n,
      (returned (locked now ops cfg (t :: sched) h0 s).1).map Prod.snd = (restReads now ops cfg s pc n).1 ∧
      ((locked now ops cfg (t :: sched) h0 s).2.1 = none →
        (h0 = none ∨ 1 ≤ n) ∧
        reportedIn (locked now ops cfg (t :: sched) h0 s).1 = (restReads now ops cfg s pc n).2.1 ∧
        (locked now ops cfg (t :: sched) h0 s).2.2 = (restReads now ops cfg s pc n).2.2) ∧
      reportedIn (locked now ops cfg (t :: sched) h0 s).1 <+: (restReads now ops cfg s pc (n + 1)).2.1 := by
      intro pc hpc hown
      have hpick : turn t h0 = some pc := by
        cases h0 with
        | none => simpa [pcOf, turn] using hpc
        | some x =>
          obtain ⟨t', pc'⟩ := x
          have := hown t' pc' rfl
          subst this
          simpa [pcOf, turn] using hpc
      have hf := tick_fits now ops cfg pc s
      simp only [locked, hpick]
      generalize tick now ops cfg pc s = tk at hf ⊢
      obtain ⟨k, b, s'⟩ := tk
      cases k with
      | go pc' es =>
        simp only [Fits] at hf
        obtain ⟨n, h1, h2, h3⟩ := ih (some (t, pc')) s'
        simp only [pcOf] at h1 h2 h3
        refine ⟨n, ?_, ?_, ?_⟩
        · simp only [returned, List.filterMap_cons] at h1 ⊢
          rw [h1]
          cases n with
          | zero => rfl
          | succ n => simp only [restReads, hf]
        · intro hn
          obtain ⟨g1, g2, g3⟩ := h2 hn
          have hn1 : 1 ≤ n := by simpa using g1
          obtain ⟨n', rfl⟩ : ∃ n', n = n' + 1 := ⟨n - 1, by omega⟩
          refine ⟨.inr hn1, ?_, ?_⟩
          · simp only [reportedIn, List.flatMap_cons] at g2 ⊢
            rw [g2]
            simp only [restReads, hf, List.append_assoc]
          · rw [g3]; simp only [restReads, hf]
        · simp only [reportedIn, List.flatMap_cons] at h3 ⊢
          simp only [restReads, hf, List.append_assoc] at h3 ⊢
          exact (List.prefix_append_right_inj _).2 h3
      | ret r =>
        simp only [Fits] at hf
        obtain ⟨n, h1, h2, h3⟩ := ih none s'
        simp only [pcOf, restReads_first] at h1 h2 h3
        refine ⟨n + 1, ?_, ?_, ?_⟩
        · simp only [returned, List.filterMap_cons, List.map_cons] at h1 ⊢
          rw [h1]; simp only [restReads, hf]
        · intro hn
          obtain ⟨-, g2, g3⟩ := h2 hn
          refine ⟨.inr (by omega), ?_, ?_⟩
          · simp only [reportedIn, List.flatMap_cons] at g2 ⊢
            rw [g2]; simp [restReads, hf]
          · rw [g3]; simp [restReads, hf]
        · simp only [reportedIn, List.flatMap_cons] at h3 ⊢
          rw [restReads]
          simpa [hf] using h3
    cases h0 with
    | none => exact main _ rfl (by simp)
    | some x =>
      obtain ⟨t', pc'⟩ := x
      by_cases ht : t' = t
      · exact main _ rfl (by rintro a b h; cases h; exact ht)
      · simp only [locked, turn, if_neg ht]
        exact ih _ _

/-- With a lock, whatever the schedule: the results of the calls, in the order in which they end and taken over
all threads, are those of one thread calling `read()` as often, and so are the errors reported and the stream
left behind whenever no call is in progress; the errors reported so far are always the beginning of those that
one thread would see. So every sentence goes to exactly one thread, none is lost or changed. -/
theorem C78_locked (now : Nat → DateTime) (ops : StreamOps σ) (cfg : RCfg) (sched : List Nat) (s : σ) : ∃ n,
    (returned (locked now ops cfg sched none s).1).map Prod.snd = (reads now ops cfg n s).1 ∧
    ((locked now ops cfg sched none s).2.1 = none →
      reportedIn (locked now ops cfg sched none s).1 = (reads now ops cfg n s).2.1 ∧
      (locked now ops cfg sched none s).2.2 = (reads now ops cfg n s).2.2) ∧
    reportedIn (locked now ops cfg sched none s).1 <+: (reads now ops cfg (n + 1) s).2.1 := by
  obtain ⟨n, h1, h2, h3⟩ := locked_core now ops cfg sched none s
  simp only [pcOf, restReads_first] at h1 h2 h3
  exact ⟨n, h1, fun h => (h2 h).2, h3⟩

private def rank : At → Nat
  | .line _ => 1
  | _ => 0

private theorem tick_dec (now : Nat → DateTime) (ops : StreamOps σ) (cfg : RCfg) (pc pc' : At) (es : List Err) (s : σ)
    (h : (tick now ops cfg pc s).1 = .go pc' es) :
    ops.rel.rel (tick now ops cfg pc s).2.2 s ∨ ((tick now ops cfg pc s).2.2 = s ∧ rank pc' < rank pc) := by
  cases pc with
  | first =>
    left
    have hd := ops.read1_dec s
    simp only [tick] at h ⊢
    apply hd
    intro h0
    simp [h0] at h
  | second =>
    left
    have hd := ops.read1_dec s
    simp only [tick] at h ⊢
    apply hd
    intro h0
    simp [h0] at h
  | line b2 =>
    have hd := ops.readline_dec s
    have hf : pc' = .first := by
      have herr : ∀ e, tickError cfg e = .go pc' es → pc' = .first := by
        intro e he
        unfold tickError at he
        split at he
        · simp at he
        · simp only [Tick.go.injEq] at he; exact he.1.symm
      simp only [tick] at h
      split at h
      · simp at h
      · split at h
        · exact herr _ h
        · split at h <;> first | exact herr _ h | simp at h
    subst hf
    simp only [tick]
    rcases hd with h | h
    · exact .inr ⟨h, by simp [rank]⟩
    · exact .inl h

private theorem progress_core (now : Nat → DateTime) (ops : StreamOps σ) (cfg : RCfg) (t : Nat) (s : σ) :
    ∀ (r : Nat) (pc : At), rank pc = r → ∃ k, ∀ sched : List Nat, k ≤ sched.count t →
      returned (locked now ops cfg sched (some (t, pc)) s).1 ≠ [] := by
  induction s using ops.rel.wf.induction with
  | _ s ihs =>
    intro r
    induction r using Nat.strongRecOn with
    | _ r ihr =>
      intro pc hr
      have next : ∃ k, ∀ pc' es, (tick now ops cfg pc s).1 = .go pc' es → ∀ sched : List Nat, k ≤ sched.count t →
          returned (locked now ops cfg sched (some (t, pc')) (tick now ops cfg pc s).2.2).1 ≠ [] := by
        cases hk : (tick now ops cfg pc s).1 with
        | ret x => exact ⟨0, by simp⟩
        | go pc' es =>
          rcases tick_dec now ops cfg pc pc' es s hk with h | ⟨h, hlt⟩
          · obtain ⟨k, hk⟩ := ihs _ h _ pc' rfl
            refine ⟨k, ?_⟩
            intro pc'' es' he
            simp only [Tick.go.injEq] at he
            rw [← he.1]; exact hk
          · obtain ⟨k, hk⟩ := ihr _ (hr ▸ hlt) pc' rfl
            refine ⟨k, ?_⟩
            intro pc'' es' he
            simp only [Tick.go.injEq] at he
            rw [← he.1, h]; exact hk
      obtain ⟨k, hk⟩ := next
      refine ⟨k + 1, ?_⟩
      intro sched
      induction sched with
      | nil => simp
      | cons u sched ih =>
        intro hc
        by_cases hu : u = t
        · subst hu
          simp only [List.count_cons_self] at hc
          simp only [locked, turn, if_true]
          cases htk : (tick now ops cfg pc s).1 with
          | ret x => simp [returned]
          | go pc' es =>
            have := hk pc' es htk sched (by omega)
            simpa [returned] using this
        · rw [List.count_cons_of_ne (by simpa using hu)] at hc
          simp only [locked, turn, if_neg (Ne.symm hu)]
          exact ih hc

/-- Progress: for every stream there is a number of operations after which a call that has got the lock ends,
however the other threads are scheduled in between. -/
theorem C78_progress (now : Nat → DateTime) (ops : StreamOps σ) (cfg : RCfg) (t : Nat) (s : σ) :
    ∃ k, ∀ sched : List Nat, k ≤ sched.count t → returned (locked now ops cfg (t :: sched) none s).1 ≠ [] := by
  obtain ⟨k, hk⟩ := progress_core now ops cfg t s _ .first rfl
  refine ⟨k, ?_⟩
  intro sched hc
  have := hk (t :: sched) (by rw [List.count_cons_self]; omega)
  simpa [locked, turn] using this

/-! ## Without a lock -/

/-- The raw sentences returned to thread `t`. -/
def rawsOf (t : Nat) (hs : List Happening) : List Bytes :=
  (returned hs).filterMap fun x => match x with
    | (t', .item raw _) => if t' = t then some raw else none
    | _ => none

/-- The bytes the operations of thread `t` got from the stream. -/
def bytesOf (t : Nat) (hs : List Happening) : Bytes :=
  (hs.filter fun h => h.thread = t).flatMap Happening.bytes

private theorem race_cons (now : Nat → DateTime) (ops : StreamOps σ) (cfg : RCfg) (t : Nat) (sched : List Nat)
    (pcs : Nat → At) (s : σ) : ∃ next pcs', pcs' = (fun i => if i = t then next else pcs i) ∧
      (∀ pc es, (tick now ops cfg (pcs t) s).1 = .go pc es → next = pc) ∧
      (∀ r, (tick now ops cfg (pcs t) s).1 = .ret r → next = .first) ∧
      race now ops cfg (t :: sched) pcs s =
        (⟨t, (tick now ops cfg (pcs t) s).2.1, (tick now ops cfg (pcs t) s).1⟩ ::
            (race now ops cfg sched pcs' (tick now ops cfg (pcs t) s).2.2).1,
          (race now ops cfg sched pcs' (tick now ops cfg (pcs t) s).2.2).2) := by
  refine ⟨(tick now ops cfg (pcs t) s).1.next, _, rfl, ?_, ?_, rfl⟩
  · intro pc es h; rw [h]; rfl
  · intro r h; rw [h]; rfl

/-- What a call has got so far of a sentence. -/
private def pending : At → Bytes
  | .first => []
  | .second => pb!"$"
  | .line b2 => pb!"$" ++ b2

private def GoodAt : At → Prop
  | .line b2 => pb!"$" ++ b2 ∈ NMEA_HDR
  | _ => True

private theorem tickError_cases (cfg : RCfg) (e : Err) :
    tickError cfg e = .ret (.raised e) ∨ ∃ es, tickError cfg e = .go .first es := by
  unfold tickError
  split
  · exact .inl rfl
  · exact .inr ⟨_, rfl⟩

private theorem tick_go (now : Nat → DateTime) (ops : StreamOps σ) (cfg : RCfg) (pc pc' : At) (es : List Err) (s : σ)
    (h : (tick now ops cfg pc s).1 = .go pc' es) :
    GoodAt pc' ∧ (pending pc').Sublist (pending pc ++ (tick now ops cfg pc s).2.1) := by
  have herr : ∀ e, tickError cfg e = .go pc' es → pc' = .first := by
    intro e he
    rcases tickError_cases cfg e with h | ⟨es', h⟩
    · rw [h] at he; simp at he
    · rw [h] at he; simp only [Tick.go.injEq] at he; exact he.1.symm
  cases pc with
  | first =>
    simp only [tick] at h ⊢
    split at h
    · simp at h
    · split at h <;> simp only [Tick.go.injEq] at h <;> rw [← h.1]
      · simp [GoodAt, pending]
      · rename_i h1; simp only [ne_eq, Decidable.not_not] at h1; simp [GoodAt, pending, h1]
  | second =>
    simp only [tick] at h ⊢
    split at h
    · simp at h
    · split at h
      · rename_i hh
        simp only [Tick.go.injEq] at h; rw [← h.1]
        exact ⟨hh, by simp [pending]⟩
      · split at h
        · rw [herr _ h]; simp [GoodAt, pending]
        · simp only [Tick.go.injEq] at h; rw [← h.1]; simp [GoodAt, pending]
  | line b2 =>
    have : pc' = .first := by
      simp only [tick] at h
      split at h
      · simp at h
      · split at h
        · exact herr _ h
        · split at h <;> first | exact herr _ h | simp at h
    rw [this]; simp [GoodAt, pending]

private theorem tick_item (now : Nat → DateTime) (ops : StreamOps σ) (cfg : RCfg) (pc : At) (s : σ) (raw : Bytes) (m : Option Msg)
    (h : (tick now ops cfg pc s).1 = .ret (.item raw m)) :
    ∃ b2, pc = .line b2 ∧ raw = pb!"$" ++ b2 ++ (tick now ops cfg pc s).2.1 ∧
      (tick now ops cfg pc s).2.1.getLast? = some 10 ∧
      parse now (.bytes raw) cfg.mode cfg.validate cfg.udefs = .ok m := by
  have herr : ∀ e, tickError cfg e ≠ .ret (.item raw m) := by
    intro e he
    rcases tickError_cases cfg e with h | ⟨es', h⟩ <;> rw [h] at he <;> simp at he
  cases pc with
  | first =>
    simp only [tick] at h
    split at h
    · simp at h
    · split at h <;> simp at h
  | second =>
    simp only [tick] at h
    split at h
    · simp at h
    · split at h
      · simp at h
      · split at h
        · exact absurd h (herr _)
        · simp at h
  | line b2 =>
    refine ⟨b2, rfl, ?_⟩
    simp only [tick] at h ⊢
    split at h
    · simp at h
    · split at h
      · exact absurd h (herr _)
      · rename_i hl
        simp only [ne_eq, Decidable.not_not] at hl
        split at h
        · rename_i hp
          simp only [Tick.ret.injEq, ReadResult.item.injEq] at h
          rw [← h.1, ← h.2]
          exact ⟨rfl, hl, hp⟩
        all_goals first | exact absurd h (herr _) | simp at h

private theorem race_valid_core (now : Nat → DateTime) (ops : StreamOps σ) (cfg : RCfg) (sched : List Nat) :
    ∀ (pcs : Nat → At) (s : σ), (∀ t, GoodAt (pcs t)) →
      ∀ t raw m, (t, ReadResult.item raw m) ∈ returned (race now ops cfg sched pcs s).1 →
        parse now (.bytes raw) cfg.mode cfg.validate cfg.udefs = .ok m ∧
        ∃ byte2 line, raw = pb!"$" ++ byte2 ++ line ∧ pb!"$" ++ byte2 ∈ NMEA_HDR ∧ line.getLast? = some 10 := by
  induction sched with
  | nil => intro pcs s _ t raw m h; simp [race, returned] at h
  | cons u sched ih =>
    intro pcs s hg t raw m h
    obtain ⟨next, pcs', hp, h1, h2, hr⟩ := race_cons now ops cfg u sched pcs s
    have hg' : ∀ i, GoodAt (pcs' i) := by
      intro i
      rw [hp]
      simp only
      split
      · cases hk : (tick now ops cfg (pcs u) s).1 with
        | go pc es => rw [h1 _ _ hk]; exact (tick_go now ops cfg _ _ _ _ hk).1
        | ret r => rw [h2 _ hk]; trivial
      · exact hg i
    rw [hr] at h
    simp only [returned, List.filterMap_cons] at h
    cases hk : (tick now ops cfg (pcs u) s).1 with
    | go pc es =>
      rw [hk] at h
      exact ih _ _ hg' t raw m h
    | ret r =>
      rw [hk] at h
      simp only [List.mem_cons, Prod.mk.injEq] at h
      rcases h with ⟨-, h⟩ | h
      · rw [← h] at hk
        obtain ⟨b2, hb, hraw, hl, hpa⟩ := tick_item now ops cfg _ _ _ _ hk
        have := hg u
        rw [hb] at this
        exact ⟨hpa, b2, _, hraw, this, hl⟩
      · exact ih _ _ hg' t raw m h

/-- Even without a lock and whatever the schedule, every message returned is the one `parse` makes of the raw
data returned with it, with the validation asked for, and the raw data are a header and a complete line. -/
theorem C78_race_valid (now : Nat → DateTime) (ops : StreamOps σ) (cfg : RCfg) (sched : List Nat) (s : σ)
    (t : Nat) (raw : Bytes) (m : Option Msg)
    (h : (t, ReadResult.item raw m) ∈ returned (race now ops cfg sched (fun _ => .first) s).1) :
    parse now (.bytes raw) cfg.mode cfg.validate cfg.udefs = .ok m ∧
      ∃ byte2 line, raw = pb!"$" ++ byte2 ++ line ∧ pb!"$" ++ byte2 ∈ NMEA_HDR ∧ line.getLast? = some 10 :=
  race_valid_core now ops cfg sched (fun _ => .first) s (fun _ => trivial) t raw m h

private theorem race_bytes_core (now : Nat → DateTime) (ops : StreamOps σ) (cfg : RCfg) (sched : List Nat) (t : Nat) :
    ∀ (pcs : Nat → At) (s : σ), ((rawsOf t (race now ops cfg sched pcs s).1).flatten).Sublist
      (pending (pcs t) ++ bytesOf t (race now ops cfg sched pcs s).1) := by
  induction sched with
  | nil => intro pcs s; simp [race, rawsOf, returned]
  | cons u sched ih =>
    intro pcs s
    obtain ⟨next, pcs', hp, h1, h2, hr⟩ := race_cons now ops cfg u sched pcs s
    have := ih pcs' (tick now ops cfg (pcs u) s).2.2
    rw [hr]
    by_cases hu : u = t
    · subst hu
      have hnext : pcs' u = next := by rw [hp]; simp
      rw [hnext] at this
      have hb : bytesOf u (⟨u, (tick now ops cfg (pcs u) s).2.1, (tick now ops cfg (pcs u) s).1⟩ ::
            (race now ops cfg sched pcs' (tick now ops cfg (pcs u) s).2.2).1) =
          (tick now ops cfg (pcs u) s).2.1 ++ bytesOf u (race now ops cfg sched pcs' (tick now ops cfg (pcs u) s).2.2).1 := by
        simp [bytesOf]
      rw [hb, ← List.append_assoc]
      cases hk : (tick now ops cfg (pcs u) s).1 with
      | go pc es =>
        have hg := (tick_go now ops cfg _ _ _ _ hk).2
        rw [h1 _ _ hk] at this
        have e : rawsOf u (⟨u, (tick now ops cfg (pcs u) s).2.1, .go pc es⟩ ::
            (race now ops cfg sched pcs' (tick now ops cfg (pcs u) s).2.2).1) =
          rawsOf u (race now ops cfg sched pcs' (tick now ops cfg (pcs u) s).2.2).1 := by
          simp [rawsOf, returned]
        rw [e]
        exact this.trans (hg.append (List.Sublist.refl _))
      | ret r =>
        rw [h2 _ hk] at this
        simp only [pending, List.nil_append] at this
        cases r with
        | item raw m =>
          obtain ⟨b2, hb, hraw, -, -⟩ := tick_item now ops cfg _ _ _ _ hk
          have e : rawsOf u (⟨u, (tick now ops cfg (pcs u) s).2.1, .ret (.item raw m)⟩ ::
              (race now ops cfg sched pcs' (tick now ops cfg (pcs u) s).2.2).1) =
            raw :: rawsOf u (race now ops cfg sched pcs' (tick now ops cfg (pcs u) s).2.2).1 := by
            simp [rawsOf, returned]
          rw [e, List.flatten_cons]
          refine List.Sublist.append ?_ this
          have : pending (pcs u) ++ (tick now ops cfg (pcs u) s).2.1 = raw := by rw [hraw]; rw [hb]; rfl
          rw [this]; exact List.Sublist.refl _
        | none =>
          have e : rawsOf u (⟨u, (tick now ops cfg (pcs u) s).2.1, .ret .none⟩ ::
              (race now ops cfg sched pcs' (tick now ops cfg (pcs u) s).2.2).1) =
            rawsOf u (race now ops cfg sched pcs' (tick now ops cfg (pcs u) s).2.2).1 := by
            simp [rawsOf, returned]
          rw [e]
          exact this.trans (List.sublist_append_right _ _)
        | raised x =>
          have e : rawsOf u (⟨u, (tick now ops cfg (pcs u) s).2.1, .ret (.raised x)⟩ ::
              (race now ops cfg sched pcs' (tick now ops cfg (pcs u) s).2.2).1) =
            rawsOf u (race now ops cfg sched pcs' (tick now ops cfg (pcs u) s).2.2).1 := by
            simp [rawsOf, returned]
          rw [e]
          exact this.trans (List.sublist_append_right _ _)
    · have hother : pcs' t = pcs t := by rw [hp]; simp [Ne.symm hu]
      rw [hother] at this
      have hb : ∀ b k hs, bytesOf t (⟨u, b, k⟩ :: hs) = bytesOf t hs := by
        intro b k hs; simp [bytesOf, hu]
      have hw : ∀ b k hs, rawsOf t (⟨u, b, k⟩ :: hs) = rawsOf t hs := by
        intro b k hs
        cases k with
        | go pc es => simp [rawsOf, returned]
        | ret r => cases r <;> simp [rawsOf, returned, hu]
      rw [hb, hw]
      exact this

/-- Without a lock, the raw data returned to a thread consist, in order, of bytes its own operations got from
the stream. -/
theorem C78_race_own_bytes (now : Nat → DateTime) (ops : StreamOps σ) (cfg : RCfg) (sched : List Nat) (s : σ) (t : Nat) :
    ((rawsOf t (race now ops cfg sched (fun _ => .first) s).1).flatten).Sublist
      (bytesOf t (race now ops cfg sched (fun _ => .first) s).1) := by
  have := race_bytes_core now ops cfg sched t (fun _ => .first) s
  simpa [pending] using this

/-- On a file, every byte goes to exactly one operation, in the order of the file. So no byte is used for two
messages, whichever threads they go to. -/
theorem C78_race_file (now : Nat → DateTime) (cfg : RCfg) (sched : List Nat) :
    ∀ (pcs : Nat → At) (s : Bytes), (race now fileStream cfg sched pcs s).1.flatMap Happening.bytes ++
      (race now fileStream cfg sched pcs s).2.2 = s := by
  induction sched with
  | nil => intro pcs s; simp [race]
  | cons u sched ih =>
    intro pcs s
    obtain ⟨next, pcs', hp, h1, h2, hr⟩ := race_cons now fileStream cfg u sched pcs s
    rw [hr]
    simp only [List.flatMap_cons, List.append_assoc]
    rw [ih]
    cases pcs u with
    | first => exact List.take_append_drop 1 s
    | second => exact List.take_append_drop 1 s
    | line b2 => simp only [tick, fileStream]; exact fileLine_append s

end

/-- The raw sentences returned, and to which thread. -/
def itemThreads : List (Nat × ReadResult) → List (Nat × Bytes)
  | [] => []
  | (t, .item raw _) :: r => (t, raw) :: itemThreads r
  | _ :: r => itemThreads r

/-- Two sentences, used below. -/
def twoSentences : Bytes :=
  pb!"$GNGLL,5327.04319,N,00214.41396,W,223232.00,A,A*67\r\n$GNGLL,5327.04320,N,00214.41398,W,223233.00,A,A*62\r\n"

/-- The settings of the examples below: checksums validated, errors logged. -/
def sharedCfg : RCfg := { mode := 0, validate := 1, nmeaonly := false, quitonerror := 1, udefs := [] }

/-- With a lock, two threads that take turns get one sentence each. -/
theorem C78_locked_example :
    itemThreads (returned (locked clock0 fileStream sharedCfg ((List.range 12).map (· % 2)) none twoSentences).1) =
      [(0, twoSentences.take 52), (1, twoSentences.drop 52)] := by
  decide +kernel

/-- A lock is needed: without it, two threads can lose both sentences, with two errors reported. -/
theorem C78_race_loses :
    itemThreads (returned (race clock0 fileStream sharedCfg [0, 1, 0, 0, 0, 1, 0, 0] (fun _ => .first) twoSentences).1) = [] ∧
    reportedIn (race clock0 fileStream sharedCfg [0, 1, 0, 0, 0, 1, 0, 0] (fun _ => .first) twoSentences).1 =
      [.nmeaParse, .nmeaParse] ∧
    (race clock0 fileStream sharedCfg [0, 1, 0, 0, 0, 1, 0, 0] (fun _ => .first) twoSentences).2.2 = [] := by
  decide +kernel

/-- Worse, without a lock messages can be made of pieces of the stream that are not adjacent, and the checksum
need not notice: two threads taking turns get the two `GNGLL` sentences as `NLL` sentences - the two letters
`G` that the other thread discards cancel in the checksum - without any error. -/
theorem C78_race_splices :
    itemThreads (returned (race clock0 fileStream sharedCfg ((List.range 10).map (· % 2)) (fun _ => .first) twoSentences).1) =
      [(0, pb!"$NLL,5327.04319,N,00214.41396,W,223232.00,A,A*67\r\n"),
       (1, pb!"$NLL,5327.04320,N,00214.41398,W,223233.00,A,A*62\r\n")] ∧
    reportedIn (race clock0 fileStream sharedCfg ((List.range 10).map (· % 2)) (fun _ => .first) twoSentences).1 = [] := by
  decide +kernel

end Props
