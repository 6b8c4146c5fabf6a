import Verif.Spec.Socket
import Verif.Lemmas.ReaderMore
/-! # Lemmas: sockets -/
set_option linter.unusedSimpArgs false
namespace Nmea
open Py Spec

abbrev Wire := List (Option UInt8)

def wireFill : Nat → Wire → Bool × Wire
  | 0, w => (true, w)
  | _ + 1, [] => (false, [])
  | _ + 1, none :: w => (false, w)
  | n + 1, some b :: w => ((wireFill n w).1, some b :: (wireFill n w).2)

theorem wireFill_bytes (bs : Bytes) (n : Nat) (h : bs.length ≤ n) (w : Wire) :
    wireFill n (bs.map some ++ w) = ((wireFill (n - bs.length) w).1, bs.map some ++ (wireFill (n - bs.length) w).2) := by
  induction bs generalizing n with
  | nil => simp
  | cons b bs ih =>
    cases n with
    | zero => simp at h
    | succ n =>
      simp only [List.map_cons, List.cons_append, wireFill, List.length_cons]
      rw [ih n (by simpa using h), Nat.succ_sub_succ]

theorem wireFill_enough (bs : Bytes) (n : Nat) (h : n ≤ bs.length) (w : Wire) :
    wireFill n (bs.map some ++ w) = (true, bs.map some ++ w) := by
  induction bs generalizing n with
  | nil => simp at h; subst h; rfl
  | cons b bs ih =>
    cases n with
    | zero => rfl
    | succ n =>
      simp only [List.map_cons, List.cons_append, wireFill]
      rw [ih n (by simpa using h)]

theorem fill_wire (z : Zlib) (enc : Nat) (num : Nat) (s : Sock) :
    ((s.fill z enc num).1, wire z enc (s.fill z enc num).2) = wireFill num (wire z enc s) := by
  induction hn : s.script.length using Nat.strongRecOn generalizing s with
  | _ n ih =>
    rw [Sock.fill]
    by_cases hlen : num ≤ s.buffer.length
    · rw [if_pos hlen]; exact (wireFill_enough _ _ hlen _).symm
    · rw [if_neg hlen]
      obtain ⟨k, hk⟩ : ∃ k, num - s.buffer.length = k + 1 := ⟨num - s.buffer.length - 1, by omega⟩
      have hw : wireFill num (wire z enc s) = ((wireFill (k + 1) (deliveries z enc s.pending s.script)).1,
          s.buffer.map some ++ (wireFill (k + 1) (deliveries z enc s.pending s.script)).2) := by
        rw [wire, wireFill_bytes _ _ (by omega), hk]
      rw [hw]
      cases hs : s.script with
      | nil =>
        have hr : s.recv z enc = (false, s) := by simp only [Sock.recv, hs]
        split
        · rename_i s' h; rw [hr] at h; cases h; simp [wire, hs, wireFill, deliveries]
        · rename_i s' h; rw [hr] at h; cases h
      | cons ev r =>
        cases ev with
        | fail =>
          have hr : s.recv z enc = (false, { s with script := r }) := by simp only [Sock.recv, hs]
          split
          · rename_i s' h; rw [hr] at h; cases h; simp [wire, deliveries, wireFill]
          · rename_i s' h; rw [hr] at h; cases h
        | data d =>
          by_cases hd : d = []
          · have hr : s.recv z enc = (false, { s with script := r }) := by simp only [Sock.recv, hs, if_pos hd]
            split
            · rename_i s' h; rw [hr] at h; cases h; simp [wire, deliveries, hd, wireFill]
            · rename_i s' h; rw [hr] at h; cases h
          · have hr : s.recv z enc = (true, s.accept z enc d r) := by
              simp only [Sock.recv, hs, if_neg hd]
            have hsame : wire z enc (s.accept z enc d r) = wire z enc s := by
              simp only [wire, Sock.accept, hs, deliveries, if_neg hd]
              split
              · simp
              · simp
            have hscr : (s.accept z enc d r).script = r := by simp only [Sock.accept]; split <;> rfl
            split
            · rename_i s' h; rw [hr] at h; cases h
            · rename_i s' h
              rw [hr] at h
              have h' : s' = s.accept z enc d r := (Prod.mk.inj h).2.symm
              subst h'
              have := ih r.length (by rw [← hn, hs]; simp) (s.accept z enc d r) (by rw [hscr])
              rw [this, hsame, ← hs, ← hw]

def wireRead (n : Nat) (w : Wire) : Bytes × Wire :=
  match wireFill n w with
  | (false, w') => ([], w')
  | (true, w') => ((w'.take n).filterMap id, w'.drop n)

theorem filterMap_some (bs : Bytes) : (bs.map some).filterMap id = bs := by
  induction bs with
  | nil => rfl
  | cons b bs ih => simp [ih]

theorem read_wire (z : Zlib) (enc : Nat) (num : Nat) (s : Sock) :
    ((s.read z enc num).1, wire z enc (s.read z enc num).2) = wireRead num (wire z enc s) := by
  have h := fill_wire z enc num s
  simp only [Sock.read, wireRead]
  rw [← h]
  cases hf : s.fill z enc num with
  | mk r s' =>
    cases r with
    | false => rfl
    | true =>
      have hlen := Sock.fill_true z enc num s s' hf
      simp only [wire]
      rw [List.take_append_of_le_length (by simpa using hlen), List.drop_append_of_le_length (by simpa using hlen),
        ← List.map_take, ← List.map_drop, filterMap_some]

def wireLine : Bytes → Wire → Bytes × Wire
  | line, [] => (line, [])
  | line, none :: w => (line, w)
  | line, some b :: w => if endsCrLf (line ++ [b]) then (line ++ [b], w) else wireLine (line ++ [b]) w

theorem wireRead1 (w : Wire) : wireRead 1 w = match w with
    | [] => ([], [])
    | none :: w => ([], w)
    | some b :: w => ([b], w) := by
  cases w with
  | nil => rfl
  | cons x w => cases x <;> simp [wireRead, wireFill]

theorem readlineFrom_wire (z : Zlib) (enc : Nat) (line : Bytes) (s : Sock) :
    ((s.readlineFrom z enc line).1, wire z enc (s.readlineFrom z enc line).2) = wireLine line (wire z enc s) := by
  induction s using Sock.lt.wf.induction generalizing line with
  | _ s ih =>
    rw [Sock.readlineFrom]
    have h := read_wire z enc 1 s
    rw [wireRead1] at h
    simp only
    cases hw : wire z enc s with
    | nil =>
      rw [hw] at h; simp only [Prod.mk.injEq] at h
      rw [dif_neg (by simp [h.1])]; simp [wireLine, h.2]
    | cons x w =>
      cases x with
      | none =>
        rw [hw] at h; simp only [Prod.mk.injEq] at h
        rw [dif_neg (by simp [h.1])]; simp [wireLine, h.2]
      | some b =>
        rw [hw] at h; simp only [Prod.mk.injEq] at h
        rw [dif_pos (by simp [h.1]), h.1]
        simp only [wireLine]
        split
        · simp [h.2]
        · have := ih _ (Sock.read_dec z enc s 0 (by simp [h.1])) (line ++ [b])
          rw [this, h.2]

theorem readline_wire (z : Zlib) (enc : Nat) (s : Sock) :
    ((s.readline z enc).1, wire z enc (s.readline z enc).2) = wireLine [] (wire z enc s) :=
  readlineFrom_wire z enc [] s

theorem endsCrLf_iff (b : Bytes) : endsCrLf b = true ↔ ∃ x, b = x ++ [13, 10] := by
  unfold endsCrLf
  rw [beq_iff_eq]
  constructor
  · intro h
    refine ⟨b.take (b.length - 2), ?_⟩
    conv => lhs; rw [← List.take_append_drop (b.length - 2) b, h]
  · rintro ⟨x, rfl⟩
    simp

theorem wireLine_bytes (line bs : Bytes) (w : Wire) (h : ∀ a c, bs = a ++ c → a ≠ [] → endsCrLf (line ++ a) = false) :
    wireLine line (bs.map some ++ w) = wireLine (line ++ bs) w := by
  induction bs generalizing line with
  | nil => simp
  | cons b bs ih =>
    simp only [List.map_cons, List.cons_append, wireLine]
    rw [if_neg (by rw [h [b] bs rfl (by simp)]; simp), ih]
    · simp
    · intro a c e ha
      have := h (b :: a) c (by rw [e]; rfl) (by simp)
      simpa using this

theorem no_crlf {bs : Bytes} (h : ¬ HasCrLf bs) : ∀ a c, bs = a ++ c → a ≠ [] → endsCrLf ([] ++ a) = false := by
  intro a c e _
  cases hb : endsCrLf ([] ++ a) with
  | false => rfl
  | true =>
    obtain ⟨x, hx⟩ := (endsCrLf_iff _).1 hb
    exact absurd ⟨x, c, by rw [e, show a = x ++ [13, 10] from hx]; simp⟩ h

/-! ## Losslessness -/

theorem wireFill_bytesOf (n : Nat) (w : Wire) : (wireFill n w).2.filterMap id = w.filterMap id := by
  induction n generalizing w with
  | zero => rfl
  | succ n ih =>
    match w with
    | [] => rfl
    | none :: w => rfl
    | some b :: w => simp [wireFill, ih]

theorem wireRead_bytesOf (n : Nat) (w : Wire) :
    (wireRead n w).1 ++ (wireRead n w).2.filterMap id = w.filterMap id := by
  have h := wireFill_bytesOf n w
  unfold wireRead
  split
  · rename_i w' e; rw [e] at h; exact h
  · rename_i w' e
    rw [e] at h
    simp only
    rw [← List.filterMap_append, List.take_append_drop]; exact h

theorem wireLine_bytesOf (line : Bytes) (w : Wire) :
    (wireLine line w).1 ++ (wireLine line w).2.filterMap id = line ++ w.filterMap id := by
  induction w generalizing line with
  | nil => simp [wireLine]
  | cons x w ih =>
    cases x with
    | none => simp [wireLine]
    | some b =>
      simp only [wireLine]
      split
      · simp
      · rw [ih]; simp

theorem sock_lossless (z : Zlib) (enc : Nat) : Lossless (sockStream z enc) (content z enc) := by
  intro s
  constructor
  · have h := read_wire z enc 1 s
    have h' := wireRead_bytesOf 1 (wire z enc s)
    rw [← h] at h'; exact h'
  · have h := readline_wire z enc s
    have h' := wireLine_bytesOf [] (wire z enc s)
    rw [← h] at h'; exact h'

/-! ## Streams that behave alike -/

/-- `R` relates states of two stream objects that look alike to the reader's loop. -/
theorem run_sim {σ τ} (now : Nat → DateTime) (o1 : StreamOps σ) (o2 : StreamOps τ) (cfg : RCfg) (R : σ → τ → Prop)
    (h : ∀ s t, R s t → (step now o1 cfg s).1 = (step now o2 cfg t).1 ∧ R (step now o1 cfg s).2 (step now o2 cfg t).2)
    (s : σ) (t : τ) (hR : R s t) (evs : List Event) (hr : Run now o1 cfg s evs) : Run now o2 cfg t evs := by
  induction hr generalizing t with
  | done s s' hs =>
    have := h s t hR
    rw [hs] at this
    exact .done t (step now o2 cfg t).2 (Prod.ext this.1.symm rfl)
  | more s ev s' evs hs he _ ih =>
    have := h s t hR
    rw [hs] at this
    exact .more t ev (step now o2 cfg t).2 evs (Prod.ext this.1.symm rfl) he (ih _ this.2)

theorem session_sim {σ τ} (now : Nat → DateTime) (o1 : StreamOps σ) (o2 : StreamOps τ) (cfg : RCfg) (R : σ → τ → Prop)
    (h : ∀ s t, R s t → (step now o1 cfg s).1 = (step now o2 cfg t).1 ∧ R (step now o1 cfg s).2 (step now o2 cfg t).2)
    (s : σ) (t : τ) (hR : R s t) (es) (hs : Session now o1 cfg s es) : Session now o2 cfg t es := by
  obtain ⟨evs, hr, rfl⟩ := session_run hs
  exact session_of_run (run_sim now o1 o2 cfg R h s t hR evs hr)

/-- If reads and lines agree, so do passes. -/
theorem step_sim {σ τ} (now : Nat → DateTime) (o1 : StreamOps σ) (o2 : StreamOps τ) (cfg : RCfg)
    (R : σ → τ → Prop) (R1 : σ → τ → Prop) (R2 : σ → τ → Prop)
    (s : σ) (t : τ)
    (h1 : (o1.read1 s).1 = (o2.read1 t).1) (h1R : R (o1.read1 s).2 (o2.read1 t).2)
    (h1' : (o1.read1 s).1 = [36] → R1 (o1.read1 s).2 (o2.read1 t).2)
    (h2 : ∀ s t, R1 s t → (o1.read1 s).1 = (o2.read1 t).1 ∧ R (o1.read1 s).2 (o2.read1 t).2 ∧
      ((∃ h, TalkerLetter h ∧ (o1.read1 s).1 = [h]) → R2 (o1.read1 s).2 (o2.read1 t).2))
    (h3 : ∀ s t, R2 s t → (o1.readline s).1 = (o2.readline t).1 ∧ R (o1.readline s).2 (o2.readline t).2) :
    (step now o1 cfg s).1 = (step now o2 cfg t).1 ∧ R (step now o1 cfg s).2 (step now o2 cfg t).2 := by
  simp only [step]
  rw [← h1]
  by_cases a : (o1.read1 s).1 = []
  · rw [if_pos a, if_pos a]; exact ⟨rfl, h1R⟩
  · rw [if_neg a, if_neg a]
    by_cases b : (o1.read1 s).1 ≠ [36]
    · rw [if_pos b, if_pos b]; exact ⟨rfl, h1R⟩
    · rw [if_neg b, if_neg b]
      have b' : (o1.read1 s).1 = [36] := Decidable.of_not_not b
      obtain ⟨q1, q2, q3⟩ := h2 _ _ (h1' b')
      rw [← q1]
      by_cases c : (o1.read1 (o1.read1 s).2).1 = []
      · rw [if_pos c, if_pos c]; exact ⟨rfl, q2⟩
      · rw [if_neg c, if_neg c]
        by_cases d : (o1.read1 s).1 ++ (o1.read1 (o1.read1 s).2).1 ∈ NMEA_HDR
        · rw [if_pos d, if_pos d]
          have hletter : ∃ h, TalkerLetter h ∧ (o1.read1 (o1.read1 s).2).1 = [h] := by
            obtain ⟨h, hh⟩ := List.length_eq_one_iff.1 (Nat.le_antisymm (o1.read1_len _) (List.length_pos_iff.2 c))
            refine ⟨h, ?_, hh⟩
            rw [b', hh] at d
            exact (hdr_iff h).1 d
          obtain ⟨l1, l2⟩ := h3 _ _ (q3 hletter)
          simp only [readLine]
          rw [← l1]
          by_cases e : (o1.readline (o1.read1 (o1.read1 s).2).2).1 = []
          · rw [if_pos e, if_pos e]; exact ⟨rfl, l2⟩
          · rw [if_neg e, if_neg e]
            by_cases f : (o1.readline (o1.read1 (o1.read1 s).2).2).1.getLast? ≠ some 10
            · rw [if_pos f, if_pos f]; exact ⟨rfl, l2⟩
            · rw [if_neg f, if_neg f]
              simp only
              generalize parse now _ cfg.mode cfg.validate cfg.udefs = p
              cases p with
              | ok m => exact ⟨rfl, l2⟩
              | error e => cases e <;> exact ⟨rfl, l2⟩
        · rw [if_neg d, if_neg d]
          split <;> exact ⟨rfl, q2⟩

theorem step_eof_of {σ} (now : Nat → DateTime) (ops : StreamOps σ) (cfg : RCfg) (s : σ) (h : (ops.read1 s).1 = []) :
    step now ops cfg s = (.eof, (ops.read1 s).2) := by
  simp only [step, h, if_pos]

theorem step_reject_of {σ} (now : Nat → DateTime) (ops : StreamOps σ) (cfg : RCfg) (s s1 s2 s3 : σ) (c : UInt8) (l : Bytes)
    (h1 : ops.read1 s = ([36], s1)) (h2 : ops.read1 s1 = ([c], s2)) (hc : TalkerLetter c)
    (h3 : ops.readline s2 = (l, s3)) (hl : l.getLast? = some 10)
    (hp : parse now (.bytes (36 :: c :: l)) cfg.mode cfg.validate cfg.udefs = .error .nmeaParse) :
    step now ops cfg s = (.err .nmeaParse, s3) := by
  have hne : l ≠ [] := by intro e; subst e; simp at hl
  have hm : ([36] ++ [c] : Bytes) ∈ NMEA_HDR := (hdr_iff c).2 hc
  have hp' : parse now (.bytes ([36] ++ [c] ++ l)) cfg.mode cfg.validate cfg.udefs = .error .nmeaParse := hp
  simp only [step, readLine, h1, h2, h3]
  rw [if_neg (by simp), if_neg (by simp), if_neg (by simp), if_pos hm, if_neg hne, if_neg (by simp [hl])]
  simp only [hp']

end Nmea
