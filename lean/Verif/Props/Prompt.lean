import Verif.Spec.Prompt
import Verif.Props.SocketAny
import Verif.Props.Handover
/-!
# C96: a sentence is returned as soon as it has arrived
-/
namespace Props.Prompt
open Py Nmea Spec

variable (z : Zlib) (enc : Nat)

/-- `recv` only appends to the buffer. -/
theorem recv_drop (s : Sock) (u : Nat) (hu : u ≤ s.buffer.length) :
    (Sock.recv z enc { s with buffer := s.buffer.drop u }).2 =
        { (Sock.recv z enc s).2 with buffer := (Sock.recv z enc s).2.buffer.drop u } ∧
      (Sock.recv z enc { s with buffer := s.buffer.drop u }).1 = (Sock.recv z enc s).1 ∧
      s.buffer.length ≤ (Sock.recv z enc s).2.buffer.length := by
  obtain ⟨b, p, sc⟩ := s
  simp only at hu
  have hd : ∀ x : Bytes, List.drop u b ++ x = List.drop u (b ++ x) := by
    intro x; rw [List.drop_append_of_le_length hu]
  unfold Sock.recv
  cases sc with
  | nil => exact ⟨rfl, rfl, Nat.le_refl _⟩
  | cons ev r =>
    cases ev with
    | fail => exact ⟨rfl, rfl, Nat.le_refl _⟩
    | data d =>
      by_cases h : d = []
      · simp only [if_pos h]; exact ⟨trivial, trivial, Nat.le_refl _⟩
      · simp only [if_neg h, Sock.accept]
        cases encChunked enc with
        | true => simp [hd]
        | false => simp [hd]

theorem recvs_add (s : Sock) (k j : Nat) : recvs z enc j (recvs z enc k s) = recvs z enc (k + j) s := by
  induction j with
  | zero => rfl
  | succ j ih => simp only [recvs, ih]; rfl

theorem recvs_mono1 (s : Sock) : s.buffer.length ≤ (Sock.recv z enc s).2.buffer.length := by
  have := (recv_drop z enc s 0 (Nat.zero_le _)).2.2
  exact this

theorem recvs_mono (s : Sock) (k j : Nat) : (recvs z enc k s).buffer.length ≤ (recvs z enc (k + j) s).buffer.length := by
  induction j with
  | zero => exact Nat.le_refl _
  | succ j ih => exact Nat.le_trans ih (recvs_mono1 z enc _)

theorem recvs_drop (s : Sock) (u : Nat) (hu : u ≤ s.buffer.length) (j : Nat) :
    recvs z enc j { s with buffer := s.buffer.drop u } =
      { recvs z enc j s with buffer := (recvs z enc j s).buffer.drop u } := by
  induction j with
  | zero => rfl
  | succ j ih =>
    have hle : u ≤ (recvs z enc j s).buffer.length := by
      have := recvs_mono z enc s 0 j
      rw [Nat.zero_add] at this
      exact Nat.le_trans hu this
    simp only [recvs]
    rw [ih]
    exact (recv_drop z enc (recvs z enc j s) u hle).1

theorem took_trans {s s1 s2 : Sock} {k u j v : Nat} (h1 : Took z enc s s1 k u) (h2 : Took z enc s1 s2 j v) :
    Took z enc s s2 (k + j) (u + v) := by
  obtain ⟨a1, rfl⟩ := h1
  obtain ⟨b1, rfl⟩ := h2
  rw [recvs_drop z enc _ u a1, recvs_add] at b1 ⊢
  simp only [List.length_drop] at b1
  have hm := recvs_mono z enc s k j
  refine ⟨by omega, ?_⟩
  simp only [List.drop_drop]

theorem took_refl (s : Sock) : Took z enc s s 0 0 := ⟨Nat.zero_le _, rfl⟩

/-- `fill` asks until it has a byte, or `recv` fails. -/
theorem fill_one (s : Sock) : ∃ j, (∀ i < j, (recvs z enc i s).buffer = []) ∧ (s.fill z enc 1).2 = recvs z enc j s ∧
    ((s.fill z enc 1).1 = true → (recvs z enc j s).buffer ≠ []) ∧
    ((s.fill z enc 1).1 = false → 0 < j ∧ (recvs z enc j s).buffer = [] ∧ (Sock.recv z enc (recvs z enc (j - 1) s)).1 = false) := by
  induction hn : s.script.length using Nat.strongRecOn generalizing s with
  | _ n ih =>
    rw [Sock.fill]
    by_cases hb : 1 ≤ s.buffer.length
    · rw [if_pos hb]
      refine ⟨0, fun i hi => absurd hi (Nat.not_lt_zero _), rfl, fun _ => ?_, fun h => by cases h⟩
      intro e; simp only [recvs] at e; rw [e] at hb; simp at hb
    · rw [if_neg hb]
      have hnil : s.buffer = [] := List.eq_nil_of_length_eq_zero (by omega)
      have hscript := Sock.recv_script z enc s
      split
      · rename_i s' heq
        refine ⟨1, fun i hi => ?_, ?_, fun h => (by cases h), fun _ => ⟨Nat.one_pos, ?_, ?_⟩⟩
        · have : i = 0 := by omega
          subst this; exact hnil
        · simp only [recvs, heq]
        · simp only [recvs]
          unfold Sock.recv at heq ⊢
          split
          · exact hnil
          · exact hnil
          · rename_i hs
            rw [hs] at heq
            simp only at heq
            split at heq
            · rename_i hd; rw [if_pos hd]; exact hnil
            · simp at heq
        · simp only [recvs, Nat.sub_self, heq]
      · rename_i s' heq
        have hlt : s'.script.length < s.script.length := by
          rw [heq] at hscript
          rcases hscript with h | h
          · exfalso
            simp only at h
            unfold Sock.recv at heq
            split at heq
            · simp at heq
            · simp at heq
            · rename_i hs
              split at heq
              · simp at heq
              · simp only [Prod.mk.injEq, true_and] at heq
                have : s'.script.length < s.script.length := by
                  rw [hs, ← heq]; simp only [Sock.accept]; split <;> simp
                rw [h] at this; omega
          · exact h
        obtain ⟨j, h1, h2, h3, h4⟩ := ih s'.script.length (hn ▸ hlt) s' rfl
        have hs' : s' = recvs z enc 1 s := by simp only [recvs, heq]
        have hadd : ∀ i, recvs z enc i s' = recvs z enc (1 + i) s := by
          intro i; rw [hs', recvs_add]
        refine ⟨1 + j, ?_, by rw [h2, hadd], by rw [← hadd]; exact h3, fun h => ?_⟩
        · intro i hi
          cases i with
          | zero => exact hnil
          | succ i => rw [Nat.add_comm, ← hadd]; exact h1 i (by omega)
        · obtain ⟨g1, g2, g3⟩ := h4 h
          refine ⟨by omega, by rw [← hadd]; exact g2, ?_⟩
          rw [hadd] at g3
          rwa [show 1 + j - 1 = 1 + (j - 1) by omega]

/-- Reading one byte. -/
theorem read_one (s : Sock) :
    ((s.read z enc 1).1 ≠ [] ∧ ∃ j, Took z enc s (s.read z enc 1).2 j 1 ∧ ∀ i < j, (recvs z enc i s).buffer = []) ∨
      ((s.read z enc 1).1 = [] ∧ ∃ j, 0 < j ∧ Took z enc s (s.read z enc 1).2 j 0 ∧ (s.read z enc 1).2.buffer = [] ∧
        (Sock.recv z enc (recvs z enc (j - 1) s)).1 = false) := by
  obtain ⟨j, h1, h2, h3, h4⟩ := fill_one z enc s
  unfold Sock.read
  rcases hf : s.fill z enc 1 with ⟨b, s'⟩
  rw [hf] at h2 h3 h4
  simp only at h2 h3 h4
  cases b with
  | true =>
    left
    have hne := h3 rfl
    rw [← h2] at hne
    obtain ⟨x, r, hx⟩ := List.exists_cons_of_ne_nil hne
    simp only
    refine ⟨by rw [hx]; simp, j, ⟨?_, ?_⟩, h1⟩
    · rw [← h2, hx]; simp
    · rw [← h2]
  | false =>
    right
    obtain ⟨g1, g2, g3⟩ := h4 rfl
    simp only
    refine ⟨trivial, j, g1, ⟨Nat.zero_le _, ?_⟩, by rw [h2]; exact g2, g3⟩
    rw [h2]; rfl

/-- Bytes were read, and no `recv` was made after the one that brought the last of them. -/
def Minimal (s s' : Sock) : Prop :=
  ∃ k u, Took z enc s s' k u ∧ (k = 0 ∨ (recvs z enc (k - 1) s).buffer.length < u)

/-- The last `recv` failed, and everything received is read. -/
def Drained (s s' : Sock) : Prop :=
  ∃ k u, Took z enc s s' k u ∧ 0 < k ∧ s'.buffer = [] ∧ (Sock.recv z enc (recvs z enc (k - 1) s)).1 = false

theorem minimal_refl (s : Sock) : Minimal z enc s s := ⟨0, 0, took_refl z enc s, .inl rfl⟩

theorem buffer_took {s s1 : Sock} {k u : Nat} (h : Took z enc s s1 k u) (i : Nat) :
    (recvs z enc i s1).buffer = (recvs z enc (k + i) s).buffer.drop u := by
  obtain ⟨a1, rfl⟩ := h
  rw [recvs_drop z enc _ u a1, recvs_add]

theorem recv_took {s s1 : Sock} {k u : Nat} (h : Took z enc s s1 k u) (i : Nat) :
    (Sock.recv z enc (recvs z enc i s1)).1 = (Sock.recv z enc (recvs z enc (k + i) s)).1 := by
  obtain ⟨a1, rfl⟩ := h
  have hm := recvs_mono z enc s k i
  rw [recvs_drop z enc _ u a1, recvs_add, (recv_drop z enc _ u (by omega)).2.1]

theorem after_read (s s1 : Sock) (h : Minimal z enc s s1 ∨ Drained z enc s s1) :
    ((s1.read z enc 1).1 ≠ [] → Minimal z enc s (s1.read z enc 1).2) ∧
      ((s1.read z enc 1).1 = [] → Drained z enc s (s1.read z enc 1).2) := by
  rcases read_one z enc s1 with ⟨hne, j, hj, hi⟩ | ⟨he, j, hj, ht, hb, hf⟩
  · refine ⟨fun _ => ?_, fun e => absurd e hne⟩
    have key : ∀ k u, Took z enc s s1 k u → (0 < j ∨ k = 0 ∨ (recvs z enc (k - 1) s).buffer.length < u) →
        Minimal z enc s (s1.read z enc 1).2 := by
      intro k u hk hor
      refine ⟨k + j, u + 1, took_trans z enc hk hj, ?_⟩
      by_cases hj0 : j = 0
      · subst hj0
        rcases hor with h | h | h
        · omega
        · left; omega
        · right; rw [Nat.add_zero]; omega
      · right
        have := hi (j - 1) (by omega)
        rw [buffer_took z enc hk] at this
        have hl := congrArg List.length this
        simp only [List.length_drop, List.length_nil] at hl
        rw [show k + j - 1 = k + (j - 1) by omega]
        omega
    rcases h with ⟨k, u, hk, hor⟩ | ⟨k, u, hk, hk0, hb, _⟩
    · exact key k u hk (.inr hor)
    · refine key k u hk ?_
      left
      refine Nat.pos_of_ne_zero (fun hj0 => ?_)
      subst hj0
      have := hj.1
      simp only [recvs, hb] at this
      simp at this
  · refine ⟨fun hne => absurd he hne, fun _ => ?_⟩
    have key : ∀ k u, Took z enc s s1 k u → Drained z enc s (s1.read z enc 1).2 := by
      intro k u hk
      refine ⟨k + j, u + 0, took_trans z enc hk ht, by omega, hb, ?_⟩
      rw [recv_took z enc hk] at hf
      rwa [show k + j - 1 = k + (j - 1) by omega]
    rcases h with ⟨k, u, hk, _⟩ | ⟨k, u, hk, _⟩
    · exact key k u hk
    · exact key k u hk

theorem after_line (line : Bytes) (s s1 : Sock) (h : Minimal z enc s s1 ∨ Drained z enc s s1) :
    (endsCrLf (s1.readlineFrom z enc line).1 = true ∧ (s1.readlineFrom z enc line).1 ≠ line →
        Minimal z enc s (s1.readlineFrom z enc line).2) ∧
      (Minimal z enc s (s1.readlineFrom z enc line).2 ∨ Drained z enc s (s1.readlineFrom z enc line).2) ∧
      ((s1.readlineFrom z enc line).1 = line → Drained z enc s (s1.readlineFrom z enc line).2) ∧
      ∃ x, (s1.readlineFrom z enc line).1 = line ++ x := by
  induction s1 using Sock.lt.wf.induction generalizing line with
  | _ s1 ih =>
    have hr := after_read z enc s s1 h
    rw [Sock.readlineFrom]
    simp only
    split
    · rename_i hne
      have hm := hr.1 hne
      split
      · refine ⟨fun _ => hm, .inl hm, fun e => ?_, _, rfl⟩
        exact absurd (List.append_right_eq_self.1 e) hne
      · rename_i hnot
        obtain ⟨i1, i2, i3, x, i4⟩ := ih _ (Sock.read_dec z enc s1 0 hne) (line ++ (s1.read z enc 1).1) (.inl hm)
        refine ⟨fun ⟨e1, e2⟩ => ?_, i2, fun e => ?_, _, by rw [i4, List.append_assoc]⟩
        · refine i1 ⟨e1, fun e => ?_⟩
          rw [e] at e1
          exact hnot e1
        · exfalso
          rw [i4, List.append_assoc] at e
          have := List.append_right_eq_self.1 e
          simp at this
          exact hne this.1
    · rename_i he
      have he : (s1.read z enc 1).1 = [] := by
        cases hx : (s1.read z enc 1).1 with
        | nil => rfl
        | cons a b => exact absurd (by rw [hx]; simp) he
      have hd := hr.2 he
      exact ⟨fun ⟨_, e⟩ => absurd rfl e, .inr hd, fun _ => hd, [], by simp⟩

theorem line_crlf {c : UInt8} {l : Bytes} (hc : TalkerLetter c) (h : endsCrLf (36 :: c :: l) = true) (hl : l ≠ []) :
    endsCrLf l = true := by
  rw [endsCrLf_iff] at h ⊢
  obtain ⟨x, hx⟩ := h
  match x, l, hl with
  | [], _, _ => simp at hx
  | [a], [b], _ =>
    simp only [List.cons_append, List.nil_append, List.cons.injEq] at hx
    obtain ⟨_, rfl, _⟩ := hx
    exact absurd hc (by decide +kernel)
  | [a], b :: d :: r, _ => simp at hx
  | a :: b :: x, l, _ =>
    simp only [List.cons_append, List.cons.injEq] at hx
    exact ⟨x, hx.2.2⟩

/-- What one pass does. -/
theorem after_step (now : Nat → DateTime) (cfg : RCfg) (s s1 s2 : Sock) (ev : Event)
    (h : Minimal z enc s s1 ∨ Drained z enc s s1) (hs : step now (sockStream z enc) cfg s1 = (ev, s2)) :
    (Minimal z enc s s2 ∨ Drained z enc s s2) ∧ (ev = .eof → Drained z enc s s2) ∧
      (∀ raw m, ev = .msg raw m → endsCrLf raw = true → Minimal z enc s s2) := by
  have r1 := after_read z enc s s1 h
  simp only [step] at hs
  split at hs
  · rename_i h1
    cases hs
    have := r1.2 h1
    exact ⟨.inr this, fun _ => this, (fun _ _ e => by cases e)⟩
  · rename_i h1
    have m1 := r1.1 h1
    split at hs
    · cases hs; exact ⟨.inl m1, (fun e => by cases e), (fun _ _ e => by cases e)⟩
    · rename_i h36
      have r2 := after_read z enc s _ (.inl m1)
      split at hs
      · rename_i h2
        cases hs
        have := r2.2 h2
        exact ⟨.inr this, fun _ => this, (fun _ _ e => by cases e)⟩
      · rename_i h2
        have m2 := r2.1 h2
        split at hs
        · rename_i hmem
          obtain ⟨l1, l2, l3, x, l4⟩ := after_line z enc [] s _ (.inl m2)
          have hline : ∀ y : Sock, (sockStream z enc).readline y = y.readlineFrom z enc [] := fun _ => rfl
          have hread : ∀ y : Sock, (sockStream z enc).read1 y = y.read z enc 1 := fun _ => rfl
          simp only [readLine] at hs
          simp only [hline, hread] at hs h1 h2 h36 hmem
          split at hs
          · -- the line is empty
            rename_i heq
            split at heq
            · rename_i hl
              cases heq; cases hs
              have := l3 hl
              exact ⟨.inr this, fun _ => this, (fun _ _ e => by cases e)⟩
            · split at heq <;> cases heq
          · rename_i e heq' heq
            split at heq
            · cases heq; exact absurd rfl heq'
            · split at heq
              · cases heq; cases hs
                exact ⟨l2, (fun e => by cases e), (fun _ _ e => by cases e)⟩
              · cases heq
          · rename_i byten s3 heq
            split at heq
            · cases heq
            · rename_i hlne
              split at heq
              · cases heq
              · cases heq
                have hmsg : ∀ raw, ((s1.read z enc 1).1 ++ ((s1.read z enc 1).2.read z enc 1).1 ++
                    (((s1.read z enc 1).2.read z enc 1).2.readlineFrom z enc []).1) = raw → endsCrLf raw = true →
                    Minimal z enc s (((s1.read z enc 1).2.read z enc 1).2.readlineFrom z enc []).2 := by
                  intro raw er hcr
                  refine l1 ⟨?_, hlne⟩
                  have h36' : (s1.read z enc 1).1 = [36] := by simpa using h36
                  rw [h36'] at hmem er
                  have hlen := (sockStream z enc).read1_len (s1.read z enc 1).2
                  rw [hread] at hlen
                  generalize ((s1.read z enc 1).2.read z enc 1).1 = b2 at *
                  match b2, h2, hlen with
                  | [c], _, _ =>
                    exact line_crlf ((hdr_iff c).1 hmem) (by rw [← er] at hcr; simpa using hcr) hlne
                split at hs
                all_goals cases hs
                all_goals refine ⟨l2, (fun e => by cases e), fun raw m e hcr => ?_⟩
                all_goals first | (cases e; exact hmsg _ rfl hcr) | cases e
        · split at hs
          · cases hs; exact ⟨.inl m2, (fun e => by cases e), (fun _ _ e => by cases e)⟩
          · cases hs; exact ⟨.inl m2, (fun e => by cases e), (fun _ _ e => by cases e)⟩


theorem recv_content (s : Sock) : content z enc (Sock.recv z enc s).2 = content z enc s := by
  obtain ⟨b, p, sc⟩ := s
  unfold Sock.recv
  cases sc with
  | nil => rfl
  | cons ev r =>
    cases ev with
    | fail => simp [content, wire, deliveries]
    | data d =>
      simp only
      by_cases h : d = []
      · simp only [if_pos h]
        simp [content, wire, deliveries, h]
      · simp only [if_neg h, Sock.accept, content, wire, deliveries]
        cases encChunked enc with
        | true => simp
        | false => simp

theorem recvs_content (s : Sock) (k : Nat) : content z enc (recvs z enc k s) = content z enc s := by
  induction k with
  | zero => rfl
  | succ k ih => simp only [recvs, recv_content, ih]

/-- What one call of `read` does. -/
theorem after_readMsg (now : Nat → DateTime) (cfg : RCfg) (s s1 : Sock) (h : Minimal z enc s s1 ∨ Drained z enc s s1) :
    ((readMsg now (sockStream z enc) cfg s1).1 = .none → Drained z enc s (readMsg now (sockStream z enc) cfg s1).2.2) ∧
      (∀ raw m, (readMsg now (sockStream z enc) cfg s1).1 = .item raw m → endsCrLf raw = true →
        Minimal z enc s (readMsg now (sockStream z enc) cfg s1).2.2) := by
  induction s1 using (sockStream z enc).rel.wf.induction with
  | _ s1 ih =>
    rcases hst : step now (sockStream z enc) cfg s1 with ⟨ev, s2⟩
    obtain ⟨a1, a2, a3⟩ := after_step z enc now cfg s s1 s2 ev h hst
    have dec : ev ≠ .eof → (sockStream z enc).rel.rel s2 s1 := by
      intro hne
      rcases step_dec now (sockStream z enc) cfg s1 with ⟨x, hx⟩ | hx
      · rw [hst] at hx; cases hx; exact absurd rfl hne
      · rw [hst] at hx; exact hx
    have hread := readMsg_eq now (sockStream z enc) cfg s1
    rw [hst] at hread
    cases ev with
    | eof => rw [hread]; exact ⟨fun _ => a2 rfl, fun _ _ e => by cases e⟩
    | crash e => rw [hread]; exact ⟨fun e => (by cases e), fun _ _ e => by cases e⟩
    | msg raw m =>
      rw [hread]
      refine ⟨fun e => (by cases e), fun raw' m' e hcr => ?_⟩
      cases e
      exact a3 raw m rfl hcr
    | skip =>
      simp only at hread
      rw [hread]; exact ih s2 (dec (by simp)) a1
    | err e =>
      by_cases hq : cfg.quitonerror = 2
      · simp only [hq, if_true] at hread
        rw [hread]; exact ⟨fun e => (by cases e), fun _ _ e => by cases e⟩
      · simp only [hq, if_false] at hread
        rw [hread]; exact ih s2 (dec (by simp)) a1

/-- **C96.** When `read` returns a sentence that ends in CR LF, then `k`, the number of times it has
called `recv`, is the least with which the sentence and all that is before it is received. What is
received beyond the sentence stays in the buffer. This holds with any transfer encoding. -/
theorem C96_prompt (now : Nat → DateTime) (cfg : RCfg) (s s' : Sock) (raw : Bytes) (m : Option Msg) (log : List Err)
    (h : readMsg now (sockStream z enc) cfg s = (.item raw m, log, s')) (hcr : ∃ x, raw = x ++ [13, 10]) :
    ∃ k before, (recvs z enc k s).buffer = before ++ raw ++ s'.buffer ∧
      s' = { recvs z enc k s with buffer := s'.buffer } ∧
      content z enc s = before ++ raw ++ content z enc s' ∧
      ∀ j < k, (recvs z enc j s).buffer.length < (before ++ raw).length := by
  obtain ⟨k, u, ⟨t1, t2⟩, t3⟩ := (after_readMsg z enc now cfg s s (.inl (minimal_refl z enc s))).2 raw m (by rw [h])
    ((endsCrLf_iff _).2 hcr)
  rw [h] at t2
  simp only at t2
  obtain ⟨gap, g1, g2⟩ := read_consumes now (sockStream z enc) (content z enc) (sock_lossless z enc) cfg s
  obtain ⟨before, rfl⟩ := g2 raw m (by rw [h])
  rw [h] at g1
  simp only at g1
  have hc : content z enc s = (recvs z enc k s).buffer.take u ++ content z enc s' := by
    rw [← recvs_content z enc s k, t2]
    simp only [content, wire, List.filterMap_append, filterMap_some]
    rw [← List.append_assoc, List.take_append_drop]
  have hu : before ++ raw = (recvs z enc k s).buffer.take u := by
    rw [hc] at g1
    exact (List.append_cancel_right g1).symm
  have hlen : (before ++ raw).length = u := by rw [hu, List.length_take]; omega
  refine ⟨k, before, ?_, by rw [t2], g1, fun j hj => ?_⟩
  · rw [hu, t2]; simp
  · rw [hlen]
    rcases t3 with rfl | t3
    · exact absurd hj (Nat.not_lt_zero _)
    · have := recvs_mono z enc s j (k - 1 - j)
      rw [show j + (k - 1 - j) = k - 1 by omega] at this
      omega

/-- **C96, no sentence.** When `read` returns `(None, None)`, then its last `recv` has failed (a
timeout, an error or a closed connection), and all that was received is read. -/
theorem C96_none (now : Nat → DateTime) (cfg : RCfg) (s s' : Sock) (log : List Err)
    (h : readMsg now (sockStream z enc) cfg s = (.none, log, s')) :
    s'.buffer = [] ∧ ∃ k, s' = { recvs z enc (k + 1) s with buffer := [] } ∧ (Sock.recv z enc (recvs z enc k s)).1 = false := by
  obtain ⟨k, u, ⟨t1, t2⟩, hk, hb, hf⟩ := (after_readMsg z enc now cfg s s (.inl (minimal_refl z enc s))).1 (by rw [h])
  rw [h] at t2 hb
  simp only at t2 hb
  refine ⟨hb, k - 1, ?_, hf⟩
  rw [show k - 1 + 1 = k by omega, ← hb]
  conv => rhs; rw [t2]
  exact t2

/-- **C96, what is received.** On a socket without chunked encoding, the buffer after `segs.length`
further `recv` calls that return the segments `segs` has these, in order, after what was in it. -/
theorem C96_received (henc : encChunked enc = false) (buffer pending : Bytes) (more : List RecvEv) (segs : List Bytes) :
    (∀ d ∈ segs, d ≠ []) → recvs z enc segs.length ⟨buffer, pending, segs.map .data ++ more⟩ = ⟨buffer ++ segs.flatten, pending, more⟩ := by
  induction segs generalizing buffer with
  | nil => intro _; simp [recvs]
  | cons d segs ih =>
    intro hne
    rw [List.length_cons, Nat.add_comm, ← recvs_add]
    have e : recvs z enc 1 ⟨buffer, pending, (d :: segs).map .data ++ more⟩ = ⟨buffer ++ d, pending, segs.map .data ++ more⟩ := by
      simp only [recvs, Sock.recv, List.map_cons, List.cons_append]
      rw [if_neg (hne d (by simp))]
      simp [Sock.accept, henc]
    rw [e, ih _ (fun x hx => hne x (by simp [hx]))]
    simp

/-- Reading past other bytes to a sentence. -/
theorem read_crlf (now : Nat → DateTime) (cfg : RCfg) (junk : Bytes) (hj : 36 ∉ junk) (h : UInt8) (hh : TalkerLetter h)
    (body : Bytes) (hb : ¬ HasCrLf (body ++ [13])) (w : List (Option UInt8)) (m : Option Msg)
    (hm : parse now (.bytes (36 :: h :: (body ++ [13, 10]))) cfg.mode cfg.validate cfg.udefs = .ok m) :
    readMsg now SocketAny.crlfStream cfg ((junk ++ (36 :: h :: (body ++ [13, 10]))).map some ++ w) =
      (.item (36 :: h :: (body ++ [13, 10])) m, [], w) := by
  induction junk with
  | nil =>
    rw [readMsg_eq]
    have hl := SocketAny.crlfLine_lf body w hb
    have := SocketAny.step_line now cfg h hh _ _ _ hl (by simp)
    simp only [List.nil_append, List.map_cons, List.cons_append] at this ⊢
    rw [this]
    simp only [eventOf, hm]
  | cons c junk ih =>
    simp only [List.mem_cons, not_or] at hj
    rw [readMsg_eq]
    simp only [List.cons_append, List.map_cons]
    rw [SocketAny.step_junk now cfg c (fun e => hj.1 e.symm)]
    exact ih hj.2

/-- **C96, arrival.** The buffer and the next segments together have a complete sentence, after bytes
without `$`, and the last of these segments has its last byte. Then `read` returns this sentence after receiving
these segments and no more, whatever comes next (`more`: other data, a timeout, or nothing for ever).
Bytes received after the sentence stay in the buffer. -/
theorem C96_arrival (henc : encChunked enc = false) (now : Nat → DateTime) (cfg : RCfg) (s : Sock)
    (segs : List Bytes) (hne : ∀ d ∈ segs, d ≠ []) (more : List RecvEv) (hs : s.script = segs.map .data ++ more)
    (junk rest : Bytes) (h : UInt8) (body : Bytes) (hj : 36 ∉ junk) (hh : TalkerLetter h) (hb : ¬ HasCrLf (body ++ [13]))
    (hw : s.buffer ++ segs.flatten = junk ++ (36 :: h :: (body ++ [13, 10])) ++ rest)
    (hlast : ∀ d, segs.getLast? = some d → rest.length < d.length) (m : Option Msg)
    (hm : parse now (.bytes (36 :: h :: (body ++ [13, 10]))) cfg.mode cfg.validate cfg.udefs = .ok m) :
    readMsg now (sockStream z enc) cfg s =
      (.item (36 :: h :: (body ++ [13, 10])) m, [], ⟨rest, s.pending, more⟩) := by
  obtain ⟨buffer, pending, script⟩ := s
  simp only at hs hw ⊢
  subst hs
  have hrec := C96_received z enc henc buffer pending more segs hne
  have hdel : ∀ segs : List Bytes, (∀ d ∈ segs, d ≠ []) → deliveries z enc pending (segs.map .data ++ more) =
      segs.flatten.map some ++ deliveries z enc pending more := by
    intro segs
    induction segs with
    | nil => intro _; rfl
    | cons d segs ih =>
      intro hne
      simp only [List.map_cons, List.cons_append, deliveries]
      rw [if_neg (hne d (by simp)), henc, ih (fun x hx => hne x (by simp [hx]))]
      simp
  have hwire : wire z enc ⟨buffer, pending, segs.map .data ++ more⟩ =
      (junk ++ (36 :: h :: (body ++ [13, 10]))).map some ++ (rest.map some ++ deliveries z enc pending more) := by
    simp only [wire]
    rw [hdel segs hne, ← List.append_assoc, ← List.map_append, hw, List.map_append, List.append_assoc]
  have hsim := SocketFail.readMsg_sim now (sockStream z enc) SocketAny.crlfStream cfg (fun s w => wire z enc s = w)
    (fun s w hR => SocketAny.sock_crlf z enc now cfg s w hR) ⟨buffer, pending, segs.map .data ++ more⟩ _ hwire
  rw [read_crlf now cfg junk hj h hh body hb _ m hm] at hsim
  obtain ⟨e1, e2, e3⟩ := hsim
  rcases hr : readMsg now (sockStream z enc) cfg ⟨buffer, pending, segs.map .data ++ more⟩ with ⟨r, log, s'⟩
  rw [hr] at e1 e2 e3
  simp only at e1 e2 e3
  subst e1 e2
  obtain ⟨k, before, p1, p2, p3, p4⟩ := C96_prompt z enc now cfg _ s' _ m _ hr ⟨36 :: h :: body, by simp⟩
  have hbefore : before ++ (36 :: h :: (body ++ [13, 10])) = junk ++ (36 :: h :: (body ++ [13, 10])) := by
    have c : content z enc ⟨buffer, pending, segs.map .data ++ more⟩ =
        junk ++ (36 :: h :: (body ++ [13, 10])) ++ content z enc s' := by
      simp only [content]
      rw [hwire, e3, List.filterMap_append, filterMap_some]
    rw [c] at p3
    exact (List.append_cancel_right p3).symm
  have hlt : ∀ j, j < segs.length → (recvs z enc j ⟨buffer, pending, segs.map .data ++ more⟩).buffer.length <
      (junk ++ (36 :: h :: (body ++ [13, 10]))).length := by
    intro j hj
    have hj1 : j ≤ segs.length - 1 := by omega
    have hmono := recvs_mono z enc ⟨buffer, pending, segs.map .data ++ more⟩ j (segs.length - 1 - j)
    rw [show j + (segs.length - 1 - j) = segs.length - 1 by omega] at hmono
    have hnil : segs ≠ [] := by rintro rfl; simp at hj
    obtain ⟨init, d, rfl⟩ : ∃ init d, segs = init ++ [d] := ⟨_, _, (List.dropLast_append_getLast hnil).symm⟩
    have e : (init ++ [d]).map RecvEv.data ++ more = init.map .data ++ (.data d :: more) := by simp
    have hr' := C96_received z enc henc buffer pending (.data d :: more) init (fun x hx => hne x (by simp [hx]))
    rw [e] at hmono ⊢
    rw [show (init ++ [d]).length - 1 = init.length by simp, hr'] at hmono
    have hl := congrArg List.length hw
    simp only [List.flatten_append, List.length_append, List.flatten_cons, List.flatten_nil, List.append_nil] at hl hmono ⊢
    have := hlast d (by simp)
    omega
  have hk : k = segs.length := by
    rcases Nat.lt_trichotomy k segs.length with hk | hk | hk
    · exfalso
      have := hlt k hk
      rw [p1, hbefore] at this
      simp only [List.length_append] at this
      omega
    · exact hk
    · exfalso
      have := p4 _ hk
      rw [hrec, hbefore] at this
      simp only at this
      rw [hw] at this
      simp only [List.length_append] at this
      omega
  rw [hk, hrec] at p1 p2
  simp only at p1 p2
  rw [hbefore, hw] at p1
  rw [← List.append_cancel_left p1] at p2
  rw [hr, p2]

/-- **C96, buffered.** A complete sentence at the front of the buffer is returned without asking the socket
for anything. -/
theorem C96_buffered (henc : encChunked enc = false) (now : Nat → DateTime) (cfg : RCfg) (pending : Bytes) (script : List RecvEv)
    (junk rest : Bytes) (h : UInt8) (body : Bytes) (hj : 36 ∉ junk) (hh : TalkerLetter h) (hb : ¬ HasCrLf (body ++ [13])) (m : Option Msg)
    (hm : parse now (.bytes (36 :: h :: (body ++ [13, 10]))) cfg.mode cfg.validate cfg.udefs = .ok m) :
    readMsg now (sockStream z enc) cfg ⟨junk ++ (36 :: h :: (body ++ [13, 10])) ++ rest, pending, script⟩ =
      (.item (36 :: h :: (body ++ [13, 10])) m, [], ⟨rest, pending, script⟩) :=
  C96_arrival z enc henc now cfg _ [] (by simp) script rfl junk rest h body hj hh hb (by simp) (by simp) m hm

/-- A sentence in two segments, the second with the beginning of the next sentence: it is returned
although nothing is known of the rest of the connection. -/
theorem C96_example (more : List RecvEv) : ∃ m, readMsg clock0 (sockStream z 0) ⟨0, 1, true, 2, []⟩
      ⟨[], [], [.data (gll.take 20), .data (gll.drop 20 ++ pb!"$GNGL")] ++ more⟩ =
    (.item gll (some m), [], ⟨pb!"$GNGL", [], more⟩) := by
  obtain ⟨m, hm⟩ := gll_ok
  refine ⟨m, ?_⟩
  have e : gll = 36 :: 71 :: ((gll.drop 2).take 48 ++ [13, 10]) := by decide +kernel
  have := C96_arrival z 0 rfl clock0 ⟨0, 1, true, 2, []⟩ ⟨[], [], [.data (gll.take 20), .data (gll.drop 20 ++ pb!"$GNGL")] ++ more⟩
    [gll.take 20, gll.drop 20 ++ pb!"$GNGL"] (by decide +kernel) more rfl [] pb!"$GNGL" 71 ((gll.drop 2).take 48)
    (by simp) (by decide +kernel) (by
      rintro ⟨x, y, hxy⟩
      have : (10 : UInt8) ∈ (gll.drop 2).take 48 ++ [13] := by rw [hxy]; simp
      revert this; decide +kernel) (by simp only; decide +kernel)
    (by intro d hd; simp only [List.getLast?_cons_cons, List.getLast?_singleton, Option.some.injEq] at hd; subst hd; decide +kernel)
    (some m) (by rw [← e]; exact hm)
  rwa [← e] at this

end Props.Prompt
