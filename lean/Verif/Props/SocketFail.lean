import Verif.Props.Socket
import Verif.Props.Serial
import Verif.Props.Archive
/-!
# Sockets that fail or time out (C75)

A `recv` that raises `OSError`/`TimeoutError` or returns no data makes `SocketWrapper.read` give up
(/repo/src/pynmeagps/socketwrapper.py:59-97), so that one call of `NMEAReader.read()` ends; the program may call
`read()` again. The statements use the specification of bursts and timeouts of `Spec/Serial.lean`.
-/
namespace Props.SocketFail
open Py Nmea Spec

/-! ## Streams that look alike to the reader give the same results -/

theorem readMsg_sim {σ τ} (now : Nat → DateTime) (o1 : StreamOps σ) (o2 : StreamOps τ) (cfg : RCfg) (R : σ → τ → Prop)
    (h : ∀ s t, R s t → (step now o1 cfg s).1 = (step now o2 cfg t).1 ∧ R (step now o1 cfg s).2 (step now o2 cfg t).2)
    (s : σ) : ∀ t, R s t → (readMsg now o1 cfg s).1 = (readMsg now o2 cfg t).1 ∧
      (readMsg now o1 cfg s).2.1 = (readMsg now o2 cfg t).2.1 ∧
      R (readMsg now o1 cfg s).2.2 (readMsg now o2 cfg t).2.2 := by
  induction s using o1.rel.wf.induction with
  | _ s ih =>
    intro t hR
    have hd := step_dec now o1 cfg s
    obtain ⟨h1, h2⟩ := h s t hR
    rw [readMsg_eq now o1 cfg s, readMsg_eq now o2 cfg t]
    generalize hs : step now o1 cfg s = x at *
    generalize ht : step now o2 cfg t = y at *
    obtain ⟨ev, s1⟩ := x
    obtain ⟨ev', t1⟩ := y
    simp only at h1 h2
    subst h1
    cases ev with
    | eof => exact ⟨rfl, rfl, h2⟩
    | msg raw m => exact ⟨rfl, rfl, h2⟩
    | crash e => exact ⟨rfl, rfl, h2⟩
    | skip =>
      have hd : o1.rel.rel s1 s := by
        rcases hd with ⟨s', e⟩ | hd
        · cases e
        · exact hd
      exact ih s1 hd t1 h2
    | err e =>
      have hd : o1.rel.rel s1 s := by
        rcases hd with ⟨s', e⟩ | hd
        · cases e
        · exact hd
      simp only
      split
      · exact ⟨rfl, rfl, h2⟩
      · obtain ⟨a, b, c⟩ := ih s1 hd t1 h2
        refine ⟨a, ?_, c⟩
        simp only [b]

theorem polled_sim {σ τ} (now : Nat → DateTime) (o1 : StreamOps σ) (o2 : StreamOps τ) (cfg : RCfg) (R : σ → τ → Prop)
    (h : ∀ s t, R s t → (step now o1 cfg s).1 = (step now o2 cfg t).1 ∧ R (step now o1 cfg s).2 (step now o2 cfg t).2)
    (s s' : σ) (t : τ) (hR : R s t) (es) (hs : Polled now o1 cfg s es s') : ∃ t', Polled now o2 cfg t es t' ∧ R s' t' := by
  induction hs generalizing t with
  | nil s => exact ⟨t, .nil t, hR⟩
  | cons s s1 s2 r log es hm _ ih =>
    obtain ⟨a, b, c⟩ := readMsg_sim now o1 o2 cfg R h s t hR
    rw [hm] at a b c
    obtain ⟨t', h1, h2⟩ := ih _ c
    exact ⟨t', .cons _ _ _ _ _ _ (Prod.ext a.symm (Prod.ext b.symm rfl)) h1, h2⟩

theorem polled_exists {σ} (now : Nat → DateTime) (ops : StreamOps σ) (cfg : RCfg) (n : Nat) (s : σ) :
    ∃ es s', Polled now ops cfg s es s' ∧ es.length = n := by
  induction n generalizing s with
  | zero => exact ⟨[], s, .nil s, rfl⟩
  | succ n ih =>
    obtain ⟨es, s', h, hl⟩ := ih (readMsg now ops cfg s).2.2
    exact ⟨_, s', .cons _ _ _ (readMsg now ops cfg s).1 (readMsg now ops cfg s).2.1 _ rfl h, by simp [hl]⟩

/-! ## A socket and a port -/

/-- `p` is the byte before; a failure counts as CR. -/
def GoodW : UInt8 → Line → Prop
  | _, [] => True
  | _, none :: r => GoodW 13 r
  | p, some x :: r => (x = 10 → p = 13) ∧ GoodW x r

theorem goodW_append (b : Bytes) (w : Line) (hw : ∀ q, GoodW q w) :
    ∀ (p : UInt8) (pre : Bytes), (∀ x y, pre ++ b = x ++ 10 :: y → x = [] ∨ x.getLast? = some 13) →
      (pre = [] → p = 13) → (∀ q, pre.getLast? = some q → p = q) → GoodW p (b.map some ++ w) := by
  induction b with
  | nil => intro p pre _ _ _; exact hw p
  | cons c b ih =>
    intro p pre h h1 h2
    refine ⟨fun hc => ?_, ?_⟩
    · subst hc
      rcases h pre b rfl with e | e
      · exact h1 e
      · exact h2 13 e
    · refine ih c (pre ++ [c]) (by simpa using h) (by simp) (fun q hq => by simpa using hq)

theorem goodW_bursts (bs : List Bytes) (hne : bs ≠ []) (h : ∀ b ∈ bs, LfInPlace b) : GoodW 13 (withTimeouts bs) := by
  induction bs with
  | nil => exact absurd rfl hne
  | cons b bs ih =>
    have hb : ∀ x y, [] ++ b = x ++ 10 :: y → x = [] ∨ x.getLast? = some 13 := h b (by simp)
    by_cases hbs : bs = []
    · subst hbs
      have := goodW_append b [] (fun _ => trivial) 13 [] hb (fun _ => rfl) (fun q hq => by simp at hq)
      rwa [List.append_nil] at this
    · rw [withTimeouts_cons _ _ hbs]
      have ih := ih hbs (fun c hc => h c (by simp [hc]))
      exact goodW_append b (none :: withTimeouts bs) (fun _ => ih) 13 [] hb (fun _ => rfl) (fun q hq => by simp at hq)

theorem goodW_tail (p : UInt8) (a : Bytes) (r : Line) (h : GoodW p (a.map some ++ r)) : ∃ q, GoodW q r := by
  induction a generalizing p with
  | nil => exact ⟨p, h⟩
  | cons x a ih => exact ih x h.2

theorem goodW_any (p : UInt8) (r : Line) (h : GoodW p (none :: r)) : GoodW 13 r := h

/-- Inside a line (the byte before is not CR), a part without CR LF has no LF. -/
theorem goodW_nolf (p : UInt8) (d : Bytes) (r : Line) (hp : p ≠ 13) (h : GoodW p (d.map some ++ r)) (hd : ¬ HasCrLf d) : 10 ∉ d := by
  intro hm
  obtain ⟨x, y, rfl⟩ := List.append_of_mem hm
  rcases List.eq_nil_or_concat x with rfl | ⟨x', c, rfl⟩
  · exact hp (h.1 rfl)
  · have : c = 13 := by
      clear hd hm hp
      rw [List.concat_eq_append] at h
      induction x' generalizing p with
      | nil => exact h.2.1 rfl
      | cons a x' ih => exact ih a h.2
    subst this
    exact hd ⟨x', y, by simp [List.concat_eq_append]⟩

theorem sock_port (z : Zlib) (enc : Nat) (now : Nat → DateTime) (cfg : RCfg) (s : Sock) (w : Line)
    (hR : wire z enc s = w ∧ ∃ p, GoodW p w) :
    (step now (sockStream z enc) cfg s).1 = (step now serialStream cfg w).1 ∧
      (wire z enc (step now (sockStream z enc) cfg s).2 = (step now serialStream cfg w).2 ∧
        ∃ p, GoodW p (step now serialStream cfg w).2) := by
  have hread : ∀ (s : Sock) (w : Line), wire z enc s = w →
      ((sockStream z enc).read1 s).1 = (serialStream.read1 w).1 ∧
        wire z enc ((sockStream z enc).read1 s).2 = (serialStream.read1 w).2 := by
    intro s w h
    have e := read_wire z enc 1 s
    rw [h, wireRead1] at e
    cases w with
    | nil => exact Prod.mk.inj e
    | cons x w => cases x <;> exact Prod.mk.inj e
  refine step_sim now _ _ cfg (fun s w => wire z enc s = w ∧ ∃ p, GoodW p w) (fun s w => wire z enc s = w ∧ GoodW 36 w)
    (fun s w => wire z enc s = w ∧ ∃ h, TalkerLetter h ∧ GoodW h w) s w (hread s w hR.1).1
    ⟨(hread s w hR.1).2, ?_⟩ ?_ ?_ ?_
  · obtain ⟨_, p, hg⟩ := hR
    cases w with
    | nil => exact ⟨p, hg⟩
    | cons x w =>
      cases x with
      | none => exact ⟨13, hg⟩
      | some x => exact ⟨x, hg.2⟩
  · intro h36
    refine ⟨(hread s w hR.1).2, ?_⟩
    rw [(hread s w hR.1).1] at h36
    obtain ⟨_, p, hg⟩ := hR
    cases w with
    | nil => simp [serialStream, serialRead1] at h36
    | cons x w =>
      cases x with
      | none => simp [serialStream, serialRead1] at h36
      | some x => simp [serialStream, serialRead1] at h36; subst h36; exact hg.2
  · rintro s w ⟨h, hg⟩
    refine ⟨(hread s w h).1, ⟨(hread s w h).2, ?_⟩, ?_⟩
    · cases w with
      | nil => exact ⟨13, trivial⟩
      | cons x w =>
        cases x with
        | none => exact ⟨13, hg⟩
        | some x => exact ⟨x, hg.2⟩
    · rintro ⟨c, hc, e⟩
      refine ⟨(hread s w h).2, c, hc, ?_⟩
      rw [(hread s w h).1] at e
      cases w with
      | nil => simp [serialStream, serialRead1] at e
      | cons x w =>
        cases x with
        | none => simp [serialStream, serialRead1] at e
        | some x => simp [serialStream, serialRead1] at e; subst e; exact hg.2
  · rintro s w ⟨h, c, hc, hg⟩
    have hc13 : c ≠ 13 := by rintro rfl; exact absurd hc (by decide +kernel)
    have hl := C31_readline z enc s
    show (s.readline z enc).1 = (serialLine w).1 ∧ wire z enc (s.readline z enc).2 = (serialLine w).2 ∧
      ∃ p, GoodW p (serialLine w).2
    rcases C31_exhaustive z enc s with ⟨d, w', e, hn⟩ | ⟨d, w', e, hn⟩ | ⟨d, e, hn⟩
    · obtain ⟨l1, l2⟩ := hl.1 d w' e hn
      have e2 : w = ((d ++ [13]) ++ [10]).map some ++ w' := by rw [← h, e]; simp
      have hlf : 10 ∉ d ++ [13] := by
        refine goodW_nolf c (d ++ [13]) (some 10 :: w') hc13 ?_ hn
        rw [e2] at hg; simpa using hg
      rw [l1, l2, e2, serialLine_lf _ _ hlf]
      refine ⟨by simp, rfl, ?_⟩
      rw [e2] at hg
      exact goodW_tail c _ w' hg
    · obtain ⟨l1, l2⟩ := hl.2.1 d w' e hn
      rw [h] at e; subst e
      rw [l1, l2, serialLine_cut d w' (goodW_nolf c d _ hc13 hg hn)]
      obtain ⟨q, hq⟩ := goodW_tail c d _ hg
      exact ⟨rfl, rfl, 13, hq⟩
    · obtain ⟨l1, l2⟩ := hl.2.2 d e hn
      rw [h] at e; subst e
      have hnl := goodW_nolf c d [] hc13 (by rwa [List.append_nil]) hn
      rw [l1, l2, serialLine_end d hnl]
      exact ⟨rfl, rfl, 13, trivial⟩

/-- A socket that delivers the bursts `bs` with a failure of `recv` between any two of them is read
exactly like a serial port that delivers the same bytes and times out at the same places - however often
`read()` is called, whatever the settings, the segments and the transfer encoding - provided every LF inside
a burst is preceded by CR. -/
theorem C75_socket_is_port (z : Zlib) (enc : Nat) (now : Nat → DateTime) (cfg : RCfg) (s : Sock) (bs : List Bytes)
    (hne : bs ≠ []) (hw : wire z enc s = withTimeouts bs) (hb : ∀ b ∈ bs, LfInPlace b) (es) (w : Line) :
    (∃ s', Polled now (sockStream z enc) cfg s es s' ∧ wire z enc s' = w) ↔
      Polled now serialStream cfg (withTimeouts bs) es w := by
  have hR : wire z enc s = withTimeouts bs ∧ ∃ p, GoodW p (withTimeouts bs) := ⟨hw, 13, goodW_bursts bs hne hb⟩
  have key : ∀ es s', Polled now (sockStream z enc) cfg s es s' →
      Polled now serialStream cfg (withTimeouts bs) es (wire z enc s') := by
    intro es s' h
    obtain ⟨t', h1, h2, -⟩ := polled_sim now _ _ cfg (fun s w => wire z enc s = w ∧ ∃ p, GoodW p w)
      (fun s w h => sock_port z enc now cfg s w h) s s' _ hR es h
    rwa [h2]
  constructor
  · rintro ⟨s', h, rfl⟩; exact key es s' h
  · intro h
    obtain ⟨es', s', h', hl⟩ := polled_exists now (sockStream z enc) cfg es.length s
    obtain ⟨rfl, rfl⟩ := polled_det h (key es' s' h') hl.symm
    exact ⟨s', h', rfl⟩

/-- The wrapper's constructor reads once: a failure of that first `recv` is absorbed. Otherwise what a
socket without transfer encoding has to deliver is what its `recv` calls deliver. -/
theorem C75_open (z : Zlib) (enc : Nat) (henc : encChunked enc = false) (script : List RecvEv) :
    wire z enc (Sock.open z enc script) =
      match script.flatMap delivered with | none :: w => w | w => w := open_wire z enc henc script

/-- What successive calls of `read()` give for a socket with failures, errors being raised: the answers
of the specification, which are unique, and then the socket is exhausted. -/
theorem C75_every_socket (z : Zlib) (enc : Nat) (now : Nat → DateTime) (cfg : RCfg) (hq : cfg.quitonerror = 2)
    (s : Sock) (bs : List Bytes) (hne : bs ≠ []) (hw : wire z enc s = withTimeouts bs) (hb : ∀ b ∈ bs, LfInPlace b) :
    ∃ rs, Answers now cfg bs rs ∧ (∀ rs', Answers now cfg bs rs' → rs' = rs) ∧
      ∃ es s', Polled now (sockStream z enc) cfg s es s' ∧ wire z enc s' = [] ∧ es.map Prod.snd = rs ∧
        ∀ x ∈ es, x.1 = [] := by
  obtain ⟨rs, h1, h2, es, h3, h4, h5⟩ := C67_every_port now cfg hq bs hne
  obtain ⟨s', h6, h7⟩ := (C75_socket_is_port z enc now cfg s bs hne hw hb es []).2 h3
  exact ⟨rs, h1, h2, es, s', h6, h7, h4, h5⟩

/-- No sentence is put together from data before and after a failure; every sentence returned was received
between two failures, and its message is what `parse` makes of it. -/
theorem C75_no_splice (z : Zlib) (enc : Nat) (now : Nat → DateTime) (cfg : RCfg) (s s' : Sock) (bs : List Bytes)
    (hne : bs ≠ []) (hw : wire z enc s = withTimeouts bs) (hb : ∀ b ∈ bs, LfInPlace b) (es)
    (h : Polled now (sockStream z enc) cfg s es s') (log raw m) (hm : (log, .item raw m) ∈ es) :
    ∃ b ∈ bs, ∃ pre post, b = pre ++ raw ++ post ∧
      parse now (.bytes raw) cfg.mode cfg.validate cfg.udefs = .ok m :=
  C67_no_splice now cfg bs hne es _ ((C75_socket_is_port z enc now cfg s bs hne hw hb es _).1 ⟨s', h, rfl⟩) log raw m hm

theorem lfInPlace_append (a b : Bytes) (ha : LfInPlace a) (hb : LfAfterCr b) : LfInPlace (a ++ b) := by
  intro x y e
  rcases List.append_eq_append_iff.1 e with ⟨c, rfl, e2⟩ | ⟨c, rfl, e2⟩
  · right
    cases c with
    | nil => 
      have := hb [] y (by simpa using e2)
      simp at this
    | cons c cs =>
      have := hb (c :: cs) y e2
      rw [List.getLast?_append, this]; rfl
  · cases c with
    | nil =>
      have := hb [] y (by simpa using e2.symm)
      simp at this
    | cons c cs =>
      simp only [List.cons_append, List.cons.injEq] at e2
      obtain ⟨rfl, -⟩ := e2
      exact ha x cs rfl

theorem crLf_after {b : Bytes} (h : CrLfLine b) : LfAfterCr b := by
  have := lines_lfAfterCr [b] (by simpa using h)
  simpa using this

theorem after_append (a b : Bytes) (ha : LfAfterCr a) (hb : LfAfterCr b) : LfAfterCr (a ++ b) := by
  intro x y e
  rcases lfInPlace_append a b (fun x y e => .inr (ha x y e)) hb x y e with rfl | h
  · cases a with
    | nil => exact hb [] y e
    | cons c a =>
      simp only [List.cons_append, List.nil_append, List.cons.injEq] at e
      obtain ⟨rfl, -⟩ := e
      exact ha [] a rfl
  · exact h

theorem after_nolf (a : Bytes) (h : 10 ∉ a) : LfAfterCr a := by
  rintro x y rfl; simp at h

/-- Failures between sentences lose nothing: if every burst consists of acceptable sentences ending in CR LF
and bytes without `$` and LF, then with every error policy successive calls of `read()` return the sentences of the
first burst in order, `(None, None)`, the sentences of the second burst, and so on: each sentence exactly
once. -/
theorem C75_between_sentences (z : Zlib) (enc : Nat) (now : Nat → DateTime) (cfg : RCfg) (s : Sock)
    (bursts : List (List (Bytes × Bytes × Option Msg) × Bytes)) (hne : bursts ≠ [])
    (hw : wire z enc s = withTimeouts (bursts.map fun b => b.1.flatMap (fun x => x.1 ++ x.2.1) ++ b.2))
    (hjunk : ∀ b ∈ bursts, ((36 : UInt8) ∉ b.2 ∧ 10 ∉ b.2) ∧ ∀ x ∈ b.1, (36 : UInt8) ∉ x.1 ∧ 10 ∉ x.1)
    (hline : ∀ b ∈ bursts, ∀ x ∈ b.1, CrLfLine x.2.1)
    (hok : ∀ b ∈ bursts, ∀ x ∈ b.1, parse now (.bytes x.2.1) cfg.mode cfg.validate cfg.udefs = .ok x.2.2) :
    ∃ s', Polled now (sockStream z enc) cfg s
      (bursts.flatMap fun b => b.1.map (fun x => ([], ReadResult.item x.2.1 x.2.2)) ++ [([], .none)]) s' ∧
      wire z enc s' = [] := by
  have hp := C67_between_sentences now cfg bursts hne (fun b hb => ⟨(hjunk b hb).1.1, fun x hx => ((hjunk b hb).2 x hx).1⟩)
    (fun b hb x hx => (hline b hb x hx).complete) hok
  refine (C75_socket_is_port z enc now cfg s _ (by simpa using hne) hw ?_ _ []).2 hp
  intro b hb
  obtain ⟨b0, hb0, rfl⟩ := List.mem_map.1 hb
  have hall : LfAfterCr (b0.1.flatMap (fun x => x.1 ++ x.2.1) ++ b0.2) := by
    refine after_append _ _ ?_ (after_nolf _ (hjunk b0 hb0).1.2)
    have h1 := (hjunk b0 hb0).2
    have h2 := hline b0 hb0
    generalize b0.1 = xs at h1 h2
    induction xs with
    | nil => exact after_nolf _ (by simp)
    | cons x xs ih =>
      rw [List.flatMap_cons]
      refine after_append _ _ (after_append _ _ (after_nolf _ (h1 x (by simp)).2) (crLf_after (h2 x (by simp)))) ?_
      exact ih (fun y hy => h1 y (by simp [hy])) (fun y hy => h2 y (by simp [hy]))
  intro x y e
  exact .inr (hall x y e)

/-- A failure inside a sentence loses that sentence and no other: with errors raised, the calls give `(None, None)`
(failure after the first or second byte) or one `NMEAStreamError`, and then what they would give for a
socket that begins after the sentence. -/
theorem C75_cut_sentence (z z' : Zlib) (enc enc' : Nat) (now : Nat → DateTime) (cfg : RCfg) (hq : cfg.quitonerror = 2)
    (s t : Sock) (x1 x2 rest : Bytes)
    (bs : List Bytes) (hw : wire z enc s = withTimeouts (x1 :: (x2 ++ rest) :: bs)) (ht : wire z' enc' t = withTimeouts (rest :: bs))
    (hb : ∀ b ∈ x1 :: (x2 ++ rest) :: rest :: bs, LfInPlace b)
    (hx : CompleteLine (x1 ++ x2)) (h1 : x1 ≠ []) (h2 : x2 ≠ []) (hd : (36 : UInt8) ∉ x2) :
    ∃ es s' t', Polled now (sockStream z' enc') cfg t es t' ∧ wire z' enc' t' = [] ∧
      Polled now (sockStream z enc) cfg s
        (([], if x1.length ≤ 2 then .none else .raised .nmeaStream) :: es) s' ∧ wire z enc s' = [] := by
  obtain ⟨rs, hr, -, es, t', ht1, ht2, ht3, ht4⟩ := C75_every_socket z' enc' now cfg hq t (rest :: bs) (by simp) ht
    (fun b hm => hb b (List.mem_cons_of_mem _ (List.mem_cons_of_mem _ hm)))
  obtain ⟨rs', hr', hu, es', s', hs1, hs2, hs3, hs4⟩ := C75_every_socket z enc now cfg hq s (x1 :: (x2 ++ rest) :: bs) (by simp) hw
    (fun b hm => hb b (by simp only [List.mem_cons] at hm ⊢; rcases hm with h | h | h <;> simp [h]))
  have := hu _ (C67_cut_sentence now cfg x1 x2 rest bs rs hx h1 h2 hd hr)
  rw [← hs3, ← ht3] at this
  refine ⟨es, s', t', ht1, ht2, ?_, hs2⟩
  have he : es' = ([], if x1.length ≤ 2 then ReadResult.none else .raised .nmeaStream) :: es := by
    cases es' with
    | nil => simp at this
    | cons e es' =>
      simp only [List.map_cons, List.cons.injEq] at this
      have e1 : e.1 = [] := hs4 e (by simp)
      congr 1
      · exact Prod.ext e1 this.1.symm
      · have a1 : es' = es'.map (fun x => (([] : List Err), x.2)) := by
          conv => lhs; rw [← List.map_id es']
          exact List.map_congr_left (fun x hx => Prod.ext (hs4 x (by simp [hx])) rfl)
        have a2 : es = es.map (fun x => (([] : List Err), x.2)) := by
          conv => lhs; rw [← List.map_id es]
          exact List.map_congr_left (fun x hx => Prod.ext (ht4 x hx) rfl)
        rw [a1, a2]
        have := congrArg (List.map (fun r => (([] : List Err), r))) this.2
        simpa [List.map_map, Function.comp_def] using this.symm
  rw [← he]; exact hs1

/-! A socket with two sentences, a timeout between them and a timeout inside a third. -/
example (z : Zlib) (now : Nat → DateTime) (m : Option Msg)
    (h : parse now (.bytes (pb!"$GNROT,1.5,A*21\r\n")) 0 1 [] = .ok m) :
    ∃ s', Polled now (sockStream z 0) ⟨0, 1, false, 2, []⟩
      (Sock.open z 0 [.data (pb!"$GNROT,1."), .data (pb!"5,A*21\r\n"), .fail, .data (pb!"$GNROT,1.5,A*21\r\n")])
      [([], .item (pb!"$GNROT,1.5,A*21\r\n") m), ([], .none), ([], .item (pb!"$GNROT,1.5,A*21\r\n") m), ([], .none)] s' ∧
      wire z 0 s' = [] := by
  have hx : CrLfLine (pb!"$GNROT,1.5,A*21\r\n") := ⟨71, pb!"NROT,1.5,A*21", by decide +kernel, by decide +kernel, rfl⟩
  have := C75_between_sentences z 0 now ⟨0, 1, false, 2, []⟩
    (Sock.open z 0 [.data (pb!"$GNROT,1."), .data (pb!"5,A*21\r\n"), .fail, .data (pb!"$GNROT,1.5,A*21\r\n")])
    [([([], pb!"$GNROT,1.5,A*21\r\n", m)], []), ([([], pb!"$GNROT,1.5,A*21\r\n", m)], [])] (by simp)
    (by rw [C75_open z 0 rfl]; rfl)
    (by intro b hb; simp at hb; subst hb; simp)
    (by intro b hb x hx'; simp at hb; subst hb; simp at hx'; subst hx'; exact hx)
    (by intro b hb x hx'; simp at hb; subst hb; simp at hx'; subst hx'; exact h)
  simpa using this

/-! The hypotheses of `C75_cut_sentence` are met by a socket that fails inside its first sentence. -/
example (z : Zlib) (now : Nat → DateTime) : ∃ es s' t',
    Polled now (sockStream z 0) ⟨0, 1, false, 2, []⟩ (Sock.open z 0 [.data (pb!"$GNROT,1.5,A*21\r\n")]) es t' ∧
      wire z 0 t' = [] ∧
      Polled now (sockStream z 0) ⟨0, 1, false, 2, []⟩
        (Sock.open z 0 [.data (pb!"$GNRO"), .fail, .data (pb!"T,1.5,A*21\r\n$GNROT,1.5,A*21\r\n")])
        (([], .raised .nmeaStream) :: es) s' ∧ wire z 0 s' = [] :=
  C75_cut_sentence z z 0 0 now ⟨0, 1, false, 2, []⟩ rfl _ _ (pb!"$GNRO") (pb!"T,1.5,A*21\r\n") (pb!"$GNROT,1.5,A*21\r\n") []
    (by rw [C75_open z 0 rfl]; rfl) (by rw [C75_open z 0 rfl]; rfl)
    (by
      have hx : CrLfLine (pb!"$GNROT,1.5,A*21\r\n") := ⟨71, pb!"NROT,1.5,A*21", by decide +kernel, by decide +kernel, rfl⟩
      have h1 : LfAfterCr (pb!"T,1.5,A*21\r\n") := by
        intro x y e
        have := crLf_after hx (pb!"$GNRO" ++ x) y (by rw [List.append_assoc, ← e]; rfl)
        cases x with
        | nil => simp at e
        | cons c x =>
          rw [List.getLast?_append] at this
          rcases h : (c :: x).getLast? with _ | q
          · simp at h
          · rw [h] at this; exact this
      intro b hb x y e
      simp only [List.mem_cons, List.not_mem_nil, or_false] at hb
      rcases hb with rfl | rfl | rfl
      · exact .inr (after_nolf _ (by decide +kernel) x y e)
      · exact .inr (after_append _ _ h1 (crLf_after hx) x y e)
      · exact .inr (crLf_after hx x y e))
    ⟨71, pb!"NROT,1.5,A*21\r", by decide +kernel, by decide +kernel, rfl⟩ (by decide) (by decide) (by decide +kernel)

end Props.SocketFail
