import Verif.Spec.Handover
import Verif.Lemmas.ReaderMore
import Verif.Props.SocketFail
/-!
# C94: handing a stream from one reader to another
-/
namespace Props
open Py Nmea Spec

/-- One pass over a file takes exactly its first piece, whatever the settings. -/
theorem step_piece (now : Nat → DateTime) (b : Bytes) (p : Piece) (ps : List Piece) (h : Pieces b (p :: ps)) :
    ∃ r, Pieces r ps ∧ ∀ cfg, step now fileStream cfg b = (eventOf now cfg p, r) := by
  generalize hz : p :: ps = z at h
  cases h with
  | nil => cases hz
  | junk b r ps' hb hr =>
    cases hz
    refine ⟨r, hr, fun cfg => ?_⟩
    simp only [step, fileStream, List.take_succ_cons, List.take_zero, List.drop_succ_cons, List.drop_zero]
    rw [if_neg (by simp), if_pos (by simpa using hb)]
    rfl
  | foreign h r ps' hh hr =>
    cases hz
    refine ⟨r, hr, fun cfg => ?_⟩
    simp only [step, fileStream, List.take_succ_cons, List.take_zero, List.drop_succ_cons, List.drop_zero]
    rw [if_neg (by simp), if_neg (by simp), if_neg (by simp), if_neg (by
      intro hm; exact hh ((hdr_iff h).1 hm))]
    simp only [eventOf]
    split <;> rfl
  | line h body r ps' hh hl hr =>
    cases hz
    refine ⟨r, hr, fun cfg => ?_⟩
    simp only [step, fileStream, List.take_succ_cons, List.take_zero, List.drop_succ_cons, List.drop_zero]
    rw [if_neg (by simp), if_neg (by simp), if_neg (by simp), if_pos (show ([36] ++ [h] : Bytes) ∈ NMEA_HDR from (hdr_iff h).2 hh)]
    simp only [readLine]
    rw [fileLine_lf body r hl]
    simp only
    rw [if_neg (by simp), if_neg (by simp)]
    simp only [eventOf]
    have e : ([36] ++ [h] ++ (body ++ [10]) : Bytes) = 36 :: h :: (body ++ [10]) := by simp
    rw [e]
    cases parse now (.bytes (36 :: h :: (body ++ [10]))) cfg.mode cfg.validate cfg.udefs with
    | ok m => rfl
    | error e => cases e <;> rfl
  | dollar => cases hz
  | letter h hh => cases hz
  | cut h body hh hne hl =>
    cases hz
    refine ⟨[], .nil, fun cfg => ?_⟩
    simp only [step, fileStream, List.take_succ_cons, List.take_zero, List.drop_succ_cons, List.drop_zero]
    rw [if_neg (by simp), if_neg (by simp), if_neg (by simp), if_pos (show ([36] ++ [h] : Bytes) ∈ NMEA_HDR from (hdr_iff h).2 hh)]
    simp only [readLine]
    rw [fileLine_nolf body hl]
    simp only
    rw [if_neg hne, if_pos]
    · rfl
    · intro e
      exact hl (List.mem_of_getLast? e)

/-- No piece left: the pass ends the file. -/
theorem step_no_piece (now : Nat → DateTime) (b : Bytes) (h : Pieces b []) (cfg : RCfg) :
    step now fileStream cfg b = (.eof, []) := by
  generalize hz : ([] : List Piece) = z at h
  cases h with
  | nil => rfl
  | junk => cases hz
  | foreign => cases hz
  | line => cases hz
  | dollar => rfl
  | letter h hh =>
    simp only [step, fileStream, List.take_succ_cons, List.take_zero, List.drop_succ_cons, List.drop_zero]
    rw [if_neg (by simp), if_neg (by simp), if_neg (by simp), if_pos (show ([36] ++ [h] : Bytes) ∈ NMEA_HDR from (hdr_iff h).2 hh)]
    simp only [readLine, fileLine]
    rfl
  | cut => cases hz

/-- One `read()` on a file. -/
theorem read_pieces (now : Nat → DateTime) (cfg : RCfg) (ps : List Piece) : ∀ (b : Bytes), Pieces b ps →
    ((∀ q ∈ ps, PassedOver now cfg q) ∧ (readMsg now fileStream cfg b).1 = .none ∧
        (readMsg now fileStream cfg b).2.2 = []) ∨
      ∃ passed p rest r, ps = passed ++ p :: rest ∧ (∀ q ∈ passed, PassedOver now cfg q) ∧
        ¬ PassedOver now cfg p ∧ reply now cfg p = some r ∧ (readMsg now fileStream cfg b).1 = r ∧
        Pieces (readMsg now fileStream cfg b).2.2 rest := by
  induction ps with
  | nil =>
    intro b h
    left
    rw [readMsg_eq, step_no_piece now b h cfg]
    exact ⟨fun _ h => (List.not_mem_nil h).elim, rfl, rfl⟩
  | cons p ps ih =>
    intro b h
    obtain ⟨r, hr, hs⟩ := step_piece now b p ps h
    have ih := ih r hr
    have pass : PassedOver now cfg p → (readMsg now fileStream cfg b).1 = (readMsg now fileStream cfg r).1 →
        (readMsg now fileStream cfg b).2.2 = (readMsg now fileStream cfg r).2.2 →
        ((∀ q ∈ p :: ps, PassedOver now cfg q) ∧ (readMsg now fileStream cfg b).1 = .none ∧
          (readMsg now fileStream cfg b).2.2 = []) ∨
        ∃ passed p' rest r, p :: ps = passed ++ p' :: rest ∧ (∀ q ∈ passed, PassedOver now cfg q) ∧
          ¬ PassedOver now cfg p' ∧ reply now cfg p' = some r ∧ (readMsg now fileStream cfg b).1 = r ∧
          Pieces (readMsg now fileStream cfg b).2.2 rest := by
      intro hp e1 e2
      rw [e1, e2]
      rcases ih with ⟨h1, h2⟩ | ⟨passed, p', rest, r', e, h1, h2⟩
      · left
        refine ⟨fun q hq => ?_, h2⟩
        rcases List.mem_cons.1 hq with rfl | hq
        · exact hp
        · exact h1 q hq
      · right
        refine ⟨p :: passed, p', rest, r', by rw [e]; rfl, fun q hq => ?_, h2⟩
        rcases List.mem_cons.1 hq with rfl | hq
        · exact hp
        · exact h1 q hq
    have stop : ∀ x, ¬ PassedOver now cfg p → reply now cfg p = some x → (readMsg now fileStream cfg b).1 = x →
        (readMsg now fileStream cfg b).2.2 = r →
        ((∀ q ∈ p :: ps, PassedOver now cfg q) ∧ (readMsg now fileStream cfg b).1 = .none ∧
          (readMsg now fileStream cfg b).2.2 = []) ∨
        ∃ passed p' rest r, p :: ps = passed ++ p' :: rest ∧ (∀ q ∈ passed, PassedOver now cfg q) ∧
          ¬ PassedOver now cfg p' ∧ reply now cfg p' = some r ∧ (readMsg now fileStream cfg b).1 = r ∧
          Pieces (readMsg now fileStream cfg b).2.2 rest := by
      intro x hp hx e1 e2
      right
      refine ⟨[], p, ps, x, rfl, fun _ h => (List.not_mem_nil h).elim, hp, hx, e1, ?_⟩
      rw [e2]; exact hr
    have hread := readMsg_eq now fileStream cfg b
    rw [hs cfg] at hread
    have onErr : ∀ e, LibraryError e → eventOf now cfg p = .err e → reply now cfg p = some (.raised e) →
        ((∀ q ∈ p :: ps, PassedOver now cfg q) ∧ (readMsg now fileStream cfg b).1 = .none ∧
          (readMsg now fileStream cfg b).2.2 = []) ∨
        ∃ passed p' rest r, p :: ps = passed ++ p' :: rest ∧ (∀ q ∈ passed, PassedOver now cfg q) ∧
          ¬ PassedOver now cfg p' ∧ reply now cfg p' = some r ∧ (readMsg now fileStream cfg b).1 = r ∧
          Pieces (readMsg now fileStream cfg b).2.2 rest := by
      intro e hle he hrep
      rw [he] at hread
      by_cases hq : cfg.quitonerror = 2
      · simp only [hq, if_true] at hread
        refine stop _ ?_ hrep (by rw [hread]) (by rw [hread])
        rintro (h1 | ⟨h1, _⟩)
        · rw [h1] at hrep; cases hrep
        · exact h1 hq
      · simp only [hq, if_false] at hread
        exact pass (.inr ⟨hq, e, hrep, hle⟩) (by rw [hread]) (by rw [hread])
    cases p with
    | junk x => exact pass (.inl rfl) (by rw [hread]; rfl) (by rw [hread]; rfl)
    | foreign x =>
      by_cases hn : cfg.nmeaonly
      · exact onErr .nmeaParse (by simp [LibraryError]) (by simp [eventOf, hn]) (by simp [reply, hn])
      · have he : eventOf now cfg (.foreign x) = .skip := by simp [eventOf, hn]
        rw [he] at hread
        exact pass (.inl (by simp [reply, hn])) (by rw [hread]) (by rw [hread])
    | cut raw => exact onErr .nmeaStream (by simp [LibraryError]) rfl rfl
    | line raw =>
      cases hp : parse now (.bytes raw) cfg.mode cfg.validate cfg.udefs with
      | ok m =>
        have he : eventOf now cfg (.line raw) = .msg raw m := by simp [eventOf, hp]
        have hrep : reply now cfg (.line raw) = some (.item raw m) := by simp [reply, hp]
        rw [he] at hread
        refine stop _ ?_ hrep (by rw [hread]) (by rw [hread])
        rintro (h1 | ⟨_, e, h1, _⟩)
        · rw [h1] at hrep; cases hrep
        · rw [h1] at hrep; cases hrep
      | error e =>
        have hrep : reply now cfg (.line raw) = some (.raised e) := by simp [reply, hp]
        by_cases hle : LibraryError e
        · exact onErr e hle (by simp [eventOf, hp, hle]) hrep
        · have he : eventOf now cfg (.line raw) = .crash e := by simp [eventOf, hp, hle]
          rw [he] at hread
          refine stop _ ?_ hrep (by rw [hread]) (by rw [hread])
          rintro (h1 | ⟨_, e', h1, h2⟩)
          · rw [h1] at hrep; cases hrep
          · rw [h1] at hrep; cases hrep; exact hle h2

/-- **C94, files.** Calls of `read()` on one file, each with settings of its own (another
`NMEAReader`, or the same with its settings changed): each begins exactly at the piece after the last
one the call before it dealt with, whatever the settings were. -/
theorem C94_file (now : Nat → DateTime) (cfgs : List RCfg) : ∀ (b : Bytes) (ps : List Piece), Pieces b ps →
    ∃ left, Relayed now ps cfgs (relay now fileStream cfgs b).1 left ∧
      Pieces (relay now fileStream cfgs b).2 left := by
  induction cfgs with
  | nil => intro b ps h; exact ⟨ps, .done ps, h⟩
  | cons cfg cfgs ih =>
    intro b ps h
    rcases read_pieces now cfg ps b h with ⟨h1, h2, h3⟩ | ⟨passed, p, rest, r, e, h1, h2, h3, h4, h5⟩
    · obtain ⟨left, hl, hp⟩ := ih [] [] .nil
      refine ⟨left, ?_, ?_⟩
      · simp only [relay]; rw [h2, h3]; exact .ended ps cfg cfgs _ left h1 hl
      · simp only [relay]; rw [h3]; exact hp
    · obtain ⟨left, hl, hp⟩ := ih _ rest h5
      refine ⟨left, ?_, hp⟩
      simp only [relay]; rw [h4, e]; exact .next passed p rest cfg cfgs r _ left h1 h2 h3 hl

theorem linesOf_append (a b : List Piece) : linesOf (a ++ b) = linesOf a ++ linesOf b := by
  induction a with
  | nil => rfl
  | cons p a ih => cases p <;> simp [linesOf, ih]

/-- **C94, every sentence once.** When every line of the file is acceptable to every one of the
readers, then however often the file changes hands, the sentences returned, followed by the lines not
yet read, are all the lines of the file, each once and in order. -/
theorem C94_each_once (now : Nat → DateTime) (cfgs : List RCfg) (b : Bytes) (ps : List Piece) (h : Pieces b ps)
    (hok : ∀ raw ∈ linesOf ps, ∀ cfg ∈ cfgs, ∃ m, parse now (.bytes raw) cfg.mode cfg.validate cfg.udefs = .ok m) :
    ∃ left, Pieces (relay now fileStream cfgs b).2 left ∧
      rawOf (relay now fileStream cfgs b).1 ++ linesOf left = linesOf ps := by
  obtain ⟨left, hr, hp⟩ := C94_file now cfgs b ps h
  refine ⟨left, hp, ?_⟩
  generalize (relay now fileStream cfgs b).1 = rs at hr
  clear h hp b
  induction hr with
  | done ps => rfl
  | next passed p ps cfg cfgs r rs left h1 h2 h3 _ ih =>
    have hpass : linesOf passed = [] := by
      clear ih
      induction passed with
      | nil => rfl
      | cons q qs ihq =>
        have hq := h1 q (List.mem_cons_self ..)
        cases q with
        | line raw =>
          obtain ⟨m, hm⟩ := hok raw (by simp [linesOf]) cfg (List.mem_cons_self ..)
          rcases hq with hq | ⟨_, e, hq, _⟩ <;> simp [reply, hm] at hq
        | junk x => exact ihq (fun q hq => h1 q (List.mem_cons_of_mem _ hq)) (fun raw hr => hok raw hr)
        | foreign x => exact ihq (fun q hq => h1 q (List.mem_cons_of_mem _ hq)) (fun raw hr => hok raw hr)
        | cut x => exact ihq (fun q hq => h1 q (List.mem_cons_of_mem _ hq)) (fun raw hr => hok raw hr)
    have ih := ih (fun raw hr c hc => hok raw (by rw [linesOf_append]; cases p <;> simp [linesOf, hr]) c
      (List.mem_cons_of_mem _ hc))
    rw [linesOf_append, hpass, List.nil_append]
    cases p with
    | line raw =>
      obtain ⟨m, hm⟩ := hok raw (by rw [linesOf_append]; simp [linesOf]) cfg (List.mem_cons_self ..)
      simp [reply, hm] at h3
      subst h3
      simp [rawOf, linesOf, ih]
    | junk x => simp [reply] at h3
    | foreign x =>
      simp [reply] at h3
      obtain ⟨_, h3⟩ := h3; subst h3
      simpa [rawOf, linesOf] using ih
    | cut x =>
      simp [reply] at h3
      subst h3
      simpa [rawOf, linesOf] using ih
  | ended ps cfg cfgs rs left h1 hrel ih =>
    have hps : linesOf ps = [] := by
      clear ih
      induction ps with
      | nil => rfl
      | cons q qs ihq =>
        have hq := h1 q (List.mem_cons_self ..)
        cases q with
        | line raw =>
          obtain ⟨m, hm⟩ := hok raw (by simp [linesOf]) cfg (List.mem_cons_self ..)
          rcases hq with hq | ⟨_, e, hq, _⟩ <;> simp [reply, hm] at hq
        | junk x => exact ihq (fun q hq => h1 q (List.mem_cons_of_mem _ hq)) (fun raw hr => hok raw hr)
        | foreign x => exact ihq (fun q hq => h1 q (List.mem_cons_of_mem _ hq)) (fun raw hr => hok raw hr)
        | cut x => exact ihq (fun q hq => h1 q (List.mem_cons_of_mem _ hq)) (fun raw hr => hok raw hr)
    have := ih (fun raw hr => by simp [linesOf] at hr)
    rw [hps]
    simpa [rawOf, linesOf] using this

/-- One `read()` on a stream that loses nothing: it uses up a part of the content, and what it
returns is the end of that part. -/
theorem read_consumes {σ} (now : Nat → DateTime) (ops : StreamOps σ) (content : σ → Bytes) (hl : Lossless ops content)
    (cfg : RCfg) (s : σ) : ∃ gap, content s = gap ++ content (readMsg now ops cfg s).2.2 ∧
      ∀ raw m, (readMsg now ops cfg s).1 = .item raw m → ∃ g, gap = g ++ raw := by
  induction s using ops.rel.wf.induction with
  | _ s ih =>
    rcases hst : step now ops cfg s with ⟨ev, s'⟩
    obtain ⟨used, hc, hne, hm⟩ := step_consumes now ops content hl cfg s s' ev hst
    have dec : ev ≠ .eof → ops.rel.rel s' s := by
      intro hne
      rcases step_dec now ops cfg s with ⟨x, hx⟩ | hx
      · rw [hst] at hx; cases hx; exact absurd rfl hne
      · rw [hst] at hx; exact hx
    have hread := readMsg_eq now ops cfg s
    rw [hst] at hread
    have goOn : ev ≠ .eof → (readMsg now ops cfg s).1 = (readMsg now ops cfg s').1 →
        (readMsg now ops cfg s).2.2 = (readMsg now ops cfg s').2.2 →
        ∃ gap, content s = gap ++ content (readMsg now ops cfg s).2.2 ∧
          ∀ raw m, (readMsg now ops cfg s).1 = .item raw m → ∃ g, gap = g ++ raw := by
      intro hne e1 e2
      obtain ⟨gap, g1, g2⟩ := ih s' (dec hne)
      refine ⟨used ++ gap, by rw [e2, List.append_assoc, ← g1]; exact hc, fun raw m hr => ?_⟩
      rw [e1] at hr
      obtain ⟨g, hg⟩ := g2 raw m hr
      exact ⟨used ++ g, by rw [hg, List.append_assoc]⟩
    cases ev with
    | eof => refine ⟨used, by rw [hread]; exact hc, fun raw m hr => ?_⟩; rw [hread] at hr; cases hr
    | crash e => refine ⟨used, by rw [hread]; exact hc, fun raw m hr => ?_⟩; rw [hread] at hr; cases hr
    | msg raw m =>
      refine ⟨used, by rw [hread]; exact hc, fun raw' m' hr => ?_⟩
      rw [hread] at hr; cases hr
      exact ⟨[], (hm raw m rfl).1⟩
    | skip => exact goOn (by simp) (by rw [hread]) (by rw [hread])
    | err e =>
      by_cases hq : cfg.quitonerror = 2
      · simp only [hq, if_true] at hread
        refine ⟨used, by rw [hread]; exact hc, fun raw m hr => ?_⟩; rw [hread] at hr; cases hr
      · simp only [hq, if_false] at hread
        exact goOn (by simp) (by rw [hread]) (by rw [hread])

/-- **C94, any stream object.** On a stream object that hands out its content in order and without
loss, the raw data returned by the readers, whoever reads when, are disjoint slices of the content, in
order; and the readers together have used up a beginning of the content and nothing else. -/
theorem C94_slices {σ} (now : Nat → DateTime) (ops : StreamOps σ) (content : σ → Bytes) (hl : Lossless ops content)
    (cfgs : List RCfg) : ∀ s : σ, ∃ used, content s = used ++ content (relay now ops cfgs s).2 ∧
      SlicesOf used (rawOf (relay now ops cfgs s).1) := by
  induction cfgs with
  | nil => intro s; exact ⟨[], rfl, .nil _⟩
  | cons cfg cfgs ih =>
    intro s
    obtain ⟨gap, h1, h2⟩ := read_consumes now ops content hl cfg s
    obtain ⟨used, h3, h4⟩ := ih (readMsg now ops cfg s).2.2
    refine ⟨gap ++ used, by rw [List.append_assoc]; simp only [relay]; rw [← h3]; exact h1, ?_⟩
    simp only [relay]
    cases hr : (readMsg now ops cfg s).1 with
    | item raw m =>
      obtain ⟨g, hg⟩ := h2 raw m hr
      rw [hg]
      exact .cons g raw _ _ h4
    | none => exact slices_gap _ _ _ h4
    | raised e => exact slices_gap _ _ _ h4

/-- Streams on which one pass goes alike whatever the settings give the same outcomes to a series of
readers. -/
theorem relay_sim {σ τ} (now : Nat → DateTime) (o1 : StreamOps σ) (o2 : StreamOps τ) (R : σ → τ → Prop)
    (h : ∀ cfg s t, R s t → (step now o1 cfg s).1 = (step now o2 cfg t).1 ∧ R (step now o1 cfg s).2 (step now o2 cfg t).2)
    (cfgs : List RCfg) : ∀ s t, R s t → (relay now o1 cfgs s).1 = (relay now o2 cfgs t).1 ∧
      R (relay now o1 cfgs s).2 (relay now o2 cfgs t).2 := by
  induction cfgs with
  | nil => intro s t hR; exact ⟨rfl, hR⟩
  | cons cfg cfgs ih =>
    intro s t hR
    obtain ⟨h1, _, h3⟩ := SocketFail.readMsg_sim now o1 o2 cfg R (h cfg) s t hR
    obtain ⟨h4, h5⟩ := ih _ _ h3
    exact ⟨by simp only [relay]; rw [h1, h4], h5⟩

/-- **C94, sockets: handing on the stream object.** `reader.datastream` of a reader on a socket is the
`SocketWrapper`; a new `NMEAReader` on that object goes on exactly where the old one stopped: readers
that share it get what readers sharing a file with the same bytes would get. -/
theorem C94_datastream (z : Zlib) (enc : Nat) (now : Nat → DateTime) (cfgs : List RCfg) (segs : List Bytes)
    (hne : ∀ d ∈ segs, d ≠ []) (b : Bytes) (hd : deliveries z enc [] (segs.map .data) = b.map some) (hb : LfAfterCr b) :
    (relay now (sockStream z enc) cfgs (Sock.open z enc (segs.map .data))).1 = (relay now fileStream cfgs b).1 := by
  have hw : wire z enc (Sock.open z enc (segs.map .data)) = b.map some := by
    rw [open_wire_data z enc segs hne, hd]
  exact (relay_sim now _ _ (CrLfAlike z enc) (fun cfg => crlf_step z enc now cfg) cfgs _ _ ⟨hw, 13, good_of b hb⟩).1

/-- **C94, sockets: handing on the socket itself.** A new `NMEAReader` on the same *socket* wraps it
anew. What the old wrapper had received and not yet handed out is lost to it; it gets exactly the rest.
(With chunked transfer encoding, this holds if the old wrapper was between chunks.) -/
theorem C94_socket (z : Zlib) (enc : Nat) (s : Sock) (h : encChunked enc = false ∨ s.pending = []) :
    content z enc s = s.buffer ++ content z enc (Sock.open z enc s.script) := by
  have hd : deliveries z enc s.pending s.script = deliveries z enc [] s.script := by
    rcases h with h | h
    · rw [deliveries_plain z enc h, deliveries_plain z enc h]
    · rw [h]
  have ho : (wire z enc (Sock.open z enc s.script)).filterMap id = (deliveries z enc [] s.script).filterMap id := by
    unfold Sock.open Sock.recv wire
    cases s.script with
    | nil => rfl
    | cons ev r =>
      cases ev with
      | fail => simp [deliveries]
      | data d =>
        by_cases hd : d = []
        · simp [deliveries, hd]
        · simp only [if_neg hd, deliveries, Sock.accept]
          cases hc : encChunked enc with
          | true => simp
          | false => simp [deliveries_plain z enc hc]
  unfold content
  rw [ho, wire, hd, List.filterMap_append]
  congr 1
  induction s.buffer with
  | nil => rfl
  | cons x xs ih => simpa using ih

/-- A pass never adds to what the socket will deliver. -/
theorem relay_script_nil (z : Zlib) (enc : Nat) (now : Nat → DateTime) (cfgs : List RCfg) : ∀ s : Sock,
    s.script = [] → (relay now (sockStream z enc) cfgs s).2.script = [] := by
  have hrel : ∀ a b : Sock, b.script = [] → Sock.lt.rel a b → a.script = [] := by
    intro a b hb h
    rw [Sock.lt_iff, hb] at h
    rcases h with h | h
    · simp at h
    · exact List.eq_nil_of_length_eq_zero h.1
  have hread1 : ∀ s : Sock, s.script = [] → ((sockStream z enc).read1 s).2.script = [] := by
    intro s hs
    rcases Sock.read_le z enc s 0 with h | h
    · show (s.read z enc 1).2.script = []
      rw [h]; exact hs
    · exact hrel _ s hs h
  have hline : ∀ s : Sock, s.script = [] → (readLine (sockStream z enc) s).2.script = [] := by
    intro s hs
    rcases readLine_rel (sockStream z enc) s with h | h
    · rw [h]; exact hs
    · exact hrel _ s hs h
  have hstep : ∀ cfg (s : Sock), s.script = [] → (step now (sockStream z enc) cfg s).2.script = [] := by
    intro cfg s hs
    rcases step_dec now (sockStream z enc) cfg s with ⟨s', h⟩ | h
    · have h1 := hread1 s hs
      have h2 := hread1 _ h1
      have h3 := hline _ h2
      simp only [step]
      split
      · exact h1
      · split
        · exact h1
        · split
          · exact h2
          · split
            · generalize readLine (sockStream z enc) _ = x at h3 ⊢
              obtain ⟨r, s3⟩ := x
              split
              · rename_i heq; cases heq; exact h3
              · rename_i heq; cases heq; exact h3
              · rename_i heq; cases heq
                split <;> exact h3
            · split <;> exact h2
    · exact hrel _ s hs h
  have hmsg : ∀ cfg (s : Sock), s.script = [] → (readMsg now (sockStream z enc) cfg s).2.2.script = [] := by
    intro cfg s
    induction s using (sockStream z enc).rel.wf.induction with
    | _ s ih =>
      intro hs
      have h1 := hstep cfg s hs
      have hd := step_dec now (sockStream z enc) cfg s
      rw [readMsg_eq]
      generalize step now (sockStream z enc) cfg s = x at *
      obtain ⟨ev, s'⟩ := x
      have go : ev ≠ .eof → (readMsg now (sockStream z enc) cfg s').2.2.script = [] := by
        intro hne
        rcases hd with ⟨_, e⟩ | hd
        · cases e; exact absurd rfl hne
        · exact ih s' hd h1
      cases ev with
      | eof => exact h1
      | msg raw m => exact h1
      | crash e => exact h1
      | skip => exact go (by simp)
      | err e =>
        simp only
        split
        · exact h1
        · exact go (by simp)
  induction cfgs with
  | nil => intro s hs; exact hs
  | cons cfg cfgs ih => intro s hs; exact ih _ (hmsg cfg s hs)

/-- **C94, sockets: everything in one segment.** If all the data came in one segment, then however
little of it the first readers took, a new `NMEAReader` on the socket finds nothing: every `read()`
returns `(None, None)`. -/
theorem C94_one_segment (z : Zlib) (enc : Nat) (now : Nat → DateTime) (d : Bytes) (first second : List RCfg) :
    (relay now (sockStream z enc) second (Sock.open z enc
      (relay now (sockStream z enc) first (Sock.open z enc [.data d])).2.script)).1 = second.map fun _ => .none := by
  have h1 : (Sock.open z enc [.data d]).script = [] := by
    unfold Sock.open Sock.recv
    simp only
    split
    · rfl
    · simp only [Sock.accept]; split <;> rfl
  rw [relay_script_nil z enc now first _ h1]
  have hrd : (Sock.open z enc []).read z enc 1 = ([], Sock.open z enc []) := by
    unfold Sock.read
    rw [Sock.fill]
    simp [Sock.open, Sock.recv]
  have hst : ∀ cfg, step now (sockStream z enc) cfg (Sock.open z enc []) = (.eof, Sock.open z enc []) := by
    intro cfg
    have hrd' : (sockStream z enc).read1 (Sock.open z enc []) = ([], Sock.open z enc []) := hrd
    unfold step
    rw [hrd']
    simp
  induction second with
  | nil => rfl
  | cons cfg cfgs ih =>
    simp only [relay, List.map_cons]
    rw [readMsg_eq, hst cfg]
    simp only
    rw [ih]

/-! ## Concrete cases -/

/-- A file of two sentences and rubbish, read once with a strict reader and once with a lax one. -/
theorem C94_example : ∃ m, (relay clock0 fileStream [⟨0, 1, true, 2, []⟩, ⟨0, 1, false, 0, []⟩, ⟨0, 1, true, 2, []⟩,
      ⟨0, 1, false, 0, []⟩, ⟨0, 1, true, 2, []⟩] (gll ++ pb!"$x$y" ++ gll ++ pb!"$z")).1 =
    [.item gll (some m), .item gll (some m), .raised .nmeaParse, .none, .none] := by
  obtain ⟨m, hm⟩ := gll_ok
  refine ⟨m, ?_⟩
  obtain ⟨h, body, hh, hb, e⟩ := gll_line
  have hp : Pieces (gll ++ pb!"$x$y" ++ gll ++ pb!"$z")
      [.line gll, .foreign 120, .foreign 121, .line gll, .foreign 122] := by
    have h5 := Pieces.foreign 122 [] [] (by decide +kernel) .nil
    have h4 := Pieces.line h body _ _ hh hb h5
    have h3 := Pieces.foreign 121 _ _ (by decide +kernel) h4
    have h2 := Pieces.foreign 120 _ _ (by decide +kernel) h3
    have h1 := Pieces.line h body _ _ hh hb h2
    rw [← e] at h1
    have e' : gll ++ pb!"$x$y" ++ gll ++ pb!"$z" = 36 :: h :: (body ++ 10 :: 36 :: 120 :: 36 :: 121 :: 36 :: h :: (body ++ 10 :: 36 :: 122 :: [])) := by
      rw [e]; simp
    rw [e']; exact h1
  have item : ∀ (cfg : RCfg) (b : Bytes) (ps : List Piece), cfg.mode = 0 → cfg.validate = 1 → cfg.udefs = [] →
      Pieces b (.line gll :: ps) → ∃ r, Pieces r ps ∧ readMsg clock0 fileStream cfg b = (.item gll (some m), [], r) := by
    intro cfg b ps c1 c2 c3 hps
    obtain ⟨r, hr, hs⟩ := step_piece clock0 b _ ps hps
    refine ⟨r, hr, ?_⟩
    rw [readMsg_eq, hs cfg]
    simp only [eventOf, c1, c2, c3, hm]
  have skip : ∀ (cfg : RCfg) (b : Bytes) (x : UInt8) (ps : List Piece), cfg.nmeaonly = false →
      Pieces b (.foreign x :: ps) → ∃ r, Pieces r ps ∧ readMsg clock0 fileStream cfg b = readMsg clock0 fileStream cfg r := by
    intro cfg b x ps c hps
    obtain ⟨r, hr, hs⟩ := step_piece clock0 b _ ps hps
    refine ⟨r, hr, ?_⟩
    rw [readMsg_eq, hs cfg]
    simp [eventOf, c]
  have hend : ∀ (cfg : RCfg) (b : Bytes), Pieces b [] → readMsg clock0 fileStream cfg b = (.none, [], []) := by
    intro cfg b hb
    rw [readMsg_eq, step_no_piece clock0 b hb cfg]
  obtain ⟨r1, p1, e1⟩ := item ⟨0, 1, true, 2, []⟩ _ _ rfl rfl rfl hp
  obtain ⟨r2, p2, e2⟩ := skip ⟨0, 1, false, 0, []⟩ r1 _ _ rfl p1
  obtain ⟨r3, p3, e3⟩ := skip ⟨0, 1, false, 0, []⟩ r2 _ _ rfl p2
  obtain ⟨r4, p4, e4⟩ := item ⟨0, 1, false, 0, []⟩ r3 _ rfl rfl rfl p3
  obtain ⟨r5, p5, s5⟩ := step_piece clock0 r4 _ _ p4
  have e5 : readMsg clock0 fileStream ⟨0, 1, true, 2, []⟩ r4 = (.raised .nmeaParse, [], r5) := by
    rw [readMsg_eq, s5]; simp [eventOf]
  have e6 := hend ⟨0, 1, false, 0, []⟩ r5 p5
  have e7 := hend ⟨0, 1, true, 2, []⟩ [] .nil
  simp only [relay, e1, e2, e3, e4, e5, e6, e7]

/-- Two sentences in one segment: a reader takes the first. A second reader on `reader.datastream`
gets the second; a second reader on the socket gets nothing. -/
theorem C94_socket_example (z : Zlib) : ∃ m,
    (relay clock0 (sockStream z 0) [⟨0, 1, false, 0, []⟩, ⟨0, 1, true, 2, []⟩] (Sock.open z 0 [.data (gll ++ gll)])).1 =
      [.item gll (some m), .item gll (some m)] ∧
    (relay clock0 (sockStream z 0) [⟨0, 1, true, 2, []⟩] (Sock.open z 0
      (relay clock0 (sockStream z 0) [⟨0, 1, false, 0, []⟩] (Sock.open z 0 [.data (gll ++ gll)])).2.script)).1 = [.none] := by
  obtain ⟨m, hm⟩ := gll_ok
  refine ⟨m, ?_, C94_one_segment z 0 clock0 (gll ++ gll) _ _⟩
  have hcr : LfAfterCr (gll ++ gll) := by
    intro x y e
    have hlen : x.length = 51 ∨ x.length = 103 := by
      have h1 : (gll ++ gll)[x.length]? = some 10 := by rw [e]; simp
      have h2 : ∀ n < 104, (gll ++ gll)[n]? = some 10 → n = 51 ∨ n = 103 := by decide +kernel
      refine h2 _ ?_ h1
      have := congrArg List.length e
      simp only [List.length_append, List.length_cons] at this
      have h3 : gll.length = 52 := by decide +kernel
      omega
    have hx : x = (gll ++ gll).take x.length := by rw [e]; simp
    rcases hlen with h | h <;> (rw [hx, h]; decide +kernel)
  rw [show [RecvEv.data (gll ++ gll)] = [gll ++ gll].map .data from rfl, C94_datastream z 0 clock0 _ [gll ++ gll] (by decide +kernel) (gll ++ gll) (by
    rw [deliveries_plain z 0 rfl]; simp only [List.map_cons, List.map_nil, List.flatMap_cons, List.flatMap_nil, delivered]
    rw [if_neg (by decide +kernel), List.append_nil]) hcr]
  obtain ⟨h, body, hh, hb, e⟩ := gll_line
  have hp : Pieces (gll ++ gll) [.line gll, .line gll] := by
    have h4 := Pieces.line h body _ _ hh hb .nil
    have h1 := Pieces.line h body _ _ hh hb h4
    rw [← e] at h1
    have e' : gll ++ gll = 36 :: h :: (body ++ 10 :: gll) := by
      conv => lhs; lhs; rw [e]
      simp
    rw [e']; exact h1
  obtain ⟨r1, p1, s1⟩ := step_piece clock0 _ _ _ hp
  obtain ⟨r2, p2, s2⟩ := step_piece clock0 _ _ _ p1
  simp only [relay]
  rw [readMsg_eq clock0 fileStream _ (gll ++ gll), s1]
  simp only [eventOf, hm]
  rw [readMsg_eq, s2]
  simp only [eventOf, hm]

end Props
