import Verif.Lemmas.ReaderMore
import Verif.Spec.Framing
/-!
# Reading a stream (C23 – C28, C55, C56)

`Session` (in `Spec/Stream.lean`) is a run of `read()` calls up to the first `(None, None)`; `readAll`
is a `for` loop over the reader. `Pieces` says how a byte stream falls into junk bytes, foreign
headers and lines.
-/
set_option linter.unusedSimpArgs false
namespace Nmea
open Py Spec

/-! ## C23: the sentences of the stream, in order -/

/-- Whatever the bytes: reading a file (errors raised, the caller goes on) gives, piece by piece,
the parsed line, or the error of a rejected line, of a cut-off line, or (with `nmeaonly`) of a
foreign header, and then `(None, None)`. -/
theorem C23_every_stream (now : Nat → DateTime) (cfg : RCfg) (hq : cfg.quitonerror = 2) (b : Bytes) :
    ∃ ps, Pieces b ps ∧ (∀ ps', Pieces b ps' → ps' = ps) ∧
      ∃ es, Session now fileStream cfg b es ∧ (∀ x ∈ es, x.1 = []) ∧
        es.map Prod.snd = ps.filterMap (reply now cfg) ++ [.none] := by
  obtain ⟨ps, hp⟩ := pieces_exists b
  refine ⟨ps, hp, fun ps' h => pieces_det h hp, _, session_of_run (step_file_run now cfg b ps hp), ?_, ?_⟩
  · rw [hq]; exact sess_log2 _
  · rw [hq]; exact sess2_pieces now cfg ps

/-- A run over acceptable lines. -/
theorem lines_run (q : Nat) (items : List (Bytes × Bytes × Option Msg)) (tail : Bytes) (now : Nat → DateTime)
    (cfg : RCfg)
    (hok : ∀ x ∈ items, parse now (.bytes x.2.1) cfg.mode cfg.validate cfg.udefs = .ok x.2.2) :
    sess q [] ((items.flatMap (fun x : Bytes × Bytes × Option Msg => x.1.map Piece.junk ++ [Piece.line x.2.1]) ++
      tail.map Piece.junk).map (eventOf now cfg)) =
      items.map (fun x => ([], ReadResult.item x.2.1 x.2.2)) ++ [([], .none)] := by
  have hj : ∀ (j : Bytes) (es : List Event), sess q [] ((j.map Piece.junk).map (eventOf now cfg) ++ es) = sess q [] es := by
    intro j es
    induction j with
    | nil => rfl
    | cons b j ih => simpa [eventOf, sess] using ih
  induction items with
  | nil => have := hj tail []; simpa [sess] using this
  | cons x items ih =>
    rw [List.flatMap_cons, List.append_assoc, List.append_assoc, List.map_append, hj, List.map_append]
    simp only [List.map_cons, List.map_nil, List.cons_append, List.nil_append, eventOf, hok x (by simp), sess,
      List.cons.injEq, true_and]
    exact ih (fun y hy => hok y (by simp [hy]))

/-- A stream made of acceptable sentences separated by junk without `$` is read as exactly these
sentences: a `for` loop yields each once, in order, with its bytes and its parsed message, reports no
error and then stops, whatever the settings. -/
theorem C23_sentences_in_order (now : Nat → DateTime) (cfg : RCfg)
    (items : List (Bytes × Bytes × Option Msg)) (tail : Bytes)
    (hjunk : ∀ x ∈ items, (36 : UInt8) ∉ x.1) (htail : (36 : UInt8) ∉ tail)
    (hline : ∀ x ∈ items, CompleteLine x.2.1)
    (hok : ∀ x ∈ items, parse now (.bytes x.2.1) cfg.mode cfg.validate cfg.udefs = .ok x.2.2) :
    readAll now fileStream cfg (items.flatMap (fun x => x.1 ++ x.2.1) ++ tail) =
      (items.map (fun x => x.2), [], none) := by
  have hp : Pieces (items.flatMap (fun x => x.1 ++ x.2.1) ++ tail)
      (items.flatMap (fun x => x.1.map Piece.junk ++ [Piece.line x.2.1]) ++ tail.map .junk) := by
    clear hok
    induction items with
    | nil => exact closed_pieces (closed_junk tail htail)
    | cons x items ih =>
      rw [List.flatMap_cons, List.flatMap_cons, List.append_assoc,
        List.append_assoc (x.1.map Piece.junk ++ [Piece.line x.2.1])]
      refine closed_append (closed_concat (closed_junk _ (hjunk x (by simp))) (closed_line _ (hline x (by simp)))) ?_
      exact ih (fun y hy => hjunk y (by simp [hy])) (fun y hy => hline y (by simp [hy]))
  rw [readAll_session (session_of_run (step_file_run now cfg _ _ hp)), lines_run _ items tail now cfg hok]
  clear hok hp hline hjunk
  induction items with
  | nil => rfl
  | cons x items ih => simp only [List.map_cons, List.cons_append, loopOver]; rw [ih]; rfl

theorem lines_run_then (q : Nat) (items : List (Bytes × Bytes × Option Msg)) (evs : List Event) (now : Nat → DateTime)
    (cfg : RCfg)
    (hok : ∀ x ∈ items, parse now (.bytes x.2.1) cfg.mode cfg.validate cfg.udefs = .ok x.2.2) :
    sess q [] ((items.flatMap (fun x : Bytes × Bytes × Option Msg => x.1.map Piece.junk ++ [Piece.line x.2.1])).map
      (eventOf now cfg) ++ evs) =
      items.map (fun x => ([], ReadResult.item x.2.1 x.2.2)) ++ sess q [] evs := by
  have hj : ∀ (j : Bytes) (es : List Event), sess q [] ((j.map Piece.junk).map (eventOf now cfg) ++ es) = sess q [] es := by
    intro j es
    induction j with
    | nil => rfl
    | cons b j ih => simpa [eventOf, sess] using ih
  induction items with
  | nil => rfl
  | cons x items ih =>
    rw [List.flatMap_cons, List.append_assoc, List.map_append, List.append_assoc, hj, List.map_append]
    simp only [List.map_cons, List.map_nil, List.cons_append, List.nil_append, eventOf, hok x (by simp), sess,
      List.cons.injEq, true_and]
    exact ih (fun y hy => hok y (by simp [hy]))

/-- Acceptable sentences at the beginning of a stream are read whatever follows them, and do not influence how
the rest is read. -/
theorem C23_prefix (now : Nat → DateTime) (cfg : RCfg)
    (items : List (Bytes × Bytes × Option Msg)) (tail : Bytes)
    (hjunk : ∀ x ∈ items, (36 : UInt8) ∉ x.1)
    (hline : ∀ x ∈ items, CompleteLine x.2.1)
    (hok : ∀ x ∈ items, parse now (.bytes x.2.1) cfg.mode cfg.validate cfg.udefs = .ok x.2.2) :
    readAll now fileStream cfg (items.flatMap (fun x => x.1 ++ x.2.1) ++ tail) =
      (items.map (fun x => x.2) ++ (readAll now fileStream cfg tail).1, (readAll now fileStream cfg tail).2) := by
  obtain ⟨qs, hq⟩ := pieces_exists tail
  have hp : Pieces (items.flatMap (fun x => x.1 ++ x.2.1) ++ tail)
      (items.flatMap (fun x => x.1.map Piece.junk ++ [Piece.line x.2.1]) ++ qs) := by
    clear hok
    induction items with
    | nil => exact hq
    | cons x items ih =>
      rw [List.flatMap_cons, List.flatMap_cons, List.append_assoc,
        List.append_assoc (x.1.map Piece.junk ++ [Piece.line x.2.1])]
      refine closed_append (closed_concat (closed_junk _ (hjunk x (by simp))) (closed_line _ (hline x (by simp)))) ?_
      exact ih (fun y hy => hjunk y (by simp [hy])) (fun y hy => hline y (by simp [hy]))
  rw [readAll_session (session_of_run (step_file_run now cfg _ _ hp)),
    readAll_session (session_of_run (step_file_run now cfg _ _ hq)), List.map_append, lines_run_then _ items _ now cfg hok]
  clear hok hp hline hjunk
  induction items with
  | nil => rfl
  | cons x items ih => simp only [List.map_cons, List.cons_append, loopOver]; rw [ih]; rfl

/-! ## C24: raw data are slices of the stream -/

/-- For every stream object that hands out its content in order, and for all settings: the raw values
are disjoint slices of the content, in order; each begins with `$` and ends with LF. -/
theorem C24_raw_slices {σ} (now : Nat → DateTime) (ops : StreamOps σ) (content : σ → Bytes)
    (hl : Lossless ops content) (cfg : RCfg) (s : σ) (es) (h : Session now ops cfg s es) :
    SlicesOf (content s) (rawOf (es.map Prod.snd)) ∧
      ∀ raw ∈ rawOf (es.map Prod.snd), raw.head? = some 36 ∧ raw.getLast? = some 10 := by
  obtain ⟨evs, hr, rfl⟩ := session_run h
  rw [rawOf_sess]
  have := run_slices hl hr
  exact ⟨this.1, this.2.2⟩

/-- The same for a file: the content is the file's bytes. -/
theorem C24_raw_slices_file (now : Nat → DateTime) (cfg : RCfg) (b : Bytes) (es)
    (h : Session now fileStream cfg b es) :
    SlicesOf b (rawOf (es.map Prod.snd)) ∧
      ∀ raw ∈ rawOf (es.map Prod.snd), raw.head? = some 36 ∧ raw.getLast? = some 10 :=
  C24_raw_slices now fileStream id fileStream_lossless cfg b es h

/-! ## C25: the error policy changes only the reporting -/

/-- For every stream object and history: with policy 0 or 1 no library error is raised and the
results are the same; with policy 1 the reported errors and the results, in order, are exactly the
errors raised and the results with policy 2; only policy 1 reports to the handler. -/
theorem C25_error_policy {σ} (now : Nat → DateTime) (ops : StreamOps σ) (cfg : RCfg) (s : σ) :
    ∃ e0 e1 e2,
      Session now ops (withPolicy cfg 0) s e0 ∧ Session now ops (withPolicy cfg 1) s e1 ∧
      Session now ops (withPolicy cfg 2) s e2 ∧
      e0.map Prod.snd = e1.map Prod.snd ∧
      (∀ x ∈ e0, ∀ e, x.2 = .raised e → ¬ LibraryError e) ∧
      e0.map Prod.snd = (e2.map Prod.snd).filter (fun r => !isLibraryError r) ∧
      transcript e1 = e2.map Prod.snd ∧
      (∀ x ∈ e0, x.1 = []) ∧ (∀ x ∈ e2, x.1 = []) := by
  obtain ⟨evs, hr⟩ := run_exists now ops cfg s
  have hg := run_good hr
  refine ⟨_, _, _, session_of_run (run_policy hr 0), session_of_run (run_policy hr 1),
    session_of_run (run_policy hr 2), ?_, ?_, ?_, ?_, ?_, ?_⟩
  · exact (sess_results 0 (by decide) evs hg []).trans (sess_results 1 (by decide) evs hg []).symm
  · intro x hx e hxe hlib
    have hm : ReadResult.raised e ∈ (sess (withPolicy cfg 0).quitonerror [] evs).map Prod.snd :=
      List.mem_map.2 ⟨x, hx, hxe⟩
    rw [show (withPolicy cfg 0).quitonerror = 0 from rfl, sess_results 0 (by decide) evs hg []] at hm
    have := (List.mem_filter.1 hm).2
    simp [isLibraryError, hlib] at this
  · exact sess_results 0 (by decide) evs hg []
  · exact sess_transcript [] evs
  · exact sess_log0 0 (by decide) (by decide) evs
  · exact sess_log2 evs

/-- Sessions are unique, so the above speaks about every session. -/
theorem C25_session_unique {σ} (now : Nat → DateTime) (ops : StreamOps σ) (cfg : RCfg) (s : σ) (a b)
    (ha : Session now ops cfg s a) (hb : Session now ops cfg s b) : a = b := session_det ha hb

/-- The entries of a session are the outcomes of that many calls of `read()`, in order, and the errors reported during them, in
order. -/
theorem C25_session_calls {σ} (now : Nat → DateTime) (ops : StreamOps σ) (cfg : RCfg) (s : σ) (es)
    (h : Session now ops cfg s es) :
    (reads now ops cfg es.length s).1 = es.map Prod.snd ∧
      (reads now ops cfg es.length s).2.1 = es.flatMap Prod.fst := by
  induction h with
  | last s s' log h => simp [reads, h]
  | more s s' r log rest h _ _ ih => simp [reads, h, ih.1, ih.2]

/-! ## C26: termination and progress -/

/-- Reading ends, for every finite history of every stream object: finitely many calls of `read()`
reach `(None, None)`; a stream with `n` bytes left gives at most `n` results before that. -/
theorem C26_reading_ends {σ} (now : Nat → DateTime) (ops : StreamOps σ) (cfg : RCfg) (s : σ) :
    ∃ es, Session now ops cfg s es ∧
      ∀ content, Lossless ops content → es.length ≤ (content s).length + 1 := by
  obtain ⟨evs, hr⟩ := run_exists now ops cfg s
  refine ⟨_, session_of_run hr, fun content hl => ?_⟩
  have h1 := sess_length cfg.quitonerror [] evs
  have h2 := (run_slices hl hr).2.1
  omega

/-- Every call of `read()` consumes a prefix of what is left; a call that returns data consumes at
least these data, which end the consumed part; a call that raises has consumed something. -/
theorem C26_progress {σ} (now : Nat → DateTime) (ops : StreamOps σ) (content : σ → Bytes)
    (hl : Lossless ops content) (cfg : RCfg) (s s' : σ) (r : ReadResult) (log : List Err)
    (h : readMsg now ops cfg s = (r, log, s')) :
    ∃ used, content s = used ++ content s' ∧
      (∀ raw m, r = .item raw m → ∃ gap, used = gap ++ raw) ∧ (r ≠ .none → used ≠ []) := by
  induction s using ops.rel.wf.induction generalizing log with
  | _ s ih =>
    have hd := step_dec now ops cfg s
    rw [readMsg_eq] at h
    cases hs : step now ops cfg s with
    | mk ev s1 =>
      obtain ⟨used, hc, hne, hm⟩ := step_consumes now ops content hl cfg s s1 ev hs
      rw [hs] at h hd
      cases ev with
      | eof => cases h; exact ⟨used, hc, (fun _ _ e => nomatch e), fun e => absurd rfl e⟩
      | msg raw m =>
        cases h
        refine ⟨used, hc, fun raw' m' e => ?_, fun _ => hne (by simp)⟩
        cases e
        exact ⟨[], by simpa using (hm raw m rfl).1⟩
      | crash e => cases h; exact ⟨used, hc, (fun _ _ e => nomatch e), fun _ => hne (by simp)⟩
      | skip =>
        have hlt : ops.rel.rel s1 s := by
          rcases hd with ⟨_, hd⟩ | hd
          · cases hd
          · exact hd
        obtain ⟨used', hc', hi, hn⟩ := ih s1 hlt log h
        refine ⟨used ++ used', by rw [hc, hc', List.append_assoc], fun raw m e => ?_, fun _ e => ?_⟩
        · obtain ⟨gap, e'⟩ := hi raw m e; exact ⟨used ++ gap, by rw [e', List.append_assoc]⟩
        · exact hne (by simp) (List.append_eq_nil_iff.1 e).1
      | err e =>
        have hlt : ops.rel.rel s1 s := by
          rcases hd with ⟨_, hd⟩ | hd
          · cases hd
          · exact hd
        simp only at h
        split at h
        · cases h; exact ⟨used, hc, (fun _ _ e => nomatch e), fun _ => hne (by simp)⟩
        · have e1 : (readMsg now ops cfg s1).1 = r := congrArg Prod.fst h
          have e2 : (readMsg now ops cfg s1).2.2 = s' := congrArg (fun x => x.2.2) h
          obtain ⟨used', hc', hi, hn⟩ := ih s1 hlt (readMsg now ops cfg s1).2.1 (by rw [← e1, ← e2])
          refine ⟨used ++ used', by rw [hc, hc', List.append_assoc], fun raw m e => ?_, fun _ e => ?_⟩
          · obtain ⟨gap, e'⟩ := hi raw m e; exact ⟨used ++ gap, by rw [e', List.append_assoc]⟩
          · exact hne (by simp) (List.append_eq_nil_iff.1 e).1

/-! ## C27: `nmeaonly` -/

/-- The pieces of junk and a foreign header put before a stream. -/
theorem foreign_pieces (j : Bytes) (h : UInt8) (rest : Bytes) (ps : List Piece) (hj : (36 : UInt8) ∉ j)
    (hh : ¬ TalkerLetter h) (hp : Pieces rest ps) :
    Pieces (j ++ 36 :: h :: rest) (j.map .junk ++ .foreign h :: ps) :=
  closed_append (closed_junk j hj) (.foreign h rest ps hh hp)

theorem sess_junk (q : Nat) (log : List Err) (now : Nat → DateTime) (cfg : RCfg) (j : Bytes) (ps : List Piece) :
    sess q log ((j.map Piece.junk ++ ps).map (eventOf now cfg)) = sess q log (ps.map (eventOf now cfg)) := by
  induction j with
  | nil => rfl
  | cons b j ih => simpa [eventOf, sess] using ih

/-- While the reader is searching, `$` followed by a byte that begins no talker makes it report
`NMEAParseError` exactly if `nmeaonly` is set; otherwise these two bytes, and any junk without `$`
before them, change nothing. -/
theorem C27_foreign_header (now : Nat → DateTime) (cfg : RCfg) (j rest : Bytes) (h : UInt8)
    (hj : (36 : UInt8) ∉ j) (hh : ¬ TalkerLetter h) (log : List Err) (r : ReadResult)
    (es : List (List Err × ReadResult)) (hs : Session now fileStream cfg rest ((log, r) :: es)) :
    (cfg.nmeaonly = false → Session now fileStream cfg (j ++ 36 :: h :: rest) ((log, r) :: es)) ∧
    (cfg.nmeaonly = true → cfg.quitonerror = 2 →
      Session now fileStream cfg (j ++ 36 :: h :: rest) (([], .raised .nmeaParse) :: (log, r) :: es)) ∧
    (cfg.nmeaonly = true → cfg.quitonerror = 1 →
      Session now fileStream cfg (j ++ 36 :: h :: rest) ((.nmeaParse :: log, r) :: es)) ∧
    (cfg.nmeaonly = true → cfg.quitonerror = 0 →
      Session now fileStream cfg (j ++ 36 :: h :: rest) ((log, r) :: es)) := by
  obtain ⟨ps, hp⟩ := pieces_exists rest
  have hr := step_file_run now cfg _ _ hp
  have e0 := (session_iff hr _).1 hs
  have hr' := step_file_run now cfg _ _ (foreign_pieces j h rest ps hj hh hp)
  refine ⟨fun hn => ?_, fun hn hq => ?_, fun hn hq => ?_, fun hn hq => ?_⟩ <;>
    rw [session_iff hr', sess_junk] <;> simp only [List.map_cons, eventOf, hn, if_true, Bool.false_eq_true, if_false, sess]
  · exact e0
  · rw [hq] at e0 ⊢; rw [if_pos rfl, ← e0]
  · rw [hq] at e0 ⊢
    rw [if_neg (by decide), if_pos rfl]
    obtain ⟨l, r', rest', a, b⟩ := sess_prepend 1 [.nmeaParse] [] (ps.map (eventOf now cfg))
    rw [a] at e0; cases e0; rw [show ([] ++ [Err.nmeaParse]) = [.nmeaParse] ++ [] from rfl, b]; rfl
  · rw [hq] at e0 ⊢
    rw [if_neg (by decide), if_neg (by decide)]
    exact e0

/-- Other bytes are always skipped silently, `nmeaonly` or not. -/
theorem C27_junk_silent (now : Nat → DateTime) (cfg : RCfg) (j rest : Bytes) (hj : (36 : UInt8) ∉ j)
    (es : List (List Err × ReadResult)) (hs : Session now fileStream cfg rest es) :
    Session now fileStream cfg (j ++ rest) es := by
  obtain ⟨ps, hp⟩ := pieces_exists rest
  have e0 := (session_iff (step_file_run now cfg _ _ hp) _).1 hs
  rw [session_iff (step_file_run now cfg _ _ (closed_append (closed_junk j hj) hp)), sess_junk]
  exact e0

/-- Without `nmeaonly` the setting's error never appears for lines that are acceptable: every error
comes from a rejected or cut-off line. -/
theorem C27_errors_without (now : Nat → DateTime) (cfg : RCfg) (hq : cfg.quitonerror = 2) (hn : cfg.nmeaonly = false)
    (b : Bytes) (ps) (hp : Pieces b ps) (es) (hs : Session now fileStream cfg b es) (x) (hx : x ∈ es) (e : Err)
    (he : x.2 = .raised e) :
    (∃ raw, Piece.line raw ∈ ps ∧ parse now (.bytes raw) cfg.mode cfg.validate cfg.udefs = .error e) ∨
      (∃ raw, Piece.cut raw ∈ ps ∧ e = .nmeaStream) := by
  have e0 := (session_iff (step_file_run now cfg _ _ hp) _).1 hs
  rw [hq] at e0
  have hm : ReadResult.raised e ∈ es.map Prod.snd := List.mem_map.2 ⟨x, hx, he⟩
  rw [e0, sess2_pieces] at hm
  simp only [List.mem_append, List.mem_filterMap, List.mem_singleton, reduceCtorEq, or_false] at hm
  obtain ⟨p, hpm, hpe⟩ := hm
  cases p with
  | junk b => simp [reply] at hpe
  | foreign b => simp [reply, hn] at hpe
  | line raw =>
    left; refine ⟨raw, hpm, ?_⟩
    simp only [reply] at hpe
    split at hpe <;> simp at hpe
    rename_i heq; rw [heq, hpe]
  | cut raw => right; simp [reply] at hpe; exact ⟨raw, hpm, hpe.symm⟩

/-! ## C28: iteration stops at the end of the stream -/

/-- A call of `read()` on a file returns `(None, None)` exactly if the rest of the file holds no
complete line that would be returned or would raise (with policy 2 also no error at all); the file is
then exhausted. -/
theorem C28_stop_iff (now : Nat → DateTime) (cfg : RCfg) (b : Bytes) (ps) (hp : Pieces b ps) :
    ((readMsg now fileStream cfg b).1 = .none ↔
      ∀ p ∈ ps, ∀ r, reply now cfg p = some r → cfg.quitonerror ≠ 2 ∧ isLibraryError r = true) := by
  have hs := session_of_run (step_file_run now cfg b ps hp)
  have e1 : (readMsg now fileStream cfg b).1 = .none ↔ ∃ l, sess cfg.quitonerror [] (ps.map (eventOf now cfg)) = [(l, .none)] := by
    constructor
    · intro h
      refine ⟨(readMsg now fileStream cfg b).2.1, session_det hs (.last b (readMsg now fileStream cfg b).2.2 _ ?_)⟩
      rw [← h]
    · rintro ⟨l, h⟩
      rw [h] at hs
      cases hs with
      | last _ _ _ h => rw [h]
      | more _ _ _ _ _ _ _ h => cases h
  rw [e1]
  clear e1 hs hp
  suffices h : ∀ log, (∃ l, sess cfg.quitonerror log (ps.map (eventOf now cfg)) = [(l, .none)]) ↔
      ∀ p ∈ ps, ∀ r, reply now cfg p = some r → cfg.quitonerror ≠ 2 ∧ isLibraryError r = true from h []
  have hne : ∀ x : List Err × ReadResult, x.2 ≠ .none → ∀ es : List Event,
      ¬ ∃ l, x :: sess cfg.quitonerror [] es = [(l, .none)] := by
    rintro x hx es ⟨l, h⟩
    simp only [List.cons.injEq] at h
    rw [h.1] at hx; exact hx rfl
  induction ps with
  | nil => intro log; simp [sess]
  | cons p ps ih =>
    intro log
    rw [List.map_cons]
    simp only [List.mem_cons, forall_eq_or_imp]
    have key : ∀ e : Err, (∃ l, sess cfg.quitonerror log (.err e :: ps.map (eventOf now cfg)) = [(l, .none)]) ↔
        cfg.quitonerror ≠ 2 ∧ ∀ p ∈ ps, ∀ r, reply now cfg p = some r → cfg.quitonerror ≠ 2 ∧ isLibraryError r = true := by
      intro e
      simp only [sess]
      split
      · rename_i hq
        constructor
        · intro h; exact absurd h (hne _ (by simp) _)
        · rintro ⟨h, _⟩; exact absurd hq h
      · rename_i hq
        rw [ih]
        exact ⟨fun h => ⟨hq, h⟩, fun h => h.2⟩
    generalize (∀ p ∈ ps, ∀ r, reply now cfg p = some r → cfg.quitonerror ≠ 2 ∧ isLibraryError r = true) = Q at ih key ⊢
    cases p with
    | junk b =>
      simp only [eventOf, sess, reply, reduceCtorEq, false_implies, implies_true, true_and]
      exact ih log
    | foreign h =>
      simp only [eventOf, reply]
      split
      · rw [key]; simp [isLibraryError, LibraryError]
      · simp only [sess, reduceCtorEq, false_implies, implies_true, true_and]; exact ih log
    | cut raw =>
      simp only [eventOf, reply]
      rw [key]; simp [isLibraryError, LibraryError]
    | line raw =>
      simp only [eventOf, reply]
      cases parse now (.bytes raw) cfg.mode cfg.validate cfg.udefs with
      | ok m =>
        constructor
        · intro h; exact absurd h (hne _ (by simp) _)
        · intro h; have := (h.1 _ rfl).2; simp [isLibraryError] at this
      | error e =>
        by_cases hl : LibraryError e
        · simp only [if_pos hl]
          rw [key]; simp [isLibraryError, hl]
        · simp only [if_neg hl]
          constructor
          · intro h; exact absurd h (hne _ (by simp) _)
          · intro h; have := (h.1 _ rfl).2; simp [isLibraryError, hl] at this

/-- When `read()` on a file returns `(None, None)` the file is exhausted. -/
theorem C28_stop_exhausted (now : Nat → DateTime) (cfg : RCfg) (b b' : Bytes) (log : List Err)
    (h : readMsg now fileStream cfg b = (.none, log, b')) : b' = [] := by
  obtain ⟨ps, hp⟩ := pieces_exists b
  have hr := step_file_run now cfg b ps hp
  generalize ps.map (eventOf now cfg) = evs at hr
  clear hp
  have heof : ∀ s s', step now fileStream cfg s = (.eof, s') → s' = [] := by
    intro s s' h
    obtain ⟨ps, hp⟩ := pieces_exists s
    have hr := step_file_run now cfg s ps hp
    have hno : ∀ evs, evs ≠ [] → ¬ Run now fileStream cfg s evs := by
      intro evs hne hr
      cases hr with
      | done => exact hne rfl
      | more _ _ _ _ h' he _ => rw [h] at h'; exact he (congrArg Prod.fst h').symm
    cases hp with
    | nil => simp [step, fileStream] at h; exact h
    | dollar => simp [step, fileStream] at h; exact h
    | letter c hc =>
      simp only [step, fileStream, List.take_succ_cons, List.take_zero, List.drop_succ_cons, List.drop_zero] at h
      rw [if_neg (by simp), if_neg (by simp), if_neg (by simp), if_pos (show ([36] ++ [c] : Bytes) ∈ NMEA_HDR from (hdr_iff c).2 hc)] at h
      exact (congrArg Prod.snd h).symm
    | junk => exact absurd hr (hno _ (by simp))
    | foreign => exact absurd hr (hno _ (by simp))
    | line => exact absurd hr (hno _ (by simp))
    | cut => exact absurd hr (hno _ (by simp))
  induction hr generalizing log with
  | done s s' hs => rw [readMsg_eq, hs] at h; cases h; exact heof _ _ hs
  | more s ev s' evs hs he _ ih =>
    rw [readMsg_eq, hs] at h
    cases ev with
    | eof => exact absurd rfl he
    | msg raw m => cases h
    | crash e => cases h
    | skip => exact ih _ h
    | err e =>
      simp only at h
      split at h
      · cases h
      · have e1 : (readMsg now fileStream cfg s').1 = .none := congrArg Prod.fst h
        have e2 : (readMsg now fileStream cfg s').2.2 = b' := congrArg (fun x => x.2.2) h
        exact ih (readMsg now fileStream cfg s').2.1 (by rw [← e1, ← e2])

/-- A `for` loop ends without exception exactly if no call of `read()` in the session raises, and it
then yields every item of the session. -/
theorem C28_loop_end {σ} (now : Nat → DateTime) (ops : StreamOps σ) (cfg : RCfg) (s : σ) (es)
    (h : Session now ops cfg s es) :
    ((readAll now ops cfg s).2.2 = none ↔ ∀ x ∈ es, ∀ e, x.2 ≠ .raised e) ∧
    ((readAll now ops cfg s).2.2 = none → (readAll now ops cfg s).1.map Prod.fst = rawOf (es.map Prod.snd)) := by
  rw [readAll_session h]
  induction h with
  | last s s' log h => simp [loopOver, rawOf]
  | more s s' r log rest h hr _ ih =>
    cases r with
    | none => exact absurd rfl hr
    | raised e => simp [loopOver]
    | item raw m =>
      simp only [loopOver, List.mem_cons, forall_eq_or_imp, List.map_cons, rawOf, reduceCtorEq, not_false_eq_true,
        implies_true, true_and, ne_eq]
      exact ⟨ih.1, fun h => by rw [ih.2 h]⟩

/-! ## C55, C56: resynchronisation and locality -/

/-- A stream whose first part ends in LF, possibly followed by bytes without `$`, is read as the
first part followed by the rest: all results of the first part except the final `(None, None)`, then
those of the rest (with policy 2; `C25` relates the other policies to this one). -/
theorem C56_locality (now : Nat → DateTime) (cfg : RCfg) (hq : cfg.quitonerror = 2) (g j s : Bytes)
    (hg : g = [] ∨ g.getLast? = some 10) (hj : (36 : UInt8) ∉ j) (eg es)
    (hsg : Session now fileStream cfg g (eg ++ [([], .none)])) (hss : Session now fileStream cfg s es) :
    Session now fileStream cfg (g ++ j ++ s) (eg ++ es) := by
  obtain ⟨pg, hpg⟩ : ∃ pg, Closed g pg := by
    rcases hg with rfl | hg
    · exact ⟨[], .nil⟩
    · exact closed_lf g hg
  obtain ⟨ps, hps⟩ := pieces_exists s
  have e1 := (session_iff (step_file_run now cfg _ _ (closed_pieces hpg)) _).1 hsg
  have e2 := (session_iff (step_file_run now cfg _ _ hps) _).1 hss
  rw [session_iff (step_file_run now cfg _ _ (closed_append (closed_concat hpg (closed_junk j hj)) hps)), hq,
    List.append_assoc, List.map_append]
  rw [hq] at e1 e2
  obtain ⟨l, a, b⟩ := sess_append 2 [] (pg.map (eventOf now cfg)) ((j.map Piece.junk ++ ps).map (eventOf now cfg))
  rw [b, ← e1]
  rw [← e1] at a
  simp only [List.getLast?_append, List.getLast?_singleton, Option.some_or, Option.some.injEq, Prod.mk.injEq,
    and_true] at a
  rw [← a, sess_junk, ← e2]
  simp

/-- The same for every policy, on the level of the results and of what is reported. -/
theorem C56_locality_all (now : Nat → DateTime) (cfg : RCfg) (g j s : Bytes)
    (hg : g = [] ∨ g.getLast? = some 10) (hj : (36 : UInt8) ∉ j) (eg es lg ls rs l)
    (hsg : Session now fileStream cfg g (eg ++ [(lg, .none)])) (hss : Session now fileStream cfg s ((ls, rs) :: es))
    (hl : l = lg ++ ls) :
    Session now fileStream cfg (g ++ j ++ s) (eg ++ (l, rs) :: es) := by
  obtain ⟨pg, hpg⟩ : ∃ pg, Closed g pg := by
    rcases hg with rfl | hg
    · exact ⟨[], .nil⟩
    · exact closed_lf g hg
  obtain ⟨ps, hps⟩ := pieces_exists s
  have e1 := (session_iff (step_file_run now cfg _ _ (closed_pieces hpg)) _).1 hsg
  have e2 := (session_iff (step_file_run now cfg _ _ hps) _).1 hss
  rw [session_iff (step_file_run now cfg _ _ (closed_append (closed_concat hpg (closed_junk j hj)) hps)),
    List.append_assoc, List.map_append]
  obtain ⟨l', a, b⟩ := sess_append cfg.quitonerror [] (pg.map (eventOf now cfg)) ((j.map Piece.junk ++ ps).map (eventOf now cfg))
  rw [b, ← e1]
  rw [← e1] at a
  simp only [List.getLast?_append, List.getLast?_singleton, Option.some_or, Option.some.injEq, Prod.mk.injEq,
    and_true] at a
  rw [← a, sess_junk]
  obtain ⟨l2, r2, rest2, c1, c2⟩ := sess_prepend cfg.quitonerror lg [] (ps.map (eventOf now cfg))
  rw [c1] at e2; cases e2
  rw [List.append_nil] at c2
  rw [c2, hl]
  simp

/-- After any damaged data that end in LF (or are absent), possibly followed by bytes without `$`, the
next acceptable sentence is returned, whatever came before and whatever the policy. -/
theorem C55_resync (now : Nat → DateTime) (cfg : RCfg) (g j x rest : Bytes) (m : Option Msg)
    (hg : g = [] ∨ g.getLast? = some 10) (hj : (36 : UInt8) ∉ j) (hx : CompleteLine x)
    (hok : parse now (.bytes x) cfg.mode cfg.validate cfg.udefs = .ok m) :
    ∃ before log after, Session now fileStream cfg (g ++ j ++ x ++ rest) (before ++ (log, .item x m) :: after) ∧
      Session now fileStream cfg rest after := by
  obtain ⟨pg, hpg⟩ : ∃ pg, Closed g pg := by
    rcases hg with rfl | hg
    · exact ⟨[], .nil⟩
    · exact closed_lf g hg
  obtain ⟨ps, hps⟩ := pieces_exists rest
  have hp : Pieces (x ++ rest) (.line x :: ps) := closed_append (closed_line x hx) hps
  have hr := step_file_run now cfg _ _ (closed_append (closed_concat hpg (closed_junk j hj)) hp)
  obtain ⟨l, a, b⟩ := sess_append cfg.quitonerror [] ((pg ++ j.map Piece.junk).map (eventOf now cfg)) ((.line x :: ps).map (eventOf now cfg))
  refine ⟨(sess cfg.quitonerror [] ((pg ++ j.map Piece.junk).map (eventOf now cfg))).dropLast, l, _, ?_,
    session_of_run (step_file_run now cfg _ _ hps)⟩
  rw [List.append_assoc, session_iff hr, List.map_append (l₁ := pg ++ j.map Piece.junk), b]
  simp only [List.map_cons, eventOf, hok, sess]

/-- A `$` right before a sentence makes the reader lose it: the damaged data must not end in `$`. -/
theorem C55_dollar_counterexample :
    ∃ x : Bytes, CompleteLine x ∧
      (parse clock0 (.bytes x) 0 1 []).toOption.isSome ∧
      Session clock0 fileStream ⟨0, 1, false, 2, []⟩ (36 :: x) [([], .none)] := by
  refine ⟨pb!"$GNGLL,5327.04319,S,00214.41396,E,223232.00,A,A*68\r\n", ?_, by decide +kernel, ?_⟩
  · exact ⟨71, pb!"NGLL,5327.04319,S,00214.41396,E,223232.00,A,A*68\r", by decide +kernel, by decide +kernel, rfl⟩
  · have hp := Pieces.foreign 36 (pb!"GNGLL,5327.04319,S,00214.41396,E,223232.00,A,A*68\r\n") _ (by decide +kernel)
      (closed_pieces (closed_junk (pb!"GNGLL,5327.04319,S,00214.41396,E,223232.00,A,A*68\r\n") (by decide +kernel)))
    have := session_of_run (step_file_run clock0 ⟨0, 1, false, 2, []⟩ _ _ hp)
    have e : sess 2 [] ((Piece.foreign 36 :: (pb!"GNGLL,5327.04319,S,00214.41396,E,223232.00,A,A*68\r\n").map Piece.junk).map
      (eventOf clock0 ⟨0, 1, false, 2, []⟩)) = [([], .none)] := by
        have := sess_junk 2 [] clock0 ⟨0, 1, false, 2, []⟩ (pb!"GNGLL,5327.04319,S,00214.41396,E,223232.00,A,A*68\r\n") []
        rw [List.append_nil] at this
        rw [List.map_cons]
        simpa [eventOf, sess] using this
    rw [← e]
    exact this

/-! ## Concrete cases -/

/-- A sentence, a GLL position. -/
def gll : Bytes := pb!"$GNGLL,5327.04319,S,00214.41396,E,223232.00,A,A*68\r\n"

theorem gll_line : CompleteLine gll :=
  ⟨71, pb!"NGLL,5327.04319,S,00214.41396,E,223232.00,A,A*68\r", by decide +kernel, by decide +kernel, rfl⟩

theorem gll_ok : ∃ m, parse clock0 (.bytes gll) 0 1 [] = .ok (some m) := by
  have h : (match parse clock0 (.bytes gll) 0 1 [] with | .ok (some _) => true | _ => false) = true := by decide +kernel
  split at h
  · rename_i m hm; exact ⟨m, hm⟩
  · cases h

/-- Two sentences with junk before, between and after: the hypotheses of `C23_sentences_in_order` hold
with a nonempty list of items. -/
example : ∃ m, readAll clock0 fileStream ⟨0, 1, true, 2, []⟩
    (pb!"junk" ++ gll ++ (pb!"\n\n" ++ gll) ++ pb!"end") = ([(gll, some m), (gll, some m)], [], none) := by
  obtain ⟨m, hm⟩ := gll_ok
  have := C23_sentences_in_order clock0 ⟨0, 1, true, 2, []⟩
    [(pb!"junk", gll, some m), (pb!"\n\n", gll, some m)] (pb!"end")
    (by intro x hx; simp at hx; rcases hx with rfl | rfl <;> simp) (by decide +kernel)
    (by intro x hx; simp at hx; rcases hx with rfl | rfl <;> exact gll_line)
    (by intro x hx; simp at hx; rcases hx with rfl | rfl <;> exact hm)
  refine ⟨m, Eq.trans (congrArg _ ?_) this⟩
  simp

/-- Damaged data (a header without a sentence, then LF) before a sentence. -/
example : ∃ m before log after, Session clock0 fileStream ⟨0, 1, true, 1, []⟩
    (pb!"$GNxx$GN*!\r\n" ++ pb!"??" ++ gll ++ pb!"$") (before ++ (log, .item gll (some m)) :: after) := by
  obtain ⟨m, hm⟩ := gll_ok
  obtain ⟨b, l, a, h, _⟩ := C55_resync clock0 ⟨0, 1, true, 1, []⟩ (pb!"$GNxx$GN*!\r\n") (pb!"??") gll (pb!"$") (some m)
    (.inr (by decide +kernel)) (by decide +kernel) gll_line hm
  exact ⟨m, b, l, a, h⟩

/-- A foreign header: `$` followed by a letter that begins no talker, and one that does. -/
example : ¬ TalkerLetter 36 ∧ ¬ TalkerLetter 97 ∧ TalkerLetter 71 ∧ TalkerLetter 80 := by decide +kernel

end Nmea
