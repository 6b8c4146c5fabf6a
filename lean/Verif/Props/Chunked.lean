import Verif.Lemmas.Chunked
/-!
# Chunked transfer encoding (C33 – C35)
-/
set_option linter.unusedSimpArgs false
namespace Nmea
open Py Spec

/-- What the wrapper makes of the chunks' data. -/
def decodedData (z : Zlib) (enc : Nat) (cs : List Chunk) : Bytes := cs.flatMap fun c => decompressChunk z enc c.data

theorem chunk_ok (z : Zlib) (enc : Nat) (c : Chunk) (h : c.Ok) (r : Bytes) :
    dechunk z enc (c.bytes ++ r) = (decompressChunk z enc c.data ++ (dechunk z enc r).1, (dechunk z enc r).2) := by
  have := dechunk_chunk z enc c.line c.data [13, 10] r (readsAs_line _ _ h.2) h.1 (crlf_cut [] r (by simp))
  exact this

theorem chunks_ok (z : Zlib) (enc : Nat) (cs : List Chunk) (h : ∀ c ∈ cs, c.Ok) (r : Bytes) :
    dechunk z enc (cs.flatMap Chunk.bytes ++ r) =
      (decodedData z enc cs ++ (dechunk z enc r).1, (dechunk z enc r).2) := by
  induction cs with
  | nil => simp [decodedData]
  | cons c cs ih =>
    rw [List.flatMap_cons, List.append_assoc, chunk_ok z enc c (h c (by simp)),
      ih (fun x hx => h x (by simp [hx]))]
    simp [decodedData]

/-- For every list of nonempty chunks, with or without the final empty chunk, in one segment: decoding
gives the data of the chunks (decompressed if so encoded), in order, and nothing is left over. -/
theorem C33_dechunk (z : Zlib) (enc : Nat) (cs : List Chunk) (h : ∀ c ∈ cs, c.Ok) (e : Bytes) (he : ChunkedEnd e) :
    dechunk z enc (chunked cs e) = (cs.flatMap (fun c => decompressChunk z enc c.data), []) := by
  unfold chunked
  rw [chunks_ok z enc cs h]
  have hz : dechunk z enc e = ([], []) := by
    rcases he with rfl | ⟨line, hl, rfl⟩
    · exact dechunk_cutLine z enc [] (by simp)
    · exact dechunk_final z enc line _ (readsAs_line line 0 hl)
  rw [hz]; simp [decodedData]

/-- Without compression flags the data come out as they were. -/
theorem C33_dechunk_plain (z : Zlib) (enc : Nat) (hg : enc &&& 2 = 0) (hc : enc &&& 4 = 0) (hd : enc &&& 8 = 0)
    (cs : List Chunk) (h : ∀ c ∈ cs, c.Ok) (e : Bytes) (he : ChunkedEnd e) :
    dechunk z enc (chunked cs e) = (cs.flatMap Chunk.data, []) := by
  rw [C33_dechunk z enc cs h e he]
  congr 2
  funext c
  simp [decompressChunk, encGzip, encCompress, encDeflate, hg, hc, hd]

/-! ## C34: cuts -/

/-- Nothing comes out of an end that has been cut after its length line. -/
theorem after_final (z : Zlib) (enc : Nat) (henc : encChunked enc = true) (segs : List Bytes) (p : Bytes)
    (hne : ∀ d ∈ segs, d ≠ []) (h : p ++ segs.flatten = [13, 10] ∨ p ++ segs.flatten = [10] ∨ p ++ segs.flatten = []) :
    deliveries z enc p (segs.map .data) = [] := by
  induction segs generalizing p with
  | nil => rfl
  | cons d segs ih =>
    have hd := hne d (by simp)
    simp only [List.map_cons, deliveries, if_neg hd, henc, if_true]
    have h' : (p ++ d) ++ segs.flatten = [13, 10] ∨ (p ++ d) ++ segs.flatten = [10] ∨ (p ++ d) ++ segs.flatten = [] := by
      simpa using h
    have ih' := fun p h => ih p (fun x hx => hne x (by simp [hx])) h
    have hg : dechunk z enc [13, 10] = ([], []) := by
      have := dechunk_garbage z enc [] [] (by simp) (by intro n; simp [intOfBytes16, stripBy, isAsciiSpace, splitSign, stripHexPrefix, scanDigits, List.dropWhile])
      simpa using this
    have hl : dechunk z enc [10] = ([], [10]) := by
      have := dechunk_bareLf z enc [] [] (by simp) (by simp)
      simpa using this
    have h13 : dechunk z enc [13] = ([], [13]) := dechunk_cutLine z enc [13] (by simp)
    generalize hq : p ++ d = q at h'
    have hqne : q ≠ [] := by rw [← hq]; simp [hd]
    match q, hqne with
    | [x], _ =>
      rcases h' with h' | h' | h'
      · simp only [List.cons_append, List.nil_append, List.cons.injEq] at h'
        rw [h'.1, h13]
        exact ih' [13] (.inl (by simp [h'.2]))
      · simp only [List.cons_append, List.nil_append, List.cons.injEq] at h'
        rw [h'.1, hl]
        exact ih' [10] (.inr (.inl (by simp [h'.2])))
      · simp at h'
    | [x, y], _ =>
      rcases h' with h' | h' | h'
      · simp only [List.cons_append, List.nil_append, List.cons.injEq] at h'
        rw [h'.1, h'.2.1, hg]
        exact ih' [] (.inr (.inr (by simp [h'.2.2])))
      · simp at h'
      · simp at h'
    | x :: y :: w :: r, _ => rcases h' with h' | h' | h' <;> simp at h'

theorem prefix_line (z : Zlib) (enc : Nat) (c : Chunk) (hc : c.Ok) (q : Bytes) (hq : q <+: c.line ++ c.data)
    (hne : q ≠ c.line ++ c.data) : dechunk z enc q = ([], q) := by
  obtain ⟨w, hw⟩ := hq
  have hlen : q.length < c.line.length + c.data.length := by
    have := congrArg List.length hw
    simp only [List.length_append] at this
    have hw0 : w ≠ [] := by rintro rfl; simp at hw; exact hne hw
    have := List.length_pos_iff.2 hw0
    omega
  by_cases hql : q.length < c.line.length
  · apply dechunk_cutLine
    obtain ⟨ds, hd, hl⟩ := hc.2
    have hp : q = (c.line ++ c.data).take q.length := by rw [← hw]; simp
    have : q = (ds ++ [13]).take q.length := by
      rw [hl] at hp hql
      simp at hql
      rw [show ds ++ [13, 10] ++ c.data = (ds ++ [13]) ++ (10 :: c.data) by simp,
        List.take_append_of_le_length (by simp; omega)] at hp
      exact hp
    intro hm
    rw [this] at hm
    exact line_noLf ds _ hd (List.mem_of_mem_take hm)
  · have hp : q = c.line ++ c.data.take (q.length - c.line.length) := by
      have : q = (c.line ++ c.data).take q.length := by rw [← hw]; simp
      rw [List.take_append, List.take_of_length_le (by omega)] at this
      exact this
    rw [hp]
    refine dechunk_cutData z enc _ _ _ (readsAs_line _ _ hc.2) ?_ (.inl ?_)
    · have := List.length_pos_iff.2 hc.1; omega
    · simp; omega

theorem chunk_bytes_len (c : Chunk) : c.bytes.length = c.line.length + c.data.length + 2 := by
  simp [Chunk.bytes]; omega

/-- Moving on past complete chunks. -/
theorem cleanCut_drop (done rest : List Chunk) (e q : Bytes) (h : CleanCut (done ++ rest) e (done.flatMap Chunk.bytes ++ q)) :
    CleanCut rest e q := by
  induction done with
  | nil => exact h
  | cons d done ih =>
    apply ih
    rcases h with ⟨dn, c, rs, q', e1, e2, e3, e4⟩ | ⟨q', e2, e3⟩
    · cases dn with
      | nil =>
        exfalso
        simp only [List.cons_append, List.nil_append, List.cons.injEq] at e1
        obtain ⟨rfl, _⟩ := e1
        have l1 := congrArg List.length e2
        have l2 := e3.length_le
        simp only [List.flatMap_cons, List.length_append, List.flatMap_nil, List.length_nil, chunk_bytes_len] at l1 l2
        omega
      | cons d' dn =>
        simp only [List.cons_append, List.cons.injEq] at e1
        obtain ⟨rfl, e1⟩ := e1
        left
        refine ⟨dn, c, rs, q', e1, ?_, e3, e4⟩
        simp only [List.flatMap_cons, List.append_assoc, List.append_cancel_left_eq] at e2
        exact e2
    · right
      refine ⟨q', ?_, e3⟩
      simp only [List.cons_append, List.flatMap_cons, List.append_assoc, List.append_cancel_left_eq] at e2
      exact e2

/-- What may be pending between segments. -/
def Part (cs : List Chunk) (e q : Bytes) : Prop :=
  (∃ c rest, cs = c :: rest ∧ q <+: c.line ++ c.data ∧ q ≠ c.line ++ c.data) ∨ (cs = [] ∧ q <+: e)

theorem clean_feed (z : Zlib) (enc : Nat) (henc : encChunked enc = true) (segs : List Bytes) (cs : List Chunk) (e q : Bytes)
    (hcs : ∀ c ∈ cs, c.Ok) (he : ChunkedEnd e) (hne : ∀ d ∈ segs, d ≠ []) (hpart : Part cs e q)
    (hall : q ++ segs.flatten = chunked cs e)
    (hcut : ∀ k, CleanCut cs e (q ++ (segs.take k).flatten)) :
    deliveries z enc q (segs.map .data) = (decodedData z enc cs).map some := by
  induction segs generalizing cs q with
  | nil =>
    rcases hpart with ⟨c, rest, rfl, hq, _⟩ | ⟨rfl, _⟩
    · exfalso
      have l1 := congrArg List.length hall
      have l2 := hq.length_le
      simp only [chunked, List.flatMap_cons, List.length_append, chunk_bytes_len, List.flatten_nil, List.length_nil] at l1 l2
      omega
    · simp [deliveries, decodedData]
  | cons d segs ih =>
    have hd := hne d (by simp)
    simp only [List.map_cons, deliveries, if_neg hd, henc, if_true]
    have h1 := hcut 1
    simp only [List.take_succ_cons, List.take_zero, List.flatten_cons, List.flatten_nil, List.append_nil] at h1
    have hall' : (q ++ d) ++ segs.flatten = chunked cs e := by simpa using hall
    have hcut' : ∀ k, CleanCut cs e ((q ++ d) ++ (segs.take k).flatten) := by
      intro k
      have := hcut (k + 1)
      simpa using this
    have hne' : ∀ d ∈ segs, d ≠ [] := fun x hx => hne x (by simp [hx])
    generalize q ++ d = x at h1 hall' hcut'
    rcases h1 with ⟨done, c, rest, q', rfl, rfl, hq, hqne⟩ | ⟨q', rfl, hq⟩
    · have hdone : ∀ c ∈ done, c.Ok := fun x hx => hcs x (by simp [hx])
      have hc : c.Ok := hcs c (by simp)
      rw [chunks_ok z enc done hdone, prefix_line z enc c hc q' hq hqne]
      simp only [List.append_nil]
      rw [ih (c :: rest) q' (fun x hx => hcs x (by simp at hx ⊢; exact .inr hx)) hne' (.inl ⟨c, rest, rfl, hq, hqne⟩) ?_ ?_]
      · simp [decodedData]
      · simp only [chunked, List.flatMap_append, List.append_assoc, List.append_cancel_left_eq] at hall'
        simpa [chunked] using hall'
      · intro k
        have := hcut' k
        rw [List.append_assoc] at this
        exact cleanCut_drop done (c :: rest) e _ this
    · rw [chunks_ok z enc cs hcs]
      have hrest : q' ++ segs.flatten = e := by
        simp only [chunked, List.append_assoc, List.append_cancel_left_eq] at hall'
        exact hall'
      have hcut'' : ∀ k, CleanCut [] e (q' ++ (segs.take k).flatten) := by
        intro k
        have := hcut' k
        rw [List.append_assoc] at this
        exact cleanCut_drop cs [] e _ (by simpa using this)
      have hih : deliveries z enc q' (segs.map .data) = [] := by
        have := ih [] q' (by simp) hne' (.inr ⟨rfl, hq⟩) (by simpa [chunked] using hrest) hcut''
        simpa [decodedData] using this
      rcases he with rfl | ⟨line, hl, rfl⟩
      · have : q' = [] := by simpa using (List.append_eq_nil_iff.1 hrest).1
        subst this
        rw [dechunk_cutLine z enc [] (by simp)]
        simp only [List.append_nil, hih]
      · by_cases hlen : q'.length < line.length
        · have hno : 10 ∉ q' := by
            obtain ⟨ds, hd, hl'⟩ := hl
            have hp : q' = (line ++ [13, 10]).take q'.length := by rw [← hrest]; simp
            rw [hl'] at hp hlen
            simp at hlen
            rw [show ds ++ [13, 10] ++ [13, 10] = (ds ++ [13]) ++ [10, 13, 10] by simp,
              List.take_append_of_le_length (by simp; omega)] at hp
            intro hm
            rw [hp] at hm
            exact line_noLf ds _ hd (List.mem_of_mem_take hm)
          rw [dechunk_cutLine z enc q' hno]
          simp only [List.append_nil, hih]
        · have hp : ∃ t, q' = line ++ t := by
            have : q' = (line ++ [13, 10]).take q'.length := by rw [← hrest]; simp
            rw [List.take_append, List.take_of_length_le (by omega)] at this
            exact ⟨_, this⟩
          obtain ⟨t, rfl⟩ := hp
          rw [dechunk_final z enc line t (readsAs_line line 0 hl)]
          simp only [List.append_nil]
          have ht : t ++ segs.flatten = [13, 10] := by simpa using hrest
          have hz : deliveries z enc [] (segs.map .data) = [] := by
            refine after_final z enc henc segs [] hne' ?_
            match t with
            | [] => left; simpa using ht
            | [x] => simp at ht; right; left; simpa using ht.2
            | [x, y] => simp at ht; right; right; simp only [List.nil_append, List.flatten_eq_nil_iff]; exact fun l hl => ht.2.2 l hl
            | x :: y :: w :: r => simp at ht
          rw [hz]; simp

/-- A chunked stream, cut into segments anywhere except between the end of a chunk's data and the end
of the CR LF after them: the wrapper gets the data of the chunks, in order, and nothing else. -/
theorem C34_clean_cuts (z : Zlib) (enc : Nat) (henc : encChunked enc = true) (cs : List Chunk) (e : Bytes) (segs : List Bytes)
    (hcs : ∀ c ∈ cs, c.Ok) (he : ChunkedEnd e) (hne : ∀ d ∈ segs, d ≠ [])
    (hall : segs.flatten = chunked cs e) (hcut : ∀ k, CleanCut cs e (segs.take k).flatten) :
    deliveries z enc [] (segs.map .data) = (cs.flatMap fun c => decompressChunk z enc c.data).map some := by
  refine clean_feed z enc henc segs cs e [] hcs he hne ?_ (by simpa using hall) (by simpa using hcut)
  cases cs with
  | nil => exact .inr ⟨rfl, List.nil_prefix⟩
  | cons c cs =>
    refine .inl ⟨c, cs, rfl, List.nil_prefix, ?_⟩
    have := (hcs c (by simp)).1
    intro h; exact this (List.append_eq_nil_iff.1 h.symm).2

/-- The encoding flags (`CHUNKED` 1, `GZIP` 2, `COMPRESS` 4, `DEFLATE` 8) are independent: whether the data are chunked, and whether
each of the stages is selected, depends on its own bit only, whatever the others are. -/
theorem C34_flags (enc : Nat) :
    (encChunked enc = true ↔ enc % 2 = 1) ∧ (encGzip enc = true ↔ enc / 2 % 2 = 1) ∧
    (encCompress enc = true ↔ enc / 4 % 2 = 1) ∧ (encDeflate enc = true ↔ enc / 8 % 2 = 1) := by
  have key : ∀ k, (enc &&& 2 ^ k != 0) = true ↔ enc / 2 ^ k % 2 = 1 := by
    intro k
    rw [bne_iff_ne, show enc / 2 ^ k % 2 = 1 ↔ enc.testBit k = true by
      rw [Nat.testBit_eq_decide_div_mod_eq, decide_eq_true_eq]]
    constructor
    · intro h
      apply Classical.byContradiction
      intro hk
      apply h
      apply Nat.eq_of_testBit_eq
      intro j
      rw [Nat.testBit_and, Nat.testBit_two_pow, Nat.zero_testBit]
      by_cases hj : k = j
      · subst hj; simpa using hk
      · simp [hj]
    · intro h h0
      have := congrArg (Nat.testBit · k) h0
      simp [Nat.testBit_and, h] at this
  refine ⟨?_, key 1, key 2, key 3⟩
  have := key 0
  simpa [encChunked] using this

/-- Hence `NMEAReader` on a socket with chunked data, cut in such places, reads the same as from a file
with the decoded data (if every LF in them is preceded by CR). -/
theorem C34_reader (z : Zlib) (enc : Nat) (henc : encChunked enc = true) (cs : List Chunk) (e : Bytes) (segs : List Bytes)
    (hcs : ∀ c ∈ cs, c.Ok) (he : ChunkedEnd e) (hne : ∀ d ∈ segs, d ≠ [])
    (hall : segs.flatten = chunked cs e) (hcut : ∀ k, CleanCut cs e (segs.take k).flatten)
    (hb : LfAfterCr (cs.flatMap fun c => decompressChunk z enc c.data)) (now : Nat → DateTime) (cfg : RCfg) (es) :
    Session now (sockStream z enc) cfg (Sock.open z enc (segs.map .data)) es ↔
      Session now fileStream cfg (cs.flatMap fun c => decompressChunk z enc c.data) es :=
  C32_decoded_is_file z enc now cfg segs hne _ (C34_clean_cuts z enc henc cs e segs hcs he hne hall hcut) hb es

/-- The other cuts lose data. If a segment ends right after the data of a chunk, the next segment is
lost altogether: here the chunks `first`, `second` and `third`, the second segment holding the CR LF
after the first chunk and the second chunk. -/
theorem C34_cut_before_crlf_counterexample (z : Zlib) (enc : Nat) (henc : encChunked enc = true)
    (first second third : Chunk) (h1 : first.Ok) (h3 : third.Ok) :
    deliveries z enc [] [.data (first.line ++ first.data), .data ([13, 10] ++ second.bytes), .data third.bytes] =
      (decompressChunk z enc first.data ++ decompressChunk z enc third.data).map some := by
  have d1 : dechunk z enc (first.line ++ first.data) = (decompressChunk z enc first.data, []) := by
    have := dechunk_chunk z enc first.line first.data [] [] (readsAs_line _ _ h1.2) h1.1 rfl
    rw [dechunk_cutLine z enc [] (by simp)] at this
    simpa using this
  have d2 : dechunk z enc ([13, 10] ++ second.bytes) = ([], []) := by
    have := dechunk_garbage z enc [] second.bytes (by simp) (by intro n; simp [intOfBytes16, stripBy, isAsciiSpace, splitSign, stripHexPrefix, scanDigits, List.dropWhile])
    simpa using this
  have d3 : dechunk z enc third.bytes = (decompressChunk z enc third.data, []) := by
    have := chunk_ok z enc third h3 []
    rw [dechunk_cutLine z enc [] (by simp)] at this
    simpa using this
  have n1 : first.line ++ first.data ≠ [] := fun h => h1.1 (List.append_eq_nil_iff.1 h).2
  have n3 : third.bytes ≠ [] := by simp [Chunk.bytes]
  simp only [deliveries, henc, if_true, List.nil_append, d1, d2, d3, if_neg n1, if_neg n3]
  rw [if_neg (by simp)]
  simp

/-- If a segment ends between the CR and the LF after a chunk, everything after it is lost, for ever:
whatever is received after the segment that begins with this LF, the wrapper gets no byte of it. -/
theorem C34_cut_in_crlf_counterexample (z : Zlib) (enc : Nat) (henc : encChunked enc = true)
    (first : Chunk) (h1 : first.Ok) (next : Bytes) (later : List Bytes) (hl : ∀ d ∈ later, d ≠ []) :
    deliveries z enc [] (.data (first.line ++ first.data ++ [13]) :: .data (10 :: next) :: later.map .data) =
      (decompressChunk z enc first.data).map some := by
  have d1 : dechunk z enc (first.line ++ first.data ++ [13]) = (decompressChunk z enc first.data, []) := by
    have := dechunk_chunk z enc first.line first.data [13] [] (readsAs_line _ _ h1.2) h1.1 rfl
    rw [dechunk_cutLine z enc [] (by simp)] at this
    simpa using this
  have d2 : ∀ x, dechunk z enc (10 :: x) = ([], [10]) := by
    intro x
    have := dechunk_bareLf z enc [] x (by simp) (by simp)
    simpa using this
  have d3 : deliveries z enc [10] (later.map .data) = [] := by
    induction later with
    | nil => rfl
    | cons d later ih =>
      simp only [List.map_cons, deliveries, if_neg (hl d (by simp)), henc, if_true, List.cons_append, List.nil_append, d2,
        List.map_nil]
      exact ih (fun x hx => hl x (by simp [hx]))
  simp only [deliveries, henc, if_true, List.nil_append, d1, d2, d3]
  simp

/-! ## C35: what comes out of any data -/

/-- Whatever is received: what is handed on is the concatenation of complete chunks, each decompressed;
incomplete chunks and length lines are kept for later. `Unchunk` also says exactly which data are
ignored or lost. -/
theorem C35_complete_chunks (z : Zlib) (enc : Nat) (b : Bytes) :
    ∃ cs p, Unchunk b cs p ∧ dechunk z enc b = (cs.flatMap (decompressChunk z enc), p) := dechunk_spec z enc b

/-- Each chunk goes through the decompression stages selected, in the order gzip, compress, deflate,
up to the first one that fails: from there it is passed on as it is. -/
theorem C35_decompression (z : Zlib) (enc : Nat) (x : Bytes) : Staged (stages z enc) x (decompressChunk z enc x) :=
  decompress_staged z enc x

/-- So what the reader sees of a chunked socket is always made of complete chunks: the buffer after
every `recv` is the buffer before it followed by complete chunks of what was pending and received. -/
theorem C35_buffer (z : Zlib) (enc : Nat) (henc : encChunked enc = true) (s : Sock) :
    ∃ cs, (s.recv z enc).2.buffer = s.buffer ++ cs.flatMap (decompressChunk z enc) ∧
      (cs = [] ∨ ∃ d r p, s.script = .data d :: r ∧ Unchunk (s.pending ++ d) cs p ∧ (s.recv z enc).2.pending = p) := by
  simp only [Sock.recv]
  split
  · exact ⟨[], by simp⟩
  · exact ⟨[], by simp⟩
  · rename_i d r hs
    split
    · exact ⟨[], by simp⟩
    · obtain ⟨cs, p, hu, hd⟩ := dechunk_spec z enc (s.pending ++ d)
      refine ⟨cs, ?_, .inr ⟨d, r, p, hs, hu, ?_⟩⟩ <;> simp [Sock.accept, henc, hd]

/-! ## Concrete cases -/

/-- Two chunks and the end, and a way to cut them. -/
def chunkABC : Chunk := ⟨pb!"3\r\n", pb!"abc"⟩
def chunkDE : Chunk := ⟨pb!"0A\r\n", pb!"0123456789"⟩

theorem chunkABC_ok : chunkABC.Ok := ⟨by decide, pb!"3", ⟨[3], by decide, by decide, by decide⟩, rfl⟩
theorem chunkDE_ok : chunkDE.Ok := ⟨by decide, pb!"0A", ⟨[0, 10], by decide, by decide, by decide⟩, rfl⟩

example : ChunkedEnd (pb!"0\r\n\r\n") := .inr ⟨pb!"0\r\n", ⟨pb!"0", ⟨[0], by decide, by decide, by decide⟩, rfl⟩, rfl⟩

example (z : Zlib) : deliveries z 1 [] [.data (pb!"3\r\nab"), .data (pb!"c\r\n0A\r"), .data (pb!"\n0123456789\r\n")] =
    (pb!"abc0123456789").map some := by
  have := C34_clean_cuts z 1 rfl [chunkABC, chunkDE] [] [pb!"3\r\nab", pb!"c\r\n0A\r", pb!"\n0123456789\r\n"]
    (by intro c hc; simp at hc; rcases hc with rfl | rfl; exact chunkABC_ok; exact chunkDE_ok) (.inl rfl) (by decide) (by decide) (by
      intro k
      match k with
      | 0 => exact .inl ⟨[], chunkABC, [chunkDE], [], rfl, rfl, List.nil_prefix, by decide⟩
      | 1 => exact .inl ⟨[], chunkABC, [chunkDE], pb!"3\r\nab", rfl, by decide, ⟨pb!"c", by decide⟩, by decide⟩
      | 2 => exact .inl ⟨[chunkABC], chunkDE, [], pb!"0A\r", rfl, by decide, ⟨pb!"\n0123456789", by decide⟩, by decide⟩
      | k + 3 => exact .inr ⟨[], by simp [chunkABC, chunkDE, Chunk.bytes], List.nil_prefix⟩)
  simpa [chunkABC, chunkDE, decompressChunk, encGzip, encCompress, encDeflate] using this

end Nmea
