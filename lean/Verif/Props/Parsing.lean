import Verif.Lemmas.ParseErr
/-!
# Properties of `parse`: decomposition, exceptions, unknown sentences, re-serialization
(C04, C12, C13, C14, C18, C19, C50)
-/
namespace Props
open Py Nmea Spec

/-! ## C12: `get_parts` -/

/-- `get_parts` accepts exactly the sentences, and returns their parts. -/
theorem C12_lossless (msg : RawMsg) (p : Parts) :
    getParts msg = .ok p ↔ IsSentence msg p.content p.talker p.msgid p.payload p.cksum :=
  getParts_sentence msg p

/-- `get_parts` raises, namely `NMEAMessageError`, exactly when the message is not text or has no
`*`. -/
theorem C12_rejects (msg : RawMsg) (e : Err) :
    getParts msg = .error e ↔ e = .nmeaMessage ∧ ¬ ∃ text, TextOf msg text ∧ 42 ∈ text :=
  getParts_error msg e

/-- The parts are unique: a message is a sentence in at most one way. -/
theorem C12_unique (msg : RawMsg) (c t i k c' t' i' k' : Str) (f f' : List Str)
    (h : IsSentence msg c t i f k) (h' : IsSentence msg c' t' i' f' k') :
    c = c' ∧ t = t' ∧ i = i' ∧ f = f' ∧ k = k' := by
  have := sentence_parts _ _ _ _ _ _ h' _ (sentence_getParts _ _ _ _ _ _ h)
  cases this
  exact ⟨rfl, rfl, rfl, rfl, rfl⟩

/-- Every text containing `*` is a sentence (so that `get_parts` is total on them), whatever the
rest of it looks like. -/
theorem C12_total (msg : RawMsg) (text : Str) (h : TextOf msg text) (hs : 42 ∈ text) :
    ∃ c t i f k, IsSentence msg c t i f k := by
  cases hg : getParts msg with
  | ok p => exact ⟨_, _, _, _, _, (getParts_sentence msg p).1 hg⟩
  | error e => exact absurd ⟨text, h, hs⟩ ((getParts_error msg e).1 hg).2

/-- The sentence used in examples. -/
theorem gll_sentence : IsSentence (.bytes pb!"$GNGLL,5327.04319,S,00214.41396,E,223232.00,A,A*68\r\n")
    py!"GNGLL,5327.04319,S,00214.41396,E,223232.00,A,A" py!"GN" py!"GLL"
    [py!"5327.04319", py!"S", py!"00214.41396", py!"E", py!"223232.00", py!"A", py!"A"] py!"68" :=
  (getParts_sentence _ ⟨_, _, _, _, _⟩).1 (by decide +kernel)

example : getParts (.bytes pb!"$GNGLL,5327.04319") = .error .nmeaMessage := by decide +kernel

/-! ## C04: parse, then serialize -/

theorem parsed_text (now : Nat → DateTime) (msg : RawMsg) (mode : Int) (v : Nat) (u : UDefs) (m : Msg)
    (content talker msgid cksum : Str) (fields : List Str)
    (hs : IsSentence msg content talker msgid fields cksum)
    (h : parse now msg mode v u = .ok (some m)) (hid : m.identity ≠ .ok py!"PSSNSNC") :
    m.payload = fields ∧ m.text = py!"$" ++ (content ++ py!"*" ++ cksum) ++ py!"\r\n" := by
  obtain ⟨hm, p, hp, _, _, hcase⟩ := parse_accepted _ _ _ _ _ _ h
  have := sentence_parts _ _ _ _ _ _ hs p hp
  subst this
  obtain ⟨_, _, _, hf⟩ := hs
  have hpay : m.payload = fields ∧ m.talker = talker ∧ m.msgID = msgid ∧ m.checksum = some cksum := by
    rcases hcase with ⟨_, _, rfl⟩ | ⟨d, st, hd, hst, rfl⟩
    · exact ⟨rfl, rfl, rfl, rfl⟩
    · refine ⟨parsed_payload now talker msgid mode.toNat (by omega) v u fields d st hd hst hid,
        rfl, rfl, rfl⟩
  obtain ⟨h1, h2, h3, h4⟩ := hpay
  refine ⟨h1, ?_⟩
  unfold Msg.text
  rw [h1, h2, h3, h4, contentOf_eq, ← hf.1]
  simp

/-- `serialize` of a parsed message is `$`, the body of the sentence text, CRLF - for any text the
message was parsed from, unless it is of the bracketed type PSSNSNC. -/
theorem C04_serialize (now : Nat → DateTime) (msg : RawMsg) (mode : Int) (v : Nat) (u : UDefs) (m : Msg)
    (text body : Str) (ht : TextOf msg text) (hb : FramedBody text body)
    (h : parse now msg mode v u = .ok (some m)) (hid : m.identity ≠ .ok py!"PSSNSNC") :
    m.serialize = utf8Encode (py!"$" ++ body ++ py!"\r\n") := by
  obtain ⟨_, p, hp, _⟩ := parse_accepted _ _ _ _ _ _ h
  have hs := (getParts_sentence msg p).1 hp
  have htext := (parsed_text now msg mode v u m _ _ _ _ _ hs h hid).2
  obtain ⟨t', ht', hc, _⟩ := hs
  rw [textOf_unique _ _ _ ht' ht] at hc
  have hbody : body = p.content ++ py!"*" ++ p.cksum := by
    have h1 := (framedBody_iff _ _).1 hb
    have h2 := (framedBody_iff _ _).1 hc.1
    rw [← h1, h2]
  unfold Msg.serialize
  rw [htext, hbody]

/-- Bytes in, bytes out: the serialized form of a message parsed from bytes is `$`, the input
without its leading and trailing framing bytes, and CRLF. -/
theorem C04_bytes (now : Nat → DateTime) (raw body : Bytes) (mode : Int) (v : Nat) (u : UDefs) (m : Msg)
    (hb : FramedBytes raw body) (h : parse now (.bytes raw) mode v u = .ok (some m))
    (hid : m.identity ≠ .ok py!"PSSNSNC") : m.serialize = .ok (pb!"$" ++ body ++ pb!"\r\n") := by
  obtain ⟨_, p, hp, _⟩ := parse_accepted _ _ _ _ _ _ h
  obtain ⟨text, ht, hc, _⟩ := (getParts_sentence _ p).1 hp
  have hfr := framed_bytes_of_text raw text _ ht hc.1
  rw [C04_serialize now _ mode v u m text _ ht hc.1 h hid, encode_canonical _ hfr.2,
    framedBytes_unique _ _ _ hb hfr.1]

/-- Every byte string has exactly one body, so `C04_bytes` applies to every accepted input. -/
theorem C04_bytes_total (now : Nat → DateTime) (raw : Bytes) (mode : Int) (v : Nat) (u : UDefs) (m : Msg)
    (h : parse now (.bytes raw) mode v u = .ok (some m)) : ∃ body, FramedBytes raw body := by
  obtain ⟨_, p, hp, _⟩ := parse_accepted _ _ _ _ _ _ h
  obtain ⟨text, ht, hc, _⟩ := (getParts_sentence _ p).1 hp
  exact ⟨_, (framed_bytes_of_text raw text _ ht hc.1).1⟩

/-- A canonically framed sentence is reproduced byte for byte. -/
theorem C04_canonical (now : Nat → DateTime) (body : Bytes) (mode : Int) (v : Nat) (u : UDefs) (m : Msg)
    (hh : ∀ c ∈ body.head?, ¬ FrameByte c) (hl : ∀ c ∈ body.getLast?, ¬ FrameByte c)
    (h : parse now (.bytes (pb!"$" ++ body ++ pb!"\r\n")) mode v u = .ok (some m))
    (hid : m.identity ≠ .ok py!"PSSNSNC") : m.serialize = .ok (pb!"$" ++ body ++ pb!"\r\n") := by
  apply C04_bytes now _ _ mode v u m ?_ h hid
  refine ⟨pb!"$", pb!"\r\n", rfl, ?_, ?_, hh, hl⟩
  · intro c hc; simp at hc; exact .inl hc
  · intro c hc; simp at hc; rcases hc with rfl | rfl
    · exact .inr (.inl rfl)
    · exact .inr (.inr rfl)

theorem parse_of_parts (now : Nat → DateTime) (a b : RawMsg) (mode : Int) (v : Nat) (u : UDefs)
    (h : getParts a = getParts b) : parse now a mode v u = parse now b mode v u := by
  unfold parse; rw [h]

/-- Parsing the serialized form again gives the same message (at any later time). -/
theorem C04_reparse (now now' : Nat → DateTime) (msg : RawMsg) (mode : Int) (v : Nat) (u : UDefs) (m : Msg)
    (out : Bytes) (h : parse now msg mode v u = .ok (some m)) (hid : m.identity ≠ .ok py!"PSSNSNC")
    (ho : m.serialize = .ok out) : parse now' (.bytes out) mode v u = .ok (some m) := by
  obtain ⟨_, p, hp, _⟩ := parse_accepted _ _ _ _ _ _ h
  have hs := (getParts_sentence msg p).1 hp
  have htext := (parsed_text now msg mode v u m _ _ _ _ _ hs h hid).2
  obtain ⟨t', ht', hc, hf⟩ := hs
  have hnew : getParts (.bytes out) = .ok p := by
    rw [getParts_sentence]
    refine ⟨m.text, .bytes _ _ ho, ?_, hf⟩
    obtain ⟨⟨pre, post, _, _, _, h3, h4⟩, h5⟩ := hc
    refine ⟨⟨py!"$", py!"\r\n", htext, ?_, ?_, h3, h4⟩, h5⟩
    · intro c hc; simp at hc; exact .inl hc
    · intro c hc; simp at hc; rcases hc with rfl | rfl
      · exact .inr (.inl rfl)
      · exact .inr (.inr rfl)
  rw [parse_of_parts now' (.bytes out) msg mode v u (by rw [hnew, hp]), parse_now now' now, h]

-- the hypotheses are met by an accepted canonical sentence
example : (∃ m, parse clock0 (.bytes pb!"$GNGLL,5327.04319,S,00214.41396,E,223232.00,A,A*68\r\n") 0 1 []
    = .ok (some m) ∧ m.identity ≠ .ok py!"PSSNSNC") ∧
    (∀ c ∈ (pb!"GNGLL,5327.04319,S,00214.41396,E,223232.00,A,A*68").head?, ¬ FrameByte c) := by
  constructor
  · obtain ⟨m, h, hm⟩ := (acceptedWith_iff (fun m => decide (m.identity ≠ .ok py!"PSSNSNC")) _).1
      (by decide +kernel : acceptedWith _ (parse clock0
        (.bytes pb!"$GNGLL,5327.04319,S,00214.41396,E,223232.00,A,A*68\r\n") 0 1 []) = true)
    exact ⟨m, h, by simpa using hm⟩
  · intro c hc; simp at hc; subst hc; unfold FrameByte; decide

/-- The exception is real: a bracketed PSSNSNC sentence is accepted, but its serialized form is not
accepted again (the brackets are gone while the checksum stays). -/
theorem C04_snc_counterexample :
    ∃ m out, parse clock0 (.bytes pb!"$PSSN,SNC,1,600,2039,[1,2,3,4*10\r\n") 0 1 [] = .ok (some m) ∧
      m.serialize = .ok out ∧ out = pb!"$PSSN,SNC,1,600,2039,1,2,3,4*10\r\n" ∧
      parse clock0 (.bytes out) 0 1 [] = .error .nmeaParse := by
  obtain ⟨m, h, hm⟩ := (acceptedWith_iff
    (fun m => decide (m.serialize = .ok pb!"$PSSN,SNC,1,600,2039,1,2,3,4*10\r\n")) _).1
      (by decide +kernel : acceptedWith _ (parse clock0
        (.bytes pb!"$PSSN,SNC,1,600,2039,[1,2,3,4*10\r\n") 0 1 []) = true)
  exact ⟨m, _, h, by simpa using hm, rfl, by decide +kernel⟩

end Props
