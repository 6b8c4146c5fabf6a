import Verif.Lemmas.Payload
/-! # Lemmas: sentences, framing on bytes, serialization of a parsed message -/
namespace Nmea
open Py Spec

theorem getParts_sentence (msg : RawMsg) (p : Parts) :
    getParts msg = .ok p ↔ IsSentence msg p.content p.talker p.msgid p.payload p.cksum := by
  rw [getParts_iff]
  unfold IsSentence
  simp only [getPartsStr_iff]

theorem sentence_getParts (msg : RawMsg) (content talker msgid cksum : Str) (fields : List Str)
    (h : IsSentence msg content talker msgid fields cksum) :
    getParts msg = .ok ⟨content, talker, msgid, fields, cksum⟩ := (getParts_sentence _ _).2 h

/-- A sentence determines its parts. -/
theorem sentence_parts (msg : RawMsg) (content talker msgid cksum : Str) (fields : List Str)
    (h : IsSentence msg content talker msgid fields cksum) (p : Parts) (hp : getParts msg = .ok p) :
    p = ⟨content, talker, msgid, fields, cksum⟩ := by
  rw [sentence_getParts _ _ _ _ _ _ h] at hp
  cases hp; rfl

theorem textOf_unique (msg : RawMsg) (s t : Str) (h : TextOf msg s) (h' : TextOf msg t) : s = t := by
  cases msg with
  | bytes b => rw [textOf_iff] at h h'; rw [h] at h'; cases h'; rfl
  | str x => rw [textOf_str] at h h'; rw [h, h']
  | other => cases h

theorem readSlots_keeps (x : Str) (slots : List Slot) (fs : List Str) (attrs attrs' : Attrs)
    (h : readSlots slots fs attrs = .ok attrs') (hx : (lookup x attrs).isSome = true) :
    (lookup x attrs').isSome = true := by
  induction slots generalizing fs attrs with
  | nil => simp only [readSlots, Except.ok.injEq] at h; rw [← h]; exact hx
  | cons s ss ih =>
    obtain ⟨n, t⟩ := s
    cases fs with
    | nil => simp only [readSlots, Except.ok.injEq] at h; rw [← h]; exact hx
    | cons f fs =>
      rw [readSlots] at h
      split at h
      · cases h
      · rename_i v _
        apply ih _ _ h
        have h1 : (lookup x (Py.insert n v attrs)).isSome = true := by
          rw [lookup_insert]; split
          · rfl
          · exact hx
        rcases hemisphere_lookup t v (Py.insert n v attrs) x with e | ⟨_, _, w, e, _⟩
        · rw [e]; exact h1
        · rw [e]; rfl

theorem str2val_ST (f : Str) : str2val f py!"ST" = .ok (.str f) := by
  unfold str2val; rw [if_pos (by decide)]

/-- A PSSNSNC sentence with a definition has identity PSSNSNC. -/
theorem snc_identity (c : Ctx) (d : PDict) (p : List Str) (st : St) (post : List Slot)
    (hm : c.mode = 0 ∨ c.mode = 1 ∨ c.mode = 2)
    (hdef : definitionFor c.mode c.udefs c.msgID p = .ok (some d))
    (hsnc : IsSnc c.talker c.msgID p) (hr : Received c d p st post) :
    identityOf c.talker c.msgID st.attrs = .ok py!"PSSNSNC" := by
  rcases hsnc with h | ⟨h1, h2, h3⟩
  · rw [ident_plain, h]
    rintro ⟨h4, h5⟩
    rw [h4] at h
    exact prefix_not_snc _ h5 h
  · obtain ⟨f, r, rfl⟩ : ∃ f r, p = f :: r := by
      cases p with
      | nil => simp at h3
      | cons f r => exact ⟨f, r, rfl⟩
    simp only [List.head?_cons, Option.some.injEq] at h3
    subst h3
    have hB : c.talker = py!"P" ∧ c.msgID ∈ NMEA_PREFIX_PROP := ⟨h1, by rw [h2]; decide⟩
    have hlk : lookup py!"SSNSNC" (proprietaryDefs c.mode) = some d := by
      rw [h2] at hdef
      unfold definitionFor at hdef
      have e1 : fullId py!"SSN" (py!"SNC" :: r) = .ok py!"SSNSNC" := by
        unfold fullId; rw [if_pos (by decide)]; simp only; rw [if_neg (by decide)]; rfl
      rw [e1] at hdef
      simp only at hdef
      rw [if_neg (by decide +kernel), if_pos (by decide +kernel)] at hdef
      have e2 : upper py!"SSNSNC" = py!"SSNSNC" := by decide +kernel
      rw [e2] at hdef
      have e3 : layoutName c.mode py!"SSNSNC" (py!"SNC" :: r) = .ok py!"SSNSNC" := by
        rw [layoutName_plain _ _ _ (by decide) (by decide), lay_none _ _ _ [] (fun p hp _ he =>
          absurd he ((by decide : ∀ p ∈ layouts, p.1.2.1 ≠ py!"SSNSNC") p hp)) (by simp)]
        simp
      rw [e3] at hdef
      simpa using hdef
    have hd : ∃ rest, d = .single py!"msgId" py!"ST" rest := by
      have hall : ∀ mode ∈ [0, 1, 2], ∀ d, lookup py!"SSNSNC" (proprietaryDefs mode) = some d →
          ∃ rest, d = .single py!"msgId" py!"ST" rest := by
        intro mode hmode d hd
        have key : ∀ mode ∈ [0, 1, 2], (match lookup py!"SSNSNC" (proprietaryDefs mode) with
          | none => true
          | some (.single k t _) => k == py!"msgId" && t == py!"ST"
          | some _ => false) = true := by decide +kernel
        have := key mode hmode
        rw [hd] at this
        match d, this with
        | .single k t rest, h => simp at h; obtain ⟨rfl, rfl⟩ := h; exact ⟨rest, rfl⟩
      apply hall c.mode _ d hlk
      simp only [List.mem_cons, List.not_mem_nil, or_false]
      omega
    obtain ⟨rest, rfl⟩ := hd
    have hex := hr.expand
    have hfirst : ∃ tl, post = (py!"msgId", py!"ST") :: tl := by
      cases hex with
      | single _ _ _ _ _ _ h =>
        have := h.prefix
        obtain ⟨tl, htl⟩ := this
        exact ⟨tl, by rw [← htl]; rfl⟩
    obtain ⟨tl, rfl⟩ := hfirst
    have hft : fieldTexts c.talker c.msgID (py!"SNC" :: r) = py!"SNC" :: r.map noBrackets := by
      unfold fieldTexts
      rw [if_neg (by rw [h1, h2]; decide), if_pos ⟨h1, h2, rfl⟩]
      rfl
    have hread := hr.read
    rw [hft, readSlots, str2val_ST] at hread
    simp only at hread
    have hs := readSlots_keeps py!"msgId" _ _ _ _ hread (by
      rw [lookup_hemisphere _ _ _ _ (by decide) (by decide), lookup_insert]; simp)
    rcases hr.msgid hB with hn | ⟨f, hf, hl⟩
    · rw [hn] at hs; cases hs
    · simp only [List.head?_cons, Option.some.injEq] at hf
      subst hf
      rw [h1, ident_some _ hB.2 _ _ hl, h2]
      rfl

/-- The payload of an accepted sentence that is not PSSNSNC. -/
theorem parsed_payload (now : Nat → DateTime) (t i : Str) (mode : Nat)
    (hmode : mode = 0 ∨ mode = 1 ∨ mode = 2) (v : Nat) (u : UDefs) (p : List Str)
    (d : PDict) (st : St) (hdef : definitionFor mode u i p = .ok (some d))
    (hst : setPDict (ctxOf t i mode false v u ⟨some p, []⟩) now d [] (st0 p) = .ok st)
    (hid : identityOf t i st.attrs ≠ .ok py!"PSSNSNC") : st.payload = p := by
  by_cases hsnc : IsSnc t i p
  · by_cases hB : t = py!"P" ∧ i ∈ NMEA_PREFIX_PROP
    · obtain ⟨post, hr⟩ := (received (ctxOf t i mode false v u ⟨some p, []⟩) now d p
        (definitionFor_prefix_sane _ _ _ hB.2 _ _ hdef) rfl (fun _ => hdef)).1 st hst
      exact absurd (snc_identity _ d p st post hmode hdef hsnc hr) hid
    · rcases hsnc with h | ⟨h1, h2, _⟩
      · rw [ident_plain _ _ hB, h] at hid; exact absurd rfl hid
      · exact absurd ⟨h1, by rw [h2]; decide⟩ hB
  · exact payload_received (ctxOf t i mode false v u ⟨some p, []⟩) now d p st rfl hdef hsnc hst

/-! ## Framing on bytes -/

theorem frameByte_toNat (b : UInt8) : FrameByte b ↔ FrameChar b.toNat := by
  unfold FrameByte FrameChar
  have key : ∀ k : UInt8, b = k ↔ b.toNat = k.toNat := fun k => UInt8.toNat_inj.symm
  rw [key 36, key 13, key 10]
  rfl

theorem framedBytes_map (raw body : Bytes) :
    FramedBytes raw body ↔ FramedBody (raw.map UInt8.toNat) (body.map UInt8.toNat) := by
  constructor
  · rintro ⟨pre, post, h, h1, h2, h3, h4⟩
    refine ⟨pre.map UInt8.toNat, post.map UInt8.toNat, by rw [h]; simp, ?_, ?_, ?_, ?_⟩
    · intro c hc; rw [List.mem_map] at hc; obtain ⟨b, hb, rfl⟩ := hc
      exact (frameByte_toNat b).1 (h1 b hb)
    · intro c hc; rw [List.mem_map] at hc; obtain ⟨b, hb, rfl⟩ := hc
      exact (frameByte_toNat b).1 (h2 b hb)
    · intro c hc; rw [List.head?_map] at hc; obtain ⟨b, hb, rfl⟩ := Option.map_eq_some_iff.1 hc
      exact fun h => h3 b hb ((frameByte_toNat b).2 h)
    · intro c hc; rw [List.getLast?_map] at hc; obtain ⟨b, hb, rfl⟩ := Option.map_eq_some_iff.1 hc
      exact fun h => h4 b hb ((frameByte_toNat b).2 h)
  · rintro ⟨pre, post, h, h1, h2, h3, h4⟩
    rw [List.map_eq_append_iff] at h
    obtain ⟨x, post', rfl, hx, rfl⟩ := h
    rw [List.map_eq_append_iff] at hx
    obtain ⟨pre', body', rfl, rfl, hb⟩ := hx
    have hb := toNat_inj _ _ hb
    subst hb
    refine ⟨pre', post', rfl, ?_, ?_, ?_, ?_⟩
    · intro c hc; exact (frameByte_toNat c).2 (h1 _ (List.mem_map_of_mem hc))
    · intro c hc; exact (frameByte_toNat c).2 (h2 _ (List.mem_map_of_mem hc))
    · intro c hc h; exact h3 _ (by rw [List.head?_map, hc]; rfl) ((frameByte_toNat c).1 h)
    · intro c hc h; exact h4 _ (by rw [List.getLast?_map, hc]; rfl) ((frameByte_toNat c).1 h)

theorem framedBytes_unique (raw a b : Bytes) (ha : FramedBytes raw a) (hb : FramedBytes raw b) : a = b := by
  rw [framedBytes_map, framedBody_iff] at ha hb
  exact toNat_inj _ _ (ha.symm.trans hb)

theorem encChar_head (c : Nat) (r : List Nat) :
    ∃ b, (utf8EncodeChar c ++ r).head? = some b ∧ (FrameChar b → FrameChar c) := by
  unfold utf8EncodeChar
  split
  · exact ⟨c, rfl, id⟩
  · split
    · exact ⟨_, rfl, by unfold FrameChar; omega⟩
    · split
      · exact ⟨_, rfl, by unfold FrameChar; omega⟩
      · exact ⟨_, rfl, by unfold FrameChar; omega⟩

theorem encChar_last (c : Nat) (r : List Nat) :
    ∃ b, (r ++ utf8EncodeChar c).getLast? = some b ∧ (FrameChar b → FrameChar c) := by
  unfold utf8EncodeChar
  split
  · exact ⟨c, by simp, id⟩
  · split
    · exact ⟨0x80 + c % 64, by simp, by unfold FrameChar; omega⟩
    · split
      · exact ⟨0x80 + c % 64, by simp, by unfold FrameChar; omega⟩
      · exact ⟨0x80 + c % 64, by simp, by unfold FrameChar; omega⟩

theorem enc_frame (l : Str) (h : ∀ c ∈ l, FrameChar c) : l.flatMap utf8EncodeChar = l := by
  induction l with
  | nil => rfl
  | cons c cs ih =>
    rw [List.flatMap_cons, ih (fun x hx => h x (by simp [hx]))]
    have := h c (by simp)
    unfold utf8EncodeChar
    rw [if_pos (by unfold FrameChar at this; omega)]
    rfl

/-- Framing of the text and of its encoding agree. -/
theorem framed_enc (s body : Str) (h : FramedBody s body) :
    FramedBody (s.flatMap utf8EncodeChar) (body.flatMap utf8EncodeChar) := by
  obtain ⟨pre, post, rfl, h1, h2, h3, h4⟩ := h
  refine ⟨pre, post, ?_, h1, h2, ?_, ?_⟩
  · simp only [List.flatMap_append]; rw [enc_frame pre h1, enc_frame post h2]
  · cases body with
    | nil => simp
    | cons c cs =>
      obtain ⟨b, hb, hb2⟩ := encChar_head c (cs.flatMap utf8EncodeChar)
      intro x hx
      rw [List.flatMap_cons, hb] at hx
      cases hx
      exact fun h => h3 c (by simp) (hb2 h)
  · rcases List.eq_nil_or_concat body with rfl | ⟨cs, c, rfl⟩
    · simp
    · obtain ⟨b, hb, hb2⟩ := encChar_last c (cs.flatMap utf8EncodeChar)
      intro x hx
      rw [List.concat_eq_append, List.flatMap_append, List.flatMap_cons, List.flatMap_nil, List.append_nil, hb] at hx
      cases hx
      exact fun h => h4 c (by simp) (hb2 h)

theorem utf8Encode_eq (s : Str) (b : Bytes) (h : utf8Encode s = .ok b) :
    s.all isScalar = true ∧ b = (s.flatMap utf8EncodeChar).map UInt8.ofNat := by
  unfold utf8Encode at h
  split at h
  · cases h; exact ⟨‹_›, rfl⟩
  · cases h

theorem enc_lt (s : Str) (h : s.all isScalar = true) : ∀ b ∈ s.flatMap utf8EncodeChar, b < 256 := by
  intro b hb
  rw [List.mem_flatMap] at hb
  obtain ⟨c, hc, hb⟩ := hb
  exact utf8EncodeChar_lt c (by simp only [List.all_eq_true] at h; exact h c hc) b hb

theorem framed_sub (s body : Str) (h : FramedBody s body) (hs : s.all isScalar = true) :
    body.all isScalar = true := by
  obtain ⟨pre, post, rfl, _⟩ := h
  simp only [List.all_append, Bool.and_eq_true] at hs
  exact hs.1.2

/-- The canonical framing of a body text, encoded. -/
theorem encode_canonical (body : Str) (hs : body.all isScalar = true) :
    utf8Encode (py!"$" ++ body ++ py!"\r\n") =
      .ok (pb!"$" ++ (body.flatMap utf8EncodeChar).map UInt8.ofNat ++ pb!"\r\n") := by
  unfold utf8Encode
  rw [if_pos]
  · simp only [List.flatMap_append]
    congr 1
    simp [utf8EncodeChar]
  · simp only [List.all_append, hs]; decide

theorem framed_bytes_of_text (b : Bytes) (s body : Str) (h : TextOf (.bytes b) s) (hf : FramedBody s body) :
    FramedBytes b ((body.flatMap utf8EncodeChar).map UInt8.ofNat) ∧ body.all isScalar = true := by
  rw [textOf_iff] at h
  obtain ⟨hs, hb⟩ := utf8Encode_eq s b (utf8Encode_of_decode b s h)
  have hbs := framed_sub s body hf hs
  refine ⟨?_, hbs⟩
  rw [framedBytes_map, hb, map_toNat_ofNat _ (enc_lt s hs), map_toNat_ofNat _ (enc_lt body hbs)]
  exact framed_enc s body hf

end Nmea
