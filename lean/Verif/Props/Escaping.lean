import Verif.Props.Damage
import Verif.Props.Generate
import Verif.Props.Reader
/-!
# Reserved characters in generated sentences (C92)
-/
namespace Props
open Py Nmea Spec

/-- The text of a message made from keywords, between its framing characters. -/
theorem made_frame (t i : Str) (f : List Str) (n : Nat) (ck : Str) (hk : IsHexText ck n) (hhead : PlainText (t ++ i)) (hne : t ++ i ≠ []) :
    FramedBody (py!"$" ++ commaJoin ((t ++ i) :: f) ++ py!"*" ++ ck ++ py!"\r\n") (commaJoin ((t ++ i) :: f) ++ py!"*" ++ ck) := by
  refine ⟨py!"$", py!"\r\n", by simp, ?_, ?_, ?_, ?_⟩
  · intro c hc; simp at hc; exact .inl hc
  · intro c hc; simp at hc; unfold FrameChar; omega
  · intro c hc
    cases hti : t ++ i with
    | nil => exact absurd hti hne
    | cons x r =>
      have hx : c = x := by
        rw [hti] at hc
        cases f <;> simp [commaJoin] at hc <;> exact hc.symm
      subst hx
      have := (hhead c (by rw [hti]; simp)).2
      simp at this; unfold FrameChar; omega
  · intro c hc
    have hkne : ck ≠ [] := by rintro rfl; have := hk.2.2.1; simp at this
    have hlast : (commaJoin ((t ++ i) :: f) ++ py!"*" ++ ck).getLast? = ck.getLast? := by
      rw [List.getLast?_append]
      cases hl : ck.getLast? with
      | none => rw [List.getLast?_eq_none_iff] at hl; exact absurd hl hkne
      | some y => rfl
    rw [hlast] at hc
    have := hk.1 c (List.mem_of_getLast? hc)
    have h2 : ∀ c ∈ hexDigits, ¬ (c = 36 ∨ c = 13 ∨ c = 10) := by decide
    exact h2 c this

theorem commaJoin_mem (l : List Str) (x : Str) (hx : x ∈ l) (c : Nat) (hc : c ∈ x) : c ∈ commaJoin l := by
  induction l with
  | nil => cases hx
  | cons y l ih =>
    cases l with
    | nil => simp at hx; subst hx; exact hc
    | cons z l =>
      simp only [commaJoin, List.mem_append]
      rcases List.mem_cons.1 hx with rfl | hx
      · exact .inl (.inl hc)
      · exact .inr (ih hx)

/-- A `*` in a field of a generated message: whatever its checksum, the sentence is rejected by everyone who validates
checksums. -/
theorem C92_star (now : Nat → DateTime) (t i : Str) (mode : Int) (hp : Bool) (v : Nat) (u : UDefs)
    (kw : List (Str × PyVal)) (m : Msg) (hkw : PlainKeywords i kw) (d : PDict)
    (hd : KwDefinition mode.toNat u i kw d) (h : mkMsg now t i mode hp v u none ⟨none, kw⟩ = .ok m)
    (hhead : PlainText (t ++ i)) (hne : t ++ i ≠ [])
    (x : Str) (hx : x ∈ m.payload) (hstar : 42 ∈ x) (raw : Bytes) (hraw : m.serialize = .ok raw)
    (now' : Nat → DateTime) (mode' : Int) (v' : Nat) (u' : UDefs) (hv : ValCksum v') :
    parse now' (.bytes raw) mode' v' u' = .error .nmeaParse := by
  obtain ⟨ck, hk, htext⟩ := C53_valid_checksum now t i mode hp v u kw m hkw d hd h
  have hf := made_frame t i m.payload _ ck hk hhead hne
  rw [← htext] at hf
  have hmem : 42 ∈ commaJoin ((t ++ i) :: m.payload) := commaJoin_mem _ x (List.mem_cons_of_mem _ hx) _ hstar
  obtain ⟨a, b, hab, ha⟩ := List.eq_append_cons_of_mem hmem
  refine C91_star now' (.bytes raw) m.text a (b ++ py!"*" ++ ck) mode' v' u' hv (.bytes _ _ hraw) ⟨?_, ha⟩ (by simp)
  rw [hab] at hf
  simpa using hf

theorem txt_definition (kw : List (Str × PyVal)) : KwDefinition 0 [] py!"TXT" kw GET.TXT := by
  have h1 : py!"TXT" ∉ NMEA_PREFIX_PROP ∧ IsStandard py!"TXT" ∧ lookup (upper py!"TXT") (standardDefs 0) = some GET.TXT := by
    decide +kernel
  refine ⟨py!"TXT", by unfold kwFullId; rw [if_neg h1.1], ?_⟩
  rw [if_pos h1.2.1]
  exact h1.2.2

example : ∃ m raw, mkMsg clock0 py!"GN" py!"TXT" 0 false 1 [] none ⟨none, [(py!"text", .str py!"5*3")]⟩ = .ok m ∧
    py!"5*3" ∈ m.payload ∧ m.serialize = .ok raw ∧
    KwDefinition 0 [] py!"TXT" [(py!"text", .str py!"5*3")] GET.TXT ∧
    PlainKeywords py!"TXT" [(py!"text", .str py!"5*3")] := by
  have h : madeWith (fun m => decide (py!"5*3" ∈ m.payload) && m.serialize.toOption.isSome)
      (mkMsg clock0 py!"GN" py!"TXT" 0 false 1 [] none ⟨none, [(py!"text", .str py!"5*3")]⟩) = true := by decide +kernel
  obtain ⟨m, hm, h⟩ := (madeWith_iff _ _).1 h
  simp only [Bool.and_eq_true, decide_eq_true_eq] at h
  cases hr : m.serialize with
  | error e => rw [hr] at h; simp [Except.toOption] at h
  | ok raw => exact ⟨m, raw, hm, h.1, hr, txt_definition _, by decide⟩

/-- The number of commas in texts. -/
def commas (fs : List Str) : Nat := (fs.map (List.count 44)).sum

theorem splitAll_length (s : Str) : (splitAll 44 s).length = s.count 44 + 1 := by
  induction s with
  | nil => rfl
  | cons x xs ih =>
    simp only [splitAll]
    by_cases h : x = 44
    · subst h; simp [ih]
    · rw [if_neg h, List.count_cons_of_ne h]
      have := splitAll_ne_nil 44 xs
      cases hs : splitAll 44 xs with
      | nil => exact absurd hs this
      | cons y ys => rw [hs] at ih; simpa using ih

theorem join_append (a b : List Str) (ha : a ≠ []) (hb : b ≠ []) : joinWith 44 (a ++ b) = joinWith 44 a ++ 44 :: joinWith 44 b := by
  induction a with
  | nil => exact absurd rfl ha
  | cons x a ih =>
    cases a with
    | nil => exact joinWith_cons 44 x b hb
    | cons y a =>
      rw [List.cons_append, joinWith_cons 44 x _ (by simp), ih (by simp), joinWith_cons 44 x _ (by simp)]
      simp

theorem join_cut (fs : List Str) : joinWith 44 (fs.flatMap (splitAll 44)) = joinWith 44 fs := by
  induction fs with
  | nil => rfl
  | cons f fs ih =>
    cases fs with
    | nil => simpa [joinWith] using joinWith_splitAll 44 f
    | cons g gs =>
      have h2 : (g :: gs).flatMap (splitAll 44) ≠ [] := by
        simp only [List.flatMap_cons]
        intro h
        exact splitAll_ne_nil 44 g (List.append_eq_nil_iff.1 h).1
      rw [List.flatMap_cons, join_append _ _ (splitAll_ne_nil 44 f) h2, ih, joinWith_splitAll,
        joinWith_cons 44 f _ (by simp)]

/-- Commas in the fields of a generated message, none with a `*`: the sentence is valid, but the fields received are
those of the message cut at their commas, so there is one more for each comma; they are those of the message exactly if
none contains a comma. -/
theorem C92_commas (now : Nat → DateTime) (t i : Str) (mode : Int) (hp : Bool) (v : Nat) (u : UDefs)
    (kw : List (Str × PyVal)) (m : Msg) (hkw : PlainKeywords i kw) (d : PDict)
    (hd : KwDefinition mode.toNat u i kw d) (h : mkMsg now t i mode hp v u none ⟨none, kw⟩ = .ok m)
    (hhead : PlainText (t ++ i)) (hne : t ++ i ≠ []) (hsplit : SplitsBack t i)
    (hstar : ∀ x ∈ m.payload, 42 ∉ x) (raw : Bytes) (hraw : m.serialize = .ok raw) :
    ∃ f ck, IsSentence (.bytes raw) (commaJoin ((t ++ i) :: m.payload)) t i f ck ∧
      IsHexText ck (xorAll (commaJoin ((t ++ i) :: m.payload))) ∧
      f.length = m.payload.length + commas m.payload ∧ (f = m.payload ↔ ∀ x ∈ m.payload, 44 ∉ x) := by
  obtain ⟨ck, hk, htext⟩ := C53_valid_checksum now t i mode hp v u kw m hkw d hd h
  have hf := made_frame t i m.payload _ ck hk hhead hne
  rw [← htext] at hf
  have hlen : (m.payload.flatMap (splitAll 44)).length = m.payload.length + commas m.payload := by
    generalize m.payload = fs
    induction fs with
    | nil => rfl
    | cons f fs ih =>
      simp only [List.flatMap_cons, List.length_append, List.length_cons, ih, splitAll_length, commas, List.map_cons,
        List.sum_cons]
      omega
  have h44 : 44 ∉ t ++ i := fun hc => by have := (hhead 44 hc).2; simp at this
  refine ⟨m.payload.flatMap (splitAll 44), ck, ⟨m.text, .bytes _ _ hraw, ⟨hf, ?_⟩, ?_, ?_, hsplit⟩, hk, hlen, ?_, ?_⟩
  · intro hc
    rcases mem_commaJoin _ _ hc with h | ⟨x, hx, hc⟩
    · cases h
    · rcases List.mem_cons.1 hx with rfl | hx
      · have := (hhead 42 hc).2; simp at this
      · exact hstar x hx hc
  · rw [commaJoin_eq, commaJoin_eq]
    have := join_cut ((t ++ i) :: m.payload)
    rw [List.flatMap_cons, splitAll_free_eq 44 _ h44] at this
    exact this.symm
  · intro f hf
    rcases List.mem_cons.1 hf with rfl | hf
    · exact h44
    · obtain ⟨x, _, hx⟩ := List.mem_flatMap.1 hf
      exact splitAll_free 44 x f hx
  · intro he x hx hc
    rw [he] at hlen
    have : commas m.payload = 0 := by omega
    unfold commas at this
    have h0 : ∀ fs : List Str, (fs.map (List.count 44)).sum = 0 → ∀ x ∈ fs, x.count 44 = 0 := by
      intro fs
      induction fs with
      | nil => intro _ x hx; cases hx
      | cons f fs ih =>
        intro h x hx
        simp only [List.map_cons, List.sum_cons] at h
        rcases List.mem_cons.1 hx with rfl | hx
        · omega
        · exact ih (by omega) x hx
    exact List.count_eq_zero.1 (h0 _ this x hx) hc
  · intro hx
    have : ∀ fs : List Str, (∀ x ∈ fs, 44 ∉ x) → fs.flatMap (splitAll 44) = fs := by
      intro fs
      induction fs with
      | nil => intro _; rfl
      | cons f fs ih =>
        intro h
        rw [List.flatMap_cons, splitAll_free_eq 44 f (h f (by simp)), ih (fun x hx => h x (by simp [hx]))]
        rfl
    exact this _ hx

/-- For example `text="a,b"`: what is received is the text `a`. -/
theorem C92_commas_example : ∃ m raw m', mkMsg clock0 py!"GN" py!"TXT" 0 false 1 [] none ⟨none, [(py!"text", .str py!"a,b")]⟩ = .ok m ∧
    m.serialize = .ok raw ∧ parse clock0 (.bytes raw) 0 1 [] = .ok (some m') ∧ lookup py!"text" m'.attrs = some (.str py!"a") := by
  have h : madeWith (fun m => match m.serialize with
      | .ok raw => acceptedWith (fun m' => lookup py!"text" m'.attrs == some (.str py!"a")) (parse clock0 (.bytes raw) 0 1 [])
      | .error _ => false)
      (mkMsg clock0 py!"GN" py!"TXT" 0 false 1 [] none ⟨none, [(py!"text", .str py!"a,b")]⟩) = true := by decide +kernel
  obtain ⟨m, hm, h⟩ := (madeWith_iff _ _).1 h
  cases hr : m.serialize with
  | error e => rw [hr] at h; cases h
  | ok raw =>
    rw [hr] at h
    obtain ⟨m', hm', h'⟩ := (acceptedWith_iff _ _).1 h
    exact ⟨m, raw, m', hm, hr, hm', by simpa using h'⟩

/-! ## Line ends -/

theorem encode_append {a b : Str} {raw : Bytes} (h : utf8Encode (a ++ b) = .ok raw) :
    ∃ ra rb, utf8Encode a = .ok ra ∧ utf8Encode b = .ok rb ∧ raw = ra ++ rb := by
  unfold utf8Encode at h
  split at h
  · rename_i hall
    rw [List.all_append, Bool.and_eq_true] at hall
    refine ⟨_, _, by unfold utf8Encode; rw [if_pos hall.1], by unfold utf8Encode; rw [if_pos hall.2], ?_⟩
    cases h
    simp
  · cases h

/-- A line end and a sentence in a field of a generated message: whoever reads the bytes gets that sentence, as if it
had been sent. -/
theorem C92_injected (now : Nat → DateTime) (m : Msg) (x pre post sentence : Str) (line raw : Bytes) (o : Option Msg)
    (hx : x ∈ m.payload) (he : x = pre ++ py!"\n" ++ sentence ++ post) (hraw : m.serialize = .ok raw)
    (hline : utf8Encode sentence = .ok line) (hc : CompleteLine line) (cfg : RCfg)
    (hok : parse now (.bytes line) cfg.mode cfg.validate cfg.udefs = .ok o) :
    ∃ before log after, Session now fileStream cfg raw (before ++ (log, .item line o) :: after) := by
  have hsub : ∃ p q, m.text = p ++ py!"\n" ++ sentence ++ q := by
    have hj : ∀ (fs : List Str), x ∈ fs → ∃ p q, commaJoin fs = p ++ x ++ q := by
      intro fs hx
      induction fs with
      | nil => cases hx
      | cons y fs ih =>
        cases fs with
        | nil => simp at hx; subst hx; exact ⟨[], [], by simp [commaJoin]⟩
        | cons z fs =>
          simp only [commaJoin]
          rcases List.mem_cons.1 hx with rfl | hx
          · exact ⟨[], py!"," ++ commaJoin (z :: fs), by simp⟩
          · obtain ⟨p, q, h⟩ := ih hx
            exact ⟨y ++ py!"," ++ p, q, by rw [h]; simp⟩
    obtain ⟨p, q, h⟩ := hj ((m.talker ++ m.msgID) :: m.payload) (by simp [hx])
    unfold Msg.text
    rw [contentOf_eq, h, he]
    exact ⟨36 :: (p ++ pre), post ++ (q ++ 42 :: (m.checksum.getD py!"None" ++ [13, 10])), by simp⟩
  obtain ⟨p, q, hpq⟩ := hsub
  unfold Msg.serialize at hraw
  rw [hpq, List.append_assoc] at hraw
  obtain ⟨ra, rb, h1, h2, rfl⟩ := encode_append hraw
  obtain ⟨rs, rq, h3, h4, rfl⟩ := encode_append h2
  obtain ⟨rp, rn, h5, h6, rfl⟩ := encode_append h1
  rw [hline] at h3
  cases h3
  have hn : rn = [10] := by
    have : utf8Encode py!"\n" = .ok [10] := by decide +kernel
    rw [this] at h6; cases h6; rfl
  subst hn
  obtain ⟨before, log, after, hs, _⟩ := C55_resync now cfg (rp ++ [10]) [] line rq o (.inr (by simp)) (by simp) hc hok
  refine ⟨before, log, after, ?_⟩
  simpa using hs

/-- Even unnoticed: let `m` be a message whose bytes are an acceptable line, and `m'` be the same with its last field
extended by the checksum of `m`, a line end and a sentence. A `for` loop over the bytes of `m'` yields `m` and then the
sentence, and reports no error; what is left at the end is ignored. -/
theorem C92_unnoticed (now : Nat → DateTime) (m m' : Msg) (fields : List Str) (x ck sentence : Str) (raw line raw' : Bytes)
    (o o' : Option Msg) (cfg : RCfg)
    (ht : m'.talker = m.talker) (hi : m'.msgID = m.msgID) (hck : m.checksum = some ck)
    (hm : m.payload = fields ++ [x]) (hm' : m'.payload = fields ++ [x ++ py!"*" ++ ck ++ py!"\r\n" ++ sentence])
    (hk' : ∃ n ck', m'.checksum = some ck' ∧ IsHexText ck' n)
    (hraw : m.serialize = .ok raw) (hraw' : m'.serialize = .ok raw') (hs : utf8Encode sentence = .ok line)
    (hl : CompleteLine raw) (hl' : CompleteLine line)
    (hok : parse now (.bytes raw) cfg.mode cfg.validate cfg.udefs = .ok o)
    (hok' : parse now (.bytes line) cfg.mode cfg.validate cfg.udefs = .ok o') :
    readAll now fileStream cfg raw' = ([(raw, o), (line, o')], [], none) := by
  obtain ⟨n, ck', hc', hhex⟩ := hk'
  have hj : ∀ a : Str, commaJoin ((m.talker ++ m.msgID) :: (fields ++ [a])) =
      commaJoin ((m.talker ++ m.msgID) :: fields) ++ 44 :: a := by
    intro a
    rw [commaJoin_eq, commaJoin_eq, ← List.cons_append, join_append _ _ (by simp) (by simp)]
    rfl
  have htext : m'.text = m.text ++ (sentence ++ (42 :: (ck' ++ [13, 10]))) := by
    unfold Msg.text
    rw [contentOf_eq, contentOf_eq, ht, hi, hm, hm', hc', hck, hj, hj]
    simp
  unfold Msg.serialize at hraw hraw'
  rw [htext] at hraw'
  obtain ⟨ra, rb, h1, h2, rfl⟩ := encode_append hraw'
  obtain ⟨rs, tail, h3, h4, rfl⟩ := encode_append h2
  rw [hraw] at h1; cases h1
  rw [hs] at h3; cases h3
  have htail : (36 : UInt8) ∉ tail := by
    have hch : ∀ c ∈ 42 :: (ck' ++ [13, 10]), c < 128 ∧ c ≠ 36 := by
      intro c hc
      simp only [List.mem_cons, List.mem_append, List.not_mem_nil, or_false] at hc
      have h2 : ∀ c ∈ hexDigits, c < 128 ∧ c ≠ 36 := by decide
      rcases hc with rfl | hc | rfl | rfl
      · decide
      · exact h2 c (hhex.1 c hc)
      · decide
      · decide
    generalize 42 :: (ck' ++ [13, 10]) = l at h4 hch
    intro hmem
    unfold utf8Encode at h4
    split at h4
    · cases h4
      obtain ⟨b, hb, hb'⟩ := List.mem_map.1 hmem
      obtain ⟨c, hc, hbc⟩ := List.mem_flatMap.1 hb
      obtain ⟨h5, h6⟩ := hch c hc
      unfold utf8EncodeChar at hbc
      rw [if_pos h5] at hbc
      simp only [List.mem_singleton] at hbc
      subst hbc
      have := congrArg UInt8.toNat hb'
      simp at this
      omega
    · cases h4
  have := C23_sentences_in_order now cfg [([], raw, o), ([], line, o')] tail (by simp) htail
    (by intro y hy; simp at hy; rcases hy with rfl | rfl <;> assumption)
    (by intro y hy; simp at hy; rcases hy with rfl | rfl <;> assumption)
  simpa using this

/-- So it is with the text message, for every text and sentence: the constructor accepts them. -/
theorem C92_text_message (now : Nat → DateTime) (text : Str) (hall : text.all isScalar = true) :
    ∃ m raw ck n, mkMsg now py!"GN" py!"TXT" 0 false 1 [] none ⟨none, [(py!"text", .str text)]⟩ = .ok m ∧
      m.talker = py!"GN" ∧ m.msgID = py!"TXT" ∧ m.payload = [py!"0", py!"0", py!"0"] ++ [text] ∧
      m.checksum = some ck ∧ IsHexText ck n ∧ m.serialize = .ok raw := by
  have hkw : PlainKeywords py!"TXT" [(py!"text", .str text)] := by
    intro k hk
    simp at hk
    subst hk
    decide
  have hsane : SaneGen GET.TXT := by decide +kernel
  have hids : KnownIds 1 [] py!"GN" py!"TXT" := by intro h; exact absurd h (by decide)
  let w (n : Str) : Written := ⟨n, IN, .int 0, py!"0"⟩
  have hemit : Emit [(py!"text", .str text)] (0 : Int).toNat false now GET.TXT [] []
      [w py!"numMsg", w py!"msgNum", w py!"msgType", ⟨py!"text", Nmea.ST, .str text, text⟩] := by
    refine .single _ _ _ _ _ _ (.int 0) py!"0" ?_ (by decide +kernel) (.single _ _ _ _ _ _ (.int 0) py!"0" ?_ (by decide +kernel)
      (.single _ _ _ _ _ _ (.int 0) py!"0" ?_ (by decide +kernel) (.single _ _ _ _ _ _ (.str text) text ?_ ?_ (.nil _ _))))
    · rfl
    · rfl
    · rfl
    · rfl
    · rfl
  obtain ⟨m, hm, hpay, _⟩ := (C05_generate now py!"GN" py!"TXT" 0 false 1 [] [(py!"text", .str text)] (.inl rfl) hids hkw GET.TXT
    (txt_definition _) hsane _ _).2 ⟨_, hemit, rfl, rfl⟩
  obtain ⟨h1, h2, _, o, ho, hck⟩ := made_fields _ _ _ _ _ _ _ _ _ _ hm
  obtain ⟨ck, hk, htext⟩ := C53_valid_checksum now py!"GN" py!"TXT" 0 false 1 [] _ m hkw GET.TXT (txt_definition _) hm
  have hck' : m.checksum = some (calcChecksum (commaJoin ((py!"GN" ++ py!"TXT") :: m.payload))) := by
    rw [kw_outcome now _ _ (0 : Int).toNat false 1 [] _ (by decide) hkw _ (txt_definition _)] at ho
    cases hst : setPDict (ctxOf py!"GN" py!"TXT" (0 : Int).toNat false 1 [] ⟨none, [(py!"text", .str text)]⟩) now GET.TXT [] (st0 []) with
    | error e => rw [hst] at ho; simp only [Except.map, wrapErr_error] at ho; cases ho
    | ok st =>
      rw [hst] at ho
      simp only [Except.map, wrapErr_ok, Except.ok.injEq] at ho
      subst ho
      exact hck
  have hser : m.text.all isScalar = true := by
    rw [htext]
    simp only [List.all_append, Bool.and_eq_true]
    refine ⟨⟨⟨⟨by decide, ?_⟩, by decide⟩, ?_⟩, by decide⟩
    · rw [hpay]
      simp only [List.map_cons, List.map_nil, commaJoin, List.all_append, Bool.and_eq_true, w]
      exact ⟨⟨by decide, by decide⟩, ⟨by decide, by decide⟩, ⟨by decide, by decide⟩, ⟨by decide, by decide⟩, hall⟩
    · have h2 : ∀ c ∈ hexDigits, isScalar c = true := by decide
      exact List.all_eq_true.2 fun c hc => h2 c (hk.1 c hc)
  obtain ⟨raw, hraw⟩ := utf8Encode_ok _ hser
  exact ⟨m, raw, _, _, hm, h1, h2, hpay, hck', C01_checksum_is_hex_of_xor _, hraw⟩

/-- For example a text message `hello`, extended so as to announce a position. -/
theorem C92_unnoticed_example : ∃ m' raw' o o',
    mkMsg clock0 py!"GN" py!"TXT" 0 false 1 [] none
      ⟨none, [(py!"text", .str (py!"hello" ++ py!"*" ++ py!"03" ++ py!"\r\n" ++
        py!"$GNGLL,5327.04319,S,00214.41396,E,223232.00,A,A*68\r\n"))]⟩ = .ok m' ∧
    m'.serialize = .ok raw' ∧
    readAll clock0 fileStream ⟨0, 1, true, 2, []⟩ raw' = ([(pb!"$GNTXT,0,0,0,hello*03\r\n", some o), (gll, some o')], [], none) := by
  obtain ⟨o', ho'⟩ := gll_ok
  obtain ⟨o, ho, -⟩ := (acceptedWith_iff (fun _ => true) (parse clock0 (.bytes pb!"$GNTXT,0,0,0,hello*03\r\n") 0 1 [])).1
    (by decide +kernel)
  obtain ⟨m, raw, ck, n, h1, h2, h3, h4, h5, h6, h7⟩ := C92_text_message clock0 py!"hello" (by decide)
  have hm : m.text = py!"$GNTXT,0,0,0,hello*03\r\n" := by
    have htext := C05_wire_text clock0 py!"GN" py!"TXT" 0 false 1 [] [(py!"text", .str py!"hello")] m (by decide) GET.TXT
      (txt_definition _) h1
    rw [htext, h4]
    decide +kernel
  have hck : ck = py!"03" := by
    unfold Msg.text at hm
    rw [h5, h4, h2, h3] at hm
    have e : contentOf py!"GN" py!"TXT" ([py!"0", py!"0", py!"0"] ++ [py!"hello"]) = py!"GNTXT,0,0,0,hello" := by decide
    rw [e] at hm
    have hm : ck ++ [13, 10] = py!"03" ++ [13, 10] := by simpa using hm
    exact List.append_cancel_right hm
  subst hck
  obtain ⟨m', raw', ck', n', g1, g2, g3, g4, g5, g6, g7⟩ := C92_text_message clock0 (py!"hello" ++ py!"*" ++ py!"03" ++ py!"\r\n" ++
    py!"$GNGLL,5327.04319,S,00214.41396,E,223232.00,A,A*68\r\n") (by decide)
  have hraw : raw = pb!"$GNTXT,0,0,0,hello*03\r\n" := by
    unfold Msg.serialize at h7
    rw [hm] at h7
    have : utf8Encode py!"$GNTXT,0,0,0,hello*03\r\n" = .ok pb!"$GNTXT,0,0,0,hello*03\r\n" := by decide +kernel
    rw [this] at h7
    cases h7; rfl
  subst hraw
  refine ⟨m', raw', o, o', g1, g7, ?_⟩
  refine C92_unnoticed clock0 m m' [py!"0", py!"0", py!"0"] py!"hello" py!"03" py!"$GNGLL,5327.04319,S,00214.41396,E,223232.00,A,A*68\r\n"
    _ gll raw' (some o) (some o') ⟨0, 1, true, 2, []⟩ (g2.trans h2.symm) (g3.trans h3.symm) h5 h4 g4 ⟨n', ck', g5, g6⟩ h7 g7
    (by decide +kernel) ?_ gll_line ho ho'
  exact ⟨71, pb!"NTXT,0,0,0,hello*03\r", by decide +kernel, by decide +kernel, rfl⟩

end Props
