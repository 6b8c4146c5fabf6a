import Verif.Props.Parsing
import Verif.Props.Reader
import Verif.Props.Socket
import Verif.Props.RoundTrip
/-!
# Writing messages to a file or socket and reading them back (C65)
-/
set_option linter.unusedSimpArgs false
namespace Props
open Py Nmea Spec

/-- A complete line that ends in CR LF. -/
def CrLfLine (x : Bytes) : Prop :=
  ∃ h body, TalkerLetter h ∧ 10 ∉ body ∧ x = 36 :: h :: (body ++ [13, 10])

theorem CrLfLine.complete {x : Bytes} (h : CrLfLine x) : CompleteLine x := by
  obtain ⟨c, body, h1, h2, rfl⟩ := h
  exact ⟨c, body ++ [13], h1, by simp [h2], by simp⟩

theorem talker_not_frame (h : UInt8) (ht : TalkerLetter h) : ¬ FrameByte h := by
  obtain ⟨t, ht, he⟩ := ht
  have : ∀ t ∈ NMEA_TALKERS, t.head? ≠ some 36 ∧ t.head? ≠ some 13 ∧ t.head? ≠ some 10 := by decide +kernel
  obtain ⟨h1, h2, h3⟩ := this t ht
  rintro (rfl | rfl | rfl)
  · exact h1 he
  · exact h2 he
  · exact h3 he

/-- The serialized form of a message parsed from a line is a line ending in CR LF. -/
theorem serialized_line (now : Nat → DateTime) (raw : Bytes) (mode : Int) (v : Nat) (u : UDefs) (m : Msg)
    (hline : CompleteLine raw) (h : parse now (.bytes raw) mode v u = .ok (some m))
    (hid : m.identity ≠ .ok py!"PSSNSNC") : ∃ out, m.serialize = .ok out ∧ CrLfLine out := by
  obtain ⟨body, hb⟩ := C04_bytes_total _ _ _ _ _ _ h
  have hs := C04_bytes _ _ _ _ _ _ _ hb h hid
  refine ⟨_, hs, ?_⟩
  obtain ⟨c, mid, hc, hmid, rfl⟩ := hline
  obtain ⟨pre, post, he, h1, h2, h3, h4⟩ := hb
  have hnf := talker_not_frame c hc
  have hpre : pre = [36] := by
    cases pre with
    | nil =>
      simp only [List.nil_append] at he
      cases body with
      | nil => 
        simp only [List.nil_append] at he
        exact absurd (h2 c (by rw [← he]; simp)) hnf
      | cons b body =>
        simp only [List.cons_append, List.cons.injEq] at he
        exact absurd (.inl he.1.symm) (h3 b (by simp))
    | cons a pre =>
      cases pre with
      | nil => simp only [List.cons_append, List.nil_append, List.cons.injEq] at he; rw [he.1]
      | cons b pre =>
        simp only [List.cons_append, List.cons.injEq] at he
        exact absurd (h1 c (by rw [he.2.1]; simp)) hnf
  subst hpre
  simp only [List.cons_append, List.nil_append, List.cons.injEq, true_and] at he
  cases body with
  | nil =>
    simp only [List.nil_append] at he
    exact absurd (h2 c (by rw [← he]; simp)) hnf
  | cons b body =>
    simp only [List.cons_append, List.cons.injEq] at he
    obtain ⟨rfl, he⟩ := he
    refine ⟨c, body, hc, ?_, by simp⟩
    intro hm
    rcases post.eq_nil_or_concat with rfl | ⟨p, x, rfl⟩
    · rw [List.append_nil] at he
      rw [← he] at h4
      refine h4 10 ?_ (.inr (.inr rfl))
      show (([c] ++ mid) ++ [10]).getLast? = some 10
      exact List.getLast?_concat
    · rw [List.concat_eq_append, ← List.append_assoc] at he
      have := (List.append_inj' he rfl).1
      exact hmid (by rw [this]; simp [hm])

theorem lines_lfAfterCr (ls : List Bytes) (h : ∀ x ∈ ls, CrLfLine x) : LfAfterCr ls.flatten := by
  induction ls with
  | nil => intro x y e; simp at e
  | cons l ls ih =>
    intro x y e
    obtain ⟨c, body, hc, hb, rfl⟩ := h l (by simp)
    have ih := ih (fun x hx => h x (by simp [hx]))
    have hP : (10 : UInt8) ∉ 36 :: c :: (body ++ [13]) := by
      have : c ≠ 10 := fun e => talker_not_frame c hc (.inr (.inr e))
      simp [hb, this.symm]
    have hl : (36 :: c :: (body ++ [13, 10]) : Bytes) = (36 :: c :: (body ++ [13])) ++ [10] := by simp
    rw [List.flatten_cons, hl] at e
    generalize hPe : (36 :: c :: (body ++ [13]) : Bytes) = P at *
    have hlast : P.getLast? = some 13 := by
      rw [← hPe]
      show (([36, c] ++ body) ++ [13]).getLast? = some 13
      exact List.getLast?_concat
    rcases List.append_eq_append_iff.1 e with ⟨as, h1, h2⟩ | ⟨bs, h1, h2⟩
    · have := ih as y h2
      rw [h1, List.getLast?_append, this]; rfl
    · cases bs with
      | nil => 
        have := ih [] y h2.symm
        simp at this
      | cons b bs =>
        simp only [List.cons_append, List.cons.injEq] at h2
        obtain ⟨rfl, h2⟩ := h2
        rcases bs.eq_nil_or_concat with rfl | ⟨q, z, rfl⟩
        · rw [← (List.append_inj' h1 rfl).1]; exact hlast
        · rw [List.concat_eq_append, ← List.cons_append, ← List.append_assoc] at h1
          have := (List.append_inj' h1 rfl).1
          exact absurd (by rw [this]; simp) hP

/-- Lines that `parse` accepts, written one after the other, are read back: the same lines with their
messages, in order, without any error - from a file, and from a socket that delivers the bytes in
arbitrary segments. -/
theorem C65_lines (now : Nat → DateTime) (cfg : RCfg) (items : List (Bytes × Option Msg))
    (hline : ∀ x ∈ items, CrLfLine x.1)
    (hok : ∀ x ∈ items, parse now (.bytes x.1) cfg.mode cfg.validate cfg.udefs = .ok x.2) :
    readAll now fileStream cfg (items.map Prod.fst).flatten = (items, [], none) ∧
    ∀ (z : Zlib) (enc : Nat), encChunked enc = false → ∀ segs : List Bytes, (∀ d ∈ segs, d ≠ []) →
      segs.flatten = (items.map Prod.fst).flatten →
      readAll now (sockStream z enc) cfg (Sock.open z enc (segs.map .data)) = (items, [], none) := by
  have h1 : readAll now fileStream cfg (items.map Prod.fst).flatten = (items, [], none) := by
    have := C23_sentences_in_order now cfg (items.map fun x => ([], x.1, x.2)) []
      (by intro x hx
          obtain ⟨y, hy, rfl⟩ := List.mem_map.1 hx
          simp) (by simp)
      (by intro x hx
          obtain ⟨y, hy, rfl⟩ := List.mem_map.1 hx
          exact (hline y hy).complete)
      (by intro x hx
          obtain ⟨y, hy, rfl⟩ := List.mem_map.1 hx
          exact hok y hy)
    simpa [List.flatMap_map, List.flatMap_def, Function.comp_def] using this
  refine ⟨h1, fun z enc henc segs hne hseg => ?_⟩
  obtain ⟨evs, hr⟩ := run_exists now fileStream cfg (items.map Prod.fst).flatten
  have hs := session_of_run hr
  have hs' := (C32_socket_is_file z enc henc now cfg segs hne (by
    rw [hseg]
    apply lines_lfAfterCr
    intro x hx
    obtain ⟨y, hy, rfl⟩ := List.mem_map.1 hx
    exact hline y hy) _).2 (by rw [hseg]; exact hs)
  rw [readAll_session hs', ← h1, readAll_session hs]

theorem loopOver_items (now : Nat → DateTime) (cfg : RCfg) (q : Nat) (log : List Err) (ps : List Piece) :
    ∀ x ∈ (loopOver (sess q log (ps.map (eventOf now cfg)))).1, Piece.line x.1 ∈ ps ∧
      parse now (.bytes x.1) cfg.mode cfg.validate cfg.udefs = .ok x.2 := by
  induction ps generalizing log with
  | nil => intro x hx; simp [sess, loopOver] at hx
  | cons p ps ih =>
    have key : ∀ log x, x ∈ (loopOver (sess q log (ps.map (eventOf now cfg)))).1 → Piece.line x.1 ∈ p :: ps ∧
      parse now (.bytes x.1) cfg.mode cfg.validate cfg.udefs = .ok x.2 :=
      fun log x hx => ⟨List.mem_cons_of_mem _ (ih log x hx).1, (ih log x hx).2⟩
    have herr : ∀ e x, x ∈ (loopOver (sess q log (.err e :: ps.map (eventOf now cfg)))).1 →
        Piece.line x.1 ∈ p :: ps ∧ parse now (.bytes x.1) cfg.mode cfg.validate cfg.udefs = .ok x.2 := by
      intro e x hx
      simp only [sess] at hx
      split at hx
      · simp [loopOver] at hx
      · exact key _ x hx
    intro x hx
    rw [List.map_cons] at hx
    cases p with
    | junk b => exact key _ x hx
    | foreign h =>
      simp only [eventOf] at hx
      split at hx
      · exact herr _ x hx
      · exact key _ x hx
    | cut raw => exact herr _ x hx
    | line raw =>
      simp only [eventOf] at hx
      split at hx
      · rename_i m hm
        simp only [sess, loopOver, List.mem_cons] at hx
        rcases hx with rfl | hx
        · exact ⟨by simp, hm⟩
        · exact key _ x hx
      · split at hx
        · exact herr _ x hx
        · simp [sess, loopOver] at hx

theorem pieces_lines {b : Bytes} {ps : List Piece} (h : Pieces b ps) : ∀ raw, Piece.line raw ∈ ps → CompleteLine raw := by
  induction h with
  | nil => intro raw h; cases h
  | junk b r ps _ _ ih => intro raw h; simp only [List.mem_cons, reduceCtorEq, false_or] at h; exact ih raw h
  | foreign b r ps _ _ ih => intro raw h; simp only [List.mem_cons, reduceCtorEq, false_or] at h; exact ih raw h
  | line c body r ps hc hb _ ih =>
    intro raw h
    simp only [List.mem_cons, Piece.line.injEq] at h
    rcases h with rfl | h
    · exact ⟨c, body, hc, hb, rfl⟩
    · exact ih raw h
  | dollar => intro raw h; cases h
  | letter => intro raw h; cases h
  | cut => intro raw h; simp at h

/-- Copying a stream: whatever the bytes of a file and the settings, write the messages read from it
(all but the bracketed PSSNSNC ones) to another file or socket. Reading that with the same mode,
validation and user definitions - other error policy and `nmeaonly` setting allowed - gives the same
messages, in order, and no error, at any later time. -/
theorem C65_copy (now now' : Nat → DateTime) (cfg cfg' : RCfg) (b : Bytes)
    (hcfg : cfg'.mode = cfg.mode ∧ cfg'.validate = cfg.validate ∧ cfg'.udefs = cfg.udefs)
    (ms : List Msg)
    (hms : ms = (readAll now fileStream cfg b).1.filterMap fun x =>
      x.2.bind fun m => if m.identity = .ok py!"PSSNSNC" then none else some m) :
    ∃ outs : List Bytes, ms.map Msg.serialize = outs.map .ok ∧
      readAll now' fileStream cfg' outs.flatten = (outs.zip (ms.map some), [], none) ∧
      ∀ (z : Zlib) (enc : Nat), encChunked enc = false → ∀ segs : List Bytes, (∀ d ∈ segs, d ≠ []) →
        segs.flatten = outs.flatten →
        readAll now' (sockStream z enc) cfg' (Sock.open z enc (segs.map .data)) = (outs.zip (ms.map some), [], none) := by
  obtain ⟨ps, hp⟩ := pieces_exists b
  have hs := session_of_run (step_file_run now cfg b ps hp)
  have hitems := loopOver_items now cfg cfg.quitonerror [] ps
  rw [← readAll_session hs] at hitems
  have hm : ∀ m ∈ ms, ∃ out, m.serialize = .ok out ∧ CrLfLine out ∧
      parse now' (.bytes out) cfg'.mode cfg'.validate cfg'.udefs = .ok (some m) := by
    intro m hm
    rw [hms, List.mem_filterMap] at hm
    obtain ⟨x, hx, hxm⟩ := hm
    obtain ⟨h1, h2⟩ := hitems x hx
    cases hx2 : x.2 with
    | none => rw [hx2] at hxm; cases hxm
    | some m1 =>
      rw [hx2] at hxm h2
      simp only [Option.bind_some] at hxm
      split at hxm
      · cases hxm
      · rename_i hid
        cases hxm
        obtain ⟨out, ho, hl⟩ := serialized_line _ _ _ _ _ _ (pieces_lines hp _ h1) h2 hid
        rw [hcfg.1, hcfg.2.1, hcfg.2.2]
        exact ⟨out, ho, hl, C04_reparse now now' _ _ _ _ _ _ h2 hid ho⟩
  clear hms hitems hs hp
  have : ∃ outs : List Bytes, ms.map Msg.serialize = outs.map .ok ∧ outs.length = ms.length ∧
      ∀ x ∈ outs.zip (ms.map some), CrLfLine x.1 ∧
        parse now' (.bytes x.1) cfg'.mode cfg'.validate cfg'.udefs = .ok x.2 := by
    induction ms with
    | nil => exact ⟨[], rfl, rfl, by simp⟩
    | cons m ms ih =>
      obtain ⟨outs, h1, h2, h3⟩ := ih (fun x hx => hm x (by simp [hx]))
      obtain ⟨out, g1, g2, g3⟩ := hm m (by simp)
      refine ⟨out :: outs, by simp [h1, g1], by simp [h2], ?_⟩
      intro x hx
      simp only [List.map_cons, List.zip_cons_cons, List.mem_cons] at hx
      rcases hx with rfl | hx
      · exact ⟨g2, g3⟩
      · exact h3 x hx
  obtain ⟨outs, h1, h2, h3⟩ := this
  have h4 : (outs.zip (ms.map some)).map Prod.fst = outs := by
    rw [List.map_fst_zip]; simp [h2]
  have := C65_lines now' cfg' (outs.zip (ms.map some)) (fun x hx => (h3 x hx).1) (fun x hx => (h3 x hx).2)
  rw [h4] at this
  exact ⟨outs, h1, this.1, this.2⟩


/-! ## Generated messages -/

theorem talker_lt (h : UInt8) (ht : TalkerLetter h) : h.toNat < 128 := by
  obtain ⟨t, ht, he⟩ := ht
  have : ∀ t ∈ NMEA_TALKERS, ∀ c ∈ t.head?, c < 128 := by decide +kernel
  exact this t ht _ he

theorem lf_encode (s : Str) (hs : s.all isScalar = true) (h : 10 ∉ s) :
    (10 : UInt8) ∉ (s.flatMap utf8EncodeChar).map UInt8.ofNat := by
  intro hm
  obtain ⟨b, hb, he⟩ := List.mem_map.1 hm
  obtain ⟨c, hc, hb⟩ := List.mem_flatMap.1 hb
  have hlt := utf8EncodeChar_lt c (List.all_eq_true.1 hs c hc) b hb
  have hb10 : b = 10 := by
    have := congrArg UInt8.toNat he
    simpa [Nat.mod_eq_of_lt hlt] using this
  subst hb10
  have : c = 10 := by
    unfold utf8EncodeChar at hb
    split at hb
    · simp only [List.mem_cons, List.not_mem_nil, or_false] at hb; omega
    · split at hb
      · simp only [List.mem_cons, List.not_mem_nil, or_false] at hb; omega
      · split at hb
        · simp only [List.mem_cons, List.not_mem_nil, or_false] at hb; omega
        · simp only [List.mem_cons, List.not_mem_nil, or_false] at hb; omega
  subst this
  exact h hc

theorem plain_of_standard : (∀ t ∈ NMEA_TALKERS, t ≠ [] ∧ PlainText t) ∧ ∀ i ∈ NMEA_MSGIDS.map Prod.fst, PlainText i := by
  decide +kernel

/-- A message of a built-in type, made with a listed talker from natural keywords whose strings contain
no reserved characters. Excepted are the types `LR2` and `FOO` and proprietary messages that look like something else
(see `C64_proprietary`). -/
inductive Made (mode : Int) (hp : Bool) : Msg → Prop
  | standard (now : Nat → DateTime) (t i : Str) (v : Nat) (u : UDefs) (kw : List (Str × PyVal)) (d : PDict) (m : Msg) :
    t ∈ NMEA_TALKERS → IsStandard i → i ≠ py!"LR2" → i ≠ py!"FOO" →
    PlainKeywords i kw → PlainStrings kw → KwDefinition mode.toNat u i kw d → NaturalKeywords d kw → ClockOk now →
    mkMsg now t i mode hp v u none ⟨none, kw⟩ = .ok m → Made mode hp m
  | proprietary (now : Nat → DateTime) (t i : Str) (v : Nat) (u : UDefs) (kw : List (Str × PyVal)) (d : PDict) (m : Msg) :
    t ∈ NMEA_TALKERS → IsProprietary i → ¬ IsStandard i →
    (i ∈ NMEA_PREFIX_PROP → ∃ s, lookup py!"msgId" kw = some (.str s) ∧ s ≠ [] ∧ fullId i [s] = .ok (i ++ s)) →
    PlainKeywords i kw → PlainStrings kw → KwDefinition mode.toNat u i kw d → NaturalKeywords d kw → ClockOk now →
    mkMsg now t i mode hp v u none ⟨none, kw⟩ = .ok m →
    (mode = 0 → i.take 3 = py!"QTM" → m.payload ≠ [py!"OK"] ∧
      ¬ (m.payload.length = 2 ∧ m.payload.head? = some py!"ERROR")) →
    (mode = 0 → i = py!"QTMSN" → ∃ f ∈ m.payload.head?, isNumeric f = false) →
    (IsSnc t i m.payload → ∀ f ∈ m.payload, (91 : Nat) ∉ f ∧ (93 : Nat) ∉ f) → Made mode hp m

theorem generated_plain (now : Nat → DateTime) (t i : Str) (mode : Int) (hp : Bool) (v : Nat) (u : UDefs)
    (kw : List (Str × PyVal)) (m : Msg) (hkw : PlainKeywords i kw) (d : PDict)
    (hd : KwDefinition mode.toNat u i kw d) (hsane : SaneGen d)
    (h : mkMsg now t i mode hp v u none ⟨none, kw⟩ = .ok m)
    (hplain : PlainStrings kw) (hhead : PlainText (t ++ i)) : ∀ x ∈ (t ++ i) :: m.payload, PlainText x := by
  obtain ⟨hm, hrej, _⟩ := mkMsg_ok _ _ _ _ _ _ _ _ _ _ h
  obtain ⟨ws, he, hpay, _⟩ := (C05_generate now t i mode hp v u kw hm ((not_rejected _ _ _ _).1 hrej) hkw d hd hsane
    m.payload m.attrs).1 ⟨m, h, rfl, rfl⟩
  intro x hx
  rcases List.mem_cons.1 hx with rfl | hx
  · exact hhead
  · rw [hpay] at hx
    obtain ⟨w, hw, rfl⟩ := List.mem_map.1 hx
    rcases emit_chars he w hw with h | ⟨s, hs, hsub⟩
    · exact plain_ok _ h
    · exact fun c hc => hplain _ _ hs c (hsub c hc)

/-- Encoding a sentence with a talker and plain fields gives a line. -/
theorem plain_line (t i : Str) (f : List Str) (k : Str) (ht : t ∈ NMEA_TALKERS)
    (hplain : ∀ x ∈ (t ++ i) :: f, PlainText x) (hk : PlainText k) (raw : Bytes)
    (h : utf8Encode (py!"$" ++ commaJoin ((t ++ i) :: f) ++ py!"*" ++ k ++ py!"\r\n") = .ok raw) : CrLfLine raw := by
  have hc : ∀ c ∈ commaJoin ((t ++ i) :: f) ++ py!"*" ++ k, isScalar c = true ∧ c ≠ 10 := by
    intro c hc
    simp only [List.mem_append, List.mem_singleton] at hc
    rcases hc with (hc | rfl) | hc
    · rcases mem_commaJoin _ _ hc with rfl | ⟨x, hx, hc⟩
      · decide
      · have := hplain x hx c hc
        simp only [List.mem_cons, List.not_mem_nil, or_false, not_or] at this ⊢
        exact ⟨this.1, this.2.2.2.2.2⟩
    · decide
    · have := hk c hc
      simp only [List.mem_cons, List.not_mem_nil, or_false, not_or] at this ⊢
      exact ⟨this.1, this.2.2.2.2.2⟩
  obtain ⟨a, t', rfl⟩ := List.exists_cons_of_ne_nil (plain_of_standard.1 t ht).1
  obtain ⟨rest, hrest⟩ : ∃ rest, commaJoin ((a :: t' ++ i) :: f) ++ py!"*" ++ k = a :: rest := by
    cases f with
    | nil => exact ⟨_, rfl⟩
    | cons => exact ⟨_, rfl⟩
  rw [show py!"$" ++ commaJoin ((a :: t' ++ i) :: f) ++ py!"*" ++ k ++ py!"\r\n" =
    py!"$" ++ (commaJoin ((a :: t' ++ i) :: f) ++ py!"*" ++ k) ++ py!"\r\n" by simp only [List.append_assoc], hrest] at h
  rw [hrest] at hc
  rw [encode_canonical _ (List.all_eq_true.2 fun c h => (hc c h).1)] at h
  have hl : TalkerLetter (UInt8.ofNat a) ∧ a < 128 := by
    have : ∀ t ∈ NMEA_TALKERS, ∀ c ∈ t.head?, c < 128 := by decide +kernel
    have ha := this _ ht a rfl
    refine ⟨⟨_, ht, ?_⟩, ha⟩
    simp [Nat.mod_eq_of_lt (show a < 256 by omega)]
  refine ⟨UInt8.ofNat a, (rest.flatMap utf8EncodeChar).map UInt8.ofNat, hl.1, ?_, ?_⟩
  · exact lf_encode rest (List.all_eq_true.2 fun c h => (hc c (by simp [h])).1) (fun h => (hc 10 (by simp [h])).2 rfl)
  · rw [← Except.ok.inj h]
    have : utf8EncodeChar a = [a] := by unfold utf8EncodeChar; rw [if_pos hl.2]
    simp [this]

/-- What all made messages have in common. -/
theorem made_line_core (now : Nat → DateTime) (t i : Str) (mode : Int) (hp : Bool) (v : Nat) (u : UDefs)
    (kw : List (Str × PyVal)) (m : Msg) (hkw : PlainKeywords i kw) (d : PDict) (hd : KwDefinition mode.toNat u i kw d)
    (hsane : SaneGen d) (hsane' : SaneNames d) (h : mkMsg now t i mode hp v u none ⟨none, kw⟩ = .ok m) (ht : t ∈ NMEA_TALKERS)
    (hplain : PlainStrings kw) (hhead : PlainText (t ++ i))
    (now' : Nat → DateTime) (v' : Nat) (u' : UDefs) (raw : Bytes) (m' : Msg) (slots : List Slot)
    (hraw : m.serialize = .ok raw) (hparse : parse now' (.bytes raw) mode v' u' = .ok (some m'))
    (hexp : Expand mode.toNat m.payload d [] [] slots) (hback : CameBack hp slots m m')
    (hdef : definitionFor mode.toNat u' i m.payload = .ok (some d)) (hft : fieldTexts t i m.payload = m.payload) :
    ∃ raw m', m.serialize = .ok raw ∧ CrLfLine raw ∧ parse now' (.bytes raw) mode v' u' = .ok (some m') ∧
      m'.talker = m.talker ∧ m'.msgID = m.msgID ∧ m'.payload = m.payload ∧ m'.checksum = m.checksum ∧
      ∃ slots d, Expand mode.toNat m.payload d [] [] slots ∧ CameBack hp slots m m' := by
  have hsplit := C05_talkers_split t ht i
  obtain ⟨s1, s2, s3, s4⟩ := C05_same now t i mode hp v u kw m hkw d hd hsane h hplain hhead hsplit raw hraw now' mode v' u'
    m' hparse
  obtain ⟨raw', ck, hraw', -, hsent, -⟩ := C05_accepted now t i mode hp v u kw m hkw d hd hsane h hplain hhead hsplit
  rw [hraw] at hraw'
  cases hraw'
  obtain ⟨slots', -, hpay⟩ := (C50_payload now' _ mode v' u' m' _ t i ck m.payload hsent hparse).2 d hdef hsane'
  rw [hft, List.take_append_drop] at hpay
  refine ⟨raw, m', hraw, ?_, hparse, s1, s2, hpay, s3, slots, d, hexp, hback⟩
  unfold Msg.serialize at hraw
  rw [C05_wire_text now t i mode hp v u kw m hkw d hd h] at hraw
  exact plain_line t i _ _ ht (generated_plain now t i mode hp v u kw m hkw d hd hsane h hplain hhead)
    (plain_ok _ (hex_chars _ _ (C01_checksum_is_hex_of_xor (commaJoin ((t ++ i) :: m.payload)))).1) raw hraw

theorem plain_of_proprietary (i : Str) (hi : IsProprietary i) : PlainText i := by
  have h1 : ∀ i ∈ NMEA_MSGIDS_PROP.map Prod.fst, PlainText i := by decide +kernel
  have h2 : ∀ i ∈ NMEA_PREFIX_PROP, PlainText i := by decide +kernel
  rcases hi with hi | hi
  · exact h1 i hi
  · exact h2 i hi

theorem made_line (mode : Int) (hp : Bool) (m : Msg) (h : Made mode hp m)
    (now' : Nat → DateTime) (v' : Nat) (u' : UDefs) :
    ∃ raw m', m.serialize = .ok raw ∧ CrLfLine raw ∧ parse now' (.bytes raw) mode v' u' = .ok (some m') ∧
      m'.talker = m.talker ∧ m'.msgID = m.msgID ∧ m'.payload = m.payload ∧ m'.checksum = m.checksum ∧
      ∃ slots d, Expand mode.toNat m.payload d [] [] slots ∧ CameBack hp slots m m' := by
  obtain ⟨hpt, hpi⟩ := plain_of_standard
  cases h with
  | standard now t i v u kw d _ ht hi hi1 hi2 hkw hplain hd hnat hnow h =>
    have hhead : PlainText (t ++ i) := by
      intro c hc
      rcases List.mem_append.1 hc with hc | hc
      · exact (hpt t ht).2 c hc
      · exact hpi i hi c hc
    have hids : KnownIds v' u' t i := fun _ => ⟨ht, .inl hi⟩
    obtain ⟨h1, h2⟩ := standard_definition mode.toNat u u' i hi kw d hd m.payload
    obtain ⟨raw, m', slots, hraw, hparse, hexp, hlen, hback⟩ := C64_standard now t i mode hp v u kw m hkw hi hi1 hi2 d hd h
      hplain hhead (C05_talkers_split t ht i) hnat hnow now' v' u' hids
    exact made_line_core now t i mode hp v u kw m hkw d hd (tables_sane_gen.1 _ _ h2)
      (builtin_saneNames _ _ _ (.inl h2)) h ht hplain hhead now' v' u' raw m' slots hraw hparse hexp hback h1
      (fieldTexts_plain _ _ _ (standard_not_snc t i hi _))
  | proprietary now t i v u kw d _ ht hi hi' hsub hkw hplain hd hnat hnow h hack hsn hss =>
    have hhead : PlainText (t ++ i) := by
      intro c hc
      rcases List.mem_append.1 hc with hc | hc
      · exact (hpt t ht).2 c hc
      · exact plain_of_proprietary i hi c hc
    have hids : KnownIds v' u' t i := fun _ => ⟨ht, .inr (.inl hi)⟩
    obtain ⟨name, h2⟩ := proprietary_mem hi hi' hd
    obtain ⟨raw, m', slots, hraw, hparse, hexp, hlen, hback⟩ := C64_proprietary now t i mode hp v u kw m hkw hi hi' hsub d hd h
      hplain hhead (C05_talkers_split t ht i) hnat hnow hack hsn hss now' v' u' hids
    exact made_line_core now t i mode hp v u kw m hkw d hd (tables_sane_gen.2 _ _ h2)
      (builtin_saneNames _ _ _ (.inr h2)) h ht hplain hhead now' v' u' raw m' slots hraw hparse hexp hback
      (proprietary_definition now t i mode hp v u kw m hkw hi hi' hsub d hd h hack hsn u')
      (fieldTexts_unbracketed _ _ _ hss)

/-- Messages of built-in types, made from natural keywords and written one after the other to a file or
a socket, are read back by `NMEAReader` - with any settings, in the same mode - in order and without
any error: each with the same talker, id, payload and checksum, and its attributes come back. -/
theorem C65_generated (cfg : RCfg) (hp : Bool) (ms : List Msg) (hms : ∀ m ∈ ms, Made cfg.mode hp m)
    (now' : Nat → DateTime) :
    ∃ (outs : List Bytes) (ms' : List Msg), ms.map Msg.serialize = outs.map .ok ∧
      List.Forall₂ (fun m m' => m'.talker = m.talker ∧ m'.msgID = m.msgID ∧ m'.payload = m.payload ∧
        m'.checksum = m.checksum ∧ ∃ slots d, Expand cfg.mode.toNat m.payload d [] [] slots ∧ CameBack hp slots m m') ms ms' ∧
      readAll now' fileStream cfg outs.flatten = (outs.zip (ms'.map some), [], none) ∧
      ∀ (z : Zlib) (enc : Nat), encChunked enc = false → ∀ segs : List Bytes, (∀ d ∈ segs, d ≠ []) →
        segs.flatten = outs.flatten →
        readAll now' (sockStream z enc) cfg (Sock.open z enc (segs.map .data)) = (outs.zip (ms'.map some), [], none) := by
  have : ∃ (outs : List Bytes) (ms' : List Msg), ms.map Msg.serialize = outs.map .ok ∧ outs.length = ms'.length ∧
      List.Forall₂ (fun m m' => m'.talker = m.talker ∧ m'.msgID = m.msgID ∧ m'.payload = m.payload ∧
        m'.checksum = m.checksum ∧ ∃ slots d, Expand cfg.mode.toNat m.payload d [] [] slots ∧ CameBack hp slots m m') ms ms' ∧
      ∀ x ∈ outs.zip (ms'.map some), CrLfLine x.1 ∧
        parse now' (.bytes x.1) cfg.mode cfg.validate cfg.udefs = .ok x.2 := by
    induction ms with
    | nil => exact ⟨[], [], rfl, rfl, .nil, by simp⟩
    | cons m ms ih =>
      obtain ⟨outs, ms', h1, h2, h3, h4⟩ := ih (fun x hx => hms x (by simp [hx]))
      obtain ⟨out, m', g1, g2, g3, g4⟩ := made_line _ hp m (hms m (by simp)) now' cfg.validate cfg.udefs
      refine ⟨out :: outs, m' :: ms', by simp [h1, g1], by simp [h2], .cons g4 h3, ?_⟩
      intro x hx
      simp only [List.map_cons, List.zip_cons_cons, List.mem_cons] at hx
      rcases hx with rfl | hx
      · exact ⟨g2, g3⟩
      · exact h4 x hx
  obtain ⟨outs, ms', h1, h2, h3, h4⟩ := this
  have h5 : (outs.zip (ms'.map some)).map Prod.fst = outs := by
    rw [List.map_fst_zip]; simp [h2]
  have := C65_lines now' cfg (outs.zip (ms'.map some)) (fun x hx => (h4 x hx).1) (fun x hx => (h4 x hx).2)
  rw [h5] at this
  exact ⟨outs, ms', h1, h3, this.1, this.2⟩

/-- The hypothesis is met: the GLL example. -/
example : ∃ m, Made 0 false m := by
  obtain ⟨m, hm⟩ : ∃ m, mkMsg clock0 py!"GN" py!"GLL" 0 false 1 [] none ⟨none, gllKw⟩ = .ok m := by
    have h : (match mkMsg clock0 py!"GN" py!"GLL" 0 false 1 [] none ⟨none, gllKw⟩ with | .ok _ => true | _ => false) = true := by
      decide +kernel
    split at h
    · exact ⟨_, by assumption⟩
    · cases h
  have h : (lookup py!"GLL" NMEA_PAYLOADS_GET).isSome = true := by decide +kernel
  obtain ⟨d, hd⟩ := Option.isSome_iff_exists.1 h
  refine ⟨m, .standard clock0 py!"GN" py!"GLL" 1 [] gllKw d m (by decide +kernel) (by decide +kernel) (by decide) (by decide)
    (by decide +kernel) ?_ ⟨py!"GLL", by decide +kernel, by rw [if_pos (by decide +kernel)]; exact hd⟩
    (gllKw_natural d hd) (fun n => by unfold clock0; decide) hm⟩
  intro k s h
  have : ∀ kv ∈ gllKw, ∀ s ∈ (match kv.2 with | .str s => some s | _ => none), PlainText s := by decide +kernel
  exact this _ h s (by simp)

/-- And by a proprietary one: `PUBX,04`. -/
example : ∃ m, Made 0 false m ∧ m.msgID = py!"UBX" := by
  obtain ⟨m, hm, h2⟩ := (madeWith_iff (fun m => decide (m.msgID = py!"UBX")) _).1
    (by decide +kernel : madeWith _ (mkMsg clock0 py!"P" py!"UBX" 0 false 1 [] none ⟨none, ubxKw⟩) = true)
  refine ⟨m, .proprietary clock0 py!"P" py!"UBX" 1 [] ubxKw _ m (by decide +kernel) (by decide +kernel) (by decide +kernel)
    (fun _ => ⟨py!"04", by decide +kernel, by decide, by decide +kernel⟩) (by decide +kernel) ?_ ubxKw_definition ubxKw_natural
    (fun n => by unfold clock0; decide) hm (fun _ h => absurd h (by decide)) (fun _ h => absurd h (by decide))
    (by rintro (h | ⟨-, h, -⟩) <;> exact absurd h (by decide)), of_decide_eq_true h2⟩
  intro k s h
  have : ∀ kv ∈ ubxKw, ∀ s ∈ (match kv.2 with | .str s => some s | _ => none), PlainText s := by decide +kernel
  exact this _ h s (by simp)

end Props
