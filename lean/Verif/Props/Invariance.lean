import Verif.Lemmas.EmitSim
import Verif.Props.Generate
import Verif.Props.Lookup
/-!
# What does not matter: clock, input form, other definitions, talker, validation flags, unused
keywords, precision mode (C57 - C63)
-/
set_option linter.unusedSimpArgs false
namespace Props
open Py Nmea Spec

/-! ## C57: the clock -/

/-- Parsing does not look at the clock. -/
theorem C57_parse (now now' : Nat → DateTime) (msg : RawMsg) (mode : Int) (v : Nat) (u : UDefs) :
    parse now msg mode v u = parse now' msg mode v u := parse_now now now' msg mode v u

theorem nomval_now (t : Str) (mode : Nat) (a b : DateTime) (h : t ∉ [py!"TM", py!"DT", py!"DTL", py!"DM"]) :
    nomval t mode a = nomval t mode b := by
  simp only [List.mem_cons, List.not_mem_nil, or_false, not_or] at h
  unfold nomval
  simp [TM, DT, DTL, DM, h]

theorem nomval_map_now (t : Str) (mode : Nat) (a b : DateTime) (f : PyVal → PyVal)
    (h : ∀ x y, f x = f y) : (nomval t mode a).map f = (nomval t mode b).map f := by
  by_cases hc : t ∈ [py!"TM", py!"DT", py!"DTL", py!"DM"]
  · have key : ∀ c, ∃ x, nomval t mode c = .ok x := by
      intro c
      simp only [List.mem_cons, List.not_mem_nil, or_false] at hc
      rcases hc with rfl | rfl | rfl | rfl <;> exact ⟨_, rfl⟩
    obtain ⟨x, hx⟩ := key a
    obtain ⟨y, hy⟩ := key b
    rw [hx, hy]
    simp only [Except.map, h x y]
  · rw [nomval_now _ _ _ _ hc]

theorem chosen_now (kw : List (Str × PyVal)) (mode : Nat) (now now' : Nat → DateTime) (pre : List Written)
    (name ty : Str) (h : ty ∈ [py!"TM", py!"DT", py!"DTL", py!"DM"] → Given kw name) :
    chosen kw mode now pre name ty = chosen kw mode now' pre name ty := by
  have key : (nomval ty mode (now (clockReads pre))).map (keywordOr kw name) =
      (nomval ty mode (now' (clockReads pre))).map (keywordOr kw name) := by
    by_cases hc : ty ∈ [py!"TM", py!"DT", py!"DTL", py!"DM"]
    · apply nomval_map_now
      intro x y
      have : ∃ w, lookup name kw = some w := by
        cases hl : lookup name kw with
        | some w => exact ⟨w, rfl⟩
        | none => exact absurd (h hc) (by
            have := (hasKey_mem name kw).2 (h hc)
            unfold hasKey at this
            rw [hl] at this; simp at this)
      obtain ⟨w, hw⟩ := this
      simp [keywordOr, hw]
    · rw [nomval_now _ _ _ _ hc]
  unfold chosen
  simp only [key]

/-- A message made from keywords depends on the clock only through date and time attributes for
which no keyword is given: if a call succeeds and every date and time attribute it writes was given,
then at any other time it makes the same message. -/
theorem C57_generate (now now' : Nat → DateTime) (t i : Str) (mode : Int) (hp : Bool) (v : Nat) (u : UDefs)
    (kw : List (Str × PyVal)) (hkw : PlainKeywords i kw) (d : PDict) (hd : KwDefinition mode.toNat u i kw d)
    (hsane : SaneGen d) (m : Msg) (h : mkMsg now t i mode hp v u none ⟨none, kw⟩ = .ok m)
    (hgiven : ∀ ws, Emit kw mode.toNat hp now d [] [] ws → ∀ w ∈ ws,
      w.ty ∈ [py!"TM", py!"DT", py!"DTL", py!"DM"] → Given kw w.name) :
    mkMsg now' t i mode hp v u none ⟨none, kw⟩ = .ok m := by
  obtain ⟨hm, hrej, o, ho, rfl⟩ := mkMsg_ok _ _ _ _ _ _ _ _ _ _ h
  obtain ⟨g1, g2⟩ := generated now t i mode.toNat hp v u kw d hsane
  obtain ⟨g1', g2'⟩ := generated now' t i mode.toNat hp v u kw d hsane
  rw [kw_outcome now t i mode.toNat hp v u kw (by omega) hkw d hd] at ho
  rw [mkMsg_eq _ _ _ _ _ _ _ _ _ hm, if_neg hrej, kw_outcome now' t i mode.toNat hp v u kw (by omega) hkw d hd]
  cases hst : setPDict (ctxOf t i mode.toNat hp v u ⟨none, kw⟩) now d [] (st0 []) with
  | error e => rw [hst] at ho; simp only [Except.map, wrapErr_error] at ho; cases ho
  | ok st =>
    rw [hst] at ho
    simp only [Except.map, wrapErr_ok, Except.ok.injEq] at ho
    obtain ⟨ws, he, hi⟩ := g1 st hst
    obtain ⟨ws', he', rfl⟩ := emit_sim (kw' := kw) (mode' := mode.toNat) (hp' := hp) (now' := now')
      (fun a b => b = a) (fun a => ∀ w ∈ a, w.ty ∈ [py!"TM", py!"DT", py!"DTL", py!"DM"] → Given kw w.name)
      (fun a b hab hb w hw => hb w (hab.subset hw)) d
      (by
        intro pre pre' k t sfx v text _ _ hr hq hc hv
        subst hr
        exact ⟨v, text, by rw [chosen_now kw _ now' now _ _ _ (hq ⟨k ++ sfx, t, v, text⟩ (by simp))]; exact hc, hv, rfl⟩)
      (by intro pre pre' rep b n _ hr hg; subst hr; exact hg)
      he (fun x hx => hx) (fun x hx => hx) .nil (hgiven ws he) [] rfl
    obtain ⟨st', hst', hi'⟩ := g2' ws' he'
    have : st' = st := by
      cases st; cases st'
      simp only [St.mk.injEq]
      exact ⟨hi'.idx.trans hi.idx.symm, hi'.pay.trans hi.pay.symm, hi'.attrs.trans hi.attrs.symm,
        hi'.tick.trans hi.tick.symm⟩
    subst this
    rw [hst']
    simp only [Except.map, wrapErr_ok]
    rw [ho]

/-- Keywords of a GLL sentence with its time: the message is the same at any time of day. -/
def gllTimed : List (Str × PyVal) := (py!"time", .time ⟨12, 0, 0, 0⟩) :: gllKw

example : PlainKeywords py!"GLL" gllTimed ∧ Given gllTimed py!"time" ∧
    madeWith (fun m => m.payload[4]? == some py!"120000.00")
      (mkMsg clock0 py!"GN" py!"GLL" 0 false 1 [] none ⟨none, gllTimed⟩) = true := by decide +kernel

/-! ## C58: the form of the input -/

/-- Text and its UTF-8 bytes give the same result. -/
theorem C58_text_or_bytes (now : Nat → DateTime) (s : Str) (b : Bytes) (h : utf8Encode s = .ok b) (mode : Int)
    (v : Nat) (u : UDefs) : parse now (.bytes b) mode v u = parse now (.str s) mode v u := by
  have hg : getParts (.bytes b) = getParts (.str s) := by
    unfold getParts
    simp only
    rw [(textOf_iff b s).1 (.bytes b s h)]
  unfold parse
  rw [hg]

/-- Only what lies between the framing characters matters: any number of leading and trailing `$`, CR
and LF may be added or missing. -/
theorem C58_framing (now : Nat → DateTime) (s s' body : Str) (h : FramedBody s body) (h' : FramedBody s' body)
    (mode : Int) (v : Nat) (u : UDefs) : parse now (.str s) mode v u = parse now (.str s') mode v u := by
  rw [framedBody_iff] at h h'
  have hg : getParts (.str s) = getParts (.str s') := by
    unfold getParts getPartsStr
    simp only [Option.bind_some, h, h']
  unfold parse
  rw [hg]

/-- Every text has such a core. -/
theorem C58_core (s : Str) : ∃ body, FramedBody s body := ⟨_, (framedBody_iff s _).2 rfl⟩

example : FramedBody py!"$GNROT,1.5,A*2B\r\n" py!"GNROT,1.5,A*2B" ∧ FramedBody py!"\n\n$$GNROT,1.5,A*2B" py!"GNROT,1.5,A*2B" := by
  constructor <;> rw [framedBody_iff] <;> decide +kernel

/-- Data that are not text at all (neither `str` nor `bytes`, or bytes that are not UTF-8) are treated
like text without a checksum separator. -/
theorem C58_not_text (now : Nat → DateTime) (msg : RawMsg) (h : ¬ ∃ s, TextOf msg s) (mode : Int) (v : Nat)
    (u : UDefs) : parse now msg mode v u = parse now (.str []) mode v u := by
  have h1 : getParts msg = .error .nmeaMessage :=
    (getParts_error msg _).2 ⟨rfl, fun ⟨s, hs, _⟩ => h ⟨s, hs⟩⟩
  have h2 : getParts (.str []) = .error .nmeaMessage := by rfl
  unfold parse
  rw [h1, h2]

example : ¬ ∃ s, TextOf (.bytes [0xff, 0x2a]) s := by
  rintro ⟨s, hs⟩
  rw [textOf_iff] at hs
  have : utf8Decode [0xff, 0x2a] = none := by decide +kernel
  rw [this] at hs; cases hs

/-! ## C59: other definitions -/

theorem str_congr (a b : Msg) (h1 : a.talker = b.talker) (h2 : a.msgID = b.msgID) (h3 : a.attrs = b.attrs)
    (h4 : a.defsource = b.defsource) : a.str = b.str := by
  unfold Msg.str Msg.identity
  rw [h1, h2, h3, h4]

theorem sameMessage_finish (t i : Str) (mode : Nat) (v v' : Nat) (u u' : UDefs) (hp hp' : Bool) (kw kw' : Kwargs)
    (ck : Option Str) (o : Option St) (hsrc : sourceOf i u = sourceOf i u') (hk : kw.payload = kw'.payload) :
    SameMessage (finish (ctxOf t i mode hp v u kw) ck o) (finish (ctxOf t i mode hp' v' u' kw') ck o) := by
  have hpl : (ctxOf t i mode hp v u kw).payload0 = (ctxOf t i mode hp' v' u' kw').payload0 := by
    simp only [ctxOf, Ctx.payload0, hk]
  have hst : (ctxOf t i mode hp v u kw).streaming = (ctxOf t i mode hp' v' u' kw').streaming := by
    simp only [ctxOf, Ctx.streaming, hk]
  cases o with
  | none =>
    have ha : (finish (ctxOf t i mode hp v u kw) ck none).attrs =
        (finish (ctxOf t i mode hp' v' u' kw') ck none).attrs := by simp only [finish, hpl, hst]
    refine ⟨rfl, rfl, rfl, hpl, rfl, ha, str_congr _ _ rfl rfl ha hsrc, ?_⟩
    · simp only [Msg.serialize, Msg.text, finish, hpl]
      rfl
  | some st =>
    exact ⟨rfl, rfl, rfl, rfl, rfl, rfl, str_congr _ _ rfl rfl rfl hsrc, rfl⟩

theorem agree_source (u u' : UDefs) (i : Str) (h : AgreeOn u u' i) : sourceOf i u = sourceOf i u' := by
  rw [sourceOf_eq, sourceOf_eq]
  rcases h with h | h | ⟨h, _⟩
  · simp [h]
  · simp [h]
  · simp only [h]

theorem agree_definition (mode : Nat) (u u' : UDefs) (i : Str) (f : List Str) (h : AgreeOn u u' i) :
    definitionFor mode u i f = definitionFor mode u' i f := by
  by_cases hb : IsStandard i ∨ IsProprietary i
  · exact C51_no_override mode u u' i f hb
  · have hs : ¬ IsStandard i := fun h => hb (.inl h)
    have hp : ¬ IsProprietary i := fun h => hb (.inr h)
    obtain ⟨h1, h2⟩ := (h.resolve_left hs).resolve_left hp
    unfold definitionFor
    rw [fullId_plain i f (fun h => hp (.inr h))]
    simp only [h1, h2]

/-- Definitions supplied for other message ids do not matter: if two dictionaries treat the id of the
sentence alike, parsing gives the same result. -/
theorem C59_other_definitions (now : Nat → DateTime) (msg : RawMsg) (mode : Int) (v : Nat) (u u' : UDefs)
    (h : ∀ content t i f ck, IsSentence msg content t i f ck → AgreeOn u u' i) :
    SameResult (parse now msg mode v u) (parse now msg mode v u') := by
  by_cases hm : mode = 0 ∨ mode = 1 ∨ mode = 2
  rotate_left
  · rw [parse_mode _ _ _ _ _ hm, parse_mode _ _ _ _ _ hm]; exact .error _
  rw [parse_eq _ _ _ _ _ hm, parse_eq _ _ _ _ _ hm]
  cases hp : getParts msg with
  | error e => simp only; split <;> constructor
  | ok p =>
    obtain ⟨s, hs, hps⟩ := (getParts_iff msg p).1 hp
    obtain ⟨hc, hf⟩ := (getPartsStr_iff s p).1 hps
    have ha := h _ _ _ _ _ ⟨s, hs, hc, hf⟩
    simp only
    split
    · constructor
    · rw [mkMsg_eq _ _ _ _ _ _ _ _ _ hm, mkMsg_eq _ _ _ _ _ _ _ _ _ hm]
      have hrej : Rejected p.talker p.msgid v u ↔ Rejected p.talker p.msgid v u' := by
        unfold Rejected; rw [agree_source u u' _ ha]
      have hout : outcome (ctxOf p.talker p.msgid mode.toNat false v u ⟨some p.payload, []⟩) now =
          outcome (ctxOf p.talker p.msgid mode.toNat false v u' ⟨some p.payload, []⟩) now := by
        rw [outcome_received _ _ _ _ _ _ _ _ _ (by omega) noClash_nil,
          outcome_received _ _ _ _ _ _ _ _ _ (by omega) noClash_nil, agree_definition mode.toNat u u' _ _ ha]
        cases definitionFor mode.toNat u' p.msgid p.payload with
        | error e => rfl
        | ok o =>
          cases o with
          | none => rfl
          | some d =>
            simp only
            rw [setPDict_stream_congr (ctxOf p.talker p.msgid mode.toNat false v u ⟨some p.payload, []⟩)
              (ctxOf p.talker p.msgid mode.toNat false v u' ⟨some p.payload, []⟩) now now ⟨rfl, rfl, rfl, rfl, rfl⟩]
      rw [hout]
      by_cases hr : Rejected p.talker p.msgid v u
      · rw [if_pos hr, if_pos (hrej.1 hr)]
        simp only
        split <;> constructor
      · rw [if_neg hr, if_neg (fun h => hr (hrej.2 h))]
        cases outcome (ctxOf p.talker p.msgid mode.toNat false v u' ⟨some p.payload, []⟩) now with
        | error e =>
          simp only [Except.map]
          cases e <;> simp only <;> first | constructor | (split <;> constructor)
        | ok o =>
          simp only [Except.map]
          exact .msg _ _ (sameMessage_finish _ _ _ _ _ _ _ _ _ _ _ _ _ (agree_source u u' _ ha) rfl)

/-- In particular user definitions never change how a built-in sentence type is parsed. -/
theorem C59_builtin (now : Nat → DateTime) (msg : RawMsg) (mode : Int) (v : Nat) (u : UDefs)
    (h : ∀ content t i f ck, IsSentence msg content t i f ck → IsStandard i ∨ IsProprietary i) :
    SameResult (parse now msg mode v u) (parse now msg mode v []) :=
  C59_other_definitions now msg mode v u [] fun c t i f ck hs =>
    (h c t i f ck hs).elim .inl (fun h => .inr (.inl h))

example : AgreeOn [(py!"ABC", .nil)] [] py!"GGA" ∧ ¬ AgreeOn [(py!"ABC", .nil)] [] py!"ABC" ∧
    (AgreeOn [(py!"ABC", .nil), (py!"XYZ", .nil)] [(py!"XYZ", .nil)] py!"XYZ") := by
  unfold AgreeOn
  refine ⟨.inl (by decide +kernel), ?_, .inr (.inr ⟨by decide +kernel, by decide +kernel⟩)⟩
  rintro (h | h | ⟨h, _⟩)
  · revert h; decide +kernel
  · revert h; decide +kernel
  · revert h; decide +kernel

/-! ## C60: the talker -/

theorem setPDict_talker (t t' i : Str) (mode : Nat) (v : Nat) (u : UDefs) (p : List Str)
    (now : Nat → DateTime) (d : PDict) (h1 : t ≠ py!"P") (h2 : t' ≠ py!"P")
    (n1 : t ++ i ≠ py!"PSSNSNC") (n2 : t' ++ i ≠ py!"PSSNSNC") (g : List Nat) (st : St) :
    setPDict (ctxOf t i mode false v u ⟨some p, []⟩) now d g st =
      setPDict (ctxOf t' i mode false v u ⟨some p, []⟩) now d g st := by
  apply setPDict_congr
  · intro k ty g st
    rw [setSingle_stream _ _ _ _ _ _ rfl, setSingle_stream _ _ _ _ _ _ rfl]
    unfold setSingleStream
    simp only [ctxOf]
    rw [ident_plain t i (fun h => h1 h.1), ident_plain t' i (fun h => h2 h.1)]
    simp only [bind, Except.bind, n1, n2, if_false]
  · intro rep b st
    cases rep <;> rfl

theorem talker_header (content t i : Str) (f : List Str) (h : HasFields content t i f) (ht : t ≠ py!"P") :
    t ++ i ≠ py!"PSSNSNC" := by
  intro e
  rcases h.2.2 with hh | ⟨hh, h' | ⟨_, h'⟩⟩
  · exact ht hh
  · cases t with
    | nil => simp at h'
    | cons c t => simp at e hh; exact hh e.1
  · subst h'
    cases t with
    | nil => simp at e
    | cons c t => simp at e hh; exact hh e.1

/-- The talker does not influence the interpretation of a sentence (proprietary sentences, talker `P`,
excepted): two sentences with the same message id and the same fields, from different talkers, get the
same attributes and payload; and if one is accepted, so is the other, provided it passes the checks on
checksum and talker. -/
theorem C60_talker (now : Nat → DateTime) (msg msg' : RawMsg) (c c' t t' i : Str) (f : List Str) (ck ck' : Str)
    (hs : IsSentence msg c t i f ck) (hs' : IsSentence msg' c' t' i f ck') (ht : t ≠ py!"P") (ht' : t' ≠ py!"P")
    (mode : Int) (v : Nat) (u : UDefs) (m : Msg) (h : parse now msg mode v u = .ok (some m))
    (hck : ValCksum v → upper ck' = calcChecksum c') (hta : ValMsgid v → t' ∈ NMEA_TALKERS) :
    ∃ m', parse now msg' mode v u = .ok (some m') ∧ m'.attrs = m.attrs ∧ m'.payload = m.payload ∧
      m'.msgID = m.msgID ∧ m'.talker = t' ∧ m'.checksum = some ck' := by
  obtain ⟨s, hs, hc, hf⟩ := hs
  obtain ⟨s', hs', hc', hf'⟩ := hs'
  have hp : getParts msg = .ok ⟨c, t, i, f, ck⟩ := (getParts_iff _ _).2 ⟨s, hs, (getPartsStr_iff _ _).2 ⟨hc, hf⟩⟩
  have hp' : getParts msg' = .ok ⟨c', t', i, f, ck'⟩ :=
    (getParts_iff _ _).2 ⟨s', hs', (getPartsStr_iff _ _).2 ⟨hc', hf'⟩⟩
  obtain ⟨hm, p, hpp, _, hids, hcase⟩ := parse_accepted _ _ _ _ _ _ h
  rw [hp] at hpp
  cases hpp
  rw [parse_result now msg' mode v u _ hm hp' hck (fun hv => ⟨hta hv, (hids hv).2⟩)]
  rcases hcase with ⟨hd, hv, rfl⟩ | ⟨d, st, hd, hst, rfl⟩
  · simp only at hd ⊢
    rw [hd]
    simp only
    rw [if_neg hv]
    exact ⟨_, rfl, rfl, rfl, rfl, rfl, rfl⟩
  · simp only at hd hst ⊢
    rw [hd]
    simp only
    rw [← setPDict_talker t t' i mode.toNat v u f now d ht ht' (talker_header _ _ _ _ hf ht)
      (talker_header _ _ _ _ hf' ht'), hst]
    exact ⟨_, rfl, rfl, rfl, rfl, rfl, rfl⟩

/-- ... and fail alike: if both sentences pass the checks on checksum and talker, an error of one is the error of the
other (in an invalid mode too). -/
theorem C60_fail_alike (now : Nat → DateTime) (msg msg' : RawMsg) (c c' t t' i : Str) (f : List Str) (ck ck' : Str)
    (hs : IsSentence msg c t i f ck) (hs' : IsSentence msg' c' t' i f ck') (ht : t ≠ py!"P") (ht' : t' ≠ py!"P")
    (mode : Int) (v : Nat) (u : UDefs) (e : Err)
    (hck : ValCksum v → upper ck = calcChecksum c ∧ upper ck' = calcChecksum c')
    (hta : ValMsgid v → t ∈ NMEA_TALKERS ∧ t' ∈ NMEA_TALKERS) (h : parse now msg mode v u = .error e) :
    parse now msg' mode v u = .error e := by
  obtain ⟨s, hs, hc, hf⟩ := hs
  obtain ⟨s', hs', hc', hf'⟩ := hs'
  have hp : getParts msg = .ok ⟨c, t, i, f, ck⟩ := (getParts_iff _ _).2 ⟨s, hs, (getPartsStr_iff _ _).2 ⟨hc, hf⟩⟩
  have hp' : getParts msg' = .ok ⟨c', t', i, f, ck'⟩ :=
    (getParts_iff _ _).2 ⟨s', hs', (getPartsStr_iff _ _).2 ⟨hc', hf'⟩⟩
  by_cases hm : mode = 0 ∨ mode = 1 ∨ mode = 2
  · rw [parse_cases now _ mode v u hm, hp] at h
    rw [parse_cases now _ mode v u hm, hp']
    simp only at h ⊢
    rw [if_neg (fun hh => hh.2 (hck hh.1).1)] at h
    rw [if_neg (fun hh => hh.2 (hck hh.1).2)]
    by_cases hv : ValMsgid v ∧ ¬ Recognised u i
    · rw [if_pos ⟨hv.1, fun hh => hv.2 hh.2⟩] at h ⊢
      exact h
    · have hr : ValMsgid v → Recognised u i := fun h1 => Classical.not_not.1 fun h2 => hv ⟨h1, h2⟩
      rw [if_neg (fun hh => hh.2 ⟨(hta hh.1).1, hr hh.1⟩)] at h
      rw [if_neg (fun hh => hh.2 ⟨(hta hh.1).2, hr hh.1⟩)]
      cases hd : definitionFor mode.toNat u i f with
      | error e' => rw [hd] at h; exact h
      | ok d =>
        rw [hd] at h
        cases d with
        | none =>
          simp only at h ⊢
          split at h
          · rename_i hv'; rw [if_pos hv']; exact h
          · cases h
        | some d =>
          simp only at h ⊢
          rw [← setPDict_talker t t' i mode.toNat v u f now d ht ht' (talker_header _ _ _ _ hf ht)
            (talker_header _ _ _ _ hf' ht')]
          split at h
          · cases h
          · exact h
  · unfold parse at h ⊢
    rw [if_pos hm] at h ⊢
    exact h

example : ∃ e, parse clock0 (.str py!"$GPROT,1.x,A*78\r\n") 0 1 [] = .error e ∧
    parse clock0 (.str py!"$GNROT,1.x,A*66\r\n") 0 1 [] = .error e := by
  refine ⟨.nmeaType, ?_, ?_⟩
  · have h : (match parse clock0 (.str py!"$GPROT,1.x,A*78\r\n") 0 1 [] with | .error .nmeaType => true | _ => false) = true := by decide +kernel
    split at h
    · assumption
    · cases h
  · have h : (match parse clock0 (.str py!"$GNROT,1.x,A*66\r\n") 0 1 [] with | .error .nmeaType => true | _ => false) = true := by decide +kernel
    split at h
    · assumption
    · cases h

example : acceptedWith (fun m => acceptedWith (fun m' => m'.attrs == m.attrs && m.attrs.length == 2)
      (parse clock0 (.str py!"$GPROT,1.5,A*35\r\n") 0 3 []))
    (parse clock0 (.str py!"$GNROT,1.5,A*2B\r\n") 0 3 []) = true := by decide +kernel

/-! ## C61: validation flags -/

/-- Validation only filters: a sentence is accepted under given flags exactly if it is accepted without
validation and passes the checks whose flags are set, and the resulting message is the same. -/
theorem C61_exact (now : Nat → DateTime) (msg : RawMsg) (content t i : Str) (f : List Str) (ck : Str)
    (hs : IsSentence msg content t i f ck) (mode : Int) (v : Nat) (u : UDefs) :
    (∀ m, parse now msg mode v u = .ok (some m) → ∃ m0, parse now msg mode 0 u = .ok (some m0) ∧ SameMessage m m0) ∧
    (∀ m0, parse now msg mode 0 u = .ok (some m0) →
      ((∃ m, parse now msg mode v u = .ok (some m)) ↔
        (ValCksum v → upper ck = calcChecksum content) ∧
        (ValMsgid v → t ∈ NMEA_TALKERS ∧ Recognised u i ∧ definitionFor mode.toNat u i f ≠ .ok none))) := by
  obtain ⟨s, hs, hc, hf⟩ := hs
  have hp : getParts msg = .ok ⟨content, t, i, f, ck⟩ :=
    (getParts_iff _ _).2 ⟨s, hs, (getPartsStr_iff _ _).2 ⟨hc, hf⟩⟩
  have z1 : ¬ ValCksum 0 := by decide
  have z2 : ¬ ValMsgid 0 := by decide
  have hcon : ∀ d, setPDict (ctxOf t i mode.toNat false 0 u ⟨some f, []⟩) now d [] (st0 f) =
      setPDict (ctxOf t i mode.toNat false v u ⟨some f, []⟩) now d [] (st0 f) := fun d =>
    setPDict_stream_congr (ctxOf t i mode.toNat false 0 u ⟨some f, []⟩)
      (ctxOf t i mode.toNat false v u ⟨some f, []⟩) now now ⟨rfl, rfl, rfl, rfl, rfl⟩ d _ _
  constructor
  · intro m h
    obtain ⟨hm, p, hpp, _, _, hcase⟩ := parse_accepted _ _ _ _ _ _ h
    rw [hp] at hpp
    cases hpp
    rw [parse_result now msg mode 0 u _ hm hp (fun h => absurd h z1) (fun h => absurd h z2)]
    rcases hcase with ⟨hd, hv, rfl⟩ | ⟨d, st, hd, hst, rfl⟩
    · simp only at hd ⊢
      rw [hd]
      simp only
      rw [if_neg z2]
      exact ⟨_, rfl, sameMessage_finish _ _ _ _ _ _ _ _ _ _ _ _ _ rfl rfl⟩
    · simp only at hd hst ⊢
      rw [hd]
      simp only
      rw [hcon, hst]
      exact ⟨_, rfl, sameMessage_finish _ _ _ _ _ _ _ _ _ _ _ _ _ rfl rfl⟩
  · intro m0 h0
    obtain ⟨hm, p, hpp, _, _, hcase⟩ := parse_accepted _ _ _ _ _ _ h0
    rw [hp] at hpp
    cases hpp
    constructor
    · rintro ⟨m, h⟩
      obtain ⟨_, p, hpp, h1, h2, h3⟩ := parse_accepted _ _ _ _ _ _ h
      rw [hp] at hpp
      cases hpp
      refine ⟨h1, fun hv => ⟨(h2 hv).1, (h2 hv).2, ?_⟩⟩
      rcases h3 with ⟨_, hn, _⟩ | ⟨d, st, hd, _⟩
      · exact absurd hv hn
      · simp only at hd; rw [hd]; simp
    · rintro ⟨h1, h2⟩
      rw [parse_result now msg mode v u _ hm hp h1 (fun hv => ⟨(h2 hv).1, (h2 hv).2.1⟩)]
      rcases hcase with ⟨hd, hv, rfl⟩ | ⟨d, st, hd, hst, rfl⟩
      · simp only at hd ⊢
        rw [hd]
        simp only
        rw [if_neg (fun hv => (h2 hv).2.2 hd)]
        exact ⟨_, rfl⟩
      · simp only at hd hst ⊢
        rw [hd]
        simp only
        rw [← hcon, hst]
        exact ⟨_, rfl⟩

/-- So a sentence accepted under some flags is accepted, as the same message, under fewer flags. -/
theorem C61_monotone (now : Nat → DateTime) (msg : RawMsg) (mode : Int) (v v' : Nat) (u : UDefs)
    (hv : LessStrict v v') (m : Msg) (h : parse now msg mode v' u = .ok (some m)) :
    ∃ m', parse now msg mode v u = .ok (some m') ∧ SameMessage m' m := by
  obtain ⟨hm, p, hp, _⟩ := parse_accepted _ _ _ _ _ _ h
  obtain ⟨s, hs, hps⟩ := (getParts_iff msg p).1 hp
  obtain ⟨hc, hf⟩ := (getPartsStr_iff s p).1 hps
  have hsent : IsSentence msg p.content p.talker p.msgid p.payload p.cksum := ⟨s, hs, hc, hf⟩
  obtain ⟨a1, a2⟩ := C61_exact now msg _ _ _ _ _ hsent mode v' u
  obtain ⟨b1, b2⟩ := C61_exact now msg _ _ _ _ _ hsent mode v u
  obtain ⟨m0, hm0, hsame⟩ := a1 m h
  obtain ⟨c1, c2⟩ := (a2 m0 hm0).1 ⟨m, h⟩
  obtain ⟨m', hm'⟩ := (b2 m0 hm0).2 ⟨fun x => c1 (hv.1 x), fun x => c2 (hv.2 x)⟩
  obtain ⟨m0', hm0', hsame'⟩ := b1 m' hm'
  rw [hm0] at hm0'
  cases hm0'
  refine ⟨m', hm', ?_⟩
  constructor
  · rw [hsame'.talker, hsame.talker]
  · rw [hsame'.msgID, hsame.msgID]
  · rw [hsame'.mode, hsame.mode]
  · rw [hsame'.payload, hsame.payload]
  · rw [hsame'.checksum, hsame.checksum]
  · rw [hsame'.attrs, hsame.attrs]
  · rw [hsame'.str, hsame.str]
  · rw [hsame'.serialize, hsame.serialize]

example : LessStrict 1 3 ∧ LessStrict 0 2 ∧ ¬ LessStrict 1 2 ∧
    accepted (parse clock0 (.str py!"$GNROT,1.5,A*2B\r\n") 0 3 []) = true := by
  unfold LessStrict; decide +kernel

/-! ## C62: unused keywords -/

theorem given_iff (kw : List (Str × PyVal)) (x : Str) : Given kw x ↔ lookup x kw ≠ none := by
  unfold Given
  rw [← hasKey_mem]
  unfold hasKey
  cases lookup x kw <;> simp

theorem kwSuffix_congr (kw kw' : List (Str × PyVal)) (h : ∀ x ∈ selectorNames, lookup x kw = lookup x kw')
    (mode : Nat) (key sfx : Str) (hk : KwSuffix kw mode key sfx) : KwSuffix kw' mode key sfx := by
  have hg : ∀ x ∈ selectorNames, (Given kw x ↔ Given kw' x) := fun x hx => by
    rw [given_iff, given_iff, h x hx]
  have hz : ∀ x ∈ selectorNames, (GivenZero kw x ↔ GivenZero kw' x) := fun x hx => by
    unfold GivenZero; rw [h x hx]
  cases hk with
  | uartCurrBaud a b c =>
    exact .uartCurrBaud (fun x => a ((hg _ (by decide)).2 x)) ((hg _ (by decide)).1 b) (fun x => c ((hg _ (by decide)).2 x))
  | uartBaud a b c =>
    exact .uartBaud ((hg _ (by decide)).1 a) ((hg _ (by decide)).1 b) (fun x => c ((hg _ (by decide)).2 x))
  | uartCurr a b c =>
    exact .uartCurr (fun x => a ((hg _ (by decide)).2 x)) ((hg _ (by decide)).1 b) ((hg _ (by decide)).1 c)
  | uartPoll a => exact .uartPoll (fun x => a ((hg _ (by decide)).2 x))
  | rateNoVer _ a b => exact .rateNoVer _ (fun x => a ((hg _ (by decide)).2 x)) (fun x => b ((hg _ (by decide)).2 x))
  | rateIntfNoVer _ a b => exact .rateIntfNoVer _ ((hg _ (by decide)).1 a) (fun x => b ((hg _ (by decide)).2 x))
  | rateIntf _ a b => exact .rateIntf _ ((hg _ (by decide)).1 a) ((hg _ (by decide)).1 b)
  | pps a => exact .pps ((hz _ (by decide)).1 a)
  | sat _ a b => exact .sat _ a (fun x => b ((hg _ (by decide)).2 x))
  | poly _ a b => exact .poly _ a ((hg _ (by decide)).1 b)
  | dis a b => exact .dis (fun x => a ((hg _ (by decide)).2 x)) ((hz _ (by decide)).1 b)
  | drsen _ w s a b => exact .drsen _ w s (by rw [← h _ (by decide)]; exact a) b
  | drsenNone _ a => exact .drsenNone _ (fun x => a ((hg _ (by decide)).2 x))

theorem kwDefinition_congr (mode : Nat) (u : UDefs) (i : Str) (kw kw' : List (Str × PyVal))
    (h : ∀ x ∈ selectorNames, lookup x kw = lookup x kw') (d : PDict) (hd : KwDefinition mode u i kw d) :
    KwDefinition mode u i kw' d := by
  obtain ⟨id, h1, h2⟩ := hd
  refine ⟨id, ?_, ?_⟩
  · rw [← h1]; unfold kwFullId; rw [h _ (by decide)]
  · split at h2
    · rename_i hs; rw [if_pos hs]; exact h2
    · rename_i hs
      rw [if_neg hs]
      split at h2
      · rename_i hp
        rw [if_pos hp]
        rcases h2 with ⟨sfx, a, b⟩ | ⟨a, b⟩
        · exact .inl ⟨sfx, kwSuffix_congr kw kw' h _ _ _ a, b⟩
        · exact .inr ⟨fun sfx x => a sfx (kwSuffix_congr kw' kw (fun x hx => (h x hx).symm) _ _ _ x), b⟩
      · rename_i hp; rw [if_neg hp]; exact h2

theorem hasIndet_group (d b : PDict) (h : (Rep.indet, b) ∈ d.groups) : HasIndet d = true := by
  induction d with
  | nil => simp [PDict.groups] at h
  | single k t r ih => exact ih (by simpa [PDict.groups] using h)
  | group k rep body r ihb ihr =>
    simp only [PDict.groups, List.mem_cons, List.mem_append, Prod.mk.injEq] at h
    unfold HasIndet
    rcases h with ⟨h, _⟩ | h | h
    · simp [← h]
    · simp [ihb h]
    · simp [ihr h]

/-- A keyword that is neither an attribute of the definition (with any group suffixes) nor one of the
selecting keywords has no influence: two calls whose keywords agree on those, and on the number of
repetitions if the definition has a group of undetermined size, make the same message. -/
theorem C62_keywords (now : Nat → DateTime) (t i : Str) (mode : Int) (hp : Bool) (v : Nat) (u : UDefs)
    (kw kw' : List (Str × PyVal)) (hkw : PlainKeywords i kw) (hkw' : PlainKeywords i kw') (d : PDict)
    (hd : KwDefinition mode.toNat u i kw d) (hsane : SaneGen d)
    (hsel : ∀ x ∈ selectorNames, lookup x kw = lookup x kw')
    (hnames : ∀ k ∈ allNames d, ∀ s, GroupSfx s → lookup (k ++ s) kw = lookup (k ++ s) kw')
    (hsize : HasIndet d = true → groupsize (kw.map Prod.fst) = groupsize (kw'.map Prod.fst))
    (m : Msg) (h : mkMsg now t i mode hp v u none ⟨none, kw⟩ = .ok m) :
    mkMsg now t i mode hp v u none ⟨none, kw'⟩ = .ok m := by
  have hd' := kwDefinition_congr _ _ _ kw kw' hsel d hd
  obtain ⟨hm, hrej, o, ho, rfl⟩ := mkMsg_ok _ _ _ _ _ _ _ _ _ _ h
  obtain ⟨g1, g2⟩ := generated now t i mode.toNat hp v u kw d hsane
  obtain ⟨g1', g2'⟩ := generated now t i mode.toNat hp v u kw' d hsane
  rw [kw_outcome now t i mode.toNat hp v u kw (by omega) hkw d hd] at ho
  rw [mkMsg_eq _ _ _ _ _ _ _ _ _ hm, if_neg hrej, kw_outcome now t i mode.toNat hp v u kw' (by omega) hkw' d hd']
  cases hst : setPDict (ctxOf t i mode.toNat hp v u ⟨none, kw⟩) now d [] (st0 []) with
  | error e => rw [hst] at ho; simp only [Except.map, wrapErr_error] at ho; cases ho
  | ok st =>
    rw [hst] at ho
    simp only [Except.map, wrapErr_ok, Except.ok.injEq] at ho
    subst ho
    obtain ⟨ws, he, hi⟩ := g1 st hst
    obtain ⟨ws', he', rfl⟩ := emit_sim (kw' := kw') (mode' := mode.toNat) (hp' := hp) (now' := now)
      (fun a b => b = a) (fun _ => True) (fun _ _ _ _ => trivial) d
      (by
        intro pre pre' k t sfx v text hmem hsfx hr _ hc hv
        subst hr
        refine ⟨v, text, ?_, hv, rfl⟩
        rw [← hc]
        unfold chosen keywordOr
        rw [hnames k (entries_names d k t hmem) sfx hsfx])
      (by
        intro pre pre' rep b n hmem hr hg
        subst hr
        cases hg with
        | fixed z => exact .fixed z
        | indet z hz => exact .indet z (by rw [← hsize (hasIndet_group d b hmem)]; exact hz)
        | named k z a b => exact .named k z a b
        | flag k x a b => exact .flag k x a b
        | mode => exact .mode)
      he (fun x hx => hx) (fun x hx => hx) .nil trivial [] rfl
    obtain ⟨st', hst', hi'⟩ := g2' ws' he'
    have : st' = st := by
      cases st; cases st'
      simp only [St.mk.injEq]
      exact ⟨hi'.idx.trans hi.idx.symm, hi'.pay.trans hi.pay.symm, hi'.attrs.trans hi.attrs.symm,
        hi'.tick.trans hi.tick.symm⟩
    subst this
    rw [hst']
    rfl

theorem groupSfx_underscore (s : Str) (h : GroupSfx s) : s = [] ∨ 95 ∈ s := by
  induction h with
  | nil => exact .inl rfl
  | snoc s n _ _ => right; simp [groupSuffix]

/-- In particular a keyword without underscore that is not an attribute of the sentence type is
silently ignored. -/
theorem C62_extra (now : Nat → DateTime) (t i : Str) (mode : Int) (hp : Bool) (v : Nat) (u : UDefs)
    (kw : List (Str × PyVal)) (x : Str) (val : PyVal) (hkw : PlainKeywords i ((x, val) :: kw)) (d : PDict)
    (hd : KwDefinition mode.toNat u i kw d) (hsane : SaneGen d)
    (hx : x ∉ selectorNames) (hx2 : x ∉ allNames d) (hx3 : 95 ∉ x)
    (m : Msg) (h : mkMsg now t i mode hp v u none ⟨none, kw⟩ = .ok m) :
    mkMsg now t i mode hp v u none ⟨none, (x, val) :: kw⟩ = .ok m := by
  have hl : ∀ y, y ≠ x → lookup y kw = lookup y ((x, val) :: kw) := by
    intro y hy
    simp [lookup, hy]
  refine C62_keywords now t i mode hp v u kw _ (fun k hk => hkw k (by simp at hk ⊢; exact .inr hk)) hkw d hd hsane
    (fun y hy => hl y (fun e => hx (e ▸ hy))) ?_ ?_ m h
  · intro k hk s hs
    apply hl
    rintro rfl
    rcases groupSfx_underscore s hs with rfl | hs
    · exact hx2 (by simpa using hk)
    · exact hx3 (by simp [hs])
  · intro _
    have : splitFirst 95 x = none := by
      rw [splitFirst_none]; exact hx3
    simp [groupsize, this]
    rfl

example : PlainKeywords py!"GLL" ((py!"colour", .str py!"red") :: gllKw) ∧ py!"colour" ∉ selectorNames ∧ 95 ∉ py!"colour" ∧
    madeWith (fun _ => true) (mkMsg clock0 py!"GN" py!"GLL" 0 false 1 [] none ⟨none, gllKw⟩) = true := by
  decide +kernel

/-! ## C63: high precision mode -/

/-- What is written, without the text of latitude and longitude fields. -/
def coarse (w : Written) : Written := { w with text := if w.ty ∈ [py!"LA", py!"LN"] then [] else w.text }

theorem lastValue_coarse (x : Str) (ws : List Written) : lastValue x (ws.map coarse) = lastValue x ws := by
  unfold lastValue
  rw [List.filter_map, List.getLast?_map, Option.map_map]
  rfl

theorem clockReads_coarse (ws : List Written) : clockReads (ws.map coarse) = clockReads ws := by
  unfold clockReads
  rw [List.filter_map, List.length_map]
  rfl

theorem val2str_hp (v : PyVal) (t : Str) (h : t ∉ [py!"LA", py!"LN"]) (hp hp' : Bool) :
    val2str v t hp = val2str v t hp' := by
  simp only [List.mem_cons, List.not_mem_nil, or_false, not_or] at h
  unfold val2str
  have hn : ¬ (t = LA ∨ t = LN) := by
    rintro (e | e)
    · exact h.1 e
    · exact h.2 e
  simp only [hn, if_false]

theorem ddd2dmm_hp (v : PyVal) (a : Str) (hp hp' : Bool) (s : Str) (h : ddd2dmm v a hp = .ok s) :
    ∃ s', ddd2dmm v a hp' = .ok s' := by
  unfold ddd2dmm at h ⊢
  simp only [bind, Except.bind] at h ⊢
  revert h
  rcases v.num? with _ | (x | x)
  · exact fun _ => ⟨_, rfl⟩
  · simp only
    rcases PyFloat.ofInt ((x.natAbs : Int) * 60 / 60 * 100 + (x.natAbs : Int) * 60 % 60) with e | y
    · exact fun h => ⟨s, h⟩
    · exact fun _ => ⟨_, rfl⟩
  · simp only
    rcases PyFloat.toInt _ with e | y
    · exact fun h => ⟨s, h⟩
    · simp only
      rcases PyFloat.ofInt y with e | y
      · exact fun h => ⟨s, h⟩
      · exact fun _ => ⟨_, rfl⟩

theorem val2str_hp_ok (v : PyVal) (t : Str) (hp hp' : Bool) (s : Str) (h : val2str v t hp = .ok s) :
    ∃ s', val2str v t hp' = .ok s' := by
  by_cases ht : t ∈ [py!"LA", py!"LN"]
  · simp only [List.mem_cons, List.not_mem_nil, or_false] at ht
    rcases ht with rfl | rfl
    · exact ddd2dmm_hp v _ hp hp' s h
    · exact ddd2dmm_hp v _ hp hp' s h
  · rw [val2str_hp v t ht hp' hp]; exact ⟨s, h⟩

/-- High precision mode changes only the text of latitude and longitude fields: if a message can be
made in one mode, it can in the other, with the same attributes, as many fields, and the same text in
every other field. -/
theorem C63_precision (now : Nat → DateTime) (t i : Str) (mode : Int) (hp hp' : Bool) (v : Nat) (u : UDefs)
    (kw : List (Str × PyVal)) (hkw : PlainKeywords i kw) (d : PDict) (hd : KwDefinition mode.toNat u i kw d)
    (hsane : SaneGen d) (m : Msg) (h : mkMsg now t i mode hp v u none ⟨none, kw⟩ = .ok m) :
    ∃ m', mkMsg now t i mode hp' v u none ⟨none, kw⟩ = .ok m' ∧ m'.attrs = m.attrs ∧
      m'.payload.length = m.payload.length ∧
      ∃ ws, Emit kw mode.toNat hp now d [] [] ws ∧ m.payload = ws.map Written.text ∧
        ∀ (q : Nat) (w : Written), ws[q]? = some w → w.ty ∉ [py!"LA", py!"LN"] → m'.payload[q]? = m.payload[q]? := by
  obtain ⟨hm, hrej, _⟩ := mkMsg_ok _ _ _ _ _ _ _ _ _ _ h
  have hids := (not_rejected _ _ _ _).1 hrej
  obtain ⟨ws, he, hpay, hattrs⟩ := (C05_generate now t i mode hp v u kw hm hids hkw d hd hsane _ _).1
    ⟨m, h, rfl, rfl⟩
  obtain ⟨ws', he', hco⟩ := emit_sim (kw' := kw) (mode' := mode.toNat) (hp' := hp') (now' := now)
    (fun a b => b.map coarse = a.map coarse) (fun _ => True) (fun _ _ _ _ => trivial) d
    (by
      intro pre pre' k t sfx v text _ _ hr _ hc hv
      obtain ⟨text', ht'⟩ := val2str_hp_ok v t hp hp' text hv
      refine ⟨v, text', ?_, ht', ?_⟩
      · rw [← hc]
        unfold chosen
        rw [← clockReads_coarse pre', hr, clockReads_coarse]
        have : ∀ x, lastValue x pre' = lastValue x pre := fun x => by
          rw [← lastValue_coarse x pre', hr, lastValue_coarse]
        simp only [this]
      · rw [List.map_append, List.map_append, hr]
        congr 1
        by_cases hty : t ∈ [py!"LA", py!"LN"]
        · simp only [List.map_cons, List.map_nil, coarse, hty, if_true]
        · rw [val2str_hp v t hty hp' hp, hv] at ht'
          cases ht'
          rfl)
    (by
      intro pre pre' rep b n _ hr hg
      have : ∀ x, lastValue x pre' = lastValue x pre := fun x => by
        rw [← lastValue_coarse x pre', hr, lastValue_coarse]
      cases hg with
      | fixed z => exact .fixed z
      | indet z hz => exact .indet z hz
      | named k z a b => exact .named k z a (by rw [this]; exact b)
      | flag k x a b => exact .flag k x a (by rw [this]; exact b)
      | mode => exact .mode)
    he (fun x hx => hx) (fun x hx => hx) .nil trivial [] rfl
  obtain ⟨m', hm', hpay', hattrs'⟩ := (C05_generate now t i mode hp' v u kw hm hids hkw d hd hsane _ _).2
    ⟨ws', he', rfl, rfl⟩
  have hlen : ws'.length = ws.length := by
    have := congrArg List.length hco; simpa using this
  have hat : ∀ ws : List Written, attrsOf (ws.map coarse) = attrsOf ws := by
    intro ws; unfold attrsOf; rw [List.foldl_map]; rfl
  refine ⟨m', hm', ?_, ?_, ws, he, hpay, ?_⟩
  · rw [hattrs', hattrs, ← hat ws', hco, hat]
  · rw [hpay', hpay, List.length_map, List.length_map, hlen]
  · intro q w hq hty
    have h1 := congrArg (fun l => l[q]?) hco
    simp only [List.getElem?_map, hq, Option.map_some] at h1
    cases hq' : ws'[q]? with
    | none => rw [hq'] at h1; cases h1
    | some w' =>
      rw [hq'] at h1
      simp only [Option.map_some, Option.some.injEq] at h1
      have h2 : w'.ty = w.ty := (congrArg Written.ty h1 : (coarse w').ty = (coarse w).ty)
      have h3 := congrArg Written.text h1
      simp only [coarse, h2, hty, if_false] at h3
      rw [hpay', hpay, List.getElem?_map, List.getElem?_map, hq, hq', Option.map_some, Option.map_some, h3]

example : madeWith (fun m => madeWith (fun m' => m.payload[0]? == some py!"5330.00000" && m'.payload[0]? == some py!"5330.0000000" &&
      m.payload.drop 3 == m'.payload.drop 3 && m.attrs == m'.attrs)
    (mkMsg clock0 py!"GN" py!"GLL" 0 true 1 [] none ⟨none, gllKw⟩))
    (mkMsg clock0 py!"GN" py!"GLL" 0 false 1 [] none ⟨none, gllKw⟩) = true := by decide +kernel

end Props
