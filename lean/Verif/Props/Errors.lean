import Verif.Props.Parsing
/-!
# Exceptions of `parse`, unknown sentences, getters (C13, C14, C18, C19, C50)
-/
namespace Props
open Py Nmea Spec

/-- `parse` in a supported mode, decomposed. -/
theorem parse_cases (now : Nat → DateTime) (msg : RawMsg) (mode : Int) (v : Nat) (u : UDefs)
    (hm : mode = 0 ∨ mode = 1 ∨ mode = 2) :
    parse now msg mode v u =
      match getParts msg with
      | .error _ => if ValMsgid v then .error .nmeaParse else .ok none
      | .ok p =>
        if ValCksum v ∧ upper p.cksum ≠ calcChecksum p.content then .error .nmeaParse
        else if ValMsgid v ∧ ¬ (p.talker ∈ NMEA_TALKERS ∧ Recognised u p.msgid) then .error .nmeaParse
        else match definitionFor mode.toNat u p.msgid p.payload with
          | .error e => .error e
          | .ok none => if ValMsgid v then .error .nmeaParse else
              .ok (some (finish (ctxOf p.talker p.msgid mode.toNat false v u ⟨some p.payload, []⟩) (some p.cksum) none))
          | .ok (some d) =>
            match setPDict (ctxOf p.talker p.msgid mode.toNat false v u ⟨some p.payload, []⟩) now d []
                (st0 p.payload) with
            | .ok st => .ok (some (finish (ctxOf p.talker p.msgid mode.toNat false v u ⟨some p.payload, []⟩)
                (some p.cksum) (some st)))
            | .error e => .error (wrapE e) := by
  cases hp : getParts msg with
  | error e =>
    have he := ((getParts_error msg e).1 hp).1
    subst he
    rw [parse_eq _ _ _ _ _ hm, hp]
    simp only
    by_cases hv : ValMsgid v
    · rw [if_pos hv, (valMsgid_iff v).2 hv]; rfl
    · rw [if_neg hv, (valMsgid_false_iff v).2 hv]; rfl
  | ok p =>
    simp only
    by_cases hc : ValCksum v ∧ upper p.cksum ≠ calcChecksum p.content
    · rw [if_pos hc, parse_eq _ _ _ _ _ hm, hp]
      simp only
      rw [if_pos ⟨(valCksum_iff v).2 hc.1, hc.2⟩]
    · rw [if_neg hc]
      have hc' : ValCksum v → upper p.cksum = calcChecksum p.content :=
        fun h => Classical.byContradiction fun hn => hc ⟨h, hn⟩
      by_cases hr : ValMsgid v ∧ ¬ (p.talker ∈ NMEA_TALKERS ∧ Recognised u p.msgid)
      · rw [if_pos hr, parse_eq _ _ _ _ _ hm, hp]
        simp only
        have hrej : Rejected p.talker p.msgid v u := by
          refine ⟨?_, (valMsgid_iff v).2 hr.1⟩
          by_cases ht : p.talker ∈ NMEA_TALKERS
          · exact .inr ((sourceOf_unkn _ _).2 fun h => hr.2 ⟨ht, h⟩)
          · exact .inl ht
        rw [if_neg (fun h => hc ⟨(valCksum_iff v).1 h.1, h.2⟩), mkMsg_eq _ _ _ _ _ _ _ _ _ hm,
          if_pos hrej]
        simp only [(valMsgid_iff v).2 hr.1, if_true]
      · rw [if_neg hr]
        have hr' : ValMsgid v → p.talker ∈ NMEA_TALKERS ∧ Recognised u p.msgid :=
          fun h => Classical.byContradiction fun hn => hr ⟨h, hn⟩
        rw [parse_result now msg mode v u p hm hp hc' hr']
        cases hd : definitionFor mode.toNat u p.msgid p.payload with
        | error e => rfl
        | ok od =>
          cases od with
          | none => rfl
          | some d =>
            simp only
            cases hs : setPDict (ctxOf p.talker p.msgid mode.toNat false v u ⟨some p.payload, []⟩) now d []
                (st0 p.payload) with
            | ok st => rfl
            | error e =>
              have := setPDict_error _ _ rfl _ _ _ _ hs
              cases e <;> first | rfl | (simp [wrapE] at this)

/-! ## C13 -/

/-- Which exceptions `parse` can raise: `NMEAParseError`, `NMEATypeError` - or `IndexError` (only
for the sentences described by `IndexEscape`), or `ZeroDivisionError` (only for a user-defined
message whose definition has an indeterminate group without members). -/
theorem C13_exceptions (now : Nat → DateTime) (msg : RawMsg) (mode : Int) (v : Nat) (u : UDefs) (e : Err)
    (h : parse now msg mode v u = .error e) :
    e = .nmeaParse ∨ e = .nmeaType ∨
    (e = .index ∧ ∃ c t i f k, IsSentence msg c t i f k ∧ IndexEscape mode.toNat i f) ∨
    (e = .zeroDivision ∧ ∃ c t i f k d, IsSentence msg c t i f k ∧ ¬ IsStandard i ∧ ¬ IsProprietary i ∧
      (∃ key, (key, d) ∈ u) ∧ EmptyGroup d = true) := by
  by_cases hm : mode = 0 ∨ mode = 1 ∨ mode = 2
  · rw [parse_cases _ _ _ _ _ hm] at h
    cases hp : getParts msg with
    | error e' =>
      rw [hp] at h; simp only at h
      split at h
      · cases h; exact .inl rfl
      · cases h
    | ok p =>
      rw [hp] at h; simp only at h
      have hs := (getParts_sentence msg p).1 hp
      split at h
      · cases h; exact .inl rfl
      · split at h
        · cases h; exact .inl rfl
        · cases hd : definitionFor mode.toNat u p.msgid p.payload with
          | error e' =>
            rw [hd] at h; cases h
            have := definitionFor_error _ _ _ _ _ hd
            subst this
            exact .inr (.inr (.inl ⟨rfl, _, _, _, _, _, hs, (definitionFor_index _ u _ _).1 hd⟩))
          | ok od =>
            rw [hd] at h
            cases od with
            | none =>
              simp only at h
              split at h
              · cases h; exact .inl rfl
              · cases h
            | some d =>
              simp only at h
              split at h
              · cases h
              · rename_i e' hst
                cases h
                rcases setPDict_error _ _ rfl _ _ _ _ hst with h1 | ⟨rfl, h2⟩
                · exact .inr (.inl h1)
                · refine .inr (.inr (.inr ⟨rfl, _, _, _, _, _, d, hs, ?_⟩))
                  rcases definitionFor_mem _ _ _ _ _ hd with ⟨k, hk⟩ | ⟨k, hk⟩ | ⟨h3, h4, h5, _⟩
                  · rw [tables_noEmptyGroup.1 _ _ hk] at h2; cases h2
                  · rw [tables_noEmptyGroup.2 _ _ hk] at h2; cases h2
                  · exact ⟨h4, h5, h3, h2⟩
  · rw [parse_mode _ _ _ _ _ hm] at h; cases h; exact .inl rfl

/-- Without user-defined messages with empty groups, and apart from the `IndexEscape` sentences,
only the documented exceptions occur. -/
theorem C13_documented (now : Nat → DateTime) (msg : RawMsg) (mode : Int) (v : Nat) (u : UDefs)
    (c t i k : Str) (f : List Str) (hs : IsSentence msg c t i f k) (hi : ¬ IndexEscape mode.toNat i f)
    (hu : ∀ kd ∈ u, EmptyGroup kd.2 = false) :
    (∃ r, parse now msg mode v u = .ok r) ∨ parse now msg mode v u = .error .nmeaParse ∨
      parse now msg mode v u = .error .nmeaType := by
  cases h : parse now msg mode v u with
  | ok r => exact .inl ⟨r, rfl⟩
  | error e =>
    rcases C13_exceptions now msg mode v u e h with rfl | rfl | ⟨_, c', t', i', f', k', hs', hi'⟩ |
      ⟨_, _, _, _, _, _, d, _, _, _, ⟨key, hk⟩, hd⟩
    · exact .inr (.inl rfl)
    · exact .inr (.inr rfl)
    · obtain ⟨_, _, rfl, rfl, _⟩ := C12_unique _ _ _ _ _ _ _ _ _ _ _ hs hs'
      exact absurd hi' hi
    · rw [hu _ hk] at hd; cases hd

/-- `IndexError` escapes exactly for the `IndexEscape` sentences that pass the checksum and id
checks. -/
theorem C13_index_escapes (now : Nat → DateTime) (msg : RawMsg) (mode : Int) (v : Nat) (u : UDefs) :
    parse now msg mode v u = .error .index ↔
      (mode = 0 ∨ mode = 1 ∨ mode = 2) ∧ ∃ c t i f k, IsSentence msg c t i f k ∧
        IndexEscape mode.toNat i f ∧ (ValCksum v → upper k = calcChecksum c) ∧
        (ValMsgid v → t ∈ NMEA_TALKERS) := by
  by_cases hm : mode = 0 ∨ mode = 1 ∨ mode = 2
  · simp only [hm, true_and]
    rw [parse_cases _ _ _ _ _ hm]
    constructor
    · intro h
      cases hp : getParts msg with
      | error e' =>
        rw [hp] at h; simp only at h
        split at h <;> cases h
      | ok p =>
        rw [hp] at h; simp only at h
        have hs := (getParts_sentence msg p).1 hp
        split at h
        · cases h
        · rename_i hc
          split at h
          · cases h
          · rename_i hr
            refine ⟨_, _, _, _, _, hs, ?_,
              fun h => Classical.byContradiction fun hn => hc ⟨h, hn⟩,
              fun h => Classical.byContradiction fun hn => hr ⟨h, fun h => hn h.1⟩⟩
            cases hd : definitionFor mode.toNat u p.msgid p.payload with
            | error e' =>
              rw [hd] at h; cases h
              exact (definitionFor_index _ u _ _).1 hd
            | ok od =>
              rw [hd] at h
              cases od with
              | none =>
                simp only at h
                split at h <;> cases h
              | some d =>
                simp only at h
                split at h
                · cases h
                · rename_i e' hst
                  simp only [Except.error.injEq] at h
                  rcases setPDict_error _ _ rfl _ _ _ _ hst with h1 | ⟨rfl, h2⟩
                  · rw [h1] at h; cases h
                  · cases h
    · rintro ⟨c, t, i, f, k, hs, hi, hc, ht⟩
      rw [sentence_getParts _ _ _ _ _ _ hs]
      simp only
      rw [if_neg (fun h => h.2 (hc h.1)), if_neg, (definitionFor_index _ u _ _).2 hi]
      rintro ⟨hv, hn⟩
      apply hn
      refine ⟨ht hv, .inr (.inl ?_)⟩
      have hpre : ∀ m ∈ NMEA_PREFIX_PROP, IsProprietary m := fun m hm => .inr hm
      rcases hi with ⟨h, _⟩ | ⟨rfl, _⟩ | ⟨rfl, _⟩ | ⟨rfl, _⟩
      · exact hpre _ h
      · decide +kernel
      · decide +kernel
      · decide +kernel
  · simp only [hm, false_and, iff_false]
    rw [parse_mode _ _ _ _ _ hm]; simp

/-- Counterexample to "only documented exceptions": `$PUBX*55`. -/
theorem C13_counterexample : parse clock0 (.bytes pb!"$PUBX*55\r\n") 0 0 [] = .error .index := by
  decide +kernel

/-- Counterexample: a user-defined empty indeterminate group. -/
theorem C13_counterexample_zero :
    parse clock0 (.bytes pb!"$GPXYZ,1*00\r\n") 0 0
      [(py!"XYZ", .group py!"group" .indet .nil .nil)] = .error .zeroDivision := by decide +kernel

example : IsSentence (.bytes pb!"$PUBX*55\r\n") py!"PUBX" py!"P" py!"UBX" [] py!"55" ∧
    IndexEscape 0 py!"UBX" [] ∧ ValCksum 1 :=
  ⟨(getParts_sentence _ ⟨_, _, _, _, _⟩).1 (by decide +kernel), .inl (by decide), by decide⟩

/-! ## C14 -/

/-- `parse` returns `None` exactly when the message is not a sentence (not text, or without `*`)
and `VALMSGID` is off (and the mode is supported). -/
theorem C14_none_iff (now : Nat → DateTime) (msg : RawMsg) (mode : Int) (v : Nat) (u : UDefs) :
    parse now msg mode v u = .ok none ↔
      (mode = 0 ∨ mode = 1 ∨ mode = 2) ∧ ¬ ValMsgid v ∧ ¬ ∃ c t i f k, IsSentence msg c t i f k := by
  by_cases hm : mode = 0 ∨ mode = 1 ∨ mode = 2
  · simp only [hm, true_and]
    rw [parse_cases _ _ _ _ _ hm]
    cases hp : getParts msg with
    | error e' =>
      have hn : ¬ ∃ c t i f k, IsSentence msg c t i f k := by
        rintro ⟨c, t, i, f, k, hs⟩
        rw [sentence_getParts _ _ _ _ _ _ hs] at hp; cases hp
      simp only [hn, not_false_eq_true, and_true]
      by_cases hv : ValMsgid v <;> simp [hv]
    | ok p =>
      have hs := (getParts_sentence msg p).1 hp
      have : ∃ c t i f k, IsSentence msg c t i f k := ⟨_, _, _, _, _, hs⟩
      simp only [this, not_true_eq_false, and_false, iff_false]
      split
      · simp
      · split
        · simp
        · split
          · simp
          · split <;> simp
          · split <;> simp
  · simp only [hm, false_and, iff_false]
    rw [parse_mode _ _ _ _ _ hm]; simp

/-- For such input with `VALMSGID` on, `parse` raises `NMEAParseError`. -/
theorem C14_rejected_when_on (now : Nat → DateTime) (msg : RawMsg) (mode : Int) (v : Nat) (u : UDefs)
    (hv : ValMsgid v) (h : ¬ ∃ c t i f k, IsSentence msg c t i f k) :
    parse now msg mode v u = .error .nmeaParse := by
  by_cases hm : mode = 0 ∨ mode = 1 ∨ mode = 2
  · rw [parse_cases _ _ _ _ _ hm]
    cases hp : getParts msg with
    | error e' => simp only [hv, if_true]
    | ok p => exact absurd ⟨_, _, _, _, _, (getParts_sentence msg p).1 hp⟩ h
  · exact parse_mode _ _ _ _ _ hm

example : ¬ (∃ c t i f k, IsSentence (.bytes pb!"$GNGLL,1\r\n") c t i f k) ∧ ¬ ValMsgid 1 ∧
    parse clock0 (.bytes pb!"$GNGLL,1\r\n") 0 1 [] = .ok none := by
  refine ⟨?_, by decide, by decide +kernel⟩
  rintro ⟨c, t, i, f, k, h⟩
  have := sentence_getParts _ _ _ _ _ _ h
  have h2 : getParts (.bytes pb!"$GNGLL,1\r\n") = .error .nmeaMessage := by decide +kernel
  rw [h2] at this; cases this

/-! ## C18 -/

/-- A sentence without payload definition (`VALMSGID` off, checksum not wrong) is accepted as a
nominal message: exactly the attributes `field_01`, `field_02`, ... in order, holding the field
texts. -/
theorem C18_nominal (now : Nat → DateTime) (msg : RawMsg) (mode : Int) (v : Nat) (u : UDefs)
    (c t i k : Str) (f : List Str) (hs : IsSentence msg c t i f k)
    (hm : mode = 0 ∨ mode = 1 ∨ mode = 2) (hv : ¬ ValMsgid v)
    (hc : ValCksum v → upper k = calcChecksum c)
    (hd : definitionFor mode.toNat u i f = .ok none) :
    ∃ m, parse now msg mode v u = .ok (some m) ∧ m.talker = t ∧ m.msgID = i ∧ m.payload = f ∧
      m.checksum = some k ∧
      m.attrs = (f.zipIdx 1).map (fun x => (py!"field_" ++ fmt02d x.2, .str x.1)) := by
  rw [parse_cases _ _ _ _ _ hm, sentence_getParts _ _ _ _ _ _ hs]
  simp only
  rw [if_neg (fun h => h.2 (hc h.1)), if_neg (fun h => hv h.1), hd]
  simp only
  rw [if_neg hv]
  refine ⟨_, rfl, rfl, rfl, rfl, rfl, ?_⟩
  have := nominalFrom_eq 1 f [] (by simp)
  simpa [finish, ctxOf, Ctx.streaming, Ctx.payload0] using this

/-- An id that is unknown (not standard, proprietary or user-defined, in upper or original case) has
no payload definition, so `C18_nominal` applies to it. -/
theorem C18_unknown_id (mode : Nat) (u : UDefs) (i : Str) (f : List Str) (h : ¬ Recognised u i)
    (hup : upper i ∉ (standardDefs mode).map Prod.fst) : definitionFor mode u i f = .ok none := by
  unfold Recognised at h
  have h1 : ¬ IsStandard i := fun x => h (.inl x)
  have h2 : ¬ IsProprietary i := fun x => h (.inr (.inl x))
  have h3 : ¬ IsUserDefined u i := fun x => h (.inr (.inr x))
  have h4 : i ∉ NMEA_PREFIX_PROP := fun x => h2 (.inr x)
  unfold definitionFor fullId
  rw [if_neg h4]
  simp only
  rw [if_neg h1, if_neg h2, if_neg h3, (lookup_none_iff _ _).2 hup]

example : ∃ m, parse clock0 (.bytes pb!"$GNABC,1,x,*79\r\n") 0 0 [] = .ok (some m) ∧
    m.attrs = [(py!"field_01", .str py!"1"), (py!"field_02", .str py!"x"), (py!"field_03", .str py!"")] := by
  obtain ⟨m, h, _, _, _, _, h2⟩ := C18_nominal clock0 (.bytes pb!"$GNABC,1,x,*79\r\n") 0 0 []
    py!"GNABC,1,x," py!"GN" py!"ABC" py!"79" [py!"1", py!"x", py!""]
    ((getParts_sentence _ ⟨_, _, _, _, _⟩).1 (by decide +kernel)) (.inl rfl) (by decide)
    (fun h => absurd h (by decide)) (by decide +kernel)
  exact ⟨m, h, by rw [h2]; decide +kernel⟩

/-! ## C19 -/

/-- With `VALMSGID`, the constructor raises `NMEAMessageError` for every unknown talker and every
unrecognised id, whatever the other arguments. -/
theorem C19_constructor_rejects (now : Nat → DateTime) (t i : Str) (mode : Int) (hp : Bool) (v : Nat)
    (u : UDefs) (ck : Option Str) (kw : Kwargs) (hv : ValMsgid v)
    (h : t ∉ NMEA_TALKERS ∨ ¬ Recognised u i) : mkMsg now t i mode hp v u ck kw = .error .nmeaMessage := by
  by_cases hm : mode = 0 ∨ mode = 1 ∨ mode = 2
  · rw [mkMsg_eq _ _ _ _ _ _ _ _ _ hm, if_pos]
    refine ⟨?_, (valMsgid_iff v).2 hv⟩
    rcases h with h | h
    · exact .inl h
    · exact .inr ((sourceOf_unkn _ _).2 h)
  · exact mkMsg_mode _ _ _ _ _ _ _ _ _ hm

/-- ... and `parse` raises `NMEAParseError` for such sentences and for those with a recognised id
but without definition in the given mode. -/
theorem C19_parse_rejects (now : Nat → DateTime) (msg : RawMsg) (mode : Int) (v : Nat) (u : UDefs)
    (c t i k : Str) (f : List Str) (hs : IsSentence msg c t i f k) (hv : ValMsgid v)
    (h : t ∉ NMEA_TALKERS ∨ ¬ Recognised u i ∨ definitionFor mode.toNat u i f = .ok none) :
    parse now msg mode v u = .error .nmeaParse := by
  by_cases hm : mode = 0 ∨ mode = 1 ∨ mode = 2
  · rw [parse_cases _ _ _ _ _ hm, sentence_getParts _ _ _ _ _ _ hs]
    simp only
    split
    · rfl
    · split
      · rfl
      · rename_i hr
        have hr' : t ∈ NMEA_TALKERS ∧ Recognised u i :=
          Classical.byContradiction fun hn => hr ⟨hv, hn⟩
        have hd := (h.resolve_left (fun h => h hr'.1)).resolve_left (fun h => h hr'.2)
        rw [hd]
  · exact parse_mode _ _ _ _ _ hm

/-- With `VALMSGID`, acceptance implies a known talker, a recognised id and a definition. -/
theorem C19_accept_implies_known (now : Nat → DateTime) (msg : RawMsg) (mode : Int) (v : Nat) (u : UDefs)
    (m : Msg) (hv : ValMsgid v) (h : parse now msg mode v u = .ok (some m)) :
    m.talker ∈ NMEA_TALKERS ∧ Recognised u m.msgID ∧
      ∃ c f k d, IsSentence msg c m.talker m.msgID f k ∧ definitionFor mode.toNat u m.msgID f = .ok (some d) := by
  obtain ⟨hm, p, hp, _, hr, hcase⟩ := parse_accepted _ _ _ _ _ _ h
  have hs := (getParts_sentence msg p).1 hp
  obtain ⟨h1, h2⟩ := hr hv
  rcases hcase with ⟨_, hn, _⟩ | ⟨d, st, hd, _, rfl⟩
  · exact absurd hv hn
  · exact ⟨h1, h2, _, _, _, d, hs, hd⟩

/-- Without `VALMSGID`, `NMEAParseError` is raised only for a wrong checksum (or an unsupported
mode): neither talker nor id nor a missing definition is a reason for rejection. -/
theorem C19_off (now : Nat → DateTime) (msg : RawMsg) (mode : Int) (v : Nat) (u : UDefs)
    (hm : mode = 0 ∨ mode = 1 ∨ mode = 2) (hv : ¬ ValMsgid v) :
    parse now msg mode v u = .error .nmeaParse ↔
      ValCksum v ∧ ∃ c t i f k, IsSentence msg c t i f k ∧ upper k ≠ calcChecksum c := by
  rw [parse_cases _ _ _ _ _ hm]
  cases hp : getParts msg with
  | error e' =>
    simp only [hv, if_false]
    constructor
    · intro h; cases h
    · rintro ⟨_, c, t, i, f, k, hs, _⟩
      rw [sentence_getParts _ _ _ _ _ _ hs] at hp; cases hp
  | ok p =>
    have hs := (getParts_sentence msg p).1 hp
    have hiff : (∃ c t i f k, IsSentence msg c t i f k ∧ upper k ≠ calcChecksum c) ↔
        upper p.cksum ≠ calcChecksum p.content := by
      constructor
      · rintro ⟨c, t, i, f, k, hs', hne⟩
        obtain ⟨rfl, _, _, _, rfl⟩ := C12_unique _ _ _ _ _ _ _ _ _ _ _ hs hs'
        exact hne
      · intro hne; exact ⟨_, _, _, _, _, hs, hne⟩
    rw [hiff]
    simp only
    by_cases hc : ValCksum v ∧ upper p.cksum ≠ calcChecksum p.content
    · rw [if_pos hc]; simp only [true_iff]; exact hc
    · rw [if_neg hc, if_neg (fun h => hv h.1)]
      simp only [hc, iff_false]
      split
      · rename_i e hd; rw [definitionFor_error _ _ _ _ _ hd]; simp
      · simp [hv]
      · split
        · simp
        · rename_i e hst
          rcases setPDict_error _ _ rfl _ _ _ _ hst with h1 | ⟨rfl, _⟩
          · rw [h1]; simp
          · simp [wrapE]

example : ValMsgid 2 ∧ py!"XX" ∉ NMEA_TALKERS ∧ ¬ Recognised [] py!"GLX" ∧
    definitionFor 2 [] py!"GLL" [py!"1"] = .ok none ∧ Recognised [] py!"GLL" := by decide +kernel
example : parse clock0 (.bytes pb!"$XXGLX,1*00\r\n") 0 0 [] ≠ .error .nmeaParse := by decide +kernel

/-! ## C50 -/

/-- Getters of a parsed message. The payload may differ from the received fields only for
PSSNSNC, where each field may have lost its square brackets. -/
theorem C50_getters (now : Nat → DateTime) (msg : RawMsg) (mode : Int) (v : Nat) (u : UDefs) (m : Msg)
    (c t i k : Str) (f : List Str) (hs : IsSentence msg c t i f k)
    (h : parse now msg mode v u = .ok (some m)) :
    m.talker = t ∧ m.msgID = i ∧ (m.mode : Int) = mode ∧ m.checksum = some k ∧
      (m.identity ≠ .ok py!"PSSNSNC" → m.payload = f) := by
  obtain ⟨hm, p, hp, _, _, hcase⟩ := parse_accepted _ _ _ _ _ _ h
  have := sentence_parts _ _ _ _ _ _ hs p hp
  subst this
  have hmode : ((mode.toNat : Nat) : Int) = mode := by omega
  refine ⟨?_, ?_, ?_, ?_, fun hid => (parsed_text now msg mode v u m _ _ _ _ _ hs h hid).1⟩
  all_goals rcases hcase with ⟨_, _, rfl⟩ | ⟨d, st, hd, hst, rfl⟩ <;>
    first | rfl | exact hmode

/-- The payload of a parsed message, PSSNSNC included: the received fields; with a definition, the fields it uses are the
texts that were converted (`fieldTexts`: without their square brackets for PSSNSNC, as received otherwise). -/
theorem C50_payload (now : Nat → DateTime) (msg : RawMsg) (mode : Int) (v : Nat) (u : UDefs) (m : Msg)
    (c t i k : Str) (f : List Str) (hs : IsSentence msg c t i f k)
    (h : parse now msg mode v u = .ok (some m)) :
    (definitionFor mode.toNat u i f = .ok none → m.payload = f) ∧
    ∀ d, definitionFor mode.toNat u i f = .ok (some d) → SaneNames d →
      ∃ slots, Expand mode.toNat (fieldTexts t i f) d [] [] slots ∧
        m.payload = (fieldTexts t i f).take slots.length ++ f.drop slots.length := by
  obtain ⟨hm, p, hp, _, _, hcase⟩ := parse_accepted _ _ _ _ _ _ h
  have := sentence_parts _ _ _ _ _ _ hs p hp
  subst this
  rcases hcase with ⟨hd, _, rfl⟩ | ⟨d, st, hd, hst, rfl⟩
  · refine ⟨fun _ => rfl, fun d hd' => ?_⟩
    rw [hd] at hd'
    cases hd'
  · refine ⟨fun hd' => (by rw [hd] at hd'; cases hd'), fun d' hd' hsane => ?_⟩
    rw [hd] at hd'
    cases hd'
    obtain ⟨post, hr⟩ := (received _ now d f hsane rfl (fun _ => hd)).1 st hst
    have hpay : st.payload = (fieldTexts t i f).take st.pindex ++ f.drop st.pindex := hr.pay
    have hidx : st.pindex = min post.length f.length := hr.idx
    refine ⟨post, hr.expand, ?_⟩
    show st.payload = _
    rw [hpay, hidx]
    rcases Nat.le_total post.length f.length with hle | hle
    · rw [Nat.min_eq_left hle]
    · rw [Nat.min_eq_right hle, List.drop_eq_nil_of_le hle, List.drop_eq_nil_of_le (Nat.le_refl _),
        List.take_of_length_le (by rw [fieldTexts_length]; exact Nat.le_refl _),
        List.take_of_length_le (by rw [fieldTexts_length]; exact hle)]

example : fieldTexts py!"P" py!"SSN" [py!"SNC", py!"1", py!"600", py!"2039", py!"[1", py!"2", py!"3", py!"4]", py!"[5"] =
      [py!"SNC", py!"1", py!"600", py!"2039", py!"1", py!"2", py!"3", py!"4", py!"5"] ∧
    acceptedWith (fun m => m.payload == [py!"SNC", py!"1", py!"600", py!"2039", py!"1", py!"2", py!"3", py!"4", py!"[5"])
      (parse clock0 (.bytes pb!"$PSSN,SNC,1,600,2039,[1,2,3,4],[5*10\r\n") 0 0 []) = true := by decide +kernel

theorem nominal_no_msgId (f : List Str) :
    lookup py!"msgId" (nominalFrom 1 f []) = none := by
  rw [nominalFrom_eq 1 f [] (by simp), List.nil_append, lookup_none_iff]
  simp only [List.map_map, List.mem_map, Function.comp]
  rintro ⟨x, _, hx⟩
  simp at hx

theorem prefix_idFirst : ∀ mode ∈ [0, 1, 2], ∀ kd ∈ proprietaryDefs mode, IdFirst kd.2 = true ∨
    kd.1 = py!"ASHR" ∨ NMEA_PREFIX_PROP.all (fun m => !m.isPrefixOf kd.1) = true := by
  decide +kernel

theorem ashr_noId : ∀ mode ∈ [0, 1, 2], (match lookup py!"ASHR" (proprietaryDefs mode) with
    | some d => !(allNames d).contains py!"msgId"
    | none => true) = true := by decide +kernel

theorem prefix_upper : ∀ m ∈ NMEA_PREFIX_PROP, upper m = m ∧ m.take 3 ≠ py!"QTM" ∧
    ¬ (py!"QTMSN").isPrefixOf m ∧ m.length ≥ 3 ∧ (m.take 3 ≠ py!"STM") := by decide +kernel

/-- The layout name of a prefixed proprietary sentence is its upper-cased full id. -/
theorem prefix_layout (mode : Nat) (m r : Str) (p : List Str) (hm : m ∈ NMEA_PREFIX_PROP) :
    layoutName mode (m ++ r) p = .ok (m ++ r) := by
  obtain ⟨_, h1, _, h2, h3⟩ := prefix_upper m hm
  have ht : (m ++ r).take 3 = m.take 3 := by
    rw [List.take_append_of_le_length h2]
  have n1 : m ++ r ≠ py!"QTMSN" := by
    intro e; rw [e] at ht; exact h1 (by rw [← ht]; rfl)
  have n2 : m ++ r ≠ py!"STMDRSENMSG" := by
    intro e; rw [e] at ht; exact h3 (by rw [← ht]; rfl)
  rw [layoutName_plain _ _ _ n1 n2, lay_none _ _ _ [] (fun q hq _ he => ?_) (by simp)]
  · simp only
    rw [if_neg]
    rintro ⟨_, h4, _⟩
    rw [ht] at h4; exact h1 h4
  · have : ∀ q ∈ layouts, q.1.2.1.take 3 = py!"QTM" := by decide
    have := this q hq
    rw [he, ht] at this
    exact absurd this h1

/-- `identity` is the header; for talker `P` and a prefixed id with a definition it is extended by
the first field (`fullId`). -/
theorem C50_identity (now : Nat → DateTime) (msg : RawMsg) (mode : Int) (v : Nat) (u : UDefs) (m : Msg)
    (c t i k : Str) (f : List Str) (hs : IsSentence msg c t i f k)
    (h : parse now msg mode v u = .ok (some m)) :
    ∃ id, fullId i f = .ok id ∧ m.identity =
      .ok (t ++ (if t = py!"P" ∧ definitionFor mode.toNat u i f ≠ .ok none then id else i)) := by
  obtain ⟨hm, p, hp, _, _, hcase⟩ := parse_accepted _ _ _ _ _ _ h
  have := sentence_parts _ _ _ _ _ _ hs p hp
  subst this
  simp only at hcase
  have hmode : mode.toNat = 0 ∨ mode.toNat = 1 ∨ mode.toNat = 2 := by omega
  have hmode' : mode.toNat ∈ [0, 1, 2] := by
    simp only [List.mem_cons, List.not_mem_nil, or_false]; exact hmode
  generalize mode.toNat = md at *
  have hfull : ∃ id, fullId i f = .ok id := by
    cases hf : fullId i f with
    | ok id => exact ⟨id, rfl⟩
    | error e =>
      have : definitionFor md u i f = .error e := by unfold definitionFor; rw [hf]
      rcases hcase with ⟨hd, _⟩ | ⟨d, st, hd, _⟩ <;> rw [this] at hd <;> cases hd
  obtain ⟨id, hid⟩ := hfull
  refine ⟨id, hid, ?_⟩
  by_cases hB : t = py!"P" ∧ i ∈ NMEA_PREFIX_PROP
  · obtain ⟨rfl, hpre⟩ := hB
    obtain ⟨f0, r, rfl⟩ : ∃ f0 r, f = f0 :: r := by
      cases f with
      | nil => unfold fullId at hid; rw [if_pos hpre] at hid; cases hid
      | cons f0 r => exact ⟨f0, r, rfl⟩
    rcases hcase with ⟨hd, _, rfl⟩ | ⟨d, st, hd, hst, rfl⟩
    · rw [hd]
      simp only [ne_eq, not_true_eq_false, and_false, if_false]
      exact ident_none _ _ _ (nominal_no_msgId _)
    · rw [hd]
      rw [if_pos ⟨rfl, by simp⟩]
      obtain ⟨post, hrec⟩ := (received (ctxOf py!"P" i md false v u ⟨some (f0 :: r), []⟩) now d _
        (definitionFor_prefix_sane _ _ _ hpre _ _ hd) rfl (fun _ => hd)).1 st hst
      have hcases : (id = i ∧ i = py!"ASHR") ∨ (id = i ++ f0 ∧ (i = py!"ASHR" → f0 ≠ [])) := by
        unfold fullId at hid
        rw [if_pos hpre] at hid
        simp only at hid
        by_cases ha : i = py!"ASHR"
        · rw [if_pos ha] at hid
          match f0, hid with
          | a :: b :: z, hid =>
            simp only [Except.ok.injEq] at hid
            by_cases hdg : isDigitChar b = true
            · rw [if_pos hdg] at hid; exact .inl ⟨hid.symm, ha⟩
            · rw [if_neg hdg] at hid; exact .inr ⟨hid.symm, by simp⟩
        · rw [if_neg ha] at hid
          simp only [Except.ok.injEq] at hid
          exact .inr ⟨hid.symm, fun h => absurd h ha⟩
      obtain ⟨hns, hpr⟩ := prefix_source i hpre
      have hlk : ∀ r', id = i ++ r' → lookup (i ++ upper r') (proprietaryDefs md) = some d := by
        intro r' hr'
        unfold definitionFor at hd
        rw [hid] at hd
        simp only at hd
        rw [if_neg hns, if_pos hpr, hr', upper_append, (prefix_upper i hpre).1,
          prefix_layout _ _ _ _ hpre] at hd
        simpa using hd
      rcases hcases with ⟨h1, h2⟩ | ⟨h1, h2⟩
      · subst h1
        have hl := hlk [] (by simp)
        have := ashr_noId md hmode'
        rw [h2] at hl
        simp only [upper, List.flatMap_nil, List.append_nil] at hl
        rw [hl] at this
        simp only [Bool.not_eq_true', List.contains_eq_mem, decide_eq_false_iff_not] at this
        have hnone : lookup py!"msgId" st.attrs = none := by
          have hinv := setPDict_inv (ctxOf py!"P" id md false v u ⟨some (f0 :: r), []⟩) now
            (fun s => lookup py!"msgId" s.attrs = none) (fun _ => True) d
            (fun k t g s hmem hi => by
              rw [setSingle_stream _ _ _ _ _ _ rfl]
              cases hr : setSingleStream (ctxOf py!"P" id md false v u ⟨some (f0 :: r), []⟩) k t g s with
              | error e => exact trivial
              | ok s' =>
                unfold setSingleStream at hr
                simp only [bind, Except.bind] at hr
                split at hr
                · cases hr
                · split at hr
                  · cases hr; exact hi
                  · split at hr
                    · cases hr
                    · split at hr
                      · cases hr
                      · split at hr
                        · cases hr
                        · rename_i a ha
                          cases hr
                          unfold setAttr at ha
                          split at ha
                          · cases ha
                          · cases ha
                            show lookup py!"msgId" (signOverride _ _ _) = none
                            rw [signOverride_eq]
                            exact pres_lookup py!"msgId" (by decide) (by decide) (by decide) d this none
                              _ _ _ _ _ hi hmem)
            (fun _ _ _ _ _ _ _ => trivial) [] (st0 (f0 :: r)) rfl
          rw [hst] at hinv
          exact hinv
        exact ident_none _ _ _ hnone
      · have hl := hlk f0 h1
        have hmem := lookup_some_mem _ _ _ hl
        have hne : i ++ upper f0 ≠ py!"ASHR" := by
          intro e
          have hi : i = py!"ASHR" := by
            have : ∀ m ∈ NMEA_PREFIX_PROP, m.isPrefixOf py!"ASHR" = true → m = py!"ASHR" := by decide
            apply this i hpre
            rw [← e]
            simp [List.isPrefixOf_iff_prefix]
          rw [hi] at e
          have : upper f0 = [] := by
            have := congrArg List.length e
            simp at this
            exact List.length_eq_zero_iff.1 (by simpa using this)
          exact h2 hi (upper_eq_nil _ this)
        have hidf : IdFirst d = true := by
          rcases prefix_idFirst md hmode' _ hmem with h | h | h
          · exact h
          · exact absurd h hne
          · rw [List.all_eq_true] at h
            have hp2 : i.isPrefixOf (i ++ upper f0) = true := by
              rw [List.isPrefixOf_iff_prefix]; exact List.prefix_append _ _
            have := h i hpre
            simp [hp2] at this
        obtain ⟨rest, rfl, _⟩ := IdFirst.spec d hidf
        have hfirst : ∃ tl, post = (py!"msgId", py!"ST") :: tl := by
          cases hrec.expand with
          | single _ _ _ _ _ _ h =>
            obtain ⟨tl, htl⟩ := h.prefix
            exact ⟨tl, by rw [← htl]; rfl⟩
        obtain ⟨tl, rfl⟩ := hfirst
        have hread := hrec.read
        have hft : ∃ g gs, fieldTexts py!"P" i (f0 :: r) = g :: gs := by
          have := fieldTexts_length py!"P" i (f0 :: r)
          cases hx : fieldTexts py!"P" i (f0 :: r) with
          | nil => rw [hx] at this; simp at this
          | cons g gs => exact ⟨g, gs, rfl⟩
        obtain ⟨g, gs, hft⟩ := hft
        have hft' : fieldTexts (ctxOf py!"P" i md false v u ⟨some (f0 :: r), []⟩).talker
          (ctxOf py!"P" i md false v u ⟨some (f0 :: r), []⟩).msgID (f0 :: r) = g :: gs := hft
        rw [hft', readSlots, str2val_ST] at hread
        simp only at hread
        have hsome := readSlots_keeps py!"msgId" _ _ _ _ hread (by
          rw [lookup_hemisphere _ _ _ _ (by decide) (by decide), lookup_insert]; simp)
        rcases hrec.msgid ⟨rfl, hpre⟩ with hn | ⟨f', hf', hl'⟩
        · rw [hn] at hsome; cases hsome
        · simp only [List.head?_cons, Option.some.injEq] at hf'
          subst hf'
          rw [h1]
          have := ident_some i hpre st.attrs f0 hl'
          rw [show (Msg.identity (finish (ctxOf py!"P" i md false v u ⟨some (f0 :: r), []⟩) (some k) (some st)))
            = identityOf py!"P" i st.attrs from rfl, this]
          simp
  · have hi : m.identity = .ok (t ++ i) := by
      rcases hcase with ⟨_, _, rfl⟩ | ⟨d, st, hd, hst, rfl⟩
      · exact ident_plain _ _ hB _
      · exact ident_plain _ _ hB _
    rw [hi]
    congr 2
    split
    · rename_i ht
      have hpre : i ∉ NMEA_PREFIX_PROP := fun x => hB ⟨ht.1, x⟩
      unfold fullId at hid
      rw [if_neg hpre] at hid
      cases hid; rfl
    · rfl

example : ∃ m, parse clock0 (.bytes pb!"$PUBX,41,1,0007,0003,19200,0*25\r\n") 1 1 [] = .ok (some m) ∧
    m.identity = .ok py!"PUBX41" := by
  obtain ⟨m, h, hm⟩ := (acceptedWith_iff (fun m => decide (m.identity = .ok py!"PUBX41")) _).1
      (by decide +kernel : acceptedWith _ (parse clock0
        (.bytes pb!"$PUBX,41,1,0007,0003,19200,0*25\r\n") 1 1 []) = true)
  exact ⟨m, h, by simpa using hm⟩

end Props
