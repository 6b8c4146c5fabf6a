import Verif.Lemmas.ErrorWhere
import Verif.Lemmas.ErrorReader
import Verif.Props.Layout
import Verif.Props.Checksum
import Verif.Lemmas.IntText
import Verif.Props.Repr
/-!
# What the exceptions of `parse` say (C100)
-/
namespace Props
open Py Nmea Spec

/-- With the texts, `parse` returns and raises what it does without: nothing in the other properties changes. -/
theorem C100_same (now : Nat → DateTime) (msg : RawMsg) (mode : Int) (v : Nat) (u : UDefs) :
    (∀ r, parseT now msg mode v u = .ok r ↔ parse now msg mode v u = .ok r) ∧
    (∀ e, (∃ t, parseT now msg mode v u = .error (e, t)) ↔ parse now msg mode v u = .error e) := by
  rw [← parseT_erase]
  cases parseT now msg mode v u with
  | ok r => simp [erase]
  | error x => obtain ⟨e, t⟩ := x; simp [erase]

theorem cksum_hex (k c : Str) : upper k = calcChecksum c ↔ IsHexText (upper k) (xorAll c) :=
  ⟨fun h => h ▸ C01_checksum_is_hex_of_xor c, fun h => C01_hex_text_unique _ _ _ h (C01_checksum_is_hex_of_xor c)⟩

theorem modeWord_eq (mode : Int) (hm : mode = 0 ∨ mode = 1 ∨ mode = 2) : modeWord mode.toNat = modeName mode := by
  rcases hm with rfl | rfl | rfl <;> rfl

theorem getPartsT_shown (msg : RawMsg) (x : TExc) (h : getPartsT msg = .error x) (hno : msg ≠ .other) :
    x.1 = .nmeaMessage ∧ ∃ s, Shown msg s ∧ x.2 = some (ErrorText.badlyFormed s).text := by
  unfold getPartsT at h
  cases hp : getParts msg with
  | ok p => rw [hp] at h; cases h
  | error e =>
    rw [hp] at h
    have he := ((getParts_error msg e).1 hp).1
    subst he
    cases msg with
    | str s => cases h; exact ⟨rfl, s, .text _ _ (.str s), rfl⟩
    | other => exact absurd rfl hno
    | bytes b =>
      cases h
      refine ⟨rfl, ?_⟩
      cases hd : utf8Decode b with
      | some s => exact ⟨s, .text _ _ ((textOf_iff _ _).2 (by rw [hd])), by simp [hd, ErrorText.text]⟩
      | none => exact ⟨_, .bytes b (fun s hs => by rw [textOf_iff, hd] at hs; cases hs), by simp [hd, ErrorText.text]⟩

/-- Reading the fields of a sentence, with the texts. -/
def fieldsT (now : Nat → DateTime) (mode : Int) (v : Nat) (u : UDefs) (t i k : Str) (f : List Str) : Except TExc (Option Msg) :=
  match definitionFor mode.toNat u i f with
  | .error e => .error (e, none)
  | .ok none => if ValMsgid v then
      .error (.nmeaParse, (fullId i f).toOption.map fun id => (ErrorText.definition (upper id) (modeName mode)).text)
    else .ok (some (finish (ctxOf t i mode.toNat false v u ⟨some f, []⟩) (some k) none))
  | .ok (some d) =>
    match entriesT (ctxOf t i mode.toNat false v u ⟨some f, []⟩) now d (st0 f) with
    | .ok st => .ok (some (finish (ctxOf t i mode.toNat false v u ⟨some f, []⟩) (some k) (some st)))
    | .error (key, x) => .error (wrapT i key x)

theorem mode_toNat (mode : Int) (hm : mode = 0 ∨ mode = 1 ∨ mode = 2) :
    mode.toNat = 0 ∨ mode.toNat = 1 ∨ mode.toNat = 2 := by omega

theorem getDictT_received (mode : Int) (hm : mode = 0 ∨ mode = 1 ∨ mode = 2) (v : Nat) (u : UDefs) (t i : Str) (f : List Str) :
    getDictT (ctxOf t i mode.toNat false v u ⟨some f, []⟩) =
      match definitionFor mode.toNat u i f with
      | .error e => .error (e, none)
      | .ok (some d) => .ok (some d)
      | .ok none => if ValMsgid v then
          .error (.nmeaMessage, (fullId i f).toOption.map fun id => (ErrorText.definition (upper id) (modeName mode)).text)
        else .ok none := by
  have hf := findDict_eq (ctxOf t i mode.toNat false v u ⟨some f, []⟩) f (mode_toNat mode hm) rfl rfl rfl (fun _ => rfl)
  have hb := baseKey_eq (ctxOf t i mode.toNat false v u ⟨some f, []⟩) f rfl
  unfold getDictT
  rw [hb, hf]
  simp only [ctxOf]
  cases hk : fullId i f with
  | error e =>
    have hd : definitionFor mode.toNat u i f = .error e := by unfold definitionFor; rw [hk]
    have he := definitionFor_error _ _ _ _ _ hd
    subst he
    rw [hd]; rfl
  | ok id =>
    simp only
    cases hd : definitionFor mode.toNat u i f with
    | error e => rfl
    | ok o =>
      cases o with
      | some d => rfl
      | none =>
        by_cases hv : ValMsgid v
        · have hv' := (valMsgid_iff v).2 hv
          simp only [hv, hv', if_true, modeWord_eq mode hm]
          rfl
        · have hv' := (valMsgid_false_iff v).2 hv
          simp only [hv, hv', if_false]
          rfl

theorem wrapT_not_msg (c : Ctx) (now : Nat → DateTime) (hs : c.streaming = true) (d : PDict) (st : St) (key m : Str) (x : TExc)
    (h : entriesT c now d st = .error (key, x)) : (wrapT m key x).1 ≠ .nmeaMessage := by
  have h1 := entriesT_erase c now d st
  rw [h] at h1
  have h2 := setPDict_error c now hs d [] st x.1 h1.symm
  obtain ⟨e, t⟩ := x
  cases e <;> first | (simp [wrapT]; done) | (simp [wrapE] at h2; done)

theorem fieldsT_eq (now : Nat → DateTime) (mode : Int) (v : Nat) (u : UDefs) (t i k : Str) (f : List Str)
    (hm : mode = 0 ∨ mode = 1 ∨ mode = 2) (hr : ValMsgid v → t ∈ NMEA_TALKERS ∧ Recognised u i) :
    (match mkMsgT now t i mode false v u (some k) ⟨some f, []⟩ with
    | .ok m => .ok (some m)
    | .error (.nmeaMessage, t) => if valMsgid v then .error (.nmeaParse, t) else .ok none
    | .error x => .error x) = fieldsT now mode v u t i k f := by
  unfold mkMsgT fieldsT
  rw [if_neg (not_not_intro hm), if_neg (fun h => h.1 (hr ((valMsgid_iff v).1 h.2)).1),
    if_neg (fun h => (sourceOf_unkn i u).1 h.1 (hr ((valMsgid_iff v).1 h.2)).2)]
  simp only
  have hd := getDictT_received mode hm v u t i f
  unfold ctxOf at hd ⊢
  unfold doAttributesT
  rw [hd]
  cases hdef : definitionFor mode.toNat u i f with
  | error e =>
    have he := definitionFor_error _ _ _ _ _ hdef
    subst he
    rfl
  | ok o =>
    cases o with
    | none =>
      simp only
      by_cases hv : ValMsgid v
      · simp only [hv, (valMsgid_iff v).2 hv, if_true]
        rfl
      · simp only [hv, if_false]
        rfl
    | some d =>
      simp only
      have hcl : Kwargs.clash ⟨some f, []⟩ = false := rfl
      rw [hcl, Bool.false_and, if_neg (by decide)]
      cases he : entriesT (ctxOf t i mode.toNat false v u ⟨some f, []⟩) now d (st0 f) with
      | ok st =>
        have := he
        unfold ctxOf st0 at this
        unfold st0
        simp only [Ctx.payload0, Option.getD, this]
        rfl
      | error x =>
        obtain ⟨key, x⟩ := x
        have h1 := wrapT_not_msg _ _ rfl _ _ _ i _ he
        have := he
        unfold ctxOf st0 at this
        unfold st0
        simp only [Ctx.payload0, Option.getD, this]
        cases hw : wrapT i key x with
        | mk e t =>
          rw [hw] at h1
          cases e <;> first | rfl | exact absurd rfl h1

/-- `parse` of a sentence, with the texts. -/
theorem parseT_sentence (now : Nat → DateTime) (msg : RawMsg) (mode : Int) (v : Nat) (u : UDefs)
    (c t i k : Str) (f : List Str) (hs : IsSentence msg c t i f k) (hm : mode = 0 ∨ mode = 1 ∨ mode = 2) :
    parseT now msg mode v u =
      if ValCksum v ∧ upper k ≠ calcChecksum c then .error (.nmeaParse, some (ErrorText.checksum t i k (calcChecksum c)).text)
      else if ValMsgid v ∧ t ∉ NMEA_TALKERS then .error (.nmeaParse, some (ErrorText.talker t).text)
      else if ValMsgid v ∧ ¬ Recognised u i then .error (.nmeaParse, some (ErrorText.msgid t i (modeName mode)).text)
      else fieldsT now mode v u t i k f := by
  have hg : getPartsT msg = .ok ⟨c, t, i, f, k⟩ := by
    unfold getPartsT; rw [sentence_getParts _ _ _ _ _ _ hs]
  unfold parseT
  rw [if_neg (not_not_intro hm)]
  simp only [hg, bind, Except.bind]
  by_cases hc : ValCksum v ∧ upper k ≠ calcChecksum c
  · rw [if_pos hc, if_pos (by simp [(valCksum_iff v).2 hc.1, hc.2])]
    rfl
  rw [if_neg hc, if_neg (by
    simp only [Bool.and_eq_true, bne_iff_ne]
    exact fun h => hc ⟨(valCksum_iff v).1 h.1, h.2⟩)]
  by_cases ht : ValMsgid v ∧ t ∉ NMEA_TALKERS
  · have hv := (valMsgid_iff v).2 ht.1
    unfold mkMsgT
    rw [if_pos ht, if_neg (not_not_intro hm), if_pos ⟨ht.2, hv⟩]
    simp only [hv, if_true]
    rfl
  rw [if_neg ht]
  by_cases hr : ValMsgid v ∧ ¬ Recognised u i
  · have hv := (valMsgid_iff v).2 hr.1
    unfold mkMsgT
    rw [if_pos hr, if_neg (not_not_intro hm), if_neg (fun h => ht ⟨hr.1, h.1⟩), if_pos ⟨(sourceOf_unkn i u).2 hr.2, hv⟩]
    simp only [hv, if_true, modeWord_eq mode hm]
    rfl
  rw [if_neg hr]
  exact fieldsT_eq now mode v u t i k f hm fun hv =>
    ⟨Classical.byContradiction fun h => ht ⟨hv, h⟩, Classical.byContradiction fun h => hr ⟨hv, h⟩⟩

theorem firstEntries_sane (n : Nat) (d : PDict) (h : SaneNames d) : SaneNames (firstEntries n d) :=
  fun k hk => h k (firstEntries_names n d k hk)

/-- Filling a definition's first entries. -/
theorem fillable_iff (now : Nat → DateTime) (mode : Nat) (v : Nat) (u : UDefs) (t i : Str) (f : List Str) (d : PDict)
    (hd : definitionFor mode u i f = .ok (some d)) (hsane : SaneNames d) (n : Nat) :
    Fillable mode (fieldTexts t i f) (firstEntries n d) ↔
      ∃ st, setPDict (ctxOf t i mode false v u ⟨some f, []⟩) now (firstEntries n d) [] (st0 f) = .ok st := by
  obtain ⟨h1, h2⟩ := received_first (ctxOf t i mode false v u ⟨some f, []⟩) now d (firstEntries n d) n f rfl
    (firstEntries_sane n d hsane) rfl (fun _ => hd)
  constructor
  · rintro ⟨slots, attrs, he, hr⟩
    obtain ⟨st, hst, _⟩ := h2 slots attrs he hr
    exact ⟨st, hst⟩
  · rintro ⟨st, hst⟩
    obtain ⟨post, hR⟩ := h1 st hst
    exact ⟨post, st.attrs, hR.expand, hR.read⟩

/-- The fields of a sentence: where reading them stops, and what is said. -/
theorem fields_stop (now : Nat → DateTime) (mode : Nat) (v : Nat) (u : UDefs) (t i : Str) (f : List Str) (d : PDict)
    (hd : definitionFor mode u i f = .ok (some d)) (hsane : SaneNames d) (key : Str) (x : TExc)
    (h : entriesT (ctxOf t i mode false v u ⟨some f, []⟩) now d (st0 f) = .error (key, x)) :
    (∃ n, FirstUnfillable mode (fieldTexts t i f) d n key) ∧
    ((x.1 = .zeroDivision ∧ EmptyGroup d = true) ∨ wrapT i key x = (.nmeaType, some (ErrorText.attribute key i).text) ∨
      ∃ ty ∈ allTypes d, ty ∉ receivedTypes ∧ wrapT i key x = (.nmeaType, some (ErrorText.type ty).text)) := by
  obtain ⟨hsays, n, hn, hb, ha⟩ := entriesT_stops _ now (knownTypes_received _ now rfl) d _ key x h
  refine ⟨⟨n, hn, fun m hm => (fillable_iff now mode v u t i f d hd hsane m).2 (hb m hm), fun hf => ?_⟩, ?_⟩
  · obtain ⟨st, hst⟩ := (fillable_iff now mode v u t i f d hd hsane (n + 1)).1 hf
    rw [ha] at hst; cases hst
  · have h1 := entriesT_erase (ctxOf t i mode false v u ⟨some f, []⟩) now d (st0 f)
    rw [h] at h1
    have h2 := setPDict_error _ now rfl d [] _ x.1 h1.symm
    obtain ⟨e, tx⟩ := x
    cases e <;> first
      | (simp [wrapE] at h2; done)
      | (exact .inr (.inl rfl))
      | skip
    · obtain ⟨ty, h3, h4, h5⟩ := hsays rfl
      simp only at h5
      subst h5
      exact .inr (.inr ⟨ty, h3, h4, rfl⟩)
    · rcases h2 with h2 | h2
      · cases h2
      · exact .inl ⟨rfl, h2.2⟩

/-- **Exceptions say what is wrong.** Whenever `parse` raises one of the library's exceptions, it has a text, and what the text
says is so: in particular the talker, message type, mode and checksums it names are those of the message, the checksum it asks
for is the right one, and the attribute it names is the first entry of the definition that cannot be filled. -/
theorem C100_explained (now : Nat → DateTime) (msg : RawMsg) (mode : Int) (v : Nat) (u : UDefs) (e : Err) (t : Option Str)
    (hmsg : msg ≠ .other) (hmode : mode.natAbs < 10 ^ 4300) (hu : ∀ kd ∈ u, SaneNames kd.2)
    (he : e = .nmeaParse ∨ e = .nmeaType) (h : parseT now msg mode v u = .error (e, t)) :
    ∃ T : ErrorText, t = some T.text ∧ Explains mode v u msg T ∧ (e = .nmeaType ↔ T.isType = true) := by
  by_cases hm : mode = 0 ∨ mode = 1 ∨ mode = 2
  · by_cases hs : ∃ c t i f k, IsSentence msg c t i f k
    · obtain ⟨c, tk, i, f, k, hs⟩ := hs
      rw [parseT_sentence now msg mode v u c tk i k f hs hm] at h
      by_cases hc : ValCksum v ∧ upper k ≠ calcChecksum c
      · rw [if_pos hc] at h
        cases h
        exact ⟨_, rfl, .checksum c tk i k _ f hm hc.1 hs (C01_checksum_is_hex_of_xor c) hc.2, by simp [ErrorText.isType]⟩
      rw [if_neg hc] at h
      have hck : ValCksum v → IsHexText (upper k) (xorAll c) := fun hv =>
        (cksum_hex k c).1 (Classical.byContradiction fun hn => hc ⟨hv, hn⟩)
      by_cases ht : ValMsgid v ∧ tk ∉ NMEA_TALKERS
      · rw [if_pos ht] at h
        cases h
        exact ⟨_, rfl, .talker c tk i k f hm ht.1 hs hck ht.2, by simp [ErrorText.isType]⟩
      rw [if_neg ht] at h
      by_cases hr : ValMsgid v ∧ ¬ Recognised u i
      · rw [if_pos hr] at h
        cases h
        exact ⟨_, rfl, .msgid c tk i k f hm hr.1 hs hck (Classical.byContradiction fun h => ht ⟨hr.1, h⟩) hr.2, by simp [ErrorText.isType]⟩
      rw [if_neg hr] at h
      have hk : ValMsgid v → tk ∈ NMEA_TALKERS ∧ Recognised u i := fun hv =>
        ⟨Classical.byContradiction fun h => ht ⟨hv, h⟩, Classical.byContradiction fun h => hr ⟨hv, h⟩⟩
      unfold fieldsT at h
      cases hd : definitionFor mode.toNat u i f with
      | error e' =>
        rw [hd] at h
        have := definitionFor_error _ _ _ _ _ hd
        subst this
        cases h
        rcases he with he | he <;> cases he
      | ok o =>
        rw [hd] at h
        cases o with
        | none =>
          simp only at h
          by_cases hv : ValMsgid v
          · rw [if_pos hv] at h
            cases hf : fullId i f with
            | error e' =>
              unfold definitionFor at hd
              rw [hf] at hd; cases hd
            | ok id =>
              rw [hf] at h
              cases h
              exact ⟨_, rfl, .definition c tk i k id f hm hv hs hck (hk hv).1 (hk hv).2 hf hd, by simp [ErrorText.isType]⟩
          · rw [if_neg hv] at h; cases h
        | some d =>
          simp only at h
          have hsane := definitionFor_sane mode.toNat u hu i f d hd
          cases hx : entriesT (ctxOf tk i mode.toNat false v u ⟨some f, []⟩) now d (st0 f) with
          | ok st => rw [hx] at h; cases h
          | error kx =>
            obtain ⟨key, x⟩ := kx
            rw [hx] at h
            simp only [Except.error.injEq] at h
            obtain ⟨⟨n, hn⟩, hz | ha | ⟨ty, h1, h2, h3⟩⟩ := fields_stop now mode.toNat v u tk i f d hd hsane key x hx
            · obtain ⟨ex, tx⟩ := x
              obtain ⟨rfl, _⟩ := hz
              cases h
              rcases he with he | he <;> cases he
            · rw [ha] at h
              cases h
              exact ⟨_, rfl, .attribute c tk i k key f d n hm hs hck hk hd hn, by simp [ErrorText.isType]⟩
            · rw [h3] at h
              cases h
              exact ⟨_, rfl, .type c tk i k key ty f d n hm hs hck hk hd hn h1 h2, by simp [ErrorText.isType]⟩
    · unfold parseT at h
      rw [if_neg (not_not_intro hm)] at h
      cases hg : getPartsT msg with
      | ok p =>
        exfalso
        apply hs
        have := getPartsT_erase msg
        rw [hg] at this
        exact ⟨_, _, _, _, _, (getParts_sentence msg p).1 this.symm⟩
      | error x =>
        obtain ⟨h1, s, h2, h3⟩ := getPartsT_shown msg x hg hmsg
        obtain ⟨ex, tx⟩ := x
        simp only at h1 h3
        subst h1 h3
        simp only [hg, bind, Except.bind] at h
        by_cases hv : ValMsgid v
        · rw [if_pos ((valMsgid_iff v).2 hv)] at h
          cases h
          exact ⟨_, rfl, .badlyFormed s hm hv hs h2, by simp [ErrorText.isType]⟩
        · rw [if_neg (by rw [(valMsgid_false_iff v).2 hv]; decide)] at h
          cases h
  · unfold parseT at h
    rw [if_pos hm] at h
    obtain ⟨s, hs⟩ := strOfInt_ok mode hmode
    rw [hs] at h
    cases h
    exact ⟨_, rfl, .parseMode s hm hs, by simp [ErrorText.isType]⟩

theorem firstUnfillable_unique {mode : Nat} {fields : List Str} {d : PDict} {n n' : Nat} {k k' : Str}
    (h : FirstUnfillable mode fields d n k) (h' : FirstUnfillable mode fields d n' k') : n = n' ∧ k = k' := by
  have hn : n = n' := by
    rcases Nat.lt_trichotomy n n' with hl | hl | hl
    · exact absurd (h'.before (n + 1) (by omega)) h.after
    · exact hl
    · exact absurd (h.before (n' + 1) (by omega)) h'.after
  subst hn
  exact ⟨rfl, by have := h.name.symm.trans h'.name; simpa using this⟩

/-- Conversely, whenever something is wrong before the fields are looked at, that is what `parse` says; so it never says
something else. -/
theorem C100_raised (now : Nat → DateTime) (msg : RawMsg) (mode : Int) (v : Nat) (u : UDefs) (T : ErrorText)
    (h : Explains mode v u msg T) (hT : T.isType = false) : parseT now msg mode v u = .error (.nmeaParse, some T.text) := by
  have hc : ∀ {v k c}, (ValCksum v → IsHexText (upper k) (xorAll c)) → ¬ (ValCksum v ∧ upper k ≠ calcChecksum c) :=
    fun h h' => h'.2 ((cksum_hex _ _).2 (h h'.1))
  cases h with
  | parseMode s hm hs => unfold parseT; rw [if_pos hm, hs]; rfl
  | badlyFormed s hm hv hs hsh =>
    unfold parseT
    rw [if_neg (not_not_intro hm)]
    cases hg : getPartsT msg with
    | ok p =>
      exfalso
      apply hs
      have := getPartsT_erase msg
      rw [hg] at this
      exact ⟨_, _, _, _, _, (getParts_sentence msg p).1 this.symm⟩
    | error x =>
      have hno : msg ≠ .other := by
        rintro rfl
        cases hsh with | text _ _ h => cases h
      obtain ⟨h1, s', h2, h3⟩ := getPartsT_shown msg x hg hno
      have : s' = s := by
        cases hsh with
        | text _ _ h =>
          cases h2 with
          | text _ _ h' => exact textOf_unique _ _ _ h' h
          | bytes b h' => exact absurd h (h' _)
        | bytes b h =>
          cases h2 with
          | text _ _ h' => exact absurd h' (h _)
          | bytes => rfl
      subst this
      obtain ⟨ex, tx⟩ := x
      simp only at h1 h3
      subst h1 h3
      simp only [bind, Except.bind]
      rw [if_pos ((valMsgid_iff v).2 hv)]
  | checksum c t i k k' f hm hv hs hx hne =>
    have hk := C01_hex_text_unique _ _ _ hx (C01_checksum_is_hex_of_xor c)
    subst hk
    rw [parseT_sentence now msg mode v u c t i k f hs hm, if_pos ⟨hv, hne⟩]
  | talker c t i k f hm hv hs hx ht =>
    rw [parseT_sentence now msg mode v u c t i k f hs hm, if_neg (hc hx), if_pos ⟨hv, ht⟩]
  | msgid c t i k f hm hv hs hx ht hr =>
    rw [parseT_sentence now msg mode v u c t i k f hs hm, if_neg (hc hx), if_neg (fun h => h.2 ht), if_pos ⟨hv, hr⟩]
  | definition c t i k id f hm hv hs hx ht hr hf hd =>
    rw [parseT_sentence now msg mode v u c t i k f hs hm, if_neg (hc hx), if_neg (fun h => h.2 ht), if_neg (fun h => h.2 hr)]
    unfold fieldsT
    rw [hd, hf]
    simp only [hv, if_true]
    rfl
  | «attribute» => cases hT
  | type => cases hT

/-- The same for the fields, for definitions with the types there are (built-in definitions, see `C100_builtin`). -/
theorem C100_raised_fields (now : Nat → DateTime) (msg : RawMsg) (mode : Int) (v : Nat) (u : UDefs)
    (c t i k name : Str) (f : List Str) (d : PDict) (n : Nat) (hm : mode = 0 ∨ mode = 1 ∨ mode = 2)
    (hs : IsSentence msg c t i f k) (hx : ValCksum v → IsHexText (upper k) (xorAll c))
    (hk : ValMsgid v → t ∈ NMEA_TALKERS ∧ Recognised u i) (hd : definitionFor mode.toNat u i f = .ok (some d))
    (hsane : SaneNames d) (hty : ∀ ty ∈ allTypes d, ty ∈ receivedTypes) (hg : EmptyGroup d = false)
    (hn : FirstUnfillable mode.toNat (fieldTexts t i f) d n name) :
    parseT now msg mode v u = .error (.nmeaType, some (ErrorText.attribute name i).text) := by
  rw [parseT_sentence now msg mode v u c t i k f hs hm, if_neg (fun h => h.2 ((cksum_hex _ _).2 (hx h.1))),
    if_neg (fun h => h.2 (hk h.1).1), if_neg (fun h => h.2 (hk h.1).2)]
  unfold fieldsT
  rw [hd]
  simp only
  cases he : entriesT (ctxOf t i mode.toNat false v u ⟨some f, []⟩) now d (st0 f) with
  | ok st =>
    exfalso
    apply hn.after
    rw [fillable_iff now mode.toNat v u t i f d hd hsane]
    exact entriesT_all _ now d (st0 f) st he (n + 1)
  | error kx =>
    obtain ⟨key, x⟩ := kx
    obtain ⟨⟨n', hn'⟩, hz | ha | ⟨ty, h1, h2, h3⟩⟩ := fields_stop now mode.toNat v u t i f d hd hsane key x he
    · rw [hg] at hz; cases hz.2
    · obtain ⟨_, rfl⟩ := firstUnfillable_unique hn hn'
      simp only [ha]
    · exact absurd (hty ty h1) h2

/-- An attribute type no received field can have, in a built-in definition: the date of LR2 and two types of the dummy FOO. -/
def OddType (id ty : Str) : Prop :=
  id = py!"LR2" ∧ ty = py!"DTL" ∨ id = py!"FOO" ∧ (ty = py!"Z2" ∨ ty = py!"Y1")

instance (id ty : Str) : Decidable (OddType id ty) := by unfold OddType; infer_instance

theorem builtin_types (mode : Nat) (i : Str) (f : List Str) (d : PDict) (h : definitionFor mode [] i f = .ok (some d)) (ty : Str)
    (hty : ty ∈ allTypes d) : ty ∈ receivedTypes ∨ ∃ id, fullId i f = .ok id ∧ OddType (upper id) ty := by
  have h1 : ∀ mode, ∀ kd ∈ standardDefs mode, ∀ ty ∈ allTypes kd.2, ty ∈ receivedTypes ∨ OddType kd.1 ty := by
    intro mode; unfold standardDefs; split <;> decide +kernel
  have h2 : ∀ mode, ∀ kd ∈ proprietaryDefs mode, ∀ ty ∈ allTypes kd.2, ty ∈ receivedTypes := by
    intro mode; unfold proprietaryDefs; split <;> decide +kernel
  unfold definitionFor at h
  cases hf : fullId i f with
  | error e => rw [hf] at h; cases h
  | ok id =>
    rw [hf] at h
    simp only at h
    have std : lookup (upper id) (standardDefs mode) = some d → ty ∈ receivedTypes ∨ ∃ id', Except.ok id = Except.ok (ε := Err) id' ∧ OddType (upper id') ty := by
      intro h
      exact (h1 mode _ (lookup_some_mem _ _ _ h) ty hty).imp (fun h => h) fun h => ⟨id, rfl, h⟩
    split at h
    · exact std (by simpa using h)
    · split at h
      · split at h
        · cases h
        · exact .inl (h2 mode _ (lookup_some_mem _ _ _ (by simpa using h)) ty hty)
      · split at h
        · cases h
        · exact std (by simpa using h)

/-- Of built-in messages an `NMEATypeError` always names the first attribute or group that cannot be filled - except the LR2
sentence, the type of whose date the reader does not know, and the dummy FOO. -/
theorem C100_builtin (now : Nat → DateTime) (msg : RawMsg) (mode : Int) (v : Nat) (t : Option Str) (hmsg : msg ≠ .other)
    (h : parseT now msg mode v [] = .error (.nmeaType, t)) :
    ∃ c tk i f k d n name, IsSentence msg c tk i f k ∧ definitionFor mode.toNat [] i f = .ok (some d) ∧
      FirstUnfillable mode.toNat (fieldTexts tk i f) d n name ∧
      (t = some (ErrorText.attribute name i).text ∨
        ∃ id ty, fullId i f = .ok id ∧ OddType (upper id) ty ∧ t = some (ErrorText.type ty).text) := by
  have hm : mode = 0 ∨ mode = 1 ∨ mode = 2 := by
    apply Classical.byContradiction
    intro hm
    unfold parseT at h
    rw [if_pos hm] at h
    cases h
  obtain ⟨T, hT, hE, hi⟩ := C100_explained now msg mode v [] .nmeaType t hmsg
    (Nat.lt_of_le_of_lt (m := 4300) (by omega) (Nat.lt_pow_self (by omega))) (by simp) (.inr rfl) h
  have hi := hi.1 rfl
  cases hE with
  | «attribute» c tk i k name f d n _ hs _ _ hd hn => exact ⟨c, tk, i, f, k, d, n, name, hs, hd, hn, .inl hT⟩
  | type c tk i k name ty f d n _ hs _ _ hd hn hty hnt =>
    rcases builtin_types _ _ _ _ hd ty hty with h | ⟨id, h1, h2⟩
    · exact absurd h hnt
    · exact ⟨c, tk, i, f, k, d, n, name, hs, hd, hn, .inr ⟨id, ty, h1, h2, hT⟩⟩
  | _ => cases hi

theorem firstEntries_flat (n : Nat) (d : PDict) (h : IsFlat d = true) :
    IsFlat (firstEntries n d) = true ∧ slotsOf (firstEntries n d) [] = (slotsOf d []).take n := by
  induction d generalizing n with
  | nil => cases n <;> simp [firstEntries, IsFlat, slotsOf]
  | single k t r ih =>
    cases n with
    | zero => simp [firstEntries, IsFlat, slotsOf]
    | succ n => simpa [firstEntries, IsFlat, slotsOf] using ih n h
  | group => cases h

theorem fillable_flat (mode : Nat) (fields : List Str) (d : PDict) (h : IsFlat d = true) (n : Nat) :
    Fillable mode fields (firstEntries n d) ↔
      ∀ m name ty text, m < n → (slotsOf d [])[m]? = some (name, ty) → fields[m]? = some text →
        ∃ val, str2val text ty = .ok val := by
  obtain ⟨h1, h2⟩ := firstEntries_flat n d h
  have hst : IsStatic (firstEntries n d) = true := (C15_flat _ h1).1
  unfold Fillable
  simp only [expand_static_iff mode fields _ hst, h2]
  constructor
  · rintro ⟨_, attrs, rfl, hr⟩ m name ty text hm hs hf
    exact readSlots_ok_val _ _ _ _ hr m name ty text (by rw [List.getElem?_take_of_lt hm]; exact hs) hf
  · intro hall
    cases hr : readSlots ((slotsOf d []).take n) fields [] with
    | ok attrs => exact ⟨_, attrs, rfl, hr⟩
    | error e =>
      exfalso
      obtain ⟨m, name, ty, text, hs, hf, hv⟩ := readSlots_error _ _ _ _ hr
      have hm : m < n := by
        have := (List.getElem?_eq_some_iff.1 hs).1
        simp only [List.length_take] at this
        omega
      rw [List.getElem?_take_of_lt hm] at hs
      obtain ⟨val, hval⟩ := hall m name ty text hm hs hf
      rw [hv] at hval; cases hval

/-- In a definition without groups, the attribute named is that of the first field whose text does not fit its type. -/
theorem C100_field (mode : Nat) (fields : List Str) (d : PDict) (h : IsFlat d = true) (n : Nat) (name : Str) :
    FirstUnfillable mode fields d n name ↔
      ∃ ty text, (slotsOf d [])[n]? = some (name, ty) ∧ fields[n]? = some text ∧ (∃ e, str2val text ty = .error e) ∧
        ∀ m name' ty' text', m < n → (slotsOf d [])[m]? = some (name', ty') → fields[m]? = some text' →
          ∃ val, str2val text' ty' = .ok val := by
  have hname : ∀ d : PDict, IsFlat d = true → ∀ n, entryName d n = ((slotsOf d [])[n]?).map Prod.fst := by
    intro d h
    induction d with
    | nil => intro n; cases n <;> rfl
    | single k t r ih => intro n; cases n with
      | zero => simp [entryName, slotsOf]
      | succ n => simpa [entryName, slotsOf] using ih h n
    | group => cases h
  constructor
  · rintro ⟨h1, h2, h3⟩
    rw [hname d h] at h1
    obtain ⟨⟨nm, ty⟩, hs, rfl⟩ := Option.map_eq_some_iff.1 h1
    have hb := (fillable_flat mode fields d h n).1 (h2 n (Nat.le_refl n))
    rw [fillable_flat mode fields d h] at h3
    cases hf : fields[n]? with
    | none =>
      exfalso
      apply h3
      intro m name' ty' text' hm hs' hf'
      rcases Nat.lt_or_eq_of_le (Nat.le_of_lt_succ hm) with hl | rfl
      · exact hb m name' ty' text' hl hs' hf'
      · rw [hf] at hf'; cases hf'
    | some text =>
      refine ⟨ty, text, hs, rfl, ?_, hb⟩
      cases hv : str2val text ty with
      | error e => exact ⟨e, rfl⟩
      | ok val =>
        exfalso
        apply h3
        intro m name' ty' text' hm hs' hf'
        rcases Nat.lt_or_eq_of_le (Nat.le_of_lt_succ hm) with hl | rfl
        · exact hb m name' ty' text' hl hs' hf'
        · rw [hs] at hs'; rw [hf] at hf'; cases hs'; cases hf'; exact ⟨val, hv⟩
  · rintro ⟨ty, text, hs, hf, ⟨e, he⟩, hb⟩
    refine ⟨by rw [hname d h, hs]; rfl, fun m hm => ?_, fun hfill => ?_⟩
    · rw [fillable_flat mode fields d h]
      exact fun m' name' ty' text' hm' => hb m' name' ty' text' (by omega)
    · rw [fillable_flat mode fields d h] at hfill
      obtain ⟨val, hv⟩ := hfill n name ty text (by omega) hs hf
      rw [he] at hv; cases hv

/-- The texts that do not fit their type: of a number with decimals or an integer, not empty and not such a number; of a
latitude or longitude, too large; or the type does not exist. Texts of every other type fit. -/
theorem C100_misfits (text ty : Str) :
    (∃ e, str2val text ty = .error e) ↔
      (ty = py!"DE" ∧ text ≠ [] ∧ ∃ e, floatOfStr text = .error e) ∨ (ty = py!"IN" ∧ text ≠ [] ∧ ∃ e, intOfStr text = .error e) ∨
      ((ty = py!"LA" ∨ ty = py!"LN") ∧ dmm2ddd text = .error .overflow) ∨ ty ∉ receivedTypes := by
  by_cases hty : ty ∈ receivedTypes
  · simp only [hty, not_true, or_false]
    simp only [receivedTypes, List.mem_cons, List.not_mem_nil, or_false] at hty
    have no : ∀ v : PyVal, ¬ ∃ e, (Except.ok v : Except Err PyVal) = .error e := by rintro v ⟨e, h⟩; cases h
    rcases hty with rfl | rfl | rfl | rfl | rfl | rfl | rfl | rfl | rfl | rfl | rfl | rfl | rfl
    case inr.inl =>
      have : str2val text py!"DE" = if text ≠ [] then (floatOfStr text).map .float else .ok (.str text) := rfl
      rw [this]
      by_cases ht : text = []
      · simp [ht]
      · simp only [ne_eq, ht, not_false_eq_true, if_true, true_and]
        cases floatOfStr text <;> simp [Except.map]
    case inr.inr.inr.inr.inr.inl =>
      have : str2val text py!"IN" = if text ≠ [] then (intOfStr text).map .int else .ok (.str text) := rfl
      rw [this]
      by_cases ht : text = []
      · simp [ht]
      · simp only [ne_eq, ht, not_false_eq_true, if_true, true_and]
        cases intOfStr text <;> simp [Except.map]
    case inr.inr.inr.inr.inr.inr.inl =>
      have : str2val text py!"LA" = dmm2ddd text := rfl
      rw [this]
      constructor
      · rintro ⟨e, he⟩
        have := dmm2ddd_error _ _ he
        subst this
        exact .inr (.inr ⟨.inl rfl, he⟩)
      · rintro (h | h | h)
        · exact absurd h.1 (by decide)
        · exact absurd h.1 (by decide)
        · exact ⟨_, h.2⟩
    case inr.inr.inr.inr.inr.inr.inr.inr.inl =>
      have : str2val text py!"LN" = dmm2ddd text := rfl
      rw [this]
      constructor
      · rintro ⟨e, he⟩
        have := dmm2ddd_error _ _ he
        subst this
        exact .inr (.inr ⟨.inr rfl, he⟩)
      · rintro (h | h | h)
        · exact absurd h.1 (by decide)
        · exact absurd h.1 (by decide)
        · exact ⟨_, h.2⟩
    all_goals
      refine ⟨fun h => absurd h (no _), ?_⟩
      rintro (h | h | h)
      · exact absurd h.1 (by decide)
      · exact absurd h.1 (by decide)
      · exact absurd h.1 (by decide)
  · simp only [hty, not_false_eq_true, or_true, iff_true]
    refine ⟨.nmeaType, ?_⟩
    simp only [receivedTypes, List.mem_cons, List.not_mem_nil, or_false, not_or] at hty
    obtain ⟨h1, h2, h3, h4, h5, h6, h7, h8, h9, h10, h11, h12, h13⟩ := hty
    unfold str2val
    simp only [CH, Nmea.ST, LAD, LND, QS, HX, DE, DT, DM, IN, LA, LN, TM, h1, h2, h3, h4, h5, h6, h7, h8, h9, h10, h11, h12, h13,
      or_self, if_false]

/-- A sentence with the checksum the text asks for has no wrong checksum. -/
theorem C100_repair (mode : Int) (v : Nat) (u : UDefs) (msg msg' : RawMsg) (c t i k k' : Str) (f : List Str)
    (h : Explains mode v u msg (.checksum t i k k')) (hs : IsSentence msg c t i f k) (hs' : IsSentence msg' c t i f k') :
    (∀ t₁ i₁ k₁ k₂, ¬ Explains mode v u msg' (.checksum t₁ i₁ k₁ k₂)) ∧ ∀ now T,
      parseT now msg' mode v u ≠ .error (.nmeaParse, some (py!"Message " ++ T)) := by
  cases h with
  | checksum c₀ _ _ _ _ f₀ hm hv hs₀ hx hne =>
    have h1 := sentence_parts _ _ _ _ _ _ hs _ ((getParts_sentence _ ⟨c₀, t, i, f₀, k⟩).2 hs₀)
    cases h1
    have hup : upper k' = k' := by
      have : ∀ ch ∈ hexDigits, upperChar ch = [ch] := by decide +kernel
      have hall := hx.1
      clear hx hs' hne
      unfold upper
      induction k' with
      | nil => rfl
      | cons ch ks ih =>
        simp only [List.flatMap_cons, this ch (hall ch (by simp)), ih (fun c hc => hall c (by simp [hc])), List.cons_append,
          List.nil_append]
    have hok : upper k' = calcChecksum c := by rw [hup]; exact C01_hex_text_unique _ _ _ hx (C01_checksum_is_hex_of_xor c)
    refine ⟨fun t₁ i₁ k₁ k₂ hE => ?_, fun now T hp => ?_⟩
    · cases hE with
      | checksum c₁ _ _ _ _ f₁ _ _ hs₁ hx₁ hne₁ =>
        have h1 := sentence_parts _ _ _ _ _ _ hs' _ ((getParts_sentence _ ⟨c₁, t₁, i₁, f₁, k₁⟩).2 hs₁)
        cases h1
        exact hne₁ (hok.trans (C01_hex_text_unique _ _ _ (C01_checksum_is_hex_of_xor c) hx₁))
    · rw [parseT_sentence now msg' mode v u c t i k' f hs' hm, if_neg (fun h => h.2 hok)] at hp
      split at hp
      · simp [ErrorText.text] at hp
      split at hp
      · simp [ErrorText.text] at hp
      unfold fieldsT at hp
      split at hp
      · cases hp
      · split at hp
        · simp only [Except.error.injEq, Prod.mk.injEq, true_and] at hp
          cases hf : fullId i f <;> rw [hf] at hp <;> simp [Except.toOption, ErrorText.text] at hp
        · cases hp
      · split at hp
        · cases hp
        · rename_i key x hx
          simp only [Except.error.injEq] at hp
          have h1 := entriesT_erase (ctxOf t i mode.toNat false v u ⟨some f, []⟩) now ‹PDict› (st0 f)
          rw [hx] at h1
          have h2 := setPDict_error _ now rfl _ [] _ x.1 h1.symm
          obtain ⟨e, tx⟩ := x
          cases e <;> first | (simp [wrapE] at h2; done) | (simp [wrapT] at hp; done)

/-! ## The reader -/

/-- With the texts, `read` returns, raises, logs and consumes what it does without, for every stream object. -/
theorem C100_reader_same {σ} (now : Nat → DateTime) (ops : StreamOps σ) (cfg : RCfg) (s : σ) :
    readMsg now ops cfg s =
      ((readMsgT now ops cfg s).1, (readMsgT now ops cfg s).2.2.1.map Prod.fst, (readMsgT now ops cfg s).2.2.2) :=
  (readMsgT_erase s).symm

/-- The reader's log of a file, line by line: for every file, the exceptions logged (or raised, if exceptions are to be raised)
are exactly those of its unacceptable lines, of headers of other protocols (if only NMEA is allowed) and of a cut-off last
line, in the order of the file, each with its own text. -/
theorem C100_log (now : Nat → DateTime) (cfg : RCfg) (hq : cfg.quitonerror = 1 ∨ cfg.quitonerror = 2) (b : Bytes) :
    ∃ ps es, Pieces b ps ∧ SessionT now fileStream cfg b es ∧
      transcriptT es = ps.filterMap (replyT now cfg) ++ [(.none, none)] := by
  obtain ⟨ps, hp⟩ := pieces_exists b
  obtain ⟨es, h1, h2⟩ := sessionT_file now cfg hq b ps hp
  exact ⟨ps, es, hp, h1, h2⟩

/-! ## How bytes are shown -/

theorem escByte_printable : ∀ q ∈ [34, 39], ∀ c < 256, ∀ x ∈ escChar (fun _ => false) q c, 32 ≤ x ∧ x < 127 := by decide +kernel

/-- Bytes that are not UTF-8, and the header of another protocol, are shown as a Python literal of bytes: `b` and a literal that
denotes exactly these bytes, all of it printable ASCII characters. -/
theorem C100_bytes (b : Bytes) :
    ∃ l, reprBytes b = 98 :: l ∧ Literal l (b.map UInt8.toNat) ∧ ∀ c ∈ l, 32 ≤ c ∧ c < 127 := by
  refine ⟨_, rfl, C66_string _ _ ?_, ?_⟩
  · intro c hc
    obtain ⟨x, _, rfl⟩ := List.mem_map.1 hc
    have := x.toNat_lt
    omega
  · have hq : quoteFor (b.map UInt8.toNat) ∈ [34, 39] := by unfold quoteFor; split <;> simp
    intro c hc
    unfold Nmea.reprStr at hc
    simp only [List.mem_cons, List.mem_append, List.mem_flatMap, List.not_mem_nil, or_false] at hc
    have hq' : 32 ≤ quoteFor (b.map UInt8.toNat) ∧ quoteFor (b.map UInt8.toNat) < 127 := by
      unfold quoteFor; split <;> simp
    rcases hc with rfl | ⟨a, ha, hc⟩ | rfl
    · exact hq'
    · obtain ⟨x, _, rfl⟩ := List.mem_map.1 ha
      exact escByte_printable _ hq _ x.toNat_lt _ hc
    · exact hq'

/-! ## Concrete cases -/

/-- A wrong checksum. -/
example : parseT clock0 (.bytes pb!"$GNGLL,5327.04319,S,00214.41396,E,223232.00,A,A*69\r\n") 0 1 [] =
    .error (.nmeaParse, some py!"Message GNGLL invalid checksum 69 - should be 68.") := by decide +kernel

/-- A satellite count that is no number. -/
example : parseT clock0 (.bytes pb!"$GNGGA,103607.00,5327.03942,N,10214.42462,W,1,x6,1.5,56.0,M,48.5,M,,*00\r\n") 0 0 [] =
    .error (.nmeaType, some py!"Incorrect type for attribute numSV in msgID GGA.") := by decide +kernel

/-- Inside a group the text names the group, not the attribute. -/
theorem C100_group_named :
    parseT clock0 (.bytes pb!"$GPGSV,3,1,10,23,38,xx,44*00\r\n") 0 0 [] =
      .error (.nmeaType, some py!"Incorrect type for attribute group_sv in msgID GSV.") := by decide +kernel

/-- The date of an LR2 sentence. -/
theorem C100_lr2 : parseT clock0 (.bytes pb!"$GPLR2,1,2,01012024,103607.00,5327.03942,N,10214.42462,W,1.0,T*00\r\n") 0 0 [] =
    .error (.nmeaType, some py!"Unknown attribute type DTL.") := by decide +kernel

example : parseT clock0 (.bytes pb!"$XXGLL*00\r\n") 0 2 [] = .error (.nmeaParse, some py!"Unknown talker XX.") := by decide +kernel
example : parseT clock0 (.bytes pb!"$GNXYZ*00\r\n") 2 2 [] =
    .error (.nmeaParse, some py!"Unknown msgID GNXYZ, msgmode POLL.") := by decide +kernel
example : parseT clock0 (.bytes pb!"$PUBX,77*00\r\n") 0 2 [] =
    .error (.nmeaParse, some py!"Unknown msgID UBX77 msgmode GET.") := by decide +kernel
example : parseT clock0 (.bytes pb!"$GNGLL,1\r\n") 0 2 [] =
    .error (.nmeaParse, some py!"Badly formed message $GNGLL,1\r\n") := by decide +kernel
example : parseT clock0 (.bytes [36, 255, 42]) 0 2 [] =
    .error (.nmeaParse, some py!"Badly formed message b'$\\xff*'") := by decide +kernel
example : parseT clock0 (.bytes pb!"$GNGLL*00\r\n") 3 0 [] =
    .error (.nmeaParse, some py!"Invalid parse mode 3 - must be 0, 1 or 2.") := by decide +kernel

/-- The hypotheses of `C100_raised_fields` are met. -/
example : ∃ d, definitionFor 0 [] py!"GGA" [py!"103607.00", py!"5327.03942", py!"N", py!"10214.42462", py!"W", py!"1", py!"x6"] =
    .ok (some d) ∧ SaneNames d ∧ (∀ ty ∈ allTypes d, ty ∈ receivedTypes) ∧ EmptyGroup d = false ∧ IsFlat d = true ∧
    (slotsOf d [])[6]? = some (py!"numSV", py!"IN") ∧ (∃ e, str2val py!"x6" py!"IN" = .error e) :=
  ⟨_, rfl, by decide +kernel, by decide +kernel, by decide +kernel, by decide +kernel, by decide +kernel, .value, by decide +kernel⟩

end Props
