import Verif.Lemmas.MadeErrors
import Verif.Props.ErrorText
import Verif.Props.Generate
import Verif.Props.Defaults
import Verif.Props.Benchmark
import Verif.Lemmas.Degrees
/-!
# Properties: what the constructor says about its keywords (C101)
-/
namespace Props
open Py Nmea Spec

/-- With the texts, the constructor makes the same messages and raises the same exceptions as without. -/
theorem C101_same (now : Nat → DateTime) (t i : Str) (mode : Int) (hp : Bool) (v : Nat) (u : UDefs) (ck : Option Str) (kw : Kwargs) :
    (∀ m, mkMsgT now t i mode hp v u ck kw = .ok m ↔ mkMsg now t i mode hp v u ck kw = .ok m) ∧
    (∀ e, (∃ x, mkMsgT now t i mode hp v u ck kw = .error (e, x)) ↔ mkMsg now t i mode hp v u ck kw = .error e) := by
  rw [← mkMsgT_erase]
  cases mkMsgT now t i mode hp v u ck kw with
  | ok r => simp [erase]
  | error x => obtain ⟨e, t⟩ := x; simp [erase]

theorem madeT_error (now : Nat → DateTime) (t i : Str) (mode : Int) (hp : Bool) (v : Nat) (u : UDefs) (ck : Option Str)
    (kw : List (Str × PyVal)) (hm : mode = 0 ∨ mode = 1 ∨ mode = 2) (hids : ValMsgid v → t ∈ NMEA_TALKERS ∧ Recognised u i)
    (hkw : PlainKeywords i kw) (x : TExc) :
    mkMsgT now t i mode hp v u ck ⟨none, kw⟩ = .error x ↔
      (∃ y, getDictT (ctxOf t i mode.toNat hp v u ⟨none, kw⟩) = .error y ∧ x = wrapT i [] y) ∨
      (∃ d k y, getDictT (ctxOf t i mode.toNat hp v u ⟨none, kw⟩) = .ok (some d) ∧
        entriesT (ctxOf t i mode.toNat hp v u ⟨none, kw⟩) now d (st0 []) = .error (k, y) ∧ x = wrapT i k y) := by
  unfold mkMsgT
  rw [if_neg (not_not_intro hm), if_neg (fun h => h.1 (hids ((valMsgid_iff v).1 h.2)).1),
    if_neg (fun h => (sourceOf_unkn i u).1 h.1 (hids ((valMsgid_iff v).1 h.2)).2)]
  simp only
  unfold doAttributesT
  show (match (match getDictT (ctxOf t i mode.toNat hp v u ⟨none, kw⟩) with
    | .error x => .error (wrapT i [] x)
    | .ok none => _
    | .ok (some d) => _ : Except TExc (List Str × Option Str × List (Str × PyVal))) with
    | .error x => .error x
    | .ok (payload, ck, attrs) => _ : Except TExc Msg) = _ ↔ _
  cases hg : getDictT (ctxOf t i mode.toNat hp v u ⟨none, kw⟩) with
  | error y =>
    simp only [Except.error.injEq, reduceCtorEq, false_and, exists_false, or_false, exists_eq_left']
    exact eq_comm
  | ok o =>
    cases o with
    | none => simp
    | some d =>
      have hcl : (Kwargs.clash ⟨none, kw⟩) = false := hkw.noClash.clash
      simp only [show (ctxOf t i mode.toNat hp v u ⟨none, kw⟩).kw = ⟨none, kw⟩ from rfl, hcl, Bool.false_and]
      rw [if_neg (by decide)]
      show (match (match entriesT (ctxOf t i mode.toNat hp v u ⟨none, kw⟩) now d (st0 []) with
        | .error (key, x) => .error (wrapT i key x)
        | .ok st => _ : Except TExc (List Str × Option Str × List (Str × PyVal))) with
        | .error x => .error x
        | .ok (payload, ck, attrs) => _ : Except TExc Msg) = _ ↔ _
      cases he : entriesT (ctxOf t i mode.toNat hp v u ⟨none, kw⟩) now d (st0 []) with
      | ok st => simp [he]
      | error z =>
        obtain ⟨k, y⟩ := z
        constructor
        · intro h
          cases h
          exact .inr ⟨d, k, y, rfl, he, rfl⟩
        · rintro (⟨y, h, _⟩ | ⟨d', k', y', h1, h2, rfl⟩)
          · cases h
          · cases h1
            rw [he] at h2
            cases h2
            rfl

theorem writable_iff (now : Nat → DateTime) (t i : Str) (mode : Nat) (hp : Bool) (v : Nat) (u : UDefs)
    (kw : List (Str × PyVal)) (d : PDict) (hd : SaneGen d) :
    Writable kw mode hp now d ↔ ∃ st, setPDict (ctxOf t i mode hp v u ⟨none, kw⟩) now d [] (st0 []) = .ok st := by
  obtain ⟨g1, g2⟩ := generated now t i mode hp v u kw d hd
  constructor
  · rintro ⟨ws, h⟩; obtain ⟨st, h, _⟩ := g2 ws h; exact ⟨st, h⟩
  · rintro ⟨st, h⟩; obtain ⟨ws, h, _⟩ := g1 st h; exact ⟨ws, h⟩

theorem firstEntries_saneGen (n : Nat) (d : PDict) (h : SaneGen d) : SaneGen (firstEntries n d) :=
  fun k hk => h k (firstEntries_names n d k hk)

/-- Where writing the keywords stops, and what is said. -/
theorem keywords_stop (now : Nat → DateTime) (t i : Str) (mode : Nat) (hp : Bool) (v : Nat) (u : UDefs)
    (kw : List (Str × PyVal)) (d : PDict) (hd : SaneGen d) (key : Str) (x : TExc)
    (h : entriesT (ctxOf t i mode hp v u ⟨none, kw⟩) now d (st0 []) = .error (key, x)) :
    (∃ n, FirstUnwritable kw mode hp now d n key) ∧
    (wrapT i key x = (.nmeaType, some (ErrorText.attribute key i).text) ∨
      ∃ ty ∈ allTypes d, ty ∉ writtenTypes ∧ wrapT i key x = (.nmeaType, some (ErrorText.type ty).text)) := by
  obtain ⟨hsays, n, hn, hb, ha⟩ := entriesT_stops _ now (knownTypes_written _ now rfl) d _ key x h
  refine ⟨⟨n, hn, fun m hm => (writable_iff now t i mode hp v u kw _ (firstEntries_saneGen m d hd)).2 (hb m hm), fun hf => ?_⟩, ?_⟩
  · obtain ⟨st, hst⟩ := (writable_iff now t i mode hp v u kw _ (firstEntries_saneGen (n + 1) d hd)).1 hf
    rw [ha] at hst; cases hst
  · have h1 := entriesT_erase (ctxOf t i mode hp v u ⟨none, kw⟩) now d (st0 [])
    rw [h] at h1
    have h2 := setPDict_gen_error _ now rfl d [] _ x.1 h1.symm
    obtain ⟨e, tx⟩ := x
    cases e <;> first
      | (simp [wrapE] at h2; done)
      | (exact .inl rfl)
      | skip
    obtain ⟨ty, h3, h4, h5⟩ := hsays rfl
    simp only at h5
    subst h5
    exact .inr ⟨ty, h3, h4, rfl⟩

/-- The first entry that cannot be written is one only. -/
theorem firstUnwritable_unique {kw mode hp now d n n' k k'} (h : FirstUnwritable kw mode hp now d n k)
    (h' : FirstUnwritable kw mode hp now d n' k') : n = n' ∧ k = k' := by
  have : n = n' := by
    rcases Nat.lt_trichotomy n n' with hl | he | hl
    · exact absurd (h'.before (n + 1) (by omega)) h.after
    · exact he
    · exact absurd (h.before (n' + 1) (by omega)) h'.after
  subst this
  exact ⟨rfl, by have := h.name; rw [h'.name] at this; cases this; rfl⟩

theorem kwFullId_of_getDict {t i : Str} {mode : Nat} {hp v u} {kw : List (Str × PyVal)}
    {key : Str} (h : baseKey (ctxOf t i mode hp v u ⟨none, kw⟩) = .ok key) : kwFullId i kw = .ok key := by
  rw [baseKey_kw _ rfl] at h; exact h

/-- The definition chosen by keywords is a user's, or one of the tables'. -/
theorem kwDefinition_from {mode : Nat} {u : UDefs} {i : Str} {kw : List (Str × PyVal)} {d : PDict} (h : KwDefinition mode u i kw d) :
    (∃ k, (k, d) ∈ standardDefs mode) ∨ (∃ k, (k, d) ∈ proprietaryDefs mode) ∨ ∃ k, (k, d) ∈ u := by
  obtain ⟨id, _, h⟩ := h
  split at h
  · exact .inl ⟨_, lookup_some_mem _ _ _ h⟩
  · split at h
    · rcases h with ⟨s, _, h⟩ | ⟨_, _, h⟩ <;> exact .inr (.inl ⟨_, lookup_some_mem _ _ _ h⟩)
    · split at h
      · exact .inr (.inr ⟨_, lookup_some_mem _ _ _ h⟩)
      · exact .inl ⟨_, lookup_some_mem _ _ _ h⟩

theorem kwDefinition_saneGen {mode : Nat} {u : UDefs} {i : Str} {kw : List (Str × PyVal)} {d : PDict} (h : KwDefinition mode u i kw d)
    (hu : ∀ kd ∈ u, SaneGen kd.2) : SaneGen d := by
  rcases kwDefinition_from h with ⟨k, h⟩ | ⟨k, h⟩ | ⟨k, h⟩
  · exact tables_sane_gen.1 _ _ h
  · exact tables_sane_gen.2 _ _ h
  · exact hu _ h

/-- Every exception of the constructor called with keywords is explained by its text: it is `NMEAMessageError` or
`NMEATypeError`, its text is one of the listed texts, and what the text says is so. -/
theorem C101_explained (now : Nat → DateTime) (t i : Str) (mode : Int) (hp : Bool) (v : Nat) (u : UDefs) (ck : Option Str)
    (kw : List (Str × PyVal)) (hkw : PlainKeywords i kw) (hmode : mode.natAbs < 10 ^ 4300) (hu : ∀ kd ∈ u, SaneGen kd.2)
    (e : Err) (x : Option Str) (h : mkMsgT now t i mode hp v u ck ⟨none, kw⟩ = .error (e, x)) :
    ∃ T : MadeText, x = some T.text ∧ MadeExplains now t i mode hp v u kw T ∧
      e = if T.isType then .nmeaType else .nmeaMessage := by
  by_cases hm : mode = 0 ∨ mode = 1 ∨ mode = 2
  · by_cases ht : ValMsgid v ∧ t ∉ NMEA_TALKERS
    · unfold mkMsgT at h
      rw [if_neg (not_not_intro hm), if_pos ⟨ht.2, (valMsgid_iff v).2 ht.1⟩] at h
      cases h
      exact ⟨.common (.talker t), rfl, .talker hm ht.1 ht.2, rfl⟩
    by_cases hr : ValMsgid v ∧ ¬ Recognised u i
    · unfold mkMsgT at h
      have hv := (valMsgid_iff v).2 hr.1
      rw [if_neg (not_not_intro hm), if_neg (fun h => ht ⟨hr.1, h.1⟩), if_pos ⟨(sourceOf_unkn i u).2 hr.2, hv⟩,
        modeWord_eq mode hm] at h
      cases h
      exact ⟨.common (.msgid t i (modeName mode)), rfl,
        .msgid hm hr.1 (Classical.byContradiction fun h => ht ⟨hr.1, h⟩) hr.2, rfl⟩
    have hids : ValMsgid v → t ∈ NMEA_TALKERS ∧ Recognised u i := fun hv =>
      ⟨Classical.byContradiction fun h => ht ⟨hv, h⟩, Classical.byContradiction fun h => hr ⟨hv, h⟩⟩
    have hnc := hkw.noClash
    obtain ⟨f1, f2⟩ := findDict_kw_error (ctxOf t i mode.toNat hp v u ⟨none, kw⟩) rfl rfl (hnc.has _ (by decide)) (fun h => hnc.mode h)
    have fd := findDict_kw (ctxOf t i mode.toNat hp v u ⟨none, kw⟩) (mode_toNat mode hm) rfl rfl (hnc.has _ (by decide))
      (fun h => hnc.mode h)
    rcases (madeT_error now t i mode hp v u ck kw hm hids hkw (e, x)).1 h with ⟨y, hg, hx⟩ | ⟨d, k, y, hg, he, hx⟩
    · unfold getDictT at hg
      cases hb : baseKey (ctxOf t i mode.toNat hp v u ⟨none, kw⟩) with
      | error e' =>
        have hfe : findDict (ctxOf t i mode.toNat hp v u ⟨none, kw⟩) = .error e' := by unfold findDict; rw [hb]; rfl
        rw [hb] at hg
        rcases f1 _ hfe with ⟨rfl, h1, h2⟩ | ⟨h1, h2, h3⟩
        · cases hg
          cases hx
          exact ⟨.needsName i, rfl, .needsName hm hids h1 h2, rfl⟩
        · cases e' <;> first
            | (simp [wrapE] at h1; done)
            | exact absurd rfl h2
            | (cases hg; cases hx; exact ⟨.selector i, by simp [MadeText.text], .selector hm hids h3, rfl⟩)
      | ok key =>
        rw [hb] at hg
        simp only at hg
        cases hf : findDict (ctxOf t i mode.toNat hp v u ⟨none, kw⟩) with
        | error e' =>
          rw [hf] at hg
          rcases f1 _ hf with ⟨rfl, h1, h2⟩ | ⟨h1, h2, h3⟩
          · exfalso
            rw [baseKey_kw _ rfl] at hb
            change kwFullId i kw = .ok key at hb
            change i ∈ NMEA_PREFIX_PROP at h1
            unfold kwFullId at hb
            rw [if_pos h1, (lookup_none_iff py!"msgId" kw).2 h2] at hb
            cases hb
          · cases e' <;> first
              | (simp [wrapE] at h1; done)
              | exact absurd rfl h2
              | (cases hg; cases hx; exact ⟨.selector i, by simp [MadeText.text], .selector hm hids h3, rfl⟩)
        | ok o =>
          rw [hf] at hg
          cases o with
          | some d => cases hg
          | none =>
            simp only at hg
            split at hg
            · rename_i hv
              have hv := (valMsgid_iff v).1 hv
              cases hg
              cases hx
              refine ⟨.common (.definition (upper key) (modeName mode)), ?_, .definition key hm hv (hids hv).1 (hids hv).2
                (kwFullId_of_getDict hb) ?_ ?_, rfl⟩
              · rw [← modeWord_eq mode hm]; rfl
              · intro hbad
                obtain ⟨e', h1, _⟩ := f2 hbad
                rw [hf] at h1; cases h1
              · intro d hd
                have := (fd d).2 hd
                rw [hf] at this; cases this
            · cases hg
    · have hd : KwDefinition mode.toNat u i kw d := by
        refine (fd d).1 ?_
        have := getDictT_erase (ctxOf t i mode.toNat hp v u ⟨none, kw⟩)
        rw [hg] at this
        unfold getDict at this
        simp only [bind, Except.bind, erase] at this
        split at this
        · cases this
        · rename_i hf
          rw [hf]
          split at this
          · exact this.symm ▸ rfl
          · split at this <;> cases this
      obtain ⟨⟨n, hn⟩, hs⟩ := keywords_stop now t i mode.toNat hp v u kw d (kwDefinition_saneGen hd hu) k y he
      rcases hs with h1 | ⟨ty, h1, h2, h3⟩
      · rw [h1] at hx
        cases hx
        exact ⟨.common (.attribute k i), rfl, .attribute d n k hm hids hd hn, rfl⟩
      · rw [h3] at hx
        cases hx
        exact ⟨.common (.type ty), rfl, .type d n k ty hm hids hd hn h1 h2, rfl⟩
  · unfold mkMsgT at h
    rw [if_pos hm] at h
    obtain ⟨s, hs⟩ := strOfInt_ok mode hmode
    rw [hs] at h
    cases h
    exact ⟨.msgmode s, rfl, .msgmode s hm hs, rfl⟩

/-- Conversely, whatever of these is so, the constructor says so; if more than one is, the first it finds. -/
theorem C101_raised (now : Nat → DateTime) (t i : Str) (mode : Int) (hp : Bool) (v : Nat) (u : UDefs) (ck : Option Str)
    (kw : List (Str × PyVal)) (hkw : PlainKeywords i kw) (hu : ∀ kd ∈ u, SaneGen kd.2)
    (hty : ∀ d, KwDefinition mode.toNat u i kw d → ∀ ty ∈ allTypes d, ty ∈ writtenTypes)
    (T : MadeText) (hT : MadeExplains now t i mode hp v u kw T) :
    mkMsgT now t i mode hp v u ck ⟨none, kw⟩ = .error (if T.isType then .nmeaType else .nmeaMessage, some T.text) := by
  have hnc := hkw.noClash
  have f1 := findDict_kw_error (ctxOf t i mode.toNat hp v u ⟨none, kw⟩) rfl rfl (hnc.has _ (by decide)) (fun h => hnc.mode h)
  have fd : (mode = 0 ∨ mode = 1 ∨ mode = 2) → _ := fun hm => findDict_kw (ctxOf t i mode.toNat hp v u ⟨none, kw⟩)
    (mode_toNat mode hm) rfl rfl (hnc.has _ (by decide)) (fun h => hnc.mode h)
  cases hT with
  | msgmode s hm hs => unfold mkMsgT; rw [if_pos hm, hs]; rfl
  | talker hm hv ht =>
    unfold mkMsgT
    rw [if_neg (not_not_intro hm), if_pos ⟨ht, (valMsgid_iff v).2 hv⟩]; rfl
  | msgid hm hv ht hr =>
    unfold mkMsgT
    rw [if_neg (not_not_intro hm), if_neg (fun h => h.1 ht), if_pos ⟨(sourceOf_unkn i u).2 hr, (valMsgid_iff v).2 hv⟩,
      modeWord_eq mode hm]
    rfl
  | needsName hm hids hi hg =>
    rw [madeT_error now t i mode hp v u ck kw hm hids hkw]
    refine .inl ⟨(.nmeaMessage, some (MadeText.needsName i).text), ?_, rfl⟩
    have hb : baseKey (ctxOf t i mode.toNat hp v u ⟨none, kw⟩) = .error .nmeaMessage := by
      rw [baseKey_kw _ rfl]
      show kwFullId i kw = _
      unfold kwFullId
      rw [if_pos hi, (lookup_none_iff _ _).2 hg]
    unfold getDictT
    rw [hb]
    rfl
  | selector hm hids hb =>
    rw [madeT_error now t i mode hp v u ck kw hm hids hkw]
    obtain ⟨e, he, hw, hne, hbk⟩ := f1.2 hb
    refine .inl ⟨(e, none), ?_, ?_⟩
    · unfold getDictT
      cases hk : baseKey (ctxOf t i mode.toNat hp v u ⟨none, kw⟩) with
      | error e' =>
        have : findDict (ctxOf t i mode.toNat hp v u ⟨none, kw⟩) = .error e' := by unfold findDict; rw [hk]; rfl
        rw [he] at this
        cases this
        have := hbk _ hk
        cases e <;> first | rfl | exact absurd rfl this
      | ok key => simp only [he]; rfl
    · cases e <;> first | (simp [wrapE] at hw; done) | exact absurd rfl hne | (simp [wrapT, MadeText.isType, MadeText.text])
  | definition id hm hv ht hr hk hb hd =>
    rw [madeT_error now t i mode hp v u ck kw hm (fun _ => ⟨ht, hr⟩) hkw]
    refine .inl ⟨(.nmeaMessage, some (ErrorText.definition (upper id) (modeName mode)).text), ?_, rfl⟩
    have hbk : baseKey (ctxOf t i mode.toNat hp v u ⟨none, kw⟩) = .ok id := by rw [baseKey_kw _ rfl]; exact hk
    unfold getDictT
    rw [hbk]
    simp only
    cases hf : findDict (ctxOf t i mode.toNat hp v u ⟨none, kw⟩) with
    | error e =>
      exfalso
      rcases f1.1 _ hf with ⟨rfl, h1, h2⟩ | ⟨_, _, h3⟩
      · unfold kwFullId at hk
        change i ∈ NMEA_PREFIX_PROP at h1
        rw [if_pos h1, (lookup_none_iff py!"msgId" kw).2 h2] at hk
        cases hk
      · exact hb h3
    | ok o =>
      cases o with
      | some d => exact absurd ((fd hm d).1 hf) (hd d)
      | none =>
        simp only
        rw [if_pos (show valMsgid (ctxOf t i mode.toNat hp v u ⟨none, kw⟩).validate = true from (valMsgid_iff v).2 hv),
          ← modeWord_eq mode hm]
        rfl
  | «attribute» d n name hm hids hd hn =>
    rw [madeT_error now t i mode hp v u ck kw hm hids hkw]
    have hg : getDictT (ctxOf t i mode.toNat hp v u ⟨none, kw⟩) = .ok (some d) := by
      have hf := (fd hm d).2 hd
      unfold getDictT
      cases hk : baseKey (ctxOf t i mode.toNat hp v u ⟨none, kw⟩) with
      | error e' =>
        have : findDict (ctxOf t i mode.toNat hp v u ⟨none, kw⟩) = .error e' := by unfold findDict; rw [hk]; rfl
        rw [hf] at this; cases this
      | ok key => simp only [hf]
    cases he : entriesT (ctxOf t i mode.toNat hp v u ⟨none, kw⟩) now d (st0 []) with
    | ok st =>
      exfalso
      obtain ⟨s, hs⟩ := entriesT_all _ now d _ _ he (n + 1)
      exact hn.after ((writable_iff now t i mode.toNat hp v u kw _
        (firstEntries_saneGen (n + 1) d (kwDefinition_saneGen hd hu))).2 ⟨s, hs⟩)
    | error z =>
      obtain ⟨k, y⟩ := z
      obtain ⟨⟨n', hn'⟩, hs⟩ := keywords_stop now t i mode.toNat hp v u kw d (kwDefinition_saneGen hd hu) k y he
      obtain ⟨rfl, rfl⟩ := firstUnwritable_unique hn hn'
      refine .inr ⟨d, name, y, hg, he, ?_⟩
      rcases hs with h1 | ⟨ty, h1, h2, _⟩
      · rw [h1]; rfl
      · exact absurd (hty d hd ty h1) h2
  | type d n name ty hm hids hd hn h1 h2 => exact absurd (hty d hd ty h1) h2

/-! ## Whom the exception names -/

theorem default_writes (t : Str) (ht : t ∈ writtenTypes) (mode : Nat) (now : DateTime) (hp : Bool) :
    ∃ v text, nomval t mode now = .ok v ∧ val2str v t hp = .ok text := by
  simp only [writtenTypes, receivedTypes, List.mem_cons, List.not_mem_nil, or_false] at ht
  rcases ht with rfl | rfl | rfl | rfl | rfl | rfl | rfl | rfl | rfl | rfl | rfl | rfl | rfl | rfl <;> exact ⟨_, _, rfl, rfl⟩

theorem lastValue_some_iff (x : Str) (ws : List Written) : (∃ v, lastValue x ws = some v) ↔ ∃ w ∈ ws, w.name = x := by
  constructor
  · rintro ⟨v, h⟩
    apply Classical.byContradiction
    intro hn
    rw [(lastValue_none x ws).2 (fun w hw he => hn ⟨w, hw, he⟩)] at h
    cases h
  · rintro ⟨w, hw, he⟩
    cases h : lastValue x ws with
    | some v => exact ⟨v, rfl⟩
    | none => exact absurd he ((lastValue_none x ws).1 h w hw)

/-- One attribute: it can be written unless its keyword is taken and cannot be written. -/
theorem chosen_writes (kw : List (Str × PyVal)) (mode : Nat) (hp : Bool) (now : Nat → DateTime) (pre : List Written) (name t : Str)
    (ht : t ∈ writtenTypes) :
    (∃ v text, chosen kw mode now pre name t = .ok v ∧ val2str v t hp = .ok text) ↔
      ∀ val e, lookup name kw = some val → val2str val t hp = .error e →
        ∃ axis neg pos, directionOf t = some (axis, neg, pos) ∧ ∃ w ∈ pre, w.name = axis := by
  obtain ⟨dv, dt, hn, hd⟩ := default_writes t ht mode (now (clockReads pre)) hp
  have hfrom : (nomval t mode (now (clockReads pre))).map (keywordOr kw name) = .ok (keywordOr kw name dv) := by rw [hn]; rfl
  have plain : (∃ v text, (nomval t mode (now (clockReads pre))).map (keywordOr kw name) = .ok v ∧ val2str v t hp = .ok text) ↔
      ∀ val e, lookup name kw = some val → val2str val t hp ≠ .error e := by
    rw [hfrom]
    simp only [Except.ok.injEq, exists_eq_left']
    unfold keywordOr
    cases hl : lookup name kw with
    | none => simp [hd]
    | some val =>
      constructor
      · rintro ⟨v, text, rfl, h⟩ val' e hv he; cases hv; rw [h] at he; cases he
      · intro h
        cases hv : val2str val t hp with
        | ok text => exact ⟨val, text, rfl, hv⟩
        | error e => exact absurd hv (h val e rfl)
  unfold chosen
  simp only
  cases hdir : directionOf t with
  | none =>
    simp only [plain]
    constructor
    · intro h val e hl hv; exact absurd hv (h val e hl)
    · intro h val e hl hv
      obtain ⟨_, _, _, h1, _⟩ := h val e hl hv
      cases h1
  | some x =>
    obtain ⟨axis, neg, pos⟩ := x
    simp only
    cases hlv : lastValue axis pre with
    | none =>
      simp only [plain]
      constructor
      · intro h val e hl hv; exact absurd hv (h val e hl)
      · intro h val e hl hv
        obtain ⟨_, _, _, h1, w, hw, he⟩ := h val e hl hv
        cases h1
        exact (lastValue_none axis pre).1 hlv w hw he
    | some v =>
      have hw := (lastValue_some_iff axis pre).1 ⟨v, hlv⟩
      refine ⟨fun _ val e _ _ => ⟨axis, neg, pos, rfl, hw⟩, fun _ => ⟨_, if IsNegative v then neg else pos, rfl, ?_⟩⟩
      · unfold directionOf at hdir
        split at hdir
        · rename_i h; subst h; rfl
        · split at hdir
          · rename_i h; subst h; rfl
          · cases hdir

theorem flat_writes (kw : List (Str × PyVal)) (mode : Nat) (hp : Bool) (now : Nat → DateTime) (d : PDict) (hf : IsFlat d = true)
    (ht : ∀ ty ∈ allTypes d, ty ∈ writtenTypes) (pre : List Written) :
    (∃ post, Emit kw mode hp now d [] pre post) ↔
      ∀ (m : Nat) name ty val e, (slotsOf d [])[m]? = some (name, ty) → lookup name kw = some val →
        val2str val ty hp = .error e → ∃ axis neg pos, directionOf ty = some (axis, neg, pos) ∧
          ((∃ w ∈ pre, w.name = axis) ∨ ∃ m' < m, ∃ ty', (slotsOf d [])[m']? = some (axis, ty')) := by
  induction d generalizing pre with
  | nil => exact ⟨fun _ m name ty val e h => by simp [slotsOf] at h, fun _ => ⟨pre, .nil _ _⟩⟩
  | group => cases hf
  | single k t r ih =>
    have hc := chosen_writes kw mode hp now pre k t (ht t (by simp [allTypes]))
    have ih := ih hf (fun ty h => ht ty (by simp [allTypes, h]))
    constructor
    · rintro ⟨post, h⟩
      cases h with
      | single _ _ _ _ _ _ v text h1 h2 h3 =>
        simp only [List.append_nil] at h1 h3
        intro m name ty val e hm hl hv
        rcases m with _ | m
        · simp only [slotsOf, List.append_nil, List.getElem?_cons_zero, Option.some.injEq, Prod.mk.injEq] at hm
          obtain ⟨rfl, rfl⟩ := hm
          obtain ⟨axis, neg, pos, h4, h5⟩ := hc.1 ⟨v, text, h1, h2⟩ val e hl hv
          exact ⟨axis, neg, pos, h4, .inl h5⟩
        · simp only [slotsOf, List.append_nil, List.getElem?_cons_succ] at hm
          obtain ⟨axis, neg, pos, h4, h5⟩ := (ih _).1 ⟨post, h3⟩ m name ty val e hm hl hv
          refine ⟨axis, neg, pos, h4, ?_⟩
          rcases h5 with ⟨w, hw, he⟩ | ⟨m', hm', ty', h6⟩
          · rcases List.mem_append.1 hw with hw | hw
            · exact .inl ⟨w, hw, he⟩
            · simp only [List.mem_singleton] at hw
              subst hw
              exact .inr ⟨0, by omega, t, by simp only [slotsOf, List.append_nil, List.getElem?_cons_zero]; rw [← he]⟩
          · exact .inr ⟨m' + 1, by omega, ty', by simpa [slotsOf] using h6⟩
    · intro h
      obtain ⟨v, text, h1, h2⟩ := hc.2 (fun val e hl hv => by
        obtain ⟨axis, neg, pos, h4, h5⟩ := h 0 k t val e (by simp [slotsOf]) hl hv
        rcases h5 with h5 | ⟨m', hm', _⟩
        · exact ⟨axis, neg, pos, h4, h5⟩
        · omega)
      obtain ⟨post, h3⟩ := (ih (pre ++ [⟨k, t, v, text⟩])).2 (fun m name ty val e hm hl hv => by
        obtain ⟨axis, neg, pos, h4, h5⟩ := h (m + 1) name ty val e (by simpa [slotsOf] using hm) hl hv
        refine ⟨axis, neg, pos, h4, ?_⟩
        rcases h5 with ⟨w, hw, he⟩ | ⟨m', hm', ty', h6⟩
        · exact .inl ⟨w, by simp [hw], he⟩
        · rcases m' with _ | m'
          · simp only [slotsOf, List.append_nil, List.getElem?_cons_zero, Option.some.injEq, Prod.mk.injEq] at h6
            exact .inl ⟨⟨k, t, v, text⟩, by simp, h6.1⟩
          · exact .inr ⟨m', by omega, ty', by simpa [slotsOf] using h6⟩)
      exact ⟨post, .single k t r [] pre post v text (by simpa using h1) h2 (by simpa using h3)⟩

theorem firstEntries_types (n : Nat) (d : PDict) : ∀ ty ∈ allTypes (firstEntries n d), ty ∈ allTypes d := by
  induction d generalizing n with
  | nil => cases n <;> simp [firstEntries]
  | single k t r ih =>
    cases n with
    | zero => simp [firstEntries, allTypes]
    | succ n =>
      intro ty h
      simp only [firstEntries, allTypes, List.mem_cons] at h ⊢
      exact h.imp id (ih n ty)
  | group k rep b r _ ih =>
    cases n with
    | zero => simp [firstEntries, allTypes]
    | succ n =>
      intro ty h
      simp only [firstEntries, allTypes, List.mem_append] at h ⊢
      exact h.imp id (ih n ty)

theorem writable_flat (kw : List (Str × PyVal)) (mode : Nat) (hp : Bool) (now : Nat → DateTime) (d : PDict) (hf : IsFlat d = true)
    (ht : ∀ ty ∈ allTypes d, ty ∈ writtenTypes) (n : Nat) :
    Writable kw mode hp now (firstEntries n d) ↔ ∀ m < n, ∀ name, ¬ BadKeyword kw hp d m name := by
  obtain ⟨h1, h2⟩ := firstEntries_flat n d hf
  unfold Writable
  rw [flat_writes kw mode hp now _ h1 (fun ty h => ht ty (firstEntries_types n d ty h)) [], h2]
  constructor
  · rintro h m hm name ⟨ty, val, e, hs, hl, hv, hno⟩
    obtain ⟨axis, neg, pos, h3, h4⟩ := h m name ty val e (by rw [List.getElem?_take_of_lt hm]; exact hs) hl hv
    rcases h4 with ⟨w, hw, _⟩ | ⟨m', hm', ty', h5⟩
    · cases hw
    · rw [List.getElem?_take_of_lt (by omega)] at h5
      exact hno axis neg pos h3 m' hm' ty' h5
  · intro h m name ty val e hs hl hv
    have hm : m < n := by
      have := (List.getElem?_eq_some_iff.1 hs).1
      simp only [List.length_take] at this
      omega
    rw [List.getElem?_take_of_lt hm] at hs
    apply Classical.byContradiction
    intro hn
    refine h m hm name ⟨ty, val, e, hs, hl, hv, fun axis neg pos hd m' hm' ty' h5 => hn ⟨axis, neg, pos, hd, .inr ⟨m', hm', ty', ?_⟩⟩⟩
    rw [List.getElem?_take_of_lt (by omega)]
    exact h5

/-- In a definition without groups the attribute named is one for which a keyword was given whose value cannot be written, and
the first such: an attribute left open is never named, nor is one given a usable value. -/
theorem C101_culprit (kw : List (Str × PyVal)) (mode : Nat) (hp : Bool) (now : Nat → DateTime) (d : PDict) (hf : IsFlat d = true)
    (ht : ∀ ty ∈ allTypes d, ty ∈ writtenTypes) (n : Nat) (name : Str) :
    FirstUnwritable kw mode hp now d n name ↔ BadKeyword kw hp d n name ∧ ∀ m < n, ∀ name', ¬ BadKeyword kw hp d m name' := by
  have hname : ∀ d : PDict, IsFlat d = true → ∀ n, entryName d n = ((slotsOf d [])[n]?).map Prod.fst := by
    intro d h
    induction d with
    | nil => intro n; cases n <;> rfl
    | single k t r ih => intro n; cases n with
      | zero => simp [entryName, slotsOf]
      | succ n => simpa [entryName, slotsOf] using ih h n
    | group => cases h
  constructor
  · rintro ⟨h1, h2, h3⟩
    have hb := (writable_flat kw mode hp now d hf ht n).1 (h2 n (Nat.le_refl n))
    rw [writable_flat kw mode hp now d hf ht] at h3
    refine ⟨?_, hb⟩
    apply Classical.byContradiction
    intro hn
    apply h3
    intro m hm name' hbad
    rcases Nat.lt_or_eq_of_le (Nat.le_of_lt_succ hm) with hl | rfl
    · exact hb m hl name' hbad
    · obtain ⟨ty, val, e, hs, _⟩ := id hbad
      rw [hname d hf, hs] at h1
      cases h1
      exact hn hbad
  · rintro ⟨hbad, hb⟩
    refine ⟨?_, fun m hm => ?_, fun h => ?_⟩
    · obtain ⟨ty, val, e, hs, _⟩ := hbad
      rw [hname d hf, hs]; rfl
    · rw [writable_flat kw mode hp now d hf ht]
      exact fun m' hm' => hb m' (by omega)
    · rw [writable_flat kw mode hp now d hf ht] at h
      exact h n (by omega) name hbad

/-- The values that cannot be written: with a type that is written as text or number, an integer of more than 4300 digits; as
latitude or longitude, a number too large for a float; with a type that does not exist, any. Every other value can, whatever it
means: text, `None`, dates as numbers and so on. -/
theorem C101_misfits (v : PyVal) (ty : Str) (hp : Bool) :
    (∃ e, val2str v ty hp = .error e) ↔
      (ty ∈ [py!"CH", py!"ST", py!"LAD", py!"LND", py!"QS", py!"HX", py!"DE", py!"IN"] ∧ ∃ z, v = .int z ∧ 10 ^ 4300 ≤ z.natAbs) ∨
      ((ty = py!"LA" ∨ ty = py!"LN") ∧ ddd2dmm v ty hp = .error .overflow) ∨ ty ∉ writtenTypes := by
  by_cases hty : ty ∈ writtenTypes
  · have tx : (∃ e, v.toStr = .error e) ↔ ∃ z, v = .int z ∧ 10 ^ 4300 ≤ z.natAbs := toStr_error_iff v
    have no : ∀ x : Str, ¬ ∃ e, (Except.ok x : Except Err Str) = .error e := by rintro v ⟨e, h⟩; cases h
    simp only [hty, not_true, or_false]
    simp only [writtenTypes, receivedTypes, List.mem_cons, List.not_mem_nil, or_false] at hty
    have hov : ∀ ty, (∃ e, ddd2dmm v ty hp = .error e) ↔ ddd2dmm v ty hp = .error .overflow := by
      intro ty
      constructor
      · rintro ⟨e, h⟩; have := ddd2dmm_overflow _ _ _ _ h; subst this; exact h
      · intro h; exact ⟨_, h⟩
    rcases hty with rfl | rfl | rfl | rfl | rfl | rfl | rfl | rfl | rfl | rfl | rfl | rfl | rfl | rfl
    case inr.inr.inr.inr.inr.inr.inr.inl =>
      rw [show val2str v py!"LA" hp = ddd2dmm v py!"LA" hp from rfl, hov]
      simp
    case inr.inr.inr.inr.inr.inr.inr.inr.inr.inl =>
      rw [show val2str v py!"LN" hp = ddd2dmm v py!"LN" hp from rfl, hov]
      simp
    all_goals first
      | (rw [show val2str v _ hp = v.toStr from rfl, tx]; simp; done)
      | (refine ⟨fun h => absurd h ?_, fun h => absurd h (by simp)⟩
         rintro ⟨e, h⟩
         cases v <;> cases h)
  · simp only [hty, not_false_eq_true, or_true, iff_true]
    refine ⟨.nmeaType, ?_⟩
    simp only [writtenTypes, receivedTypes, List.mem_cons, List.not_mem_nil, or_false, not_or] at hty
    obtain ⟨h0, h1, h2, h3, h4, h5, h6, h7, h8, h9, h10, h11, h12, h13⟩ := hty
    unfold val2str
    simp only [CH, Nmea.ST, LAD, LND, QS, HX, DE, DT, DM, DTL, IN, LA, LN, TM, h0, h1, h2, h3, h4, h5, h6, h7, h8, h9, h10, h11,
      h12, h13, or_self, if_false]

/-- Values of ordinary size can be written with every type there is. -/
theorem ordinary_writes (v : PyVal) (ty : Str) (hp : Bool) (hty : ty ∈ writtenTypes) (h : Ordinary ty v) (e : Err) :
    val2str v ty hp ≠ .error e := by
  intro he
  have h300 : (10 : ℕ) ^ 300 < 10 ^ 4300 := Nat.pow_lt_pow_right (by omega) (by omega)
  rcases (C101_misfits v ty hp).1 ⟨e, he⟩ with ⟨_, z, rfl, hz⟩ | ⟨hla, hov⟩ | hno
  · simp only [Ordinary] at h
    omega
  · cases v with
    | float x =>
      cases x with
      | fin s a =>
        obtain ⟨h0, h1⟩ := h hla
        obtain ⟨_, _, _, _, _, _, _, _, h2⟩ := ddd2dmm_sum (s := s) h0 h1 ty hp
        rw [h2] at hov; cases hov
      | inf s => cases s <;> cases hov
      | nan => cases hov
    | int z =>
      simp only [Ordinary] at h
      have hb : ((z.natAbs : ℤ) * 60 / 60 * 100 + (z.natAbs : ℤ) * 60 % 60) ≤ 10 ^ 306 := by
        have e1 : (z.natAbs : ℤ) * 60 / 60 = z.natAbs := by omega
        have e2 : (z.natAbs : ℤ) * 60 % 60 = 0 := by omega
        have e3 : ((z.natAbs : ℕ) : ℤ) ≤ ((10 ^ 300 : ℕ) : ℤ) := by exact_mod_cast h
        rw [e1, e2]
        push_cast at e3 ⊢
        calc |z| * 100 + 0 ≤ 10 ^ 300 * 100 := by linarith
          _ ≤ 10 ^ 300 * 10 ^ 6 := by
            apply mul_le_mul_of_nonneg_left (by norm_num) (by positivity)
          _ = 10 ^ 306 := by rw [← pow_add]
      have hof := Benchmark.ofInt_pos (a := (z.natAbs : ℤ) * 60 / 60 * 100 + (z.natAbs : ℤ) * 60 % 60) (by omega) hb
      simp only [ddd2dmm, PyVal.num?, hof] at hov
      cases hov
    | bool b =>
      have hof := Benchmark.ofInt_pos (a := ((if b then 1 else 0 : ℤ).natAbs : ℤ) * 60 / 60 * 100 +
        ((if b then 1 else 0 : ℤ).natAbs : ℤ) * 60 % 60) (by omega) (by
          refine le_trans (b := 100) (by cases b <;> decide) ?_
          calc (100 : ℤ) = 10 ^ 2 := by norm_num
            _ ≤ 10 ^ 306 := pow_le_pow_right₀ (by norm_num) (by norm_num))
      simp only [ddd2dmm, PyVal.num?, hof] at hov
      cases hov
    | _ => cases hov
  · exact hno hty

theorem slot_allTypes (d : PDict) (k ty : Str) (hf : IsFlat d = true) (hmem : (k, ty) ∈ slotsOf d []) : ty ∈ allTypes d := by
  induction d with
  | nil => simp [slotsOf] at hmem
  | single k' t' r ih =>
    simp only [slotsOf, List.mem_cons, Prod.mk.injEq] at hmem
    rcases hmem with ⟨_, rfl⟩ | hmem
    · simp [allTypes]
    · simp [allTypes, ih hf hmem]
  | group => cases hf

/-- The constructor accepts, for every attribute of a definition without groups, every keyword value of ordinary size, whatever
it is: a text for a number, `None` for a time, a date for a latitude. -/
theorem C101_accepts (now : Nat → DateTime) (t i : Str) (mode : Int) (hp : Bool) (v : Nat) (u : UDefs) (ck : Option Str)
    (kw : List (Str × PyVal)) (hm : mode = 0 ∨ mode = 1 ∨ mode = 2) (hids : KnownIds v u t i) (hkw : PlainKeywords i kw)
    (hu : ∀ kd ∈ u, SaneGen kd.2) (d : PDict) (hd : KwDefinition mode.toNat u i kw d) (hf : IsFlat d = true)
    (ht : ∀ ty ∈ allTypes d, ty ∈ writtenTypes)
    (hv : ∀ name ty val, (name, ty) ∈ slotsOf d [] → lookup name kw = some val → Ordinary ty val) :
    ∃ m, mkMsgT now t i mode hp v u ck ⟨none, kw⟩ = .ok m := by
  have hnc := hkw.noClash
  cases h : mkMsgT now t i mode hp v u ck ⟨none, kw⟩ with
  | ok m => exact ⟨m, rfl⟩
  | error x =>
    exfalso
    have fd := (findDict_kw (ctxOf t i mode.toNat hp v u ⟨none, kw⟩) (mode_toNat mode hm) rfl rfl (hnc.has _ (by decide))
      (fun h => hnc.mode h) d).2 hd
    have hg : getDictT (ctxOf t i mode.toNat hp v u ⟨none, kw⟩) = .ok (some d) := by
      unfold getDictT
      cases hk : baseKey (ctxOf t i mode.toNat hp v u ⟨none, kw⟩) with
      | error e' =>
        have : findDict (ctxOf t i mode.toNat hp v u ⟨none, kw⟩) = .error e' := by unfold findDict; rw [hk]; rfl
        rw [fd] at this; cases this
      | ok key => simp only [fd]
    rcases (madeT_error now t i mode hp v u ck kw hm hids hkw x).1 h with ⟨y, hg', _⟩ | ⟨d', k, y, hg', he, _⟩
    · rw [hg] at hg'; cases hg'
    · rw [hg] at hg'
      cases hg'
      obtain ⟨⟨n, hn⟩, _⟩ := keywords_stop now t i mode.toNat hp v u kw d (kwDefinition_saneGen hd hu) k y he
      obtain ⟨⟨ty, val, e, hs, hl, hval, _⟩, _⟩ := (C101_culprit kw mode.toNat hp now d hf ht n k).1 hn
      have hmem := List.mem_of_getElem? hs
      have htm : ty ∈ allTypes d := slot_allTypes d k ty hf hmem
      exact ordinary_writes val ty hp (ht ty htm) (hv k ty val hmem hl) e hval

theorem lookup_without (name k : Str) (kw : List (Str × PyVal)) :
    lookup k (without name kw) = if k = name then none else lookup k kw := by
  induction kw with
  | nil => simp [without, lookup]
  | cons p r ih =>
    obtain ⟨a, b⟩ := p
    unfold without at ih ⊢
    by_cases ha : a = name
    · rw [List.filter_cons_of_neg (by simpa using ha), ih]
      by_cases hk : k = name
      · simp [hk]
      · have h1 : ¬ a = k := fun h => hk (h ▸ ha)
        have h2 : ¬ k = a := fun h => h1 h.symm
        simp [hk, lookup, h1, h2]
    · rw [List.filter_cons_of_pos (by simpa using ha)]
      by_cases hk : k = a
      · subst hk; simp [lookup, ha]
      · have hk' : ¬ a = k := fun h => hk h.symm
        simp only [lookup, hk, hk', if_false, ih]

/-- If the keyword named by the exception is left out, the message is made, or the exception names a later attribute - provided
the keyword does not select the layout. So a user who leaves out what is named gets a message in the end. -/
theorem C101_repair (now : Nat → DateTime) (t i : Str) (mode : Int) (hp : Bool) (v : Nat) (u : UDefs) (ck : Option Str)
    (kw : List (Str × PyVal)) (hm : mode = 0 ∨ mode = 1 ∨ mode = 2) (hids : KnownIds v u t i) (hkw : PlainKeywords i kw)
    (hu : ∀ kd ∈ u, SaneGen kd.2) (d : PDict) (n : Nat) (name : Str) (hf : IsFlat d = true)
    (ht : ∀ ty ∈ allTypes d, ty ∈ writtenTypes) (hn : FirstUnwritable kw mode.toNat hp now d n name)
    (hd' : KwDefinition mode.toNat u i (without name kw) d) :
    (∃ m, mkMsgT now t i mode hp v u ck ⟨none, without name kw⟩ = .ok m) ∨
    ∃ n' name', n < n' ∧ FirstUnwritable (without name kw) mode.toNat hp now d n' name' ∧
      mkMsgT now t i mode hp v u ck ⟨none, without name kw⟩ = .error (.nmeaType, some (ErrorText.attribute name' i).text) := by
  have hkw' : PlainKeywords i (without name kw) := by
    intro k hk
    apply hkw k
    simp only [List.mem_map] at hk ⊢
    obtain ⟨p, hp, rfl⟩ := hk
    exact ⟨p, (List.mem_filter.1 hp).1, rfl⟩
  have hnc := hkw'.noClash
  have hbad : ∀ m nm, BadKeyword (without name kw) hp d m nm → nm ≠ name ∧ BadKeyword kw hp d m nm := by
    rintro m nm ⟨ty, val, e, h1, h2, h3⟩
    rw [lookup_without] at h2
    split at h2
    · cases h2
    · exact ⟨by assumption, ty, val, e, h1, h2, h3⟩
  obtain ⟨hb, hbefore⟩ := (C101_culprit kw mode.toNat hp now d hf ht n name).1 hn
  cases h : mkMsgT now t i mode hp v u ck ⟨none, without name kw⟩ with
  | ok m => exact .inl ⟨m, rfl⟩
  | error x =>
    right
    have fd := (findDict_kw (ctxOf t i mode.toNat hp v u ⟨none, without name kw⟩) (mode_toNat mode hm) rfl rfl (hnc.has _ (by decide))
      (fun h => hnc.mode h) d).2 hd'
    have hg : getDictT (ctxOf t i mode.toNat hp v u ⟨none, without name kw⟩) = .ok (some d) := by
      unfold getDictT
      cases hk : baseKey (ctxOf t i mode.toNat hp v u ⟨none, without name kw⟩) with
      | error e' =>
        have : findDict (ctxOf t i mode.toNat hp v u ⟨none, without name kw⟩) = .error e' := by unfold findDict; rw [hk]; rfl
        rw [fd] at this; cases this
      | ok key => simp only [fd]
    rcases (madeT_error now t i mode hp v u ck (without name kw) hm hids hkw' x).1 h with ⟨y, hg', _⟩ | ⟨d', k, y, hg', he, hx⟩
    · rw [hg] at hg'; cases hg'
    · rw [hg] at hg'
      cases hg'
      obtain ⟨⟨n', hn'⟩, hs⟩ := keywords_stop now t i mode.toNat hp v u (without name kw) d (kwDefinition_saneGen hd' hu) k y he
      obtain ⟨hb', _⟩ := (C101_culprit (without name kw) mode.toNat hp now d hf ht n' k).1 hn'
      obtain ⟨h1, h2⟩ := hbad n' k hb'
      refine ⟨n', k, ?_, hn', ?_⟩
      · rcases Nat.lt_trichotomy n n' with hl | heq | hl
        · exact hl
        · subst heq
          obtain ⟨ty, _, _, hs1, _⟩ := hb
          obtain ⟨ty', _, _, hs2, _⟩ := h2
          rw [hs1] at hs2
          cases hs2
          exact absurd rfl h1
        · exact absurd h2 (hbefore n' hl k)
      · rcases hs with h3 | ⟨ty, h3, h4, _⟩
        · rw [hx, h3]
        · exact absurd (ht ty h3) h4

/-- Of built-in messages other than the dummy FOO, an `NMEATypeError` always names the first attribute or group that cannot be
written - except that it names nothing if the keyword selecting the layout cannot be used. -/
theorem C101_builtin (now : Nat → DateTime) (t i : Str) (mode : Int) (hp : Bool) (v : Nat) (ck : Option Str)
    (kw : List (Str × PyVal)) (hkw : PlainKeywords i kw) (hfoo : upper i ≠ py!"FOO") (x : Option Str)
    (h : mkMsgT now t i mode hp v [] ck ⟨none, kw⟩ = .error (.nmeaType, x)) :
    (BadSelector i kw ∧ x = some (MadeText.selector i).text) ∨
    ∃ d n name, KwDefinition mode.toNat [] i kw d ∧ FirstUnwritable kw mode.toNat hp now d n name ∧
      x = some (ErrorText.attribute name i).text := by
  have hm : mode = 0 ∨ mode = 1 ∨ mode = 2 := by
    apply Classical.byContradiction
    intro hm
    unfold mkMsgT at h
    rw [if_pos hm] at h
    cases h
  obtain ⟨T, hT, hE, he⟩ := C101_explained now t i mode hp v [] ck kw hkw
    (Nat.lt_of_le_of_lt (m := 4300) (by omega) (Nat.lt_pow_self (by omega))) (by simp) _ x h
  subst hT
  cases hE with
  | selector _ _ hb => exact .inl ⟨hb, rfl⟩
  | «attribute» d n name _ _ hd hn => exact .inr ⟨d, n, name, hd, hn, rfl⟩
  | type d n name ty _ _ hd hn h1 h2 =>
    exfalso
    apply h2
    have t1 : ∀ mode, ∀ kd ∈ standardDefs mode, kd.1 = py!"FOO" ∨ ∀ ty ∈ allTypes kd.2, ty ∈ writtenTypes := by
      intro mode; unfold standardDefs; split <;> decide +kernel
    have t2 : ∀ mode, ∀ kd ∈ proprietaryDefs mode, ∀ ty ∈ allTypes kd.2, ty ∈ writtenTypes := by
      intro mode; unfold proprietaryDefs; split <;> decide +kernel
    obtain ⟨id, hid, hd⟩ := hd
    have hstd : lookup (upper id) (standardDefs mode.toNat) = some d → i ∉ NMEA_PREFIX_PROP → ty ∈ writtenTypes := by
      intro h hne
      rw [kwFullId, if_neg hne] at hid
      cases hid
      exact (t1 _ _ (lookup_some_mem _ _ _ h)).resolve_left hfoo ty h1
    split at hd
    · rename_i hst
      have : ∀ x ∈ NMEA_PREFIX_PROP, ¬ IsStandard x := by decide
      exact hstd hd (fun hp => this i hp hst)
    · split at hd
      · rcases hd with ⟨s, _, h⟩ | ⟨_, _, h⟩ <;> exact t2 _ _ (lookup_some_mem _ _ _ h) ty h1
      · rename_i hnp
        split at hd
        · cases hd
        · exact hstd hd (fun hp => hnp (.inr hp))
  | _ => cases he

/-! ## Assignments -/

/-- With the texts, assignments do what they do without. -/
theorem C101_setattr_same (m : Msg) (name : Str) (v : PyVal) :
    (m.setattrT name v).2 = (m.setattr name v).2 ∧
    ((m.setattrT name v).1 = .ok () ↔ (m.setattr name v).1 = .ok ()) ∧
    (∀ e, (∃ x, (m.setattrT name v).1 = .error (e, x)) ↔ (m.setattr name v).1 = .error e) := by
  unfold Msg.setattrT
  by_cases hi : m.immutable = true
  · have : m.setattr name v = (.error .nmeaMessage, m) := by unfold Msg.setattr; rw [if_pos hi]
    rw [if_pos hi, this]
    simp
  · rw [if_neg hi]
    refine ⟨rfl, ?_⟩
    cases (m.setattr name v).1 with
    | ok a => simp [Except.mapError]
    | error e => simp [Except.mapError, bare]

/-- An assignment to an attribute of a finished message raises `NMEAMessageError`, whose text names the attribute; the message is
as before. -/
theorem C101_immutable (now : Nat → DateTime) (t i : Str) (mode : Int) (hp : Bool) (v : Nat) (u : UDefs) (ck : Option Str)
    (kw : Kwargs) (m : Msg) (h : mkMsgT now t i mode hp v u ck kw = .ok m) (name : Str) (val : PyVal) :
    m.setattrT name val = (.error (.nmeaMessage, some (MadeText.immutable name).text), m) := by
  have hm : m.immutable = true := by
    have := ((C101_same now t i mode hp v u ck kw).1 m).1 h
    obtain ⟨_, _, o, _, rfl⟩ := mkMsg_ok _ _ _ _ _ _ _ _ _ _ this
    cases o <;> rfl
  unfold Msg.setattrT
  rw [if_pos hm]
  rfl

/-! ## Concrete cases -/

/-- An invalid mode. -/
example : mkMsgT clock0 py!"GN" py!"GLL" 3 false 1 [] none ⟨none, []⟩ =
    .error (.nmeaMessage, some py!"Invalid msgmode 3 - must be 0, 1 or 2.") := by decide +kernel

/-- A proprietary sentence without its name. -/
example : mkMsgT clock0 py!"P" py!"UBX" 2 false 1 [] none ⟨none, []⟩ =
    .error (.nmeaMessage, some py!"PUBX message definitions must include payload or msgId keyword arguments.") := by decide +kernel

/-- A proprietary sentence whose name is given as a number: the text names no attribute. -/
theorem C101_nameless : mkMsgT clock0 py!"P" py!"UBX" 2 false 1 [] none ⟨none, [(py!"msgId", .int 0)]⟩ =
    .error (.nmeaType, some py!"Incorrect type for attribute  in msgID UBX.") := by decide +kernel

/-- A known message type in a mode it does not have. -/
example : mkMsgT clock0 py!"GN" py!"GLL" 2 false 2 [] none ⟨none, [(py!"lat", .int 1)]⟩ =
    .error (.nmeaMessage, some py!"Unknown msgID GLL msgmode POLL.") := by decide +kernel

/-- Texts for a quality and a number of satellites, `None` for a time and a truth value for an altitude are accepted. -/
theorem C101_anything : (mkMsgT clock0 py!"GN" py!"GGA" 0 false 1 [] none ⟨none, [(py!"quality", .str py!"many"),
    (py!"numSV", .none), (py!"alt", .bool true), (py!"lat", .str py!"north")]⟩).isOk = true := by decide +kernel

/-- A number of 4301 digits is not: the text names it. -/
theorem C101_number_named : mkMsgT clock0 py!"GN" py!"GGA" 0 false 1 [] none ⟨none, [(py!"HDOP", .int 3), (py!"numSV", .int (10 ^ 4300))]⟩ =
    .error (.nmeaType, some py!"Incorrect type for attribute numSV in msgID GGA.") := by decide +kernel

/-- Inside a group the text names the group. -/
theorem C101_group_named : mkMsgT clock0 py!"GN" py!"GSV" 0 false 1 [] none ⟨none, [(py!"numSV", .int 1), (py!"az_01", .int (10 ^ 4300))]⟩ =
    .error (.nmeaType, some py!"Incorrect type for attribute group_sv in msgID GSV.") := by decide +kernel

/-- The hypotheses of `C101_culprit`, `C101_accepts` and `C101_repair` are met. -/
example : ∃ d, KwDefinition 0 [] py!"GGA" [(py!"numSV", .int (10 ^ 4300))] d ∧
    KwDefinition 0 [] py!"GGA" (without py!"numSV" [(py!"numSV", .int (10 ^ 4300))]) d ∧ IsFlat d = true ∧
    (∀ ty ∈ allTypes d, ty ∈ writtenTypes) ∧ BadKeyword [(py!"numSV", .int (10 ^ 4300))] false d 6 py!"numSV" ∧
    PlainKeywords py!"GGA" [(py!"numSV", .int (10 ^ 4300))] ∧ KnownIds 1 [] py!"GN" py!"GGA" := by
  refine ⟨_, ⟨py!"GGA", rfl, rfl⟩, ⟨py!"GGA", rfl, rfl⟩, by decide +kernel, by decide +kernel,
    ⟨py!"IN", .int (10 ^ 4300), .value, by decide +kernel, rfl, by decide +kernel, ?_⟩, ?_, ?_⟩
  · intro a b c h; exact absurd h (by rw [show directionOf py!"IN" = none by decide]; simp)
  · decide
  · exact fun _ => by decide +kernel

end Props
