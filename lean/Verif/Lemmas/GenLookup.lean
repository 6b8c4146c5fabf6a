import Verif.Lemmas.Gen
/-! # Definition lookup for keyword generation -/
set_option linter.unusedSimpArgs false
namespace Nmea
open Py Spec

theorem given_has (kw : Kwargs) (x : Str) : kw.has x = true ↔ Given kw.others x := by
  unfold Kwargs.has Given; exact hasKey_mem _ _

theorem given_has_false (kw : Kwargs) (x : Str) : kw.has x = false ↔ ¬ Given kw.others x := by
  rw [← given_has]; simp

theorem zero_iff (v : PyVal) : Zero v ↔ v.eqZero = true := by
  constructor
  · intro h; cases h <;> simp [PyVal.eqZero, PyFloat.isZero]
  · intro h
    cases v with
    | bool b => cases b <;> first | exact .false | cases h
    | int i => simp only [PyVal.eqZero, beq_iff_eq] at h; subst h; exact .int
    | float x =>
      cases x with
      | fin s m => simp only [PyVal.eqZero, PyFloat.isZero, decide_eq_true_eq] at h; subst h; exact .float s
      | inf s => cases h
      | nan => cases h
    | _ => cases h

theorem givenZero_iff (kw : Kwargs) (x : Str) :
    (kw.get x (.int 1)).eqZero = true ↔ GivenZero kw.others x := by
  unfold Kwargs.get GivenZero
  simp only [zero_iff]
  cases h : lookup x kw.others with
  | none => simp [PyVal.eqZero]
  | some v => simp

theorem ack_gen (c : Ctx) (key : Str) (h : c.kw.payload = none) : qtmAckNak c key = key := by
  unfold qtmAckNak Ctx.payload0; rw [h]; simp

/-- `propKey` without payload, in terms of the relation. -/
theorem propKey_kw (c : Ctx) (key : Str) (hm : c.mode = 0 ∨ c.mode = 1 ∨ c.mode = 2)
    (hp : c.kw.payload = none) (h1 : c.kw.has py!"key" = false) 
    (h2 : key ∈ variantIds → c.kw.has py!"mode" = false) (k : Str) :
    propKey c key = .ok k ↔
      (∃ sfx, KwSuffix c.kw.others c.mode key sfx ∧ k = key ++ sfx) ∨
      ((∀ sfx, ¬ KwSuffix c.kw.others c.mode key sfx) ∧ key ≠ py!"STMDRSENMSG" ∧ k = key) := by
  have hs : c.streaming = false := by simp [Ctx.streaming, hp]
  have hp0 : c.payload0 = [] := by simp [Ctx.payload0, hp]
  rw [propKey_plain c key h2, if_neg (by simp [h1])]
  by_cases k1 : key = py!"QTMCFGGEOFENCE"
  · subst k1
    rw [if_pos rfl]
    unfold qtmCfgGeofence
    simp only [hs, hp0, Bool.not_false, Bool.false_and, Bool.false_or, Bool.true_and, List.length_nil]
    have hz := givenZero_iff c.kw py!"geofencemode"
    by_cases g1 : Given c.kw.others py!"lon1"
    · have hg := (given_has c.kw _).2 g1
      have hg' : hasKey py!"lon1" c.kw.others = true := hg
      rcases hm with hm | hm | hm <;> rw [hm] <;> simp only [hg, GET, SET]
      · constructor
        · intro h; cases h; exact .inl ⟨_, .poly _ (by simp) g1, rfl⟩
        · rintro (⟨s, hk, rfl⟩ | ⟨hk, _⟩)
          · cases hk; rfl
          · exact absurd (KwSuffix.poly _ (by simp) g1) (hk _)
      · constructor
        · intro h; cases h; exact .inl ⟨_, .poly _ (by simp) g1, rfl⟩
        · rintro (⟨s, hk, rfl⟩ | ⟨hk, _⟩)
          · cases hk
            · rfl
            · contradiction
          · exact absurd (KwSuffix.poly _ (by simp) g1) (hk _)
      · constructor
        · intro h; cases h
          refine .inr ⟨?_, by decide, rfl⟩
          intro s hk; cases hk; omega
        · rintro (⟨s, hk, rfl⟩ | ⟨hk, _, rfl⟩)
          · cases hk; omega
          · rfl
    · have hg := (given_has_false c.kw _).2 g1
      rcases hm with hm | hm | hm <;> rw [hm] <;> simp only [hg, GET, SET]
      · constructor
        · intro h; cases h
          refine .inr ⟨?_, by decide, rfl⟩
          intro s hk; cases hk; contradiction
        · rintro (⟨s, hk, rfl⟩ | ⟨hk, _, rfl⟩)
          · cases hk; contradiction
          · rfl
      · by_cases g2 : GivenZero c.kw.others py!"geofencemode"
        · simp only [hz.2 g2]
          constructor
          · intro h; cases h; exact .inl ⟨_, .dis g1 g2, rfl⟩
          · rintro (⟨s, hk, rfl⟩ | ⟨hk, _⟩)
            · cases hk
              · contradiction
              · rfl
            · exact absurd (KwSuffix.dis g1 g2) (hk _)
        · have : (c.kw.get py!"geofencemode" (.int 1)).eqZero = false := by
            cases hq : (c.kw.get py!"geofencemode" (.int 1)).eqZero with
            | true => exact absurd (hz.1 hq) g2
            | false => rfl
          simp only [this]
          constructor
          · intro h; cases h
            refine .inr ⟨?_, by decide, rfl⟩
            intro s hk; cases hk <;> contradiction
          · rintro (⟨s, hk, rfl⟩ | ⟨hk, _, rfl⟩)
            · cases hk <;> contradiction
            · rfl
      · constructor
        · intro h; cases h
          refine .inr ⟨?_, by decide, rfl⟩
          intro s hk; cases hk; contradiction
        · rintro (⟨s, hk, rfl⟩ | ⟨hk, _, rfl⟩)
          · cases hk; contradiction
          · rfl
  rw [if_neg k1]
  by_cases k2 : key = py!"QTMCFGMSGRATE"
  · subst k2
    rw [if_pos rfl]
    unfold qtmCfgMsgRate
    simp only [hs, hp0, Bool.not_false, Bool.false_and, Bool.false_or, Bool.true_and, List.length_nil]
    by_cases g1 : Given c.kw.others py!"porttype" <;> by_cases g2 : Given c.kw.others py!"msgver"
    · have hg := (given_has c.kw _).2 g1
      have hv := (given_has c.kw _).2 g2
      have e : (if c.mode = SET ∨ c.mode = GET then (py!"QTMCFGMSGRATE_INTF" : Str)
        else if c.mode = POLL then py!"QTMCFGMSGRATE_INTF" else py!"QTMCFGMSGRATE") = py!"QTMCFGMSGRATE_INTF" := by
        rcases hm with hm | hm | hm <;> rw [hm] <;> rfl
      simp only [hg, hv, Bool.not_true, Bool.and_false, Bool.false_and, Bool.and_true, Bool.false_eq_true, if_false, if_true]
      constructor
      · intro h
        have h := Except.ok.inj h
        rw [← h]
        exact .inl ⟨_, .rateIntf _ g1 g2, e⟩
      · rintro (⟨s, hk, rfl⟩ | ⟨hk, _⟩)
        · generalize c.mode = md at hk e ⊢
          cases hk
          · contradiction
          · contradiction
          · exact congrArg Except.ok e
        · exact absurd (KwSuffix.rateIntf _ g1 g2) (hk _)
    · have hg := (given_has c.kw _).2 g1
      have hv := (given_has_false c.kw _).2 g2
      have e : (if c.mode = SET ∨ c.mode = GET then (py!"QTMCFGMSGRATE_INTFNOVER" : Str)
        else if c.mode = POLL then py!"QTMCFGMSGRATE_INTFNOVER" else py!"QTMCFGMSGRATE") = py!"QTMCFGMSGRATE_INTFNOVER" := by
        rcases hm with hm | hm | hm <;> rw [hm] <;> rfl
      simp only [hg, hv, Bool.not_true, Bool.not_false, Bool.and_false, Bool.false_and, Bool.and_true, Bool.false_eq_true, if_false, if_true]
      constructor
      · intro h
        have h := Except.ok.inj h
        rw [← h]
        exact .inl ⟨_, .rateIntfNoVer _ g1 g2, e⟩
      · rintro (⟨s, hk, rfl⟩ | ⟨hk, _⟩)
        · generalize c.mode = md at hk e ⊢
          cases hk
          · contradiction
          · exact congrArg Except.ok e
          · contradiction
        · exact absurd (KwSuffix.rateIntfNoVer _ g1 g2) (hk _)
    · have hg := (given_has_false c.kw _).2 g1
      have hv := (given_has c.kw _).2 g2
      have e : (if c.mode = SET ∨ c.mode = GET then (py!"QTMCFGMSGRATE" : Str)
        else if c.mode = POLL then py!"QTMCFGMSGRATE" else py!"QTMCFGMSGRATE") = py!"QTMCFGMSGRATE" := by
        rcases hm with hm | hm | hm <;> rw [hm] <;> rfl
      simp only [hg, hv, Bool.not_true, Bool.not_false, Bool.and_false, Bool.false_and, Bool.and_true, Bool.false_eq_true, if_false, if_true]
      constructor
      · intro h
        have h := Except.ok.inj h
        rw [← h]
        refine .inr ⟨?_, by decide, e⟩
        intro s hk; generalize c.mode = md at hk e ⊢; cases hk <;> contradiction
      · rintro (⟨s, hk, rfl⟩ | ⟨hk, _, rfl⟩)
        · generalize c.mode = md at hk e ⊢
          cases hk <;> contradiction
        · exact congrArg Except.ok e
    · have hg := (given_has_false c.kw _).2 g1
      have hv := (given_has_false c.kw _).2 g2
      have e : (if c.mode = SET ∨ c.mode = GET then (py!"QTMCFGMSGRATE_NOVER" : Str)
        else if c.mode = POLL then py!"QTMCFGMSGRATE_NOVER" else py!"QTMCFGMSGRATE") = py!"QTMCFGMSGRATE_NOVER" := by
        rcases hm with hm | hm | hm <;> rw [hm] <;> rfl
      simp only [hg, hv, Bool.not_true, Bool.not_false, Bool.and_false, Bool.false_and, Bool.and_true, Bool.false_eq_true, if_false, if_true]
      constructor
      · intro h
        have h := Except.ok.inj h
        rw [← h]
        exact .inl ⟨_, .rateNoVer _ g1 g2, e⟩
      · rintro (⟨s, hk, rfl⟩ | ⟨hk, _⟩)
        · generalize c.mode = md at hk e ⊢
          cases hk
          · exact congrArg Except.ok e
          · contradiction
          · contradiction
        · exact absurd (KwSuffix.rateNoVer _ g1 g2) (hk _)
  rw [if_neg k2]
  by_cases k3 : key = py!"QTMCFGPPS"
  · subst k3
    rw [if_pos rfl]
    unfold qtmCfgPps
    simp only [hs, hp0, Bool.not_false, Bool.false_and, Bool.false_or, Bool.true_and, List.length_nil]
    have hz := givenZero_iff c.kw py!"enable"
    by_cases hm1 : c.mode = SET
    · rw [if_pos hm1, hm1]
      by_cases g2 : GivenZero c.kw.others py!"enable"
      · simp only [hz.2 g2]
        constructor
        · intro h; cases h; exact .inl ⟨_, .pps g2, rfl⟩
        · rintro (⟨s, hk, rfl⟩ | ⟨hk, _⟩)
          · cases hk; rfl
          · exact absurd (KwSuffix.pps g2) (hk _)
      · have : (c.kw.get py!"enable" (.int 1)).eqZero = false := by
          cases hq : (c.kw.get py!"enable" (.int 1)).eqZero with
          | true => exact absurd (hz.1 hq) g2
          | false => rfl
        simp only [this]
        constructor
        · intro h; cases h
          refine .inr ⟨?_, by decide, rfl⟩
          intro s hk; cases hk; contradiction
        · rintro (⟨s, hk, rfl⟩ | ⟨hk, _, rfl⟩)
          · cases hk; contradiction
          · rfl
    · rw [if_neg hm1]
      constructor
      · intro h; cases h
        refine .inr ⟨?_, by decide, rfl⟩
        intro s hk
        generalize c.mode = md at hk hm1
        cases hk; exact hm1 rfl
      · rintro (⟨s, hk, rfl⟩ | ⟨hk, _, rfl⟩)
        · generalize c.mode = md at hk hm1
          cases hk; exact absurd rfl hm1
        · rfl
  rw [if_neg k3]
  by_cases k4 : key = py!"QTMCFGSAT"
  · subst k4
    rw [if_pos rfl]
    unfold qtmCfgSat
    simp only [hs, hp0, Bool.not_false, Bool.false_and, Bool.false_or, Bool.true_and, List.length_nil]
    by_cases g1 : Given c.kw.others py!"maskhigh"
    · have hg := (given_has c.kw _).2 g1
      rcases hm with hm | hm | hm <;> rw [hm] <;> simp only [hg, GET, SET]
      all_goals
        constructor
        · intro h; cases h
          refine .inr ⟨?_, by decide, rfl⟩
          intro s hk; cases hk; contradiction
        · rintro (⟨s, hk, rfl⟩ | ⟨hk, _, rfl⟩)
          · cases hk; contradiction
          · rfl
    · have hg := (given_has_false c.kw _).2 g1
      rcases hm with hm | hm | hm <;> rw [hm] <;> simp only [hg, GET, SET]
      · constructor
        · intro h; cases h; exact .inl ⟨_, .sat _ (by simp) g1, rfl⟩
        · rintro (⟨s, hk, rfl⟩ | ⟨hk, _⟩)
          · cases hk; rfl
          · exact absurd (KwSuffix.sat _ (by simp) g1) (hk _)
      · constructor
        · intro h; cases h; exact .inl ⟨_, .sat _ (by simp) g1, rfl⟩
        · rintro (⟨s, hk, rfl⟩ | ⟨hk, _⟩)
          · cases hk; rfl
          · exact absurd (KwSuffix.sat _ (by simp) g1) (hk _)
      · constructor
        · intro h; cases h
          refine .inr ⟨?_, by decide, rfl⟩
          intro s hk; cases hk; omega
        · rintro (⟨s, hk, rfl⟩ | ⟨hk, _, rfl⟩)
          · cases hk; omega
          · rfl
  rw [if_neg k4]
  by_cases k5 : key = py!"QTMCFGUART"
  · subst k5
    rw [if_pos rfl]
    unfold qtmCfgUart
    simp only [hs, hp0, Bool.not_false, Bool.false_and, Bool.false_or, Bool.true_and, List.length_nil]
    by_cases g1 : Given c.kw.others py!"portid" <;> by_cases g2 : Given c.kw.others py!"baudrate" <;>
      by_cases g3 : Given c.kw.others py!"databit" <;>
      simp only [(given_has c.kw _).2, (given_has_false c.kw _).2, g1, g2, g3, not_false_eq_true] <;>
      rcases hm with hm | hm | hm <;> rw [hm]
    all_goals
      constructor
      · intro h; cases h
        first
        | exact .inl ⟨_, .uartCurrBaud g1 g2 g3, rfl⟩
        | exact .inl ⟨_, .uartBaud g1 g2 g3, rfl⟩
        | exact .inl ⟨_, .uartCurr g1 g2 g3, rfl⟩
        | exact .inl ⟨_, .uartPoll g1, rfl⟩
        | (refine .inr ⟨?_, by decide, rfl⟩; intro s hk; cases hk <;> contradiction)
      · rintro (⟨s, hk, rfl⟩ | ⟨hk, _, rfl⟩)
        · cases hk <;> first | contradiction | rfl
        · first
          | rfl
          | exact absurd (KwSuffix.uartCurrBaud g1 g2 g3) (hk _)
          | exact absurd (KwSuffix.uartBaud g1 g2 g3) (hk _)
          | exact absurd (KwSuffix.uartCurr g1 g2 g3) (hk _)
          | exact absurd (KwSuffix.uartPoll g1) (hk _)
  rw [if_neg k5]
  have none_of : key ≠ py!"STMDRSENMSG" → ∀ sfx, ¬ KwSuffix c.kw.others c.mode key sfx := by
    intro hk sfx h
    generalize c.mode = md at h
    cases h <;> simp_all
  by_cases k6 : key = py!"QTMSN"
  · rw [if_pos k6]
    have hk : key ≠ py!"STMDRSENMSG" := by rw [k6]; decide
    unfold qtmSn
    rw [if_neg (by simp [hs])]
    constructor
    · intro h; cases h; exact .inr ⟨none_of hk, hk, rfl⟩
    · rintro (⟨s, h, _⟩ | ⟨_, _, rfl⟩)
      · exact absurd h (none_of hk s)
      · rfl
  rw [if_neg k6]
  by_cases k7 : key = py!"STMDRSENMSG"
  · subst k7
    rw [if_pos rfl]
    unfold stmDrSenMsg
    simp only [hs, Bool.false_eq_true, if_false, bind, Except.bind]
    cases hl : lookup py!"msgtype" c.kw.others with
    | none =>
      have hg : ¬ Given c.kw.others py!"msgtype" := by
        unfold Given; exact (lookup_none_iff _ _).1 hl
      simp only [pure, Except.pure, Except.ok.injEq]
      constructor
      · rintro rfl; exact .inl ⟨_, .drsenNone _ hg, rfl⟩
      · rintro (⟨s, hk, rfl⟩ | ⟨hk, _⟩)
        · generalize c.mode = md at hk
          cases hk with
          | drsen _ v s h _ => rw [hl] at h; cases h
          | drsenNone _ _ => rfl
        · exact absurd (KwSuffix.drsenNone _ hg) (hk _)
    | some v =>
      have hg : Given c.kw.others py!"msgtype" := by
        apply Classical.byContradiction
        intro h
        rw [(lookup_none_iff _ _).2 h] at hl; cases hl
      cases hv : v.toStr with
      | error e =>
        simp only [hv]
        constructor
        · intro h; cases h
        · rintro (⟨s, hk, rfl⟩ | ⟨_, hk, _⟩)
          · generalize c.mode = md at hk
            cases hk with
            | drsen _ w s h h' => rw [hl] at h; cases h; rw [hv] at h'; cases h'
            | drsenNone _ h => exact absurd hg h
          · exact absurd rfl hk
      | ok s =>
        simp only [hv, pure, Except.pure, Except.ok.injEq]
        constructor
        · rintro rfl; exact .inl ⟨_, .drsen _ v s hl hv, rfl⟩
        · rintro (⟨s', hk, rfl⟩ | ⟨hk, _⟩)
          · generalize c.mode = md at hk
            cases hk with
            | drsen _ w s' h h' => rw [hl] at h; cases h; rw [hv] at h'; cases h'; rfl
            | drsenNone _ h => exact absurd hg h
          · exact absurd (KwSuffix.drsen _ v s hl hv) (hk _)
  rw [if_neg k7, ack_gen c key hp]
  have : (if List.take 3 key = py!"QTM" then Except.ok key else Except.ok key : Except Err Str) = .ok key := by
    split <;> rfl
  rw [this]
  constructor
  · intro h; cases h; exact .inr ⟨none_of k7, k7, rfl⟩
  · rintro (⟨s, h, _⟩ | ⟨_, _, rfl⟩)
    · exact absurd h (none_of k7 s)
    · rfl

theorem baseKey_kw (c : Ctx) (hp : c.kw.payload = none) : baseKey c = kwFullId c.msgID c.kw.others := by
  have hs : c.streaming = false := by simp [Ctx.streaming, hp]
  unfold baseKey kwFullId
  rw [hs]
  simp only [Bool.false_eq_true, if_false]
  split
  · cases lookup py!"msgId" c.kw.others with
    | none => rfl
    | some v => cases v <;> rfl
  · rfl

/-- Definition lookup for generation. -/
theorem findDict_kw (c : Ctx) (hm : c.mode = 0 ∨ c.mode = 1 ∨ c.mode = 2)
    (hd : c.defsource = sourceOf c.msgID c.udefs) (hp : c.kw.payload = none)
    (h1 : c.kw.has py!"key" = false) (h2 : c.msgID ∈ variantIds → c.kw.has py!"mode" = false) (d : PDict) :
    findDict c = .ok (some d) ↔ KwDefinition c.mode c.udefs c.msgID c.kw.others d := by
  unfold findDict KwDefinition
  rw [baseKey_kw c hp, hd, sourceOf_eq]
  simp only [bind, Except.bind]
  cases hf : kwFullId c.msgID c.kw.others with
  | error e =>
    simp only
    constructor
    · intro h; cases h
    · rintro ⟨_, h, _⟩; cases h
  | ok fid =>
    simp only [Except.ok.injEq, exists_eq_left']
    rw [← propTable_eq _ hm, ← stndTable_eq _ hm]
    by_cases s1 : IsStandard c.msgID
    · simp only [s1, if_true, pure, Except.pure, Except.ok.injEq]
    · simp only [s1, if_false]
      by_cases s2 : IsProprietary c.msgID
      · simp only [s2, if_true]
        have h3 : upper fid ∈ variantIds → c.kw.has py!"mode" = false := by
          intro hv
          unfold kwFullId at hf
          split at hf
          next hpre =>
            exfalso
            split at hf <;> cases hf
            exact variant_prefix _ hpre _ hv
          next => cases hf; exact h2 (variant_prop _ s2 hv)
        have hk := propKey_kw c (upper fid) hm hp h1 h3
        cases hpk : propKey c (upper fid) with
        | error e =>
          simp only
          constructor
          · intro h; cases h
          · rintro (⟨s, h, _⟩ | ⟨h, h', _⟩)
            · have := (hk _).2 (.inl ⟨s, h, rfl⟩); rw [hpk] at this; cases this
            · have := (hk _).2 (.inr ⟨h, h', rfl⟩); rw [hpk] at this; cases this
        | ok k =>
          simp only [pure, Except.pure, Except.ok.injEq]
          constructor
          · intro h
            rcases (hk k).1 hpk with ⟨s, h3, rfl⟩ | ⟨h3, h4, rfl⟩
            · exact .inl ⟨s, h3, h⟩
            · exact .inr ⟨h3, h4, h⟩
          · rintro (⟨s, h, h'⟩ | ⟨h, h', h''⟩)
            · have := (hk _).2 (.inl ⟨s, h, rfl⟩); rw [hpk] at this; cases this; exact h'
            · have := (hk _).2 (.inr ⟨h, h', rfl⟩); rw [hpk] at this; cases this; exact h''
      · simp only [s2, if_false]
        by_cases s3 : IsUserDefined c.udefs c.msgID
        · simp only [s3, if_true, pure, Except.pure, Except.ok.injEq]
        · simp only [s3, if_false, pure, Except.pure, Except.ok.injEq]

end Nmea
