import Verif.Props.AnyGroups
import Verif.Model.AnyPayloadKw
/-!
# Any payload and further keywords (C102)
-/
namespace Nmea
open Py Spec

theorem hasKey_false {k : Str} {o : List (Str × PyVal)} (h : k ∉ o.map Prod.fst) : hasKey k o = false := by
  rw [← hasKey_mem] at h
  simpa using h

/-- With a payload the keywords are looked at only for clashes. -/
theorem propKey_others (c : Ctx) (ps : List Str) (o : List (Str × PyVal)) (key : Str) (h1 : hasKey py!"key" o = false)
    (h2 : key ∈ variantIds → hasKey py!"mode" o = false) :
    propKey { c with kw := ⟨some ps, o⟩ } key = propKey { c with kw := ⟨some ps, []⟩ } key := by
  rw [propKey_plain _ _ (by intro hk; simpa [Kwargs.has] using h2 hk), propKey_plain _ _ (by intro _; rfl)]
  have e1 : Kwargs.has ⟨some ps, o⟩ py!"key" = false := by simpa [Kwargs.has] using h1
  have e2 : Kwargs.has ⟨some ps, []⟩ py!"key" = false := rfl
  simp only [e1, e2, Bool.false_eq_true, if_false]
  have s1 : ({ c with kw := ⟨some ps, o⟩ } : Ctx).streaming = true := rfl
  have s2 : ({ c with kw := ⟨some ps, []⟩ } : Ctx).streaming = true := rfl
  simp only [qtmCfgGeofence, qtmCfgMsgRate, qtmCfgPps, qtmCfgSat, qtmCfgUart, qtmSn, stmDrSenMsg, qtmAckNak, s1, s2, Bool.not_true,
    Bool.false_and, Bool.or_false, Bool.true_and, if_true]
  rfl

theorem propKeyWith_plain (c : Ctx) (vs : List PyVal) (o : List (Str × PyVal)) (key : Str) (h1 : hasKey py!"key" o = false)
    (h2 : key ∈ variantIds → hasKey py!"mode" o = false) : propKeyWith c vs o key = propKeyAny c vs key := by
  unfold propKeyWith propKeyAny
  simp only [h1, Bool.false_eq_true, if_false]
  by_cases ha : key = py!"QTMSN"
  · rw [if_pos ha, if_pos ha]
    have := h2 (by subst ha; decide)
    simp only [this, Bool.false_eq_true, if_false]
    first | done | (split <;> [(rcases vs with _ | ⟨v, r⟩ <;> [rfl; cases v <;> rfl]); rfl])
  · rw [if_neg ha, if_neg ha]
    by_cases hb : key = py!"STMDRSENMSG"
    · rw [if_pos hb, if_pos hb]
      have := h2 (by subst hb; decide)
      simp only [this, Bool.false_eq_true, if_false]
      rcases vs with _ | ⟨v, r⟩ <;> rfl
    · rw [if_neg hb, if_neg hb]
      exact propKey_others c _ o key h1 h2

/-- Which keys of the proprietary tables are looked at. -/
theorem key_variant {c : Ctx} (hd : c.defsource = sourceOf c.msgID c.udefs) (hp : c.defsource = .prop) {vs : List PyVal} {k : Str}
    (hk : baseKeyAny c.msgID vs = .ok k) (hv : upper k ∈ variantIds) : c.msgID ∈ variantIds := by
  have hprop : IsProprietary c.msgID := by
    rw [hp, sourceOf_eq] at hd
    by_cases h1 : IsStandard c.msgID
    · rw [if_pos h1] at hd; cases hd
    · rw [if_neg h1] at hd
      by_cases h2 : IsProprietary c.msgID
      · exact h2
      · rw [if_neg h2] at hd
        split at hd <;> cases hd
  unfold baseKeyAny at hk
  by_cases hpre : c.msgID ∈ NMEA_PREFIX_PROP
  · rw [if_pos hpre] at hk
    have h0 : ∃ s, k = c.msgID ++ s := by
      split at hk
      · cases hk
      · rename_i f _
        split at hk
        · split at hk
          · simp only [Except.ok.injEq] at hk
            split at hk
            · exact ⟨[], by rw [← hk, List.append_nil]⟩
            · exact ⟨_, hk.symm⟩
          · cases hk
        · simp only [Except.ok.injEq] at hk
          exact ⟨f, hk.symm⟩
      · cases hk
    obtain ⟨s, rfl⟩ := h0
    exact absurd hv (variant_prefix _ hpre s)
  · rw [if_neg hpre] at hk
    simp only [Except.ok.injEq] at hk
    subst hk
    exact variant_prop _ hprop hv

theorem getDictWith_plain (c : Ctx) (hd : c.defsource = sourceOf c.msgID c.udefs) (vs : List PyVal) (o : List (Str × PyVal))
    (h : NoClash c.msgID o) : getDictWith c vs o = getDictAny c vs := by
  unfold getDictWith getDictAny findDictAny
  cases hk : baseKeyAny c.msgID vs with
  | error e => rfl
  | ok k =>
    cases hs : c.defsource with
    | prop =>
      have e := propKeyWith_plain c vs o (upper k) (hasKey_false (h.1 _ (by decide)))
        (fun hv => hasKey_false (h.2 (key_variant hd hs hk hv)))
      simp only [bind, Except.bind, e]
      cases propKeyAny c vs (upper k) <;> rfl
    | stnd => rfl
    | user => rfl
    | unkn => rfl

/-- C102. Whatever the payload, other keywords change nothing, unless one has the name of a parameter inside the
constructor. -/
theorem C102_keywords (t i : Str) (mode : Int) (hp : Bool) (v : Nat) (u : UDefs) (ck : Option Str) (p : Payload)
    (others : List (Str × PyVal))
    (hkw : ∀ k ∈ others.map Prod.fst, k ∉ [py!"pindex", py!"pdict", py!"key", py!"gindex", py!"att"] ∧
      (i ∈ variantIds → k ≠ py!"mode")) :
    mkMsgAnyWith t i mode hp v u ck p others = mkMsgAny t i mode hp v u ck p := by
  have hnc : NoClash i others := ⟨fun k hk hm => (hkw k hm).1 hk, fun hi hm => (hkw _ hm).2 hi rfl⟩
  have hcl : Kwargs.clash ⟨none, others⟩ = false := hnc.clash
  unfold mkMsgAnyWith mkMsgAny doAttributesWith doAttributesAny
  simp only [hcl, Bool.false_and, Bool.false_eq_true, if_false]
  split
  · rfl
  split
  · rfl
  split
  · rfl
  rw [getDictWith_plain _ rfl _ _ hnc]
  rfl

/-- A keyword `mode` clashes for types with variants. -/
theorem propKeyWith_mode (c : Ctx) (vs : List PyVal) (o : List (Str × PyVal)) (key : Str) (hv : key ∈ variantIds)
    (hm : hasKey py!"mode" o = true) : propKeyWith c vs o key = .error .type := by
  unfold propKeyWith
  split
  · rfl
  rename_i hkey
  have hk : Kwargs.has ⟨some (vs.map textOr), o⟩ py!"key" = false := by
    simpa [Kwargs.has] using hkey
  have hmo : Kwargs.has ⟨some (vs.map textOr), o⟩ py!"mode" = true := by
    simpa [Kwargs.has] using hm
  split
  · rfl
  split
  · rfl
  unfold propKey
  simp only [hk, hmo, Bool.false_eq_true, if_false, if_true]
  simp only [variantIds, List.mem_cons, List.not_mem_nil, or_false] at hv
  rcases hv with rfl | rfl | rfl | rfl | rfl | rfl | rfl <;> rfl

theorem propKeyWith_cases (c : Ctx) (vs : List PyVal) (o : List (Str × PyVal)) (key : Str) :
    propKeyWith c vs o key = .error .type ∨ propKeyWith c vs o key = propKeyAny c vs key := by
  cases h1 : hasKey py!"key" o with
  | true => left; unfold propKeyWith; rw [if_pos h1]
  | false =>
    by_cases hv : key ∈ variantIds
    · cases h2 : hasKey py!"mode" o with
      | true => exact .inl (propKeyWith_mode c vs o key hv h2)
      | false => exact .inr (propKeyWith_plain c vs o key h1 fun _ => h2)
    · exact .inr (propKeyWith_plain c vs o key h1 fun h => absurd h hv)

theorem getDictWith_cases (c : Ctx) (vs : List PyVal) (o : List (Str × PyVal)) :
    getDictWith c vs o = .error .type ∨ getDictWith c vs o = getDictAny c vs := by
  unfold getDictWith getDictAny findDictAny
  cases hk : baseKeyAny c.msgID vs with
  | error e => exact .inr rfl
  | ok k =>
    cases hs : c.defsource with
    | prop =>
      rcases propKeyWith_cases c vs o (upper k) with e | e
      · left; simp only [bind, Except.bind, e]
      · right
        simp only [bind, Except.bind, e]
        cases propKeyAny c vs (upper k) <;> rfl
    | stnd => exact .inr rfl
    | user => exact .inr rfl
    | unkn => exact .inr rfl

/-- C102. A keyword with the name of a parameter inside the constructor is an `NMEATypeError`, whatever the payload, if the
sentence has a definition (with at least one entry). -/
theorem C102_clash (t i : Str) (mode : Int) (hp : Bool) (v : Nat) (u : UDefs) (ck : Option Str) (p : Payload)
    (others : List (Str × PyVal)) (hm : mode = 0 ∨ mode = 1 ∨ mode = 2) (hr : ValMsgid v → t ∈ NMEA_TALKERS ∧ Recognised u i)
    (hfirst : i ∈ NMEA_PREFIX_PROP ∨ upper i = py!"QTMSN" ∨ upper i = py!"STMDRSENMSG" → ∀ x ∈ p.items.head?, ∃ s, x = .str s)
    (d : PDict) (hd : definitionFor mode.toNat u i (p.items.map asText) = .ok (some d)) (hne : keysOf d ≠ [])
    (k : Str) (hk : k ∈ [py!"pindex", py!"pdict", py!"key", py!"gindex", py!"att"] ∨ (k = py!"mode" ∧ i ∈ variantIds))
    (hin : k ∈ others.map Prod.fst) :
    mkMsgAnyWith t i mode hp v u ck p others = .error .nmeaType := by
  have hlen : (d.len != 0) = true := by
    cases d with
    | nil => exact absurd rfl hne
    | single _ _ r => simp [PDict.len]
    | group _ _ _ r => simp [PDict.len]
  have hg := Props.AnyPayload.getDictAny_def t i mode hp v u p.items hm hfirst d hd
  have hda : doAttributesWith (ctxOf t i mode.toNat hp v u ⟨none, []⟩) p others ck = .error .nmeaType := by
    unfold doAttributesWith
    rcases getDictWith_cases (ctxOf t i mode.toNat hp v u ⟨none, []⟩) p.items others with e | e
    · rw [e]; rfl
    rcases hk with hk | ⟨rfl, hiv⟩
    · have hcl : Kwargs.clash ⟨none, others⟩ = true := by
        unfold Kwargs.clash
        rw [List.any_eq_true]
        exact ⟨k, hk, (hasKey_mem _ _).2 hin⟩
      rw [e, hg]
      simp only [bind, Except.bind, hcl, hlen, Bool.and_self, if_true]
      rfl
    · obtain ⟨hip, hns⟩ : IsProprietary i ∧ ¬ IsStandard i := by
        have : ∀ i ∈ variantIds, IsProprietary i ∧ ¬ IsStandard i := by decide +kernel
        exact this i hiv
      have hup : upper i = i := by
        have : ∀ i ∈ variantIds, upper i = i := by decide
        exact this i hiv
      have hnp : i ∉ NMEA_PREFIX_PROP := fun h => variant_prefix i h [] (by rw [List.append_nil, hup]; exact hiv)
      have hsrc : sourceOf i u = .prop := by rw [sourceOf_eq, if_neg hns, if_pos hip]
      have : getDictWith (ctxOf t i mode.toNat hp v u ⟨none, []⟩) p.items others = .error .type := by
        unfold getDictWith
        have hb : baseKeyAny (ctxOf t i mode.toNat hp v u ⟨none, []⟩).msgID p.items = .ok i := by
          unfold baseKeyAny
          exact if_neg hnp
        rw [hb, show (ctxOf t i mode.toNat hp v u ⟨none, []⟩).defsource = .prop from hsrc]
        simp only [bind, Except.bind, propKeyWith_mode _ _ others (upper i) (by rw [hup]; exact hiv) ((hasKey_mem _ _).2 hin)]
      rw [this]; rfl
  unfold mkMsgAnyWith
  rw [if_neg (by simp only [Classical.not_not]; exact hm), if_neg, if_neg]
  · show (doAttributesWith (ctxOf t i mode.toNat hp v u ⟨none, []⟩) p others ck >>= _) = _
    rw [hda]
    rfl
  · rintro ⟨h1, h2⟩
    exact (sourceOf_unkn _ _).1 h1 (hr ((valMsgid_iff v).1 h2)).2
  · rintro ⟨h1, h2⟩
    exact h1 (hr ((valMsgid_iff v).1 h2)).1

theorem baseKeyAny_with (c : Ctx) (ps : List Str) (o : List (Str × PyVal)) (hk : c.kw = ⟨some ps, o⟩) :
    baseKeyAny c.msgID (ps.map .str) = baseKey c := by
  have h1 : c.streaming = true := by simp [Ctx.streaming, hk]
  have h2 : c.payload0 = ps := by simp [Ctx.payload0, hk]
  have e := baseKeyAny_texts { c with kw := ⟨some ps, []⟩ } ps rfl
  rw [show ({ c with kw := ⟨some ps, []⟩ } : Ctx).msgID = c.msgID from rfl] at e
  rw [e]
  unfold baseKey
  simp only [h1, h2, show ({ c with kw := ⟨some ps, []⟩ } : Ctx).streaming = true from rfl,
    show ({ c with kw := ⟨some ps, []⟩ } : Ctx).payload0 = ps from rfl, if_true]

theorem propKeyWith_texts (c : Ctx) (ps : List Str) (o : List (Str × PyVal)) (hk : c.kw = ⟨some ps, o⟩) (key : Str) :
    propKeyWith c.bare (ps.map .str) o key = propKey c key := by
  have hc : { c.bare with kw := ⟨some ((ps.map PyVal.str).map textOr), o⟩ } = c := by
    rw [textOr_texts]
    cases c; simp only at hk; subst hk; rfl
  have h1 : c.streaming = true := by simp [Ctx.streaming, hk]
  have h2 : c.payload0 = ps := by simp [Ctx.payload0, hk]
  have hkey : c.kw.has py!"key" = hasKey py!"key" o := by rw [hk]; simp [Kwargs.has]
  have hmo : c.kw.has py!"mode" = hasKey py!"mode" o := by rw [hk]; simp [Kwargs.has]
  unfold propKeyWith
  by_cases hkk : hasKey py!"key" o = true
  · rw [if_pos hkk]
    unfold propKey
    rw [if_pos (by rw [hkey]; exact hkk)]
  rw [if_neg hkk]
  by_cases ha : key = py!"QTMSN"
  · subst ha
    have : propKey c py!"QTMSN" = if hasKey py!"mode" o then .error .type else qtmSn c py!"QTMSN" := by
      unfold propKey
      rw [if_neg (by rw [hkey]; exact hkk), hmo]
      simp only
      rw [if_neg (by decide), if_neg (by decide), if_neg (by decide), if_neg (by decide), if_neg (by decide), if_pos trivial]
    rw [if_pos rfl, this]
    split
    · rfl
    unfold qtmSn
    simp only [h1, h2, and_true]
    show (if c.mode = GET then _ else _) = _
    split
    · cases ps with
      | nil => rfl
      | cons f r => rfl
    · rfl
  · rw [if_neg ha]
    by_cases hb : key = py!"STMDRSENMSG"
    · subst hb
      have : propKey c py!"STMDRSENMSG" = if hasKey py!"mode" o then .error .type else stmDrSenMsg c py!"STMDRSENMSG" := by
        unfold propKey
        rw [if_neg (by rw [hkey]; exact hkk), hmo]
        simp only
        rw [if_neg (by decide), if_neg (by decide), if_neg (by decide), if_neg (by decide), if_neg (by decide), if_neg (by decide),
          if_pos trivial]
      rw [if_pos rfl, this]
      split
      · rfl
      unfold stmDrSenMsg
      simp only [h1, h2, if_true]
      cases ps with
      | nil => rfl
      | cons f r => rfl
    · rw [if_neg hb, hc]

theorem getDictWith_texts (c : Ctx) (ps : List Str) (o : List (Str × PyVal)) (hk : c.kw = ⟨some ps, o⟩) :
    getDictWith c.bare (ps.map .str) o = getDict c := by
  unfold getDictWith getDict findDict
  rw [show c.bare.msgID = c.msgID from rfl, baseKeyAny_with c ps o hk]
  cases baseKey c with
  | error e => rfl
  | ok key =>
    have h := propKeyWith_texts c ps o hk (upper key)
    simp only [bind, Except.bind, show c.bare.defsource = c.defsource from rfl, show c.bare.mode = c.mode from rfl,
      show c.bare.udefs = c.udefs from rfl, h]
    cases c.defsource <;> try rfl
    cases propKey c (upper key) <;> rfl

/-- C102. A list of texts with further keywords is treated as in all other properties, whatever the keywords. -/
theorem C102_texts_keywords (now : Nat → DateTime) (t i : Str) (mode : Int) (hp : Bool) (v : Nat) (u : UDefs) (ck : Option Str)
    (ps : List Str) (others : List (Str × PyVal)) :
    mkMsgAnyWith t i mode hp v u ck (.list (ps.map .str)) others =
      (mkMsg now t i mode hp v u ck ⟨some ps, others⟩).map Props.AnyPayload.ofTexts := by
  unfold mkMsgAnyWith mkMsg
  split
  · rfl
  split
  · rfl
  split
  · rfl
  let c : Ctx := ctxOf t i mode.toNat hp v u ⟨some ps, others⟩
  have h1 : c.streaming = true := rfl
  have hd : doAttributesWith c.bare (.list (ps.map .str)) others ck =
      (doAttributes c now ck).map fun r => (.list (r.1.map .str), r.2.1, r.2.2) := by
    unfold doAttributesWith doAttributes
    simp only [Payload.items, getDictWith_texts c ps others rfl]
    cases getDict c with
    | error e => cases e <;> rfl
    | ok o =>
      cases o with
      | none =>
        simp only [bind, Except.bind, nominalAny_texts]
        rfl
      | some d =>
        have hs := setPDictAny_texts c h1 now d [] ⟨0, ps, [], 0⟩
        simp only [lift] at hs
        have hcl : Kwargs.clash ⟨none, others⟩ = c.kw.clash := by
          have hr : ∀ n ∈ reservedNames, Kwargs.has ⟨none, others⟩ n = c.kw.has n := by
            intro n hn
            have : n ≠ py!"payload" := by
              have : ∀ n ∈ reservedNames, n ≠ py!"payload" := by decide
              exact this n hn
            show Kwargs.has ⟨none, others⟩ n = Kwargs.has ⟨some ps, others⟩ n
            simp [Kwargs.has, this]
          unfold Kwargs.clash
          rw [Bool.eq_iff_iff, List.any_eq_true, List.any_eq_true]
          exact ⟨fun ⟨n, a, b⟩ => ⟨n, a, by rw [← hr n a]; exact b⟩, fun ⟨n, a, b⟩ => ⟨n, a, by rw [hr n a]; exact b⟩⟩
        simp only [bind, Except.bind, Payload.assignable, hcl, show c.payload0 = ps from rfl]
        split
        · rfl
        rw [hs]
        cases setPDict c now d [] ⟨0, ps, [], 0⟩ with
        | error e => cases e <;> rfl
        | ok st =>
          simp only [Except.map, Nmea.lift, textsOf_texts]
          cases ck <;> rfl
  show (doAttributesWith c.bare _ others ck >>= _) = Except.map Props.AnyPayload.ofTexts (doAttributes c now ck >>= _)
  rw [hd]
  cases doAttributes c now ck with
  | error e => rfl
  | ok r => rfl

/-- Non-vacuity: VTG with keywords that change nothing, and with one that clashes. -/
example :
    let p : Payload := .list [.str py!"100.5", .str py!"T", .str py!"", .str py!"", .str py!"3.5", .str py!"N", .str py!"6.48", .str py!"K", .str py!"A"]
    (mkMsgAnyWith py!"GN" py!"VTG" 0 false 1 [] none p [(py!"cogt", .int 5), (py!"mode", .int 1)]
      = mkMsgAny py!"GN" py!"VTG" 0 false 1 [] none p) ∧
    mkMsgAnyWith py!"GN" py!"VTG" 0 false 1 [] none p [(py!"cogt", .int 5), (py!"att", .int 1)] = .error .nmeaType :=
  ⟨C102_keywords _ _ _ _ _ _ _ _ _ (by decide),
   C102_clash _ _ _ _ _ _ _ _ _ (by decide) (fun _ => by decide) (by intro _ x hx; simp [Payload.items] at hx; exact ⟨_, hx.symm⟩) _ rfl (by decide) py!"att" (.inl (by decide)) (by decide)⟩

set_option maxRecDepth 100000 in
/-- And a Quectel sentence with a keyword `mode`. -/
example : mkMsgAnyWith py!"P" py!"QTMSN" 0 false 1 [] none (.list [.str py!"OK", .str py!"3", .str py!"ABC"]) [(py!"mode", .int 1)] = .error .nmeaType :=
  C102_clash _ _ _ _ _ _ _ _ _ (by decide) (fun _ => by decide) (by intro _ x hx; simp [Payload.items] at hx; exact ⟨_, hx.symm⟩) _ rfl (by decide)
    py!"mode" (.inr (by decide)) (by decide)

end Nmea
