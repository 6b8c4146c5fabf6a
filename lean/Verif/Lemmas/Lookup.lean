import Verif.Lemmas.Stream
import Verif.Spec.Lookup
/-! # Lemmas: definition lookup -/
namespace Nmea
open Py Spec

theorem hasKey_mem {β} (k : Str) (d : List (Str × β)) : hasKey k d = true ↔ k ∈ d.map Prod.fst := by
  unfold hasKey
  induction d with
  | nil => simp [lookup]
  | cons p r ih =>
    obtain ⟨k', v⟩ := p
    by_cases h : k = k'
    · simp [lookup, h]
    · simp only [lookup, if_neg h, ih]; simp [h]

theorem sourceOf_eq (m : Str) (u : UDefs) :
    sourceOf m u = if IsStandard m then .stnd else if IsProprietary m then .prop
      else if IsUserDefined u m then .user else .unkn := by
  unfold sourceOf IsStandard IsProprietary IsUserDefined
  simp only [hasKey_mem]

theorem sourceOf_unkn (m : Str) (u : UDefs) : sourceOf m u = .unkn ↔ ¬ Recognised u m := by
  rw [sourceOf_eq]
  unfold Recognised
  by_cases h1 : IsStandard m
  · simp [h1]
  · by_cases h2 : IsProprietary m
    · simp [h1, h2]
    · by_cases h3 : IsUserDefined u m <;> simp [h1, h2, h3]

theorem lay_none (m : Nat) (key : Str) (n : Nat) (L : List Nat)
    (h : ∀ p ∈ layouts, p.1.1 = m → p.1.2.1 = key → p.1.2.2 ∈ L) (hn : n ∉ L) :
    layouts.lookup (m, key, n) = none := by
  rw [List.lookup_eq_none_iff]
  intro p hp
  rw [bne_iff_ne]
  intro e
  exact hn (by have := h p hp (by rw [← e]) (by rw [← e]); rwa [← e] at this)

theorem layoutName_plain (mode : Nat) (key : Str) (p : List Str) (h1 : key ≠ py!"QTMSN")
    (h2 : key ≠ py!"STMDRSENMSG") :
    layoutName mode key p = match layouts.lookup (mode, key, p.length) with
      | some sfx => .ok (key ++ sfx)
      | none =>
        .ok (if mode = 0 ∧ key.take 3 = py!"QTM" ∧ key ∉ noAck then ackName key p else key) := by
  unfold layoutName
  rw [if_neg (fun h => h1 h.1), if_neg h2]
  rfl

theorem qtmAckNak_eq (c : Ctx) (key : Str) (p : List Str) (hp : c.payload0 = p) :
    qtmAckNak c key = if c.mode = 0 then ackName key p else key := by
  unfold qtmAckNak ackName
  rw [hp]
  split
  · match p with
    | [] => simp
    | [f] => simp
    | [f, g] => simp
    | f :: g :: h :: r => simp
  · rfl

theorem ackName_other (key : Str) (p : List Str) (h : ¬ (p.length = 1 ∨ p.length = 2)) :
    ackName key p = key := by
  unfold ackName
  rw [if_neg (by rintro rfl; simp at h), if_neg (fun e => h (.inr e.1))]

theorem qtmCfgGeofence_eq (c : Ctx) (p : List Str) (hm : c.mode = 0 ∨ c.mode = 1 ∨ c.mode = 2)
    (hs : c.streaming = true) (hp0 : c.payload0 = p) :
    (.ok (qtmCfgGeofence c py!"QTMCFGGEOFENCE") : Except Err Str) = layoutName c.mode py!"QTMCFGGEOFENCE" p := by
  rw [layoutName_plain _ _ _ (by decide) (by decide)]
  unfold qtmCfgGeofence
  simp only [hs, hp0, Bool.not_true, Bool.false_and, Bool.or_false, Bool.true_and]
  rcases hm with hm | hm | hm
  · rw [hm]
    by_cases n13 : p.length = 13
    · rw [n13]; rfl
    rw [lay_none _ _ _ [13] (by decide) (by simp [n13])]
    by_cases h12 : p.length = 1 ∨ p.length = 2
    · simp [n13, noAck, h12, qtmAckNak_eq c _ p hp0, hm]
    · have ha : ackName py!"QTMCFGGEOFENCE" p = py!"QTMCFGGEOFENCE" := ackName_other _ _ h12
      simp [n13, noAck, h12, ha]
  · rw [hm]
    by_cases n13 : p.length = 13
    · rw [n13]; rfl
    by_cases n3 : p.length = 3
    · rw [n3]; rfl
    rw [lay_none _ _ _ [13, 3] (by decide) (by simp [n13, n3])]
    simp [n13, n3, noAck]
  · rw [hm]
    rw [lay_none _ _ _ [] (by decide) (by simp)]
    simp [noAck]

theorem qtmCfgMsgRate_eq (c : Ctx) (p : List Str) (hm : c.mode = 0 ∨ c.mode = 1 ∨ c.mode = 2)
    (hs : c.streaming = true) (hp0 : c.payload0 = p) :
    (.ok (qtmCfgMsgRate c py!"QTMCFGMSGRATE") : Except Err Str) = layoutName c.mode py!"QTMCFGMSGRATE" p := by
  rw [layoutName_plain _ _ _ (by decide) (by decide)]
  unfold qtmCfgMsgRate
  simp only [hs, hp0, Bool.not_true, Bool.false_and, Bool.or_false, Bool.true_and]
  rcases hm with hm | hm | hm
  · rw [hm]
    by_cases n3 : p.length = 3
    · rw [n3]; rfl
    by_cases n5 : p.length = 5
    · rw [n5]; rfl
    by_cases n6 : p.length = 6
    · rw [n6]; rfl
    rw [lay_none _ _ _ [3, 5, 6] (by decide) (by simp [n3, n5, n6])]
    simp [n3, n5, n6, noAck]
  · rw [hm]
    by_cases n3 : p.length = 3
    · rw [n3]; rfl
    by_cases n5 : p.length = 5
    · rw [n5]; rfl
    by_cases n6 : p.length = 6
    · rw [n6]; rfl
    rw [lay_none _ _ _ [3, 5, 6] (by decide) (by simp [n3, n5, n6])]
    simp [n3, n5, n6, noAck]
  · rw [hm]
    by_cases n2 : p.length = 2
    · rw [n2]; rfl
    by_cases n4 : p.length = 4
    · rw [n4]; rfl
    by_cases n5 : p.length = 5
    · rw [n5]; rfl
    rw [lay_none _ _ _ [2, 4, 5] (by decide) (by simp [n2, n4, n5])]
    simp [n2, n4, n5, noAck]

theorem qtmCfgPps_eq (c : Ctx) (p : List Str) (hm : c.mode = 0 ∨ c.mode = 1 ∨ c.mode = 2)
    (hs : c.streaming = true) (hp0 : c.payload0 = p) :
    (.ok (qtmCfgPps c py!"QTMCFGPPS") : Except Err Str) = layoutName c.mode py!"QTMCFGPPS" p := by
  rw [layoutName_plain _ _ _ (by decide) (by decide)]
  unfold qtmCfgPps
  simp only [hs, hp0, Bool.not_true, Bool.false_and, Bool.or_false, Bool.true_and]
  rcases hm with hm | hm | hm
  · rw [hm]
    rw [lay_none _ _ _ [] (by decide) (by simp)]
    simp [noAck]
  · rw [hm]
    by_cases n3 : p.length = 3
    · rw [n3]; rfl
    rw [lay_none _ _ _ [3] (by decide) (by simp [n3])]
    simp [n3, noAck]
  · rw [hm]
    rw [lay_none _ _ _ [] (by decide) (by simp)]
    simp [noAck]

theorem qtmCfgSat_eq (c : Ctx) (p : List Str) (hm : c.mode = 0 ∨ c.mode = 1 ∨ c.mode = 2)
    (hs : c.streaming = true) (hp0 : c.payload0 = p) :
    (.ok (qtmCfgSat c py!"QTMCFGSAT") : Except Err Str) = layoutName c.mode py!"QTMCFGSAT" p := by
  rw [layoutName_plain _ _ _ (by decide) (by decide)]
  unfold qtmCfgSat
  simp only [hs, hp0, Bool.not_true, Bool.false_and, Bool.or_false, Bool.true_and]
  rcases hm with hm | hm | hm
  · rw [hm]
    by_cases n4 : p.length = 4
    · rw [n4]; rfl
    rw [lay_none _ _ _ [4] (by decide) (by simp [n4])]
    by_cases h12 : p.length = 1 ∨ p.length = 2
    · simp [n4, noAck, h12, qtmAckNak_eq c _ p hp0, hm]
    · have ha : ackName py!"QTMCFGSAT" p = py!"QTMCFGSAT" := ackName_other _ _ h12
      simp [n4, noAck, h12, ha]
  · rw [hm]
    by_cases n4 : p.length = 4
    · rw [n4]; rfl
    rw [lay_none _ _ _ [4] (by decide) (by simp [n4])]
    simp [n4, noAck]
  · rw [hm]
    rw [lay_none _ _ _ [] (by decide) (by simp)]
    simp [noAck]

theorem qtmCfgUart_eq (c : Ctx) (p : List Str) (hm : c.mode = 0 ∨ c.mode = 1 ∨ c.mode = 2)
    (hs : c.streaming = true) (hp0 : c.payload0 = p) :
    (.ok (qtmCfgUart c py!"QTMCFGUART") : Except Err Str) = layoutName c.mode py!"QTMCFGUART" p := by
  rw [layoutName_plain _ _ _ (by decide) (by decide)]
  unfold qtmCfgUart
  simp only [hs, hp0, Bool.not_true, Bool.false_and, Bool.or_false, Bool.true_and]
  rcases hm with hm | hm | hm
  · rw [hm]
    rw [lay_none _ _ _ [] (by decide) (by simp)]
    simp [noAck]
  · rw [hm]
    by_cases n2 : p.length = 2
    · rw [n2]; rfl
    by_cases n3 : p.length = 3
    · rw [n3]; rfl
    by_cases n6 : p.length = 6
    · rw [n6]; rfl
    rw [lay_none _ _ _ [2, 3, 6] (by decide) (by simp [n2, n3, n6])]
    simp [n2, n3, n6, noAck]
  · rw [hm]
    by_cases n1 : p.length = 1
    · rw [n1]; rfl
    rw [lay_none _ _ _ [1] (by decide) (by simp [n1])]
    simp [n1, noAck]

theorem propKey_plain (c : Ctx) (key : Str) (h2 : key ∈ variantIds → c.kw.has py!"mode" = false) :
    propKey c key =
      if c.kw.has py!"key" then .error .type
      else if key = py!"QTMCFGGEOFENCE" then .ok (qtmCfgGeofence c key)
      else if key = py!"QTMCFGMSGRATE" then .ok (qtmCfgMsgRate c key)
      else if key = py!"QTMCFGPPS" then .ok (qtmCfgPps c key)
      else if key = py!"QTMCFGSAT" then .ok (qtmCfgSat c key)
      else if key = py!"QTMCFGUART" then .ok (qtmCfgUart c key)
      else if key = py!"QTMSN" then qtmSn c key
      else if key = py!"STMDRSENMSG" then stmDrSenMsg c key
      else if key.take 3 = py!"QTM" then .ok (qtmAckNak c key)
      else .ok key := by
  unfold propKey
  by_cases hv : key ∈ variantIds
  · simp only [h2 hv, Bool.false_eq_true, if_false]
  · simp only [variantIds, List.mem_cons, not_or] at hv
    simp only [hv, if_false]

/-- Upper-casing leads to a type with variants only from that type itself. -/
theorem variant_prop (i : Str) (hi : IsProprietary i) (h : upper i ∈ variantIds) : i ∈ variantIds := by
  have : ∀ i ∈ NMEA_MSGIDS_PROP.map Prod.fst ++ NMEA_PREFIX_PROP, upper i ∈ variantIds → i ∈ variantIds := by
    decide +kernel
  exact this i (by rcases hi with h | h <;> simp [h]) h

theorem variant_prefix (i : Str) (hi : i ∈ NMEA_PREFIX_PROP) (s : Str) : upper (i ++ s) ∉ variantIds := by
  have h1 : ∀ i ∈ NMEA_PREFIX_PROP, 2 ≤ (upper i).length ∧ ∀ k ∈ variantIds, (upper i).take 2 ≠ k.take 2 := by
    decide +kernel
  intro h
  obtain ⟨h2, h3⟩ := h1 i hi
  refine h3 _ h ?_
  rw [show upper (i ++ s) = upper i ++ upper s from List.flatMap_append, List.take_append_of_le_length h2]

theorem propKey_eq (c : Ctx) (key : Str) (p : List Str) (hm : c.mode = 0 ∨ c.mode = 1 ∨ c.mode = 2)
    (hp : c.kw.payload = some p) (h1 : c.kw.has py!"key" = false) (h2 : key ∈ variantIds → c.kw.has py!"mode" = false) :
    propKey c key = layoutName c.mode key p := by
  have hs : c.streaming = true := by simp [Ctx.streaming, hp]
  have hp0 : c.payload0 = p := by simp [Ctx.payload0, hp]
  rw [propKey_plain c key h2, if_neg (by simp [h1])]
  by_cases k1 : key = py!"QTMCFGGEOFENCE"
  · rw [if_pos k1]; subst k1; exact qtmCfgGeofence_eq c p hm hs hp0
  rw [if_neg k1]
  by_cases k2 : key = py!"QTMCFGMSGRATE"
  · rw [if_pos k2]; subst k2; exact qtmCfgMsgRate_eq c p hm hs hp0
  rw [if_neg k2]
  by_cases k3 : key = py!"QTMCFGPPS"
  · rw [if_pos k3]; subst k3; exact qtmCfgPps_eq c p hm hs hp0
  rw [if_neg k3]
  by_cases k4 : key = py!"QTMCFGSAT"
  · rw [if_pos k4]; subst k4; exact qtmCfgSat_eq c p hm hs hp0
  rw [if_neg k4]
  by_cases k5 : key = py!"QTMCFGUART"
  · rw [if_pos k5]; subst k5; exact qtmCfgUart_eq c p hm hs hp0
  rw [if_neg k5]
  by_cases k6 : key = py!"QTMSN"
  · rw [if_pos k6]
    unfold qtmSn layoutName
    subst k6
    simp only [hs, hp0, and_true, true_and]
    by_cases hm0 : c.mode = 0
    · rw [if_pos hm0, if_pos hm0]
      cases p with
      | nil => rfl
      | cons f fs => simp only [payload0, bind, Except.bind, pure, Except.pure]; split <;> rfl
    · rw [if_neg hm0, if_neg hm0, if_neg (by decide)]
      rw [lay_none _ _ _ [] (by rcases hm with hm | hm | hm <;> rw [hm] <;> decide) (by simp)]
      simp only [hm0, false_and, if_false]
  rw [if_neg k6]
  by_cases k7 : key = py!"STMDRSENMSG"
  · rw [if_pos k7]
    unfold stmDrSenMsg layoutName
    subst k7
    simp only [hs, hp0, if_true]
    rw [if_neg (by simp)]
    cases p with
    | nil => rfl
    | cons f fs => simp [payload0, bind, Except.bind, pure, Except.pure]
  rw [if_neg k7, layoutName_plain _ _ _ k6 k7]
  have hno : ∀ n, layouts.lookup (c.mode, key, n) = none := by
    intro n
    rw [List.lookup_eq_none_iff]
    intro q hq
    rw [bne_iff_ne]
    intro e
    have : ∀ q ∈ layouts, q.1.2.1 ∈ [py!"QTMCFGGEOFENCE", py!"QTMCFGMSGRATE", py!"QTMCFGPPS",
        py!"QTMCFGSAT", py!"QTMCFGUART"] := by decide
    have h := this q hq
    rw [← e] at h
    simp only [List.mem_cons, k1, k2, k3, k4, k5, List.not_mem_nil, or_false] at h
  rw [hno]
  have hna : key ∉ noAck := by
    simp only [noAck, List.mem_cons, k2, k3, k5, List.not_mem_nil, or_false, not_false_eq_true]
  simp only [hna, not_false_eq_true, and_true]
  by_cases hq : key.take 3 = py!"QTM"
  · rw [if_pos hq, qtmAckNak_eq c key p hp0]
    simp only [hq, and_true]
  · rw [if_neg hq, if_neg (fun h => hq h.2)]

theorem baseKey_eq (c : Ctx) (p : List Str) (hp : c.kw.payload = some p) :
    baseKey c = fullId c.msgID p := by
  have hs : c.streaming = true := by simp [Ctx.streaming, hp]
  have hp0 : c.payload0 = p := by simp [Ctx.payload0, hp]
  unfold baseKey fullId
  rw [hs, hp0]
  simp only [if_true]
  split
  · split
    · rename_i h
      cases p with
      | nil => rfl
      | cons f fs =>
        simp only [payload0, bind, Except.bind, h]
        match f with
        | [] => rfl
        | [a] => rfl
        | a :: b :: r => rfl
    · rename_i h
      cases p with
      | nil => rfl
      | cons f fs => simp only [payload0, bind, Except.bind]; rfl
  · rfl

theorem propTable_eq (mode : Nat) (hm : mode = 0 ∨ mode = 1 ∨ mode = 2) :
    propTable mode = proprietaryDefs mode := by
  rcases hm with rfl | rfl | rfl <;> rfl

theorem stndTable_eq (mode : Nat) (hm : mode = 0 ∨ mode = 1 ∨ mode = 2) :
    stndTable mode = standardDefs mode := by
  rcases hm with rfl | rfl | rfl <;> rfl

/-- Definition lookup for a received sentence. -/
theorem findDict_eq (c : Ctx) (p : List Str) (hm : c.mode = 0 ∨ c.mode = 1 ∨ c.mode = 2)
    (hd : c.defsource = sourceOf c.msgID c.udefs)
    (hp : c.kw.payload = some p) (h1 : c.kw.has py!"key" = false)
    (h2 : c.msgID ∈ variantIds → c.kw.has py!"mode" = false) :
    findDict c = definitionFor c.mode c.udefs c.msgID p := by
  unfold findDict definitionFor
  rw [baseKey_eq c p hp]
  cases hf : fullId c.msgID p with
  | error e => rfl
  | ok key =>
    simp only [bind, Except.bind, hd, sourceOf_eq]
    by_cases s1 : IsStandard c.msgID
    · simp only [s1, if_true, stndTable_eq _ hm]; rfl
    · by_cases s2 : IsProprietary c.msgID
      · have h3 : upper key ∈ variantIds → c.kw.has py!"mode" = false := by
          intro hv
          unfold fullId at hf
          split at hf
          next hpre =>
            exfalso
            have : ∃ s, key = c.msgID ++ s := by
              cases p with
              | nil => cases hf
              | cons f fs =>
                simp only at hf
                split at hf
                · split at hf
                  · split at hf <;> cases hf
                    · exact ⟨[], by simp⟩
                    · exact ⟨_, rfl⟩
                  · cases hf
                · cases hf; exact ⟨_, rfl⟩
            obtain ⟨s, rfl⟩ := this
            exact variant_prefix _ hpre s hv
          next => cases hf; exact h2 (variant_prop _ s2 hv)
        simp only [s1, s2, if_true, if_false, propTable_eq _ hm, propKey_eq c _ p hm hp h1 h3]
        cases layoutName c.mode (upper key) p <;> rfl
      · by_cases s3 : IsUserDefined c.udefs c.msgID
        · simp only [s1, s2, s3, if_true, if_false]; rfl
        · simp only [s1, s2, s3, if_false, stndTable_eq _ hm]; rfl

theorem getDict_eq (c : Ctx) (p : List Str) (hm : c.mode = 0 ∨ c.mode = 1 ∨ c.mode = 2)
    (hd : c.defsource = sourceOf c.msgID c.udefs)
    (hp : c.kw.payload = some p) (h1 : c.kw.has py!"key" = false)
    (h2 : c.msgID ∈ variantIds → c.kw.has py!"mode" = false) :
    getDict c = match definitionFor c.mode c.udefs c.msgID p with
      | .error e => .error e
      | .ok (some d) => .ok (some d)
      | .ok none => if ValMsgid c.validate then .error .nmeaMessage else .ok none := by
  unfold getDict
  rw [findDict_eq c p hm hd hp h1 h2]
  simp only [bind, Except.bind]
  cases definitionFor c.mode c.udefs c.msgID p with
  | error e => rfl
  | ok o =>
    cases o with
    | none => simp only [valMsgid_iff]; rfl
    | some d => rfl

end Nmea
