import Verif.Lemmas.Received
import Verif.Spec.ErrorText
/-!
# Lemmas: processing the beginning of a definition
-/
namespace Nmea
open Py Spec

theorem firstEntries_names (n : Nat) (d : PDict) : ∀ k ∈ allNames (firstEntries n d), k ∈ allNames d := by
  induction d generalizing n with
  | nil => cases n <;> simp [firstEntries]
  | single k t r ih =>
    cases n with
    | zero => simp [firstEntries, allNames]
    | succ n =>
      intro x hx
      simp only [firstEntries, allNames, List.mem_cons] at hx ⊢
      exact hx.imp id (ih n x)
  | group k rep b r _ ih =>
    cases n with
    | zero => simp [firstEntries, allNames]
    | succ n =>
      intro x hx
      simp only [firstEntries, allNames, List.mem_append] at hx ⊢
      exact hx.imp id (ih n x)

/-- Attribute processing of a received sentence: it succeeds exactly when the definition expands to
slots that can be read from the field texts. -/
theorem received_first (c : Ctx) (now : Nat → DateTime) (d0 d : PDict) (n : Nat) (p : List Str) (hfirst : d = firstEntries n d0)
    (hsane : SaneNames d) (hpay : c.kw.payload = some p)
    (hdef : c.talker = py!"P" ∧ c.msgID ∈ NMEA_PREFIX_PROP →
      definitionFor c.mode c.udefs c.msgID p = .ok (some d0)) :
    (∀ st, setPDict c now d [] (st0 p) = .ok st → ∃ post, Received c d p st post) ∧
    (∀ post attrs, Expand c.mode (fieldTexts c.talker c.msgID p) d [] [] post →
      readSlots post (fieldTexts c.talker c.msgID p) [] = .ok attrs →
      ∃ st, setPDict c now d [] (st0 p) = .ok st ∧ Received c d p st post) := by
  have hs : c.streaming = true := by simp [Ctx.streaming, hpay]
  have hn := sane_names d hsane
  by_cases hB : c.talker = py!"P" ∧ c.msgID ∈ NMEA_PREFIX_PROP
  · obtain ⟨hT, hM⟩ := hB
    have hdef := hdef ⟨hT, hM⟩
    obtain ⟨n1, n2⟩ := prefix_source c.msgID hM
    have hsnc := prefix_not_snc c.msgID hM
    -- the definition comes from a proprietary table
    unfold definitionFor at hdef
    cases hfull : fullId c.msgID p with
    | error e => rw [hfull] at hdef; cases hdef
    | ok fid =>
    rw [hfull] at hdef
    simp only at hdef
    rw [if_neg n1, if_pos n2] at hdef
    cases hlay : layoutName c.mode (upper fid) p with
    | error e => rw [hlay] at hdef; cases hdef
    | ok name =>
    rw [hlay] at hdef
    simp only [Except.ok.injEq] at hdef
    have hgood := lookup_goodId _ _ _ hdef
    unfold GoodId at hgood
    simp only [Bool.or_eq_true] at hgood
    have hpne : ∃ f fs, p = f :: fs := by
      cases p with
      | nil => unfold fullId at hfull; rw [if_pos hM] at hfull; cases hfull
      | cons f fs => exact ⟨f, fs, rfl⟩
    obtain ⟨f, fs, rfl⟩ := hpne
    rcases hgood with hgood | hgood
    · -- the first attribute is the message id
      obtain ⟨r0, rfl, hr0⟩ := IdFirst.spec d0 hgood
      rcases n with _ | n
      · subst hfirst
        simp only [firstEntries]
        have hR : Received c .nil (f :: fs) (st0 (f :: fs)) [] :=
          ⟨.nil _ _, rfl, by simp [st0], by simp [st0], Clean.nil, fun _ => .inl rfl⟩
        constructor
        · intro st h; cases h; exact ⟨[], hR⟩
        · intro post attrs h1 h2; cases h1; exact ⟨_, rfl, hR⟩
      simp only [firstEntries] at hfirst
      subst hfirst
      have hr : py!"msgId" ∉ allNames (firstEntries n r0) := fun h => hr0 (firstEntries_names n r0 _ h)
      generalize firstEntries n r0 = r at *
      let strip : Bool := decide (c.msgID = py!"SSN" ∧ f = py!"SNC")
      have hph : Phase c r strip (fun attrs => lookup py!"msgId" attrs = some (.str f)) := by
        refine ⟨hs, ?_, ?_, ?_⟩
        · intro attrs ha
          refine ⟨_, by rw [hT]; exact ident_some c.msgID hM attrs f ha, ?_⟩
          rw [pssnsnc_iff _ _ hM]; simp [strip]
        · exact pres_lookup _ (by decide) (by decide) (by decide) r hr _
        · exact fun k t hm g => hn k t (by simp [PDict.entries, hm]) g
      have hft : fieldTexts c.talker c.msgID (f :: fs) =
          f :: fs.map (if strip then noBrackets else id) := by
        unfold fieldTexts
        rw [if_neg (by rw [hT]; exact hsnc)]
        by_cases hst : c.msgID = py!"SSN" ∧ f = py!"SNC"
        · rw [if_pos ⟨hT, hst.1, by rw [hst.2]; rfl⟩]
          simp [strip, hst.1, hst.2]
        · rw [if_neg (fun h => hst ⟨h.2.1, by simpa using h.2.2⟩)]
          simp [strip, hst]
      have hone : setSingle c now py!"msgId" ST [] (st0 (f :: fs)) =
          .ok { pindex := 1, payload := f :: fs, attrs := [(py!"msgId", .str f)], tick := 0 } := by
        rw [setSingle_stream _ _ _ _ _ _ hs]
        unfold setSingleStream
        rw [ident_none _ _ _ (by rfl), hT]
        simp only [st0, bind, Except.bind, List.getElem?_cons_zero, suffixed, List.foldl_nil]
        rw [if_neg hsnc]
        have hv : str2val f ST = .ok (.str f) := rfl
        rw [if_neg hsnc, hv]
        rfl
      have hi : Inv (f :: fs) (fieldTexts c.talker c.msgID (f :: fs)) strip
          (fun attrs => lookup py!"msgId" attrs = some (.str f)) [(py!"msgId", ST)]
          { pindex := 1, payload := f :: fs, attrs := [(py!"msgId", .str f)], tick := 0 } := by
        refine ⟨?_, ?_, ?_, ?_, rfl, ?_, ?_⟩
        · rw [fieldTexts_length]; simp
        · rw [hft]; simp
        · rw [hft]; rfl
        · exact Clean.nil.step ST py!"msgId" (.str f) (by decide) (by decide) rfl
        · rw [fieldTexts_length]
        · intro i hi'
          rw [hft]
          cases i with
          | zero => simp at hi'
          | succ i => simp
      obtain ⟨m1, m2⟩ := setPDict_expand c now strip _ (f :: fs) _ r hph [] []
        (fun k => by simp [suffixed]) _ _ hi
      have e : setPDict c now (.single py!"msgId" ST r) [] (st0 (f :: fs)) =
          setPDict c now r [] { pindex := 1, payload := f :: fs, attrs := [(py!"msgId", .str f)], tick := 0 } := by
        simp only [setPDict, bind, Except.bind, hone]
      have hR : ∀ st post, Expand c.mode (fieldTexts c.talker c.msgID (f :: fs)) r []
            [(py!"msgId", ST)] post →
          Inv (f :: fs) (fieldTexts c.talker c.msgID (f :: fs)) strip
            (fun attrs => lookup py!"msgId" attrs = some (.str f)) post st →
          Received c (.single py!"msgId" ST r) (f :: fs) st post :=
        fun st post h1 h2 => ⟨.single _ _ _ _ _ _ h1, h2.read,
          by rw [h2.idx, fieldTexts_length], h2.pay, h2.clean, fun _ => .inr ⟨f, rfl, h2.prop⟩⟩
      rw [e]
      constructor
      · intro st h
        obtain ⟨post, h1, h2⟩ := m1 st h
        exact ⟨post, hR st post h1 h2⟩
      · intro post attrs h1 h2
        cases h1 with
        | single _ _ _ _ _ _ h1 =>
        obtain ⟨st, h3, h4⟩ := m2 post attrs h1 h2
        exact ⟨st, h3, hR st post h1 h4⟩
    · -- no message id attribute at all
      simp only [Bool.and_eq_true, Bool.not_eq_true', bne_iff_ne] at hgood
      have hr : py!"msgId" ∉ allNames d := by
        intro h
        rw [hfirst] at h
        have : py!"msgId" ∉ allNames d0 := by simpa using hgood.1
        exact this (firstEntries_names n d0 _ h)
      have hnot : ¬ (c.msgID = py!"SSN" ∧ f = py!"SNC") := by
        rintro ⟨h1, rfl⟩
        rw [h1] at hfull
        have hid : fid = py!"SSNSNC" := by
          unfold fullId at hfull
          rw [if_pos (by decide)] at hfull
          simp only at hfull
          rw [if_neg (by decide)] at hfull
          cases hfull; rfl
        subst hid
        have hu : upper py!"SSNSNC" = py!"SSNSNC" := by decide
        rw [hu, layoutName_plain _ _ _ (by decide) (by decide)] at hlay
        have hno : layouts.lookup (c.mode, py!"SSNSNC", (py!"SNC" :: fs).length) = none := by
          apply List.lookup_eq_none_iff.2
          intro q hq
          rw [bne_iff_ne]
          intro e
          have : ∀ q ∈ layouts, q.1.2.1 ≠ py!"SSNSNC" := by decide
          exact this q hq (by rw [← e])
        rw [hno] at hlay
        simp only [Except.ok.injEq] at hlay
        rw [if_neg (by simp)] at hlay
        exact hgood.2 hlay.symm
      apply received_phase c now d (f :: fs) false (fun attrs => lookup py!"msgId" attrs = none)
      · refine ⟨hs, ?_, pres_lookup _ (by decide) (by decide) (by decide) d hr _, hn⟩
        intro attrs ha
        refine ⟨_, ident_none _ _ _ ha, ?_⟩
        rw [hT]; simp only [hsnc, Bool.false_eq_true]
      · rfl
      · exact fun _ _ h => h
      · intro i
        unfold fieldTexts
        rw [if_neg (by rw [hT]; exact hsnc), if_neg (fun h => hnot ⟨h.2.1, by simpa using h.2.2⟩)]
        simp
  · apply received_phase c now d p (decide (c.talker ++ c.msgID = py!"PSSNSNC")) (fun _ => True)
    · refine ⟨hs, ?_, fun _ _ _ _ _ _ _ => trivial, hn⟩
      intro attrs _
      exact ⟨_, ident_plain _ _ hB attrs, by simp⟩
    · trivial
    · exact fun h => absurd h hB
    · intro i
      unfold fieldTexts
      by_cases h : c.talker ++ c.msgID = py!"PSSNSNC"
      · rw [if_pos h]; simp only [h, decide_true, if_true, List.getElem?_map]
      · rw [if_neg h, if_neg]
        · simp only [h, decide_false, Bool.false_eq_true, if_false, Option.map_id, id_eq]
        · rintro ⟨h1, h2, _⟩
          exact hB ⟨h1, by rw [h2]; decide⟩

end Nmea
