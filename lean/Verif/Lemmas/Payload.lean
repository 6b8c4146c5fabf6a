import Verif.Lemmas.Received
/-! # Lemmas: the payload of a received sentence; serialization -/
namespace Nmea
open Py Spec

/-- Payload is untouched while the identity is never `PSSNSNC`. -/
theorem payload_fixed (c : Ctx) (now : Nat → DateTime) (hs : c.streaming = true)
    (hB : ¬ (c.talker = py!"P" ∧ c.msgID ∈ NMEA_PREFIX_PROP)) (hne : c.talker ++ c.msgID ≠ py!"PSSNSNC")
    (d : PDict) (g : List Nat) (st st' : St) (h : setPDict c now d g st = .ok st') :
    st'.payload = st.payload := by
  have := setPDict_inv c now (fun s => s.payload = st.payload) (fun _ => True) d
    (fun k t g s _ hi => by
      rw [setSingle_stream _ _ _ _ _ _ hs]
      unfold setSingleStream
      rw [ident_plain _ _ hB]
      simp only [bind, Except.bind, hne, if_false]
      cases s.payload[s.pindex]? with
      | none => exact hi
      | some raw =>
        simp only
        split
        · exact trivial
        · cases str2val raw t with
          | error e => exact trivial
          | ok v =>
            simp only
            cases setAttr s.attrs (suffixed k g) v with
            | error e => exact trivial
            | ok a => exact hi)
    (fun _ _ _ _ _ _ _ => trivial) g st rfl
  rw [h] at this
  exact this

/-- Received, for the definition found by lookup: table definitions are sane. -/
theorem tables_sane : (∀ mode, ∀ kd ∈ standardDefs mode, SaneNames kd.2) ∧
    (∀ mode, ∀ kd ∈ proprietaryDefs mode, SaneNames kd.2) := by
  constructor
  · intro mode
    unfold standardDefs
    split <;> decide +kernel
  · intro mode
    unfold proprietaryDefs
    split <;> decide +kernel

theorem definitionFor_mem (mode : Nat) (u : UDefs) (i : Str) (p : List Str) (d : PDict)
    (h : definitionFor mode u i p = .ok (some d)) :
    (∃ k, (k, d) ∈ standardDefs mode) ∨ (∃ k, (k, d) ∈ proprietaryDefs mode) ∨
      ((∃ k, (k, d) ∈ u) ∧ ¬ IsStandard i ∧ ¬ IsProprietary i ∧ IsUserDefined u i) := by
  unfold definitionFor at h
  cases hf : fullId i p with
  | error e => rw [hf] at h; cases h
  | ok fid =>
    rw [hf] at h
    simp only at h
    split at h
    · simp only [Except.ok.injEq] at h; exact .inl ⟨_, lookup_some_mem _ _ _ h⟩
    · split at h
      · cases hl : layoutName mode (upper fid) p with
        | error e => rw [hl] at h; cases h
        | ok n =>
          rw [hl] at h; simp only [Except.ok.injEq] at h
          exact .inr (.inl ⟨_, lookup_some_mem _ _ _ h⟩)
      · split at h
        · simp only [Except.ok.injEq] at h
          exact .inr (.inr ⟨⟨_, lookup_some_mem _ _ _ h⟩, ‹_›, ‹_›, ‹_›⟩)
        · simp only [Except.ok.injEq] at h; exact .inl ⟨_, lookup_some_mem _ _ _ h⟩

theorem definitionFor_sane (mode : Nat) (u : UDefs) (hu : ∀ kd ∈ u, SaneNames kd.2) (i : Str)
    (p : List Str) (d : PDict) (h : definitionFor mode u i p = .ok (some d)) : SaneNames d := by
  rcases definitionFor_mem mode u i p d h with ⟨k, h⟩ | ⟨k, h⟩ | ⟨⟨k, h⟩, _⟩
  · exact tables_sane.1 mode _ h
  · exact tables_sane.2 mode _ h
  · exact hu _ h

theorem definitionFor_prefix_sane (mode : Nat) (u : UDefs) (i : Str) (hi : i ∈ NMEA_PREFIX_PROP)
    (p : List Str) (d : PDict) (h : definitionFor mode u i p = .ok (some d)) : SaneNames d := by
  rcases definitionFor_mem mode u i p d h with ⟨k, h⟩ | ⟨k, h⟩ | ⟨_, _, h, _⟩
  · exact tables_sane.1 mode _ h
  · exact tables_sane.2 mode _ h
  · exact absurd (prefix_source i hi).2 h

theorem fieldTexts_id (t i : Str) (p : List Str) (h : ¬ IsSnc t i p) : fieldTexts t i p = p := by
  unfold fieldTexts
  rw [if_neg (fun e => h (.inl e)), if_neg (fun e => h (.inr e))]

theorem payload_received (c : Ctx) (now : Nat → DateTime) (d : PDict) (p : List Str) (st : St)
    (hpay : c.kw.payload = some p)
    (hdef : definitionFor c.mode c.udefs c.msgID p = .ok (some d))
    (hsnc : ¬ IsSnc c.talker c.msgID p)
    (h : setPDict c now d [] (st0 p) = .ok st) : st.payload = p := by
  by_cases hB : c.talker = py!"P" ∧ c.msgID ∈ NMEA_PREFIX_PROP
  · obtain ⟨post, hr⟩ := (received c now d p
      (definitionFor_prefix_sane _ _ _ hB.2 _ _ hdef) hpay (fun _ => hdef)).1 st h
    rw [hr.pay, fieldTexts_id _ _ _ hsnc, List.take_append_drop]
  · exact payload_fixed c now (by simp [Ctx.streaming, hpay]) hB (fun e => hsnc (.inl e)) d [] _ _ h

theorem utf8Encode_ok (s : Str) (h : s.all isScalar = true) : ∃ b, utf8Encode s = .ok b := by
  unfold utf8Encode; rw [if_pos h]; exact ⟨_, rfl⟩

end Nmea
