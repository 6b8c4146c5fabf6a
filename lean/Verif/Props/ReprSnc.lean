import Verif.Props.Display
/-!
# `repr` of bracketed sentences (C49, C66)

PSSNSNC sentences lose the square brackets of the fields they use, so their payload is not the list of received fields.
The call printed by `repr` still rebuilds them, except for the checksum, which becomes that of the payload without
brackets.
-/
set_option linter.unusedSimpArgs false
namespace Props
open Py Nmea Spec

theorem noBrackets_twice (f : Str) : noBrackets (noBrackets f) = noBrackets f := by
  unfold noBrackets
  rw [List.filter_filter]
  simp

/-- The fields with the brackets of the first `n` removed. -/
theorem fieldTexts_again (t i : Str) (f : List Str) (n : Nat) :
    fieldTexts t i ((fieldTexts t i f).take n ++ f.drop n) = fieldTexts t i f := by
  have hmap : ∀ (n : Nat) (f : List Str), ((f.map noBrackets).take n ++ f.drop n).map noBrackets = f.map noBrackets := by
    intro n f
    rw [← List.map_take, List.map_append, List.map_map]
    have : noBrackets ∘ noBrackets = noBrackets := funext noBrackets_twice
    rw [this, ← List.map_append, List.take_append_drop]
  unfold fieldTexts
  by_cases h1 : t ++ i = py!"PSSNSNC"
  · simp only [if_pos h1]
    exact hmap n f
  · simp only [if_neg h1]
    by_cases h2 : t = py!"P" ∧ i = py!"SSN" ∧ f.head? = some py!"SNC"
    · rw [if_pos h2]
      cases f with
      | nil => exact absurd h2.2.2 (by simp)
      | cons a r =>
        have ha : a = py!"SNC" := by simpa using h2.2.2
        cases n with
        | zero =>
          simp only [List.take_zero, List.nil_append, List.drop_zero]
          rw [if_pos h2]
        | succ n =>
          simp only [List.take_succ_cons, List.drop_succ_cons, List.cons_append, List.tail_cons, List.head?_cons]
          rw [if_pos ⟨h2.1, h2.2.1, trivial⟩, hmap]
    · rw [if_neg h2, List.take_append_drop, if_neg h2]

/-- A bracketed sentence is found under the same definition with and without its brackets. -/
theorem definitionFor_unbracketed (mode : Nat) (t i : Str) (f : List Str) (n : Nat) (hb : IsStandard i ∨ IsProprietary i) :
    definitionFor mode [] i ((fieldTexts t i f).take n ++ f.drop n) = definitionFor mode [] i f := by
  have hlen : ((fieldTexts t i f).take n ++ f.drop n).length = f.length := by
    rw [List.length_append, List.length_take, List.length_drop, fieldTexts_length]
    omega
  have key : ∀ g : List Str, g.length = f.length → layoutName mode py!"SSNSNC" g = layoutName mode py!"SSNSNC" f := by
    intro g hg
    unfold layoutName
    have h1 : ¬ (py!"SSNSNC" = py!"QTMSN" ∧ mode = 0) := by
      rintro ⟨h, -⟩; exact absurd h (by decide)
    have h2 : ¬ py!"SSNSNC" = py!"STMDRSENMSG" := by decide
    have h3 : ¬ (mode = 0 ∧ (py!"SSNSNC").take 3 = py!"QTM" ∧ (py!"SSNSNC") ∉ noAck) := by
      rintro ⟨-, h, -⟩; revert h; decide
    simp only [if_neg h1, if_neg h2, if_neg h3, hg]
  by_cases h1 : t ++ i = py!"PSSNSNC"
  · have hi' : i = py!"SSNSNC" := by
      have h3 : ∀ n ∈ List.range 8, (IsStandard ((py!"PSSNSNC").drop n) ∨ IsProprietary ((py!"PSSNSNC").drop n)) →
          (py!"PSSNSNC").drop n = py!"SSNSNC" := by decide +kernel
      have h4 : (py!"PSSNSNC").drop t.length = i := by rw [← h1, List.drop_left]
      have h5 : t.length ≤ 7 := by
        have := congrArg List.length h1
        rw [List.length_append] at this
        have h7 : (py!"PSSNSNC").length = 7 := by decide
        omega
      have h6 := h3 t.length (List.mem_range.2 (by omega))
      rw [h4] at h6
      exact h6 hb
    subst hi'
    have hf : ∀ g : List Str, fullId py!"SSNSNC" g = .ok py!"SSNSNC" := by
      intro g
      unfold fullId
      rw [if_neg (by decide +kernel)]
    unfold definitionFor
    rw [hf, hf]
    simp only
    rw [show upper py!"SSNSNC" = py!"SSNSNC" from by decide +kernel, key _ hlen]
  · by_cases h2 : t = py!"P" ∧ i = py!"SSN" ∧ f.head? = some py!"SNC"
    · obtain ⟨rfl, rfl, h3⟩ := h2
      cases f with
      | nil => cases h3
      | cons a r =>
        have ha : a = py!"SNC" := by simpa using h3
        subst ha
        have hf : ∀ g : List Str, fullId py!"SSN" (py!"SNC" :: g) = .ok py!"SSNSNC" := by
          intro g
          unfold fullId
          rw [if_pos (by decide +kernel)]
          rfl
        have hg : ∃ g, (fieldTexts py!"P" py!"SSN" (py!"SNC" :: r)).take n ++ (py!"SNC" :: r).drop n = py!"SNC" :: g := by
          unfold fieldTexts
          rw [if_neg h1, if_pos ⟨rfl, rfl, rfl⟩]
          cases n with
          | zero => exact ⟨_, rfl⟩
          | succ n => exact ⟨_, rfl⟩
        obtain ⟨g, hg⟩ := hg
        rw [hg] at hlen ⊢
        unfold definitionFor
        rw [hf, hf]
        simp only
        rw [show upper py!"SSNSNC" = py!"SSNSNC" from by decide +kernel, key _ hlen]
    · unfold fieldTexts
      rw [if_neg h1, if_neg h2, List.take_append_drop]

/-- C49. Every received sentence of a built-in type with a definition, PSSNSNC included, is rebuilt by the call that `repr`
prints: talker, id, mode, payload, attributes, identity and `str` are the same. The checksum is that of the payload of the
message, which for PSSNSNC no longer has the brackets received. -/
theorem C49_bracketed (now now' : Nat → DateTime) (msg : RawMsg) (mode : Int) (v : Nat) (u : UDefs) (m : Msg)
    (c t i k : Str) (f : List Str) (hs : IsSentence msg c t i f k)
    (h : parse now msg mode v u = .ok (some m)) (hb : IsStandard i ∨ IsProprietary i)
    (hd : definitionFor mode.toNat u i f ≠ .ok none) :
    ∃ m', evalRepr now' m = .ok m' ∧ m'.talker = m.talker ∧ m'.msgID = m.msgID ∧ m'.mode = m.mode ∧
      m'.payload = m.payload ∧ m'.attrs = m.attrs ∧ m'.identity = m.identity ∧ m'.str = m.str ∧
      m'.checksum = some (calcChecksum (commaJoin ((m.talker ++ m.msgID) :: m.payload))) := by
  obtain ⟨hm, p, hp, _, _, hcase⟩ := parse_accepted _ _ _ _ _ _ h
  have := sentence_parts _ _ _ _ _ _ hs p hp
  subst this
  simp only at hcase
  rcases hcase with ⟨hn, _⟩ | ⟨d, st, hd', hst, hfin⟩
  · exact absurd hn hd
  have hmode : (m.mode : Int) = mode := (C50_getters _ _ _ _ _ _ _ _ _ _ _ hs h).2.2.1
  have hsane : SaneNames d := by
    rw [definitionFor_builtin _ _ _ _ hb] at hd'
    exact definitionFor_sane _ [] (fun _ h => by cases h) _ _ _ hd'
  obtain ⟨post, hr⟩ := (received _ now d f hsane rfl (fun _ => hd')).1 st hst
  have hpay : st.payload = (fieldTexts t i f).take st.pindex ++ f.drop st.pindex := hr.pay
  have hidx : st.pindex = min post.length f.length := hr.idx
  have hlen : st.payload.length = f.length := by
    rw [hpay, List.length_append, List.length_take, List.length_drop, fieldTexts_length]
    omega
  have hft : fieldTexts t i st.payload = fieldTexts t i f := by rw [hpay]; exact fieldTexts_again _ _ _ _
  have hdef : definitionFor mode.toNat [] i st.payload = .ok (some d) := by
    rw [hpay, definitionFor_unbracketed _ _ _ _ _ hb, ← definitionFor_builtin _ u _ _ hb, hd']
  obtain ⟨st', hst', hr'⟩ := (received (ctxOf t i mode.toNat false 1 [] ⟨some st.payload, []⟩) now' d st.payload hsane rfl
    (fun _ => hdef)).2 post st.attrs (by
      show Expand mode.toNat (fieldTexts t i st.payload) d [] [] post
      rw [hft]; exact hr.expand) (by
      show readSlots post (fieldTexts t i st.payload) [] = _
      rw [hft]; exact hr.read)
  have hattrs : st'.attrs = st.attrs := by
    have h1 : readSlots post (fieldTexts t i st.payload) [] = .ok st'.attrs := hr'.read
    have h2 : readSlots post (fieldTexts t i f) [] = .ok st.attrs := hr.read
    rw [hft, h2] at h1
    exact (Except.ok.inj h1).symm
  have hidx' : st'.pindex = st.pindex := by rw [hr'.idx, hidx, hlen]
  have hpay' : st'.payload = st.payload := by
    have h1 : st'.payload = (fieldTexts t i st.payload).take st'.pindex ++ st.payload.drop st'.pindex := hr'.pay
    rw [h1, hft, hidx']
    conv => rhs; rw [hpay]
    congr 1
    rw [hpay, List.drop_append, List.drop_of_length_le (by rw [List.length_take]; omega), List.nil_append,
      List.length_take, fieldTexts_length, List.drop_drop]
    congr 1
    omega
  have ht : m.talker = t := by rw [hfin]; rfl
  have hi : m.msgID = i := by rw [hfin]; rfl
  have hmp : m.payload = st.payload := by rw [hfin]; rfl
  have hmk : evalRepr now' m =
      .ok (finish (ctxOf t i mode.toNat false 1 [] ⟨some st.payload, []⟩) none (some st')) := by
    unfold evalRepr
    rw [ht, hi, hmode, hmp, mkMsg_eq _ _ _ _ _ _ _ _ _ hm, if_neg ((not_rejected _ _ _ _).2 (by
      intro hv; exact absurd hv (by decide))),
      outcome_received now' t i mode.toNat false 1 [] st.payload [] (by omega) noClash_nil, hdef]
    simp only
    rw [hst']
    rfl
  refine ⟨_, hmk, ?_⟩
  rw [hfin]
  have e : ∀ {α} (g : Attrs → α), g st'.attrs = g st.attrs := fun g => by rw [hattrs]
  refine ⟨rfl, rfl, rfl, hpay', hattrs, ?_, ?_, ?_⟩
  · exact e (fun a => identityOf t i a)
  · have hsrc : sourceOf i [] = sourceOf i u := by
      rw [sourceOf_eq, sourceOf_eq]
      rcases hb with hb | hb
      · rw [if_pos hb, if_pos hb]
      · rw [if_pos hb, if_pos hb]
    have hsrc' : (ctxOf t i mode.toNat false 1 [] ⟨some st.payload, []⟩).defsource =
        (ctxOf t i mode.toNat false v u ⟨some f, []⟩).defsource := hsrc
    unfold Msg.str Msg.identity
    simp only [finish, hattrs, hsrc']
    rfl
  · simp only [finish, Option.getD_none, hpay', ctxOf, C01_generate_checksum]

/-- An example: the sentence has brackets and its checksum is right; serialized after parsing it has none and the checksum is
wrong; rebuilt from its `repr` the checksum is right again. -/
example : acceptedWith (fun m => m.payload == [py!"SNC", py!"1", py!"600", py!"2039", py!"1", py!"2", py!"3", py!"4"] &&
      m.text == py!"$PSSN,SNC,1,600,2039,1,2,3,4*4D\r\n" &&
      madeWith (fun m' => m'.text == py!"$PSSN,SNC,1,600,2039,1,2,3,4*4B\r\n" && m'.attrs == m.attrs) (evalRepr clock0 m))
    (parse clock0 (.bytes pb!"$PSSN,SNC,1,600,2039,[1,2,3,4]*4D\r\n") 0 1 []) = true ∧
    IsProprietary py!"SSN" := by
  decide +kernel

end Props
