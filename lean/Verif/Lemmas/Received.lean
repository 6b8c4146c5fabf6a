import Verif.Lemmas.Lookup
import Verif.Lemmas.Dec
/-! # Received sentences: what attribute processing does -/
namespace Nmea
open Py Spec

theorem entries_names (d : PDict) (k t : Str) (h : (k, t) ∈ d.entries) : k ∈ allNames d := by
  induction d with
  | nil => cases h
  | single k' t' r ih =>
    simp only [PDict.entries, List.mem_cons, Prod.mk.injEq] at h
    simp only [allNames, List.mem_cons]
    rcases h with h | h
    · exact .inl h.1
    · exact .inr (ih h)
  | group k' rep b r ihb ihr =>
    simp only [PDict.entries, List.mem_append] at h
    simp only [allNames, List.mem_append]
    exact h.imp ihb ihr

theorem sane_names (d : PDict) (h : SaneNames d) :
    ∀ k t, (k, t) ∈ d.entries → ∀ g, suffixed k g ∉ propertyNames ∧ suffixed k g ≠ py!"str2val" := by
  intro k t hm g
  have hk := h k (entries_names d k t hm)
  constructor
  · intro hin
    have h95 : ∀ x ∈ propertyNames, 95 ∉ x := by decide
    have e : k = suffixed k g := suffixed_plain k (suffixed k g) g rfl (h95 _ hin)
    rw [← e] at hin
    apply hk
    revert hin
    simp only [propertyNames, List.mem_cons, List.not_mem_nil, or_false]
    intro hin
    rcases hin with h | h | h | h | h | h <;> simp [h]
  · intro he
    have e : k = py!"str2val" := suffixed_plain k _ g he (by decide)
    apply hk; rw [e]; simp

/-- Shape of the definitions of prefixed proprietary sentences. -/
def IdFirst (d : PDict) : Bool :=
  match d with
  | .single k t r => k = py!"msgId" && t = ST && !(allNames r).contains py!"msgId"
  | _ => false

theorem IdFirst.spec (d : PDict) (h : IdFirst d = true) :
    ∃ r, d = .single py!"msgId" ST r ∧ py!"msgId" ∉ allNames r := by
  cases d with
  | nil => cases h
  | group _ _ _ _ => cases h
  | single k t r =>
    simp only [IdFirst, Bool.and_eq_true, decide_eq_true_eq, Bool.not_eq_true'] at h
    obtain ⟨⟨rfl, rfl⟩, hr⟩ := h
    exact ⟨r, rfl, by simpa using hr⟩

def GoodId (k : Str) (d : PDict) : Bool :=
  IdFirst d || (!(allNames d).contains py!"msgId" && k != py!"SSNSNC")

theorem prop_goodId (mode : Nat) : ∀ kd ∈ proprietaryDefs mode, GoodId kd.1 kd.2 = true := by
  unfold proprietaryDefs
  split
  · decide +kernel
  · decide +kernel
  · decide +kernel

theorem lookup_goodId (mode : Nat) (k : Str) (d : PDict) (h : lookup k (proprietaryDefs mode) = some d) :
    GoodId k d = true := prop_goodId mode (k, d) (lookup_some_mem k d _ h)

theorem prefix_source : ∀ m ∈ NMEA_PREFIX_PROP, ¬ IsStandard m ∧ IsProprietary m := by
  decide +kernel

theorem prefix_not_snc : ∀ m ∈ NMEA_PREFIX_PROP, py!"P" ++ m ≠ py!"PSSNSNC" := by decide

/-- Identity when the first field does not matter. -/
theorem ident_plain (t m : Str) (h : ¬ (t = py!"P" ∧ m ∈ NMEA_PREFIX_PROP)) (attrs : Attrs) :
    identityOf t m attrs = .ok (t ++ m) := by
  unfold identityOf; rw [if_neg h]

theorem ident_none (t m : Str) (attrs : Attrs) (h : lookup py!"msgId" attrs = none) :
    identityOf t m attrs = .ok (t ++ m) := by
  unfold identityOf; rw [h]; simp

theorem ident_some (m : Str) (hm : m ∈ NMEA_PREFIX_PROP) (attrs : Attrs) (f : Str)
    (h : lookup py!"msgId" attrs = some (.str f)) :
    identityOf py!"P" m attrs = .ok (py!"P" ++ m ++ f) := by
  unfold identityOf; rw [if_pos ⟨rfl, hm⟩, h]

theorem pssnsnc_iff (m f : Str) (hm : m ∈ NMEA_PREFIX_PROP) :
    py!"P" ++ m ++ f = py!"PSSNSNC" ↔ m = py!"SSN" ∧ f = py!"SNC" := by
  constructor
  · intro h
    simp only [NMEA_PREFIX_PROP, List.mem_cons, List.not_mem_nil, or_false] at hm
    rcases hm with rfl | rfl | rfl | rfl | rfl | rfl <;> simp_all
  · rintro ⟨rfl, rfl⟩; rfl

/-- State after processing a received sentence. -/
structure Received (c : Ctx) (d : PDict) (p : List Str) (st : St) (post : List Slot) : Prop where
  expand : Expand c.mode (fieldTexts c.talker c.msgID p) d [] [] post
  read : readSlots post (fieldTexts c.talker c.msgID p) [] = .ok st.attrs
  idx : st.pindex = min post.length p.length
  pay : st.payload = (fieldTexts c.talker c.msgID p).take st.pindex ++ p.drop st.pindex
  clean : Clean st.attrs
  msgid : c.talker = py!"P" ∧ c.msgID ∈ NMEA_PREFIX_PROP → lookup py!"msgId" st.attrs = none ∨
    ∃ f, p.head? = some f ∧ lookup py!"msgId" st.attrs = some (.str f)

theorem fieldTexts_length (t m : Str) (p : List Str) : (fieldTexts t m p).length = p.length := by
  unfold fieldTexts
  split
  · simp
  · split
    · rename_i h
      cases p with
      | nil => simp at h
      | cons f fs => simp
    · rfl

def st0 (p : List Str) : St := { pindex := 0, payload := p, attrs := [], tick := 0 }

/-- A single phase suffices unless the first field is the message id. -/
theorem received_phase (c : Ctx) (now : Nat → DateTime) (d : PDict) (p : List Str) (strip : Bool)
    (P : Attrs → Prop) (hph : Phase c d strip P) (h0 : P [])
    (hid : c.talker = py!"P" ∧ c.msgID ∈ NMEA_PREFIX_PROP → ∀ attrs, P attrs →
      lookup py!"msgId" attrs = none)
    (hf : ∀ i : Nat, (fieldTexts c.talker c.msgID p)[i]? = (p[i]?).map (if strip then noBrackets else id)) :
    (∀ st, setPDict c now d [] (st0 p) = .ok st → ∃ post, Received c d p st post) ∧
    (∀ post attrs, Expand c.mode (fieldTexts c.talker c.msgID p) d [] [] post →
      readSlots post (fieldTexts c.talker c.msgID p) [] = .ok attrs →
      ∃ st, setPDict c now d [] (st0 p) = .ok st ∧ Received c d p st post) := by
  have hl := fieldTexts_length c.talker c.msgID p
  have hi : Inv p (fieldTexts c.talker c.msgID p) strip P [] (st0 p) :=
    ⟨by simp [st0], by simp [st0], rfl, Clean.nil, h0, hl, fun i _ => hf i⟩
  have hR : ∀ st post, Expand c.mode (fieldTexts c.talker c.msgID p) d [] [] post →
      Inv p (fieldTexts c.talker c.msgID p) strip P post st → Received c d p st post :=
    fun st post h1 h2 => ⟨h1, h2.read, by rw [h2.idx, hl], h2.pay, h2.clean,
      fun hB => .inl (hid hB _ h2.prop)⟩
  obtain ⟨m1, m2⟩ := setPDict_expand c now strip P p _ d hph [] [] (fun k => by simp [suffixed]) [] _ hi
  constructor
  · intro st h
    obtain ⟨post, h1, h2⟩ := m1 st h
    exact ⟨post, hR st post h1 h2⟩
  · intro post attrs h1 h2
    obtain ⟨st, h3, h4⟩ := m2 post attrs h1 h2
    exact ⟨st, h3, hR st post h1 h4⟩

theorem pres_lookup (x : Str) (hx : 95 ∉ x) (h1 : x ≠ py!"lon") (h2 : x ≠ py!"lat") (d : PDict)
    (hd : x ∉ allNames d) (w : Option PyVal) :
    ∀ attrs k t g v, lookup x attrs = w → (k, t) ∈ d.entries →
      lookup x (hemisphere t v (Py.insert (suffixed k g) v attrs)) = w := by
  intro attrs k t g v hl hm
  rw [lookup_hemisphere _ _ _ _ h1 h2, lookup_insert, if_neg, hl]
  intro e
  have := suffixed_plain k x g e.symm hx
  exact hd (this ▸ entries_names d k t hm)

/-- Attribute processing of a received sentence: it succeeds exactly when the definition expands to
slots that can be read from the field texts. -/
theorem received (c : Ctx) (now : Nat → DateTime) (d : PDict) (p : List Str)
    (hsane : SaneNames d) (hpay : c.kw.payload = some p)
    (hdef : c.talker = py!"P" ∧ c.msgID ∈ NMEA_PREFIX_PROP →
      definitionFor c.mode c.udefs c.msgID p = .ok (some d)) :
    (∀ st, setPDict c now d [] (st0 p) = .ok st → ∃ post, Received c d p st post) ∧
    (∀ post attrs, Expand c.mode (fieldTexts c.talker c.msgID p) d [] [] post →
      readSlots post (fieldTexts c.talker c.msgID p) [] = .ok attrs →
      ∃ st, setPDict c now d [] (st0 p) = .ok st ∧ Received c d p st post) := by
  have hs : c.streaming = true := by simp [Ctx.streaming, hpay]
  have hn := sane_names d hsane
  by_cases hB : c.talker = py!"P" ∧ c.msgID ∈ NMEA_PREFIX_PROP
  · obtain ⟨hT, hM⟩ := hB
    have hdef := hdef ⟨hT, hM⟩
    obtain ⟨n1, n2⟩ := prefix_source c.msgID hM
    have hsnc := prefix_not_snc c.msgID hM
    -- the definition comes from a proprietary table
    unfold definitionFor at hdef
    cases hfull : fullId c.msgID p with
    | error e => rw [hfull] at hdef; cases hdef
    | ok fid =>
    rw [hfull] at hdef
    simp only at hdef
    rw [if_neg n1, if_pos n2] at hdef
    cases hlay : layoutName c.mode (upper fid) p with
    | error e => rw [hlay] at hdef; cases hdef
    | ok name =>
    rw [hlay] at hdef
    simp only [Except.ok.injEq] at hdef
    have hgood := lookup_goodId _ _ _ hdef
    unfold GoodId at hgood
    simp only [Bool.or_eq_true] at hgood
    have hpne : ∃ f fs, p = f :: fs := by
      cases p with
      | nil => unfold fullId at hfull; rw [if_pos hM] at hfull; cases hfull
      | cons f fs => exact ⟨f, fs, rfl⟩
    obtain ⟨f, fs, rfl⟩ := hpne
    rcases hgood with hgood | hgood
    · -- the first attribute is the message id
      obtain ⟨r, rfl, hr⟩ := IdFirst.spec d hgood
      let strip : Bool := decide (c.msgID = py!"SSN" ∧ f = py!"SNC")
      have hph : Phase c r strip (fun attrs => lookup py!"msgId" attrs = some (.str f)) := by
        refine ⟨hs, ?_, ?_, ?_⟩
        · intro attrs ha
          refine ⟨_, by rw [hT]; exact ident_some c.msgID hM attrs f ha, ?_⟩
          rw [pssnsnc_iff _ _ hM]; simp [strip]
        · exact pres_lookup _ (by decide) (by decide) (by decide) r hr _
        · exact fun k t hm g => hn k t (by simp [PDict.entries, hm]) g
      have hft : fieldTexts c.talker c.msgID (f :: fs) =
          f :: fs.map (if strip then noBrackets else id) := by
        unfold fieldTexts
        rw [if_neg (by rw [hT]; exact hsnc)]
        by_cases hst : c.msgID = py!"SSN" ∧ f = py!"SNC"
        · rw [if_pos ⟨hT, hst.1, by rw [hst.2]; rfl⟩]
          simp [strip, hst.1, hst.2]
        · rw [if_neg (fun h => hst ⟨h.2.1, by simpa using h.2.2⟩)]
          simp [strip, hst]
      have hone : setSingle c now py!"msgId" ST [] (st0 (f :: fs)) =
          .ok { pindex := 1, payload := f :: fs, attrs := [(py!"msgId", .str f)], tick := 0 } := by
        rw [setSingle_stream _ _ _ _ _ _ hs]
        unfold setSingleStream
        rw [ident_none _ _ _ (by rfl), hT]
        simp only [st0, bind, Except.bind, List.getElem?_cons_zero, suffixed, List.foldl_nil]
        rw [if_neg hsnc]
        have hv : str2val f ST = .ok (.str f) := rfl
        rw [if_neg hsnc, hv]
        rfl
      have hi : Inv (f :: fs) (fieldTexts c.talker c.msgID (f :: fs)) strip
          (fun attrs => lookup py!"msgId" attrs = some (.str f)) [(py!"msgId", ST)]
          { pindex := 1, payload := f :: fs, attrs := [(py!"msgId", .str f)], tick := 0 } := by
        refine ⟨?_, ?_, ?_, ?_, rfl, ?_, ?_⟩
        · rw [fieldTexts_length]; simp
        · rw [hft]; simp
        · rw [hft]; rfl
        · exact Clean.nil.step ST py!"msgId" (.str f) (by decide) (by decide) rfl
        · rw [fieldTexts_length]
        · intro i hi'
          rw [hft]
          cases i with
          | zero => simp at hi'
          | succ i => simp
      obtain ⟨m1, m2⟩ := setPDict_expand c now strip _ (f :: fs) _ r hph [] []
        (fun k => by simp [suffixed]) _ _ hi
      have e : setPDict c now (.single py!"msgId" ST r) [] (st0 (f :: fs)) =
          setPDict c now r [] { pindex := 1, payload := f :: fs, attrs := [(py!"msgId", .str f)], tick := 0 } := by
        simp only [setPDict, bind, Except.bind, hone]
      have hR : ∀ st post, Expand c.mode (fieldTexts c.talker c.msgID (f :: fs)) r []
            [(py!"msgId", ST)] post →
          Inv (f :: fs) (fieldTexts c.talker c.msgID (f :: fs)) strip
            (fun attrs => lookup py!"msgId" attrs = some (.str f)) post st →
          Received c (.single py!"msgId" ST r) (f :: fs) st post :=
        fun st post h1 h2 => ⟨.single _ _ _ _ _ _ h1, h2.read,
          by rw [h2.idx, fieldTexts_length], h2.pay, h2.clean, fun _ => .inr ⟨f, rfl, h2.prop⟩⟩
      rw [e]
      constructor
      · intro st h
        obtain ⟨post, h1, h2⟩ := m1 st h
        exact ⟨post, hR st post h1 h2⟩
      · intro post attrs h1 h2
        cases h1 with
        | single _ _ _ _ _ _ h1 =>
        obtain ⟨st, h3, h4⟩ := m2 post attrs h1 h2
        exact ⟨st, h3, hR st post h1 h4⟩
    · -- no message id attribute at all
      simp only [Bool.and_eq_true, Bool.not_eq_true', bne_iff_ne] at hgood
      have hr : py!"msgId" ∉ allNames d := by simpa using hgood.1
      have hnot : ¬ (c.msgID = py!"SSN" ∧ f = py!"SNC") := by
        rintro ⟨h1, rfl⟩
        rw [h1] at hfull
        have hid : fid = py!"SSNSNC" := by
          unfold fullId at hfull
          rw [if_pos (by decide)] at hfull
          simp only at hfull
          rw [if_neg (by decide)] at hfull
          cases hfull; rfl
        subst hid
        have hu : upper py!"SSNSNC" = py!"SSNSNC" := by decide
        rw [hu, layoutName_plain _ _ _ (by decide) (by decide)] at hlay
        have hno : layouts.lookup (c.mode, py!"SSNSNC", (py!"SNC" :: fs).length) = none := by
          apply List.lookup_eq_none_iff.2
          intro q hq
          rw [bne_iff_ne]
          intro e
          have : ∀ q ∈ layouts, q.1.2.1 ≠ py!"SSNSNC" := by decide
          exact this q hq (by rw [← e])
        rw [hno] at hlay
        simp only [Except.ok.injEq] at hlay
        rw [if_neg (by simp)] at hlay
        exact hgood.2 hlay.symm
      apply received_phase c now d (f :: fs) false (fun attrs => lookup py!"msgId" attrs = none)
      · refine ⟨hs, ?_, pres_lookup _ (by decide) (by decide) (by decide) d hr _, hn⟩
        intro attrs ha
        refine ⟨_, ident_none _ _ _ ha, ?_⟩
        rw [hT]; simp only [hsnc, Bool.false_eq_true]
      · rfl
      · exact fun _ _ h => h
      · intro i
        unfold fieldTexts
        rw [if_neg (by rw [hT]; exact hsnc), if_neg (fun h => hnot ⟨h.2.1, by simpa using h.2.2⟩)]
        simp
  · apply received_phase c now d p (decide (c.talker ++ c.msgID = py!"PSSNSNC")) (fun _ => True)
    · refine ⟨hs, ?_, fun _ _ _ _ _ _ _ => trivial, hn⟩
      intro attrs _
      exact ⟨_, ident_plain _ _ hB attrs, by simp⟩
    · trivial
    · exact fun h => absurd h hB
    · intro i
      unfold fieldTexts
      by_cases h : c.talker ++ c.msgID = py!"PSSNSNC"
      · rw [if_pos h]; simp only [h, decide_true, if_true, List.getElem?_map]
      · rw [if_neg h, if_neg]
        · simp only [h, decide_false, Bool.false_eq_true, if_false, Option.map_id, id_eq]
        · rintro ⟨h1, h2, _⟩
          exact hB ⟨h1, by rw [h2]; decide⟩

end Nmea

namespace Nmea
open Py Spec

/-- No keyword clashes with a parameter name used inside the constructor for message id `i`. -/
def NoClash (i : Str) (others : List (Str × PyVal)) : Prop :=
  (∀ k ∈ reservedNames, k ∉ others.map Prod.fst) ∧ (i ∈ variantIds → py!"mode" ∉ others.map Prod.fst)

theorem NoClash.has {i p o} (h : NoClash i o) (k : Str) (hk : k ∈ reservedNames) :
    Kwargs.has ⟨p, o⟩ k = false := by
  have := h.1 k hk
  rw [← hasKey_mem] at this
  simpa [Kwargs.has] using this

theorem NoClash.mode {i p o} (h : NoClash i o) (hi : i ∈ variantIds) : Kwargs.has ⟨p, o⟩ py!"mode" = false := by
  have := h.2 hi
  rw [← hasKey_mem] at this
  simpa [Kwargs.has] using this

theorem NoClash.clash {i p o} (h : NoClash i o) : Kwargs.clash ⟨p, o⟩ = false := by
  unfold Kwargs.clash
  rw [List.any_eq_false]
  intro k hk
  rw [h.has k hk]
  simp

theorem definitionFor_error (mode : Nat) (u : UDefs) (i : Str) (p : List Str) (e : Err)
    (h : definitionFor mode u i p = .error e) : e = .index := by
  have h1 : ∀ e, fullId i p = .error e → e = .index := by
    intro e h
    unfold fullId at h
    split at h
    · cases p with
      | nil => cases h; rfl
      | cons f fs =>
        simp only at h
        split at h
        · match f with
          | [] => cases h; rfl
          | [a] => cases h; rfl
          | a :: b :: r => cases h
        · cases h
    · cases h
  have h2 : ∀ key e, layoutName mode key p = .error e → e = .index := by
    intro key e h
    unfold layoutName at h
    split at h
    · cases p with
      | nil => cases h; rfl
      | cons f fs => cases h
    · split at h
      · cases p with
        | nil => cases h; rfl
        | cons f fs => cases h
      · split at h <;> cases h
  unfold definitionFor at h
  cases hf : fullId i p with
  | error e' => rw [hf] at h; cases h; exact h1 _ hf
  | ok fid =>
    rw [hf] at h
    simp only at h
    split at h
    · cases h
    · split at h
      · cases hl : layoutName mode (upper fid) p with
        | error e' => rw [hl] at h; cases h; exact h2 _ _ hl
        | ok n => rw [hl] at h; cases h
      · split at h <;> cases h

/-- The constructor with a `payload` argument, in terms of the specification's definition. -/
theorem outcome_received (now : Nat → DateTime) (t i : Str) (mode : Nat) (hp : Bool) (v : Nat) (u : UDefs)
    (p : List Str) (o : List (Str × PyVal)) (hm : mode = 0 ∨ mode = 1 ∨ mode = 2) (ho : NoClash i o) :
    outcome (ctxOf t i mode hp v u ⟨some p, o⟩) now =
      match definitionFor mode u i p with
      | .error e => .error e
      | .ok none => if ValMsgid v then .error .nmeaMessage else .ok none
      | .ok (some d) => wrapErr ((setPDict (ctxOf t i mode hp v u ⟨some p, o⟩) now d [] (st0 p)).map some) := by
  unfold outcome rawOutcome
  rw [getDict_eq (ctxOf t i mode hp v u ⟨some p, o⟩) p hm rfl rfl
    (ho.has _ (by decide)) (fun h => ho.mode h)]
  have hc : (ctxOf t i mode hp v u ⟨some p, o⟩).kw.clash = false := ho.clash
  have e1 : (ctxOf t i mode hp v u ⟨some p, o⟩).mode = mode := rfl
  have e2 : (ctxOf t i mode hp v u ⟨some p, o⟩).udefs = u := rfl
  have e3 : (ctxOf t i mode hp v u ⟨some p, o⟩).msgID = i := rfl
  have e4 : (ctxOf t i mode hp v u ⟨some p, o⟩).validate = v := rfl
  rw [e1, e2, e3, e4]
  cases hd : definitionFor mode u i p with
  | error e =>
    rw [definitionFor_error _ _ _ _ _ hd]; rfl
  | ok od =>
    cases od with
    | none =>
      simp only
      by_cases hv : ValMsgid v
      · rw [if_pos hv, if_pos hv]; rfl
      · rw [if_neg hv, if_neg hv]; rfl
    | some d =>
      simp only [hc]
      rw [if_neg (by simp)]
      rfl

theorem noClash_nil {i} : NoClash i [] := ⟨by intro k _; simp, by simp⟩

end Nmea

namespace Nmea
open Py Spec

theorem field_inj (i j : Nat) (h : py!"field_" ++ fmt02d i = py!"field_" ++ fmt02d j) : i = j :=
  fmt02d_inj i j (List.append_cancel_left h)

/-- The nominal attribute list. -/
theorem nominalFrom_eq (i : Nat) (fs : List Str) (attrs : Attrs)
    (h : ∀ j, i ≤ j → py!"field_" ++ fmt02d j ∉ attrs.map Prod.fst) :
    nominalFrom i fs attrs =
      attrs ++ (fs.zipIdx i).map (fun x => (py!"field_" ++ fmt02d x.2, .str x.1)) := by
  induction fs generalizing i attrs with
  | nil => simp [nominalFrom]
  | cons f fs ih =>
    rw [nominalFrom, insert_not_mem _ _ _ (h i (Nat.le_refl i)), ih]
    · simp
    · intro j hj
      rw [List.map_append, List.mem_append]
      rintro (h1 | h1)
      · exact h j (by omega) h1
      · simp only [List.map_cons, List.map_nil, List.mem_singleton] at h1
        have := field_inj _ _ h1; omega

/-- Everything an accepted sentence tells us. -/
theorem parse_accepted (now : Nat → DateTime) (msg : RawMsg) (mode : Int) (v : Nat) (u : UDefs) (m : Msg)
    (h : parse now msg mode v u = .ok (some m)) :
    (mode = 0 ∨ mode = 1 ∨ mode = 2) ∧ ∃ p, getParts msg = .ok p ∧
      (ValCksum v → upper p.cksum = calcChecksum p.content) ∧
      (ValMsgid v → p.talker ∈ NMEA_TALKERS ∧ Recognised u p.msgid) ∧
      ((definitionFor mode.toNat u p.msgid p.payload = .ok none ∧ ¬ ValMsgid v ∧
          m = finish (ctxOf p.talker p.msgid mode.toNat false v u ⟨some p.payload, []⟩) (some p.cksum) none) ∨
       (∃ d st, definitionFor mode.toNat u p.msgid p.payload = .ok (some d) ∧
          setPDict (ctxOf p.talker p.msgid mode.toNat false v u ⟨some p.payload, []⟩) now d []
            (st0 p.payload) = .ok st ∧
          m = finish (ctxOf p.talker p.msgid mode.toNat false v u ⟨some p.payload, []⟩) (some p.cksum)
            (some st))) := by
  obtain ⟨hm, p, hp, hc, hmk⟩ := parse_accept now msg mode v u m h
  refine ⟨hm, p, hp, fun hv => hc ((valCksum_iff v).2 hv), ?_⟩
  obtain ⟨_, hrej, o, ho, hfin⟩ := mkMsg_ok _ _ _ _ _ _ _ _ _ _ hmk
  constructor
  · intro hv
    constructor
    · apply Classical.byContradiction; intro hn; exact hrej ⟨.inl hn, (valMsgid_iff v).2 hv⟩
    · apply Classical.byContradiction; intro hn
      exact hrej ⟨.inr ((sourceOf_unkn _ _).2 hn), (valMsgid_iff v).2 hv⟩
  · rw [outcome_received now _ _ _ _ _ _ _ _ (by omega) noClash_nil] at ho
    cases hd : definitionFor mode.toNat u p.msgid p.payload with
    | error e => rw [hd] at ho; cases ho
    | ok od =>
      rw [hd] at ho
      cases od with
      | none =>
        simp only at ho
        split at ho
        · cases ho
        · cases ho; exact .inl ⟨rfl, ‹_›, hfin⟩
      | some d =>
        simp only at ho
        cases hs : setPDict (ctxOf p.talker p.msgid mode.toNat false v u ⟨some p.payload, []⟩) now d []
            (st0 p.payload) with
        | error e => rw [hs] at ho; simp only [Except.map, wrapErr_error] at ho; cases ho
        | ok st =>
          rw [hs] at ho; simp only [Except.map, wrapErr_ok] at ho; cases ho
          exact .inr ⟨d, st, rfl, hs, hfin⟩

/-- Conversely: when a sentence is accepted. -/
theorem parse_result (now : Nat → DateTime) (msg : RawMsg) (mode : Int) (v : Nat) (u : UDefs) (p : Parts)
    (hm : mode = 0 ∨ mode = 1 ∨ mode = 2) (hp : getParts msg = .ok p)
    (hc : ValCksum v → upper p.cksum = calcChecksum p.content)
    (hr : ValMsgid v → p.talker ∈ NMEA_TALKERS ∧ Recognised u p.msgid) :
    parse now msg mode v u =
      match definitionFor mode.toNat u p.msgid p.payload with
      | .error e => .error e
      | .ok none => if ValMsgid v then .error .nmeaParse else
          .ok (some (finish (ctxOf p.talker p.msgid mode.toNat false v u ⟨some p.payload, []⟩) (some p.cksum) none))
      | .ok (some d) =>
        match setPDict (ctxOf p.talker p.msgid mode.toNat false v u ⟨some p.payload, []⟩) now d []
            (st0 p.payload) with
        | .ok st => .ok (some (finish (ctxOf p.talker p.msgid mode.toNat false v u ⟨some p.payload, []⟩)
            (some p.cksum) (some st)))
        | .error .nmeaMessage => if ValMsgid v then .error .nmeaParse else .ok none
        | .error e => .error (wrapE e) := by
  rw [parse_eq _ _ _ _ _ hm, hp]
  simp only
  rw [if_neg (by rintro ⟨h1, h2⟩; exact h2 (hc ((valCksum_iff v).1 h1)))]
  rw [mkMsg_eq _ _ _ _ _ _ _ _ _ hm, if_neg]
  · rw [outcome_received now _ _ _ _ _ _ _ _ (by omega) noClash_nil]
    cases hd : definitionFor mode.toNat u p.msgid p.payload with
    | error e => rw [definitionFor_error _ _ _ _ _ hd]; rfl
    | ok od =>
      cases od with
      | none =>
        simp only
        by_cases hv : ValMsgid v
        · rw [if_pos hv, if_pos hv]; simp only [Except.map, (valMsgid_iff v).2 hv, if_true]
        · rw [if_neg hv, if_neg hv]; rfl
      | some d =>
        simp only
        generalize setPDict _ now d [] _ = r
        match r with
        | .ok st => rfl
        | .error e =>
          simp only [Except.map, wrapErr_error]
          by_cases hv : ValMsgid v
          · have := (valMsgid_iff v).2 hv
            cases e <;> simp [wrapE, hv, this]
          · have := (valMsgid_false_iff v).2 hv
            cases e <;> simp [wrapE, hv, this]
  · rintro ⟨h1 | h1, h2⟩
    · exact h1 (hr ((valMsgid_iff v).1 h2)).1
    · exact (sourceOf_unkn _ _).1 h1 (hr ((valMsgid_iff v).1 h2)).2

end Nmea
