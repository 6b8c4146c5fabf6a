import Verif.Lemmas.Reading
import Verif.Spec.Vendor
/-!
# Proprietary sentences are read as their manufacturers lay them out (C74)
-/
namespace Props.Vendor
open Py Nmea Spec Spec.Nmea0183 Spec.Vendor Props

/-- The name of the definition. -/
def keyOf (i : Str) : Select → Str
  | .word w => upper (i ++ w)
  | _ => upper i

/-- What is checked of the way a definition is found. -/
def selectOk (i : Str) : Select → Bool
  | .always => decide (i ∉ NMEA_PREFIX_PROP) && decide ((upper i).take 3 ≠ py!"QTM")
  | .data => decide (i ∉ NMEA_PREFIX_PROP)
  | .word w => decide (i ∈ NMEA_PREFIX_PROP) && decide ((upper (i ++ w)).take 3 ≠ py!"QTM") &&
      decide (¬ (i = py!"SSN" ∧ w = py!"SNC")) &&
      (decide (i ≠ py!"ASHR") || match w with | _ :: ch :: _ => !isDigitChar ch | _ => false)
  | .time => decide (i = py!"ASHR")

/-- What is checked of each of the sentences. -/
def vendorOk (x : Str × Select × List Item) : Bool :=
  match lookup (keyOf x.1 x.2.1) (proprietaryDefs 0) with
  | none => false
  | some d =>
    layoutOk d x.2.2 && decide (¬ IsStandard x.1) && decide (IsProprietary x.1) && selectOk x.1 x.2.1 &&
      decide (keyOf x.1 x.2.1 ∉ [py!"QTMSN", py!"STMDRSENMSG"]) &&
      layouts.all (fun l => decide (l.1.1 ≠ 0) || decide (l.1.2.1 ≠ keyOf x.1 x.2.1)) &&
      decide (x.1 ∉ [py!"PSSNSNC", py!"SSNSNC", py!"SNSNC"]) && (decide (x.1 ≠ py!"SSN") || decide (x.2.1 ≠ .always))

theorem vendor_ok : ∀ x ∈ Vendor.sentences, vendorOk x = true := by decide +kernel

theorem lookup_layouts_none (key : Str) (n : Nat)
    (h : layouts.all (fun l => decide (l.1.1 ≠ 0) || decide (l.1.2.1 ≠ key)) = true) :
    layouts.lookup (0, key, n) = none := by
  rw [List.lookup_eq_none_iff]
  intro l hl
  have := List.all_eq_true.1 h l hl
  simp only [Bool.or_eq_true, decide_eq_true_eq] at this
  rw [bne_iff_ne]
  intro e'
  rcases this with h1 | h1
  · exact h1 (by rw [← e'])
  · exact h1 (by rw [← e'])

theorem others_ok : ∀ x ∈ Vendor.others, vendorOk x = true := by decide +kernel

/-- The definition used for each of the sentences. -/
theorem vendor_facts {i : Str} {sel : Select} {lay : List Item} (hok : vendorOk (i, sel, lay) = true)
    (f : List Str) (hf : Selects sel f) :
    ∃ d, (∀ u, definitionFor 0 u i f = .ok (some d)) ∧ SaneNames d ∧ layoutOk d lay = true ∧
      ∀ t : Str, t.length ≤ 2 → fieldTexts t i f = f := by
  unfold vendorOk at hok
  simp only at hok
  cases hd : lookup (keyOf i sel) (proprietaryDefs 0) with
  | none => rw [hd] at hok; cases hok
  | some d =>
    rw [hd] at hok
    simp only [Bool.and_eq_true, decide_eq_true_eq, Bool.or_eq_true] at hok
    obtain ⟨⟨⟨⟨⟨⟨⟨h1, h2⟩, h3⟩, h4⟩, h5⟩, h6⟩, h7⟩, h8⟩ := hok
    have hmem : (keyOf i sel, d) ∈ proprietaryDefs 0 := lookup_some_mem _ _ _ hd
    simp only [List.mem_cons, List.not_mem_nil, or_false, not_or] at h5 h7
    refine ⟨d, fun u => ?_, tables_sane.2 0 _ hmem, h1, fun t ht => ?_⟩
    · have hname : layoutName 0 (keyOf i sel) f = .ok (keyOf i sel) := by
        unfold layoutName
        rw [if_neg (fun e => h5.1 e.1), if_neg h5.2, lookup_layouts_none _ _ h6]
        simp only
        congr 1
        split
        · rename_i hq
          cases sel with
          | always => simp [selectOk, keyOf] at h4 hq; exact absurd hq.1 h4.2
          | word w => simp [selectOk, keyOf] at h4 hq; exact absurd hq.1 h4.1.1.2
          | time =>
            simp only [selectOk, decide_eq_true_eq] at h4
            subst h4
            exact absurd hq.2.1 (by decide)
          | data =>
            unfold ackName
            rw [if_neg hf.1, if_neg hf.2]
        · rfl
      have hid : ∃ id, fullId i f = .ok id ∧ upper id = keyOf i sel := by
        unfold fullId
        cases sel with
        | always =>
          simp only [selectOk, Bool.and_eq_true, decide_eq_true_eq] at h4
          exact ⟨i, by rw [if_neg h4.1], rfl⟩
        | data =>
          simp only [selectOk, decide_eq_true_eq] at h4
          exact ⟨i, by rw [if_neg h4], rfl⟩
        | word w =>
          simp only [selectOk, Bool.and_eq_true, decide_eq_true_eq, Bool.or_eq_true] at h4
          obtain ⟨⟨⟨a1, _⟩, _⟩, a4⟩ := h4
          refine ⟨i ++ w, ?_, rfl⟩
          rw [if_pos a1]
          cases f with
          | nil => cases hf
          | cons x r =>
            obtain rfl : x = w := by simpa [Selects] using hf
            simp only
            by_cases hi : i = py!"ASHR"
            · rw [if_pos hi]
              rcases a4 with a4 | a4
              · exact absurd hi a4
              · match x, a4 with
                | _ :: ch :: _, a4 =>
                  simp only [Bool.not_eq_true'] at a4
                  simp [a4]
            · rw [if_neg hi]
        | time =>
          simp only [selectOk, decide_eq_true_eq] at h4
          subst h4
          refine ⟨py!"ASHR", ?_, rfl⟩
          obtain ⟨a, b, r, e, e1, e2⟩ := hf
          cases f with
          | nil => cases e
          | cons x l =>
            obtain rfl : x = a :: b :: r := by simpa using e
            rw [if_pos (by decide)]
            have : isDigitChar b = true := by
              revert e1 e2
              intro e1 e2
              have : ∀ c : Fin 10, isDigitChar (48 + c.val) = true := by decide
              have h := this ⟨b - 48, by omega⟩
              simpa [show 48 + (b - 48) = b by omega] using h
            simp [this]
      obtain ⟨id, e1, e2⟩ := hid
      unfold definitionFor
      rw [e1]
      simp only
      rw [if_neg h2, if_pos h3, e2, hname]
      simp only
      rw [hd]
    · apply fieldTexts_id
      rintro (e | ⟨_, e1, e2⟩)
      · match t, ht with
        | [], _ => exact h7.1 e
        | [a], _ => exact h7.2.1 (by simpa using congrArg List.tail e)
        | [a, b], _ => exact h7.2.2 (by simpa using congrArg (fun l => l.tail.tail) e)
      · subst e1
        cases sel with
        | always => simp [selectOk] at h4; exact absurd h4.1 (by decide)
        | data => simp [selectOk] at h4; exact absurd h4 (by decide)
        | time => simp [selectOk] at h4
        | word w =>
          simp only [selectOk, Bool.and_eq_true, decide_eq_true_eq] at h4
          apply h4.1.2
          refine ⟨trivial, ?_⟩
          have : f.head? = some w := hf
          rw [this] at e2
          exact Option.some.inj e2

/-- `parse` reads each of the proprietary sentences as its manufacturer lays it out: if every field is
well-formed (or empty), and the fields giving the number of repetitions of a group are present, the sentence
is accepted, with the attributes of the fields that are present, in their order, and each attribute has the
value its field denotes, coordinates with the sign of their hemisphere. The sentence may have any number of
fields. -/
theorem C74_reading (now : Nat → DateTime) (msg : RawMsg) (v : Nat) (u : UDefs) (c t i k : Str) (f : List Str)
    (sel : Select) (lay : List Item) (hl : (i, sel, lay) ∈ Vendor.sentences ++ Vendor.others) (hf : Selects sel f)
    (hs : IsSentence msg c t i f k) (ha : Admitted 0 v u c t i k) (hcnt : CountsGiven f lay)
    (hw : ∀ (p : Nat) name kind text, (fields f lay 0)[p]? = some (name, kind) → f[p]? = some text →
      ∃ val, Denotes kind text val) :
    ∃ m, parse now msg 0 v u = .ok (some m) ∧
      m.attrs.map Prod.fst = ((fields f lay 0).map Prod.fst).take f.length ∧
      ∀ (p : Nat) name kind text, (fields f lay 0)[p]? = some (name, kind) → f[p]? = some text →
        ∃ val, Denotes kind text val ∧
          lookup name m.attrs = some (oriented kind ((fields f lay 0)[p + 1]?.map Prod.snd) f[p + 1]? val) := by
  have hok : vendorOk (i, sel, lay) = true := by
    rcases List.mem_append.1 hl with h | h
    · exact vendor_ok _ h
    · exact others_ok _ h
  obtain ⟨d, h1, h2, h3, h4⟩ := vendor_facts hok f hf
  have htl : t.length ≤ 2 := by
    obtain ⟨_, _, _, _, _, h⟩ := hs
    rcases h with rfl | ⟨_, h | h⟩
    · decide
    · omega
    · omega
  exact reading_core now msg v u c t i k f lay d hs ha (h1 u) (h1 []) h2 (h4 t htl) h3 hcnt hw

/-! ## Variants -/

/-- The name of the definition of a variant. -/
def variantName (i : Str) : Variant → Str
  | .count n => i ++ (layouts.lookup (0, i, n)).getD []
  | .first w => if i = py!"QTMSN" then (if isNumeric w then i ++ py!"_ALT" else i) else i ++ py!"_" ++ w

/-- What is checked of the way the definition of a variant is found. -/
def variantSelectOk (i : Str) : Variant → Bool
  | .count n => decide (3 ≤ n) && decide (i ∉ [py!"QTMSN", py!"STMDRSENMSG"])
  | .first _ => decide (i ∈ [py!"QTMSN", py!"STMDRSENMSG"])

/-- What is checked of each of the variants. -/
def variantOk (x : Str × Variant × List Item) : Bool :=
  match lookup (variantName x.1 x.2.1) (proprietaryDefs 0) with
  | none => false
  | some d =>
    layoutOk d x.2.2 && decide (¬ IsStandard x.1) && decide (IsProprietary x.1) && variantSelectOk x.1 x.2.1 &&
      decide (upper x.1 = x.1) && decide (x.1 ∉ NMEA_PREFIX_PROP) &&
      decide (x.1 ∉ [py!"PSSNSNC", py!"SSNSNC", py!"SNSNC"])

theorem variants_ok : ∀ x ∈ Vendor.variants, variantOk x = true := by decide +kernel

/-- Identifiers for which the fields of a sentence are taken as they are. -/
theorem texts_id {t i : Str} (f : List Str) (ht : t.length ≤ 2)
    (h7 : i ∉ [py!"PSSNSNC", py!"SSNSNC", py!"SNSNC"]) (h8 : i ≠ py!"SSN") : fieldTexts t i f = f := by
  simp only [List.mem_cons, List.not_mem_nil, or_false, not_or] at h7
  apply fieldTexts_id
  rintro (e | ⟨_, e1, e2⟩)
  · match t, ht with
    | [], _ => exact h7.1 e
    | [a], _ => exact h7.2.1 (by simpa using congrArg List.tail e)
    | [a, b], _ => exact h7.2.2 (by simpa using congrArg (fun l => l.tail.tail) e)
  · exact h8 e1

theorem talker_short {msg : RawMsg} {c t i k : Str} {f : List Str} (hs : IsSentence msg c t i f k) :
    t.length ≤ 2 := by
  obtain ⟨_, _, _, _, _, h⟩ := hs
  rcases h with rfl | ⟨_, h | h⟩
  · decide
  · omega
  · omega

/-- The definition used for each of the variants. -/
theorem variant_facts {i : Str} {var : Variant} {lay : List Item} (h : (i, var, lay) ∈ Vendor.variants)
    (f : List Str) (hf : IsVariant var f) :
    ∃ d, (∀ u, definitionFor 0 u i f = .ok (some d)) ∧ SaneNames d ∧ layoutOk d lay = true ∧
      ∀ t : Str, t.length ≤ 2 → fieldTexts t i f = f := by
  have hok := variants_ok _ h
  unfold variantOk at hok
  simp only at hok
  cases hd : lookup (variantName i var) (proprietaryDefs 0) with
  | none => rw [hd] at hok; cases hok
  | some d =>
    rw [hd] at hok
    simp only [Bool.and_eq_true, decide_eq_true_eq] at hok
    obtain ⟨⟨⟨⟨⟨⟨h1, h2⟩, h3⟩, h4⟩, h5⟩, h6⟩, h7⟩ := hok
    have hmem : (variantName i var, d) ∈ proprietaryDefs 0 := lookup_some_mem _ _ _ hd
    refine ⟨d, fun u => ?_, tables_sane.2 0 _ hmem, h1, fun t ht => texts_id f ht h7 ?_⟩
    · have hname : layoutName 0 (upper i) f = .ok (variantName i var) := by
        rw [h5]
        unfold layoutName
        cases var with
        | count n =>
          simp only [variantSelectOk, Bool.and_eq_true, decide_eq_true_eq, List.mem_cons, List.not_mem_nil,
            or_false, not_or] at h4
          have hl : f.length = n := hf
          rw [if_neg (fun e => h4.2.1 e.1), if_neg h4.2.2, hl]
          unfold variantName
          cases hlk : layouts.lookup (0, i, n) with
          | some sfx => simp only [hlk, Option.getD_some]
          | none =>
            simp only [hlk, Option.getD_none, List.append_nil]
            congr 1
            have ha : ackName i f = i := by
              unfold ackName
              rw [if_neg, if_neg]
              · rintro ⟨e, _⟩; omega
              · rintro rfl; simp at hl; omega
            rw [ha, ite_self]
        | first w =>
          simp only [variantSelectOk, decide_eq_true_eq, List.mem_cons, List.not_mem_nil, or_false] at h4
          cases f with
          | nil => cases hf
          | cons x r =>
            obtain rfl : x = w := by simpa [IsVariant] using hf
            rcases h4 with rfl | rfl
            · rw [if_pos ⟨rfl, rfl⟩]
              simp only [variantName, if_pos]
              split <;> rfl
            · rw [if_neg (by rintro ⟨e, _⟩; revert e; decide), if_pos rfl]
              rfl
      unfold definitionFor fullId
      rw [if_neg h6]
      simp only
      rw [if_neg h2, if_pos h3, hname]
      simp only
      rw [hd]
    · rintro rfl
      exact h6 (by decide)

/-- `parse` reads the sentences of which there are variants according to the variant: told apart by the number
of fields or by the first field. -/
theorem C74_variants (now : Nat → DateTime) (msg : RawMsg) (v : Nat) (u : UDefs) (c t i k : Str) (f : List Str)
    (var : Variant) (lay : List Item) (hl : (i, var, lay) ∈ Vendor.variants) (hf : IsVariant var f)
    (hs : IsSentence msg c t i f k) (ha : Admitted 0 v u c t i k) (hcnt : CountsGiven f lay)
    (hw : ∀ (p : Nat) name kind text, (fields f lay 0)[p]? = some (name, kind) → f[p]? = some text →
      ∃ val, Denotes kind text val) :
    ∃ m, parse now msg 0 v u = .ok (some m) ∧
      m.attrs.map Prod.fst = ((fields f lay 0).map Prod.fst).take f.length ∧
      ∀ (p : Nat) name kind text, (fields f lay 0)[p]? = some (name, kind) → f[p]? = some text →
        ∃ val, Denotes kind text val ∧
          lookup name m.attrs = some (oriented kind ((fields f lay 0)[p + 1]?.map Prod.snd) f[p + 1]? val) := by
  obtain ⟨d, h1, h2, h3, h4⟩ := variant_facts hl f hf
  exact reading_core now msg v u c t i k f lay d hs ha (h1 u) (h1 []) h2 (h4 t (talker_short hs)) h3 hcnt hw

/-! ## Acknowledgements of Quectel modules -/

/-- Ids of Quectel sentences whose plain acknowledgement is not told apart from other sentences. -/
def ownStatus : List Str := [py!"QTMCFGUART", py!"QTMCFGMSGRATE", py!"QTMCFGPPS", py!"QTMSN"]

/-- What is checked of the Quectel ids. -/
theorem quectel_ok : ∀ i ∈ NMEA_MSGIDS_PROP.map Prod.fst, i.take 3 = py!"QTM" → i ∉ ownStatus →
    ¬ IsStandard i ∧ upper i = i ∧ i ∉ NMEA_PREFIX_PROP ∧ i ∉ [py!"PSSNSNC", py!"SSNSNC", py!"SNSNC"] ∧ i ≠ py!"SSN" ∧
      i ≠ py!"STMDRSENMSG" ∧ i ∉ noAck ∧ layouts.lookup (0, i, 1) = none ∧ layouts.lookup (0, i, 2) = none := by
  decide +kernel

/-- The definitions of acknowledgements agree with their layouts. -/
theorem ack_defs :
    (match lookup py!"QTMACK" (proprietaryDefs 0) with
      | some d => layoutOk d [.one py!"status" .text] | none => false) = true ∧
    (match lookup py!"QTMNAK" (proprietaryDefs 0) with
      | some d => layoutOk d [.one py!"status" .text, .one py!"errcode" .whole] | none => false) = true := by
  decide +kernel

theorem ack_definition {i : Str} (hi : i ∈ NMEA_MSGIDS_PROP.map Prod.fst) (hq : i.take 3 = py!"QTM")
    (ho : i ∉ ownStatus) (f : List Str) (key : Str) (hk : ackName i f = key) (hl : f.length = 1 ∨ f.length = 2)
    (d : PDict) (hd : lookup key (proprietaryDefs 0) = some d) (u : UDefs) :
    definitionFor 0 u i f = .ok (some d) := by
  obtain ⟨h1, h2, h3, _, _, h6, h7, h8, h9⟩ := quectel_ok i hi hq ho
  have hsn : i ≠ py!"QTMSN" := fun e => ho (by rw [e]; decide)
  unfold definitionFor fullId
  rw [if_neg h3]
  simp only
  have hp : IsProprietary i := Or.inl hi
  rw [if_neg h1, if_pos hp, h2]
  have : layoutName 0 i f = .ok key := by
    unfold layoutName
    rw [if_neg (fun e => hsn e.1), if_neg h6]
    have : layouts.lookup (0, i, f.length) = none := by
      rcases hl with e | e <;> rw [e] <;> assumption
    rw [this]
    simp only
    rw [if_pos ⟨trivial, hq, h7⟩, hk]
  rw [this]
  simp only
  rw [hd]

/-- A Quectel module answers a command with the id of the command and `OK`: `parse` accepts this for every
Quectel id (except four whose sentences always have a status), and the message has the one attribute `status`. -/
theorem C74_acknowledged (now : Nat → DateTime) (msg : RawMsg) (v : Nat) (u : UDefs) (c t i k : Str)
    (hi : i ∈ NMEA_MSGIDS_PROP.map Prod.fst) (hq : i.take 3 = py!"QTM") (ho : i ∉ ownStatus)
    (hs : IsSentence msg c t i [py!"OK"] k) (ha : Admitted 0 v u c t i k) :
    ∃ m, parse now msg 0 v u = .ok (some m) ∧ m.attrs = [(py!"status", .str py!"OK")] := by
  obtain ⟨_, _, _, h4, h5, _⟩ := quectel_ok i hi hq ho
  have hdf := ack_defs.1
  cases hd : lookup py!"QTMACK" (proprietaryDefs 0) with
  | none => rw [hd] at hdf; cases hdf
  | some d =>
    rw [hd] at hdf
    have hdef := ack_definition hi hq ho [py!"OK"] py!"QTMACK" rfl (.inl rfl) d hd
    obtain ⟨m, m1, m2, m3⟩ := reading_core now msg v u c t i k [py!"OK"] _ d hs ha (hdef u) (hdef [])
      (tables_sane.2 0 _ (lookup_some_mem _ _ _ hd)) (texts_id _ (talker_short hs) h4 h5) hdf
      (by intro a b hab; simp at hab)
      (by
        intro p name kind text e1 e2
        match p, e1 with
        | 0, e1 =>
          obtain ⟨rfl, rfl⟩ : py!"status" = name ∧ Kind.text = kind := by simpa [fields] using e1
          exact ⟨_, .text _⟩)
    refine ⟨m, m1, ?_⟩
    obtain ⟨val, x1, x2⟩ := m3 0 py!"status" .text py!"OK" rfl rfl
    generalize m.attrs = at_ at m2 x2
    match at_, m2 with
    | [(n, w)], m2 =>
      obtain rfl : n = py!"status" := by simpa [fields] using m2
      cases x1
      simp [lookup, oriented] at x2
      rw [x2]

/-- Or it answers with `ERROR` and the number of an error. -/
theorem C74_refused (now : Nat → DateTime) (msg : RawMsg) (v : Nat) (u : UDefs) (c t i k ds : Str)
    (hi : i ∈ NMEA_MSGIDS_PROP.map Prod.fst) (hq : i.take 3 = py!"QTM") (ho : i ∉ ownStatus)
    (hds : IsDigits ds) (hne : ds ≠ []) (hlen : ds.length ≤ 4300)
    (hs : IsSentence msg c t i [py!"ERROR", ds] k) (ha : Admitted 0 v u c t i k) :
    ∃ m, parse now msg 0 v u = .ok (some m) ∧
      m.attrs = [(py!"status", .str py!"ERROR"), (py!"errcode", .int (number ds))] := by
  obtain ⟨_, _, _, h4, h5, _⟩ := quectel_ok i hi hq ho
  have hdf := ack_defs.2
  cases hd : lookup py!"QTMNAK" (proprietaryDefs 0) with
  | none => rw [hd] at hdf; cases hdf
  | some d =>
    rw [hd] at hdf
    have hdef := ack_definition hi hq ho [py!"ERROR", ds] py!"QTMNAK" (by simp [ackName]) (.inr rfl) d hd
    have hden : ∀ val, Denotes .whole ds val → val = .int (number ds) := by
      intro val hv
      generalize hk : Kind.whole = kd at hv
      generalize ht : ds = tx at hv
      cases hv with
      | empty => exact absurd ht hne
      | whole negative ds' _ _ _ =>
        cases negative with
        | false => simp only [signText] at ht; simp at ht; subst ht; rfl
        | true =>
          subst ht
          have := hds 45 (by simp [signText])
          omega
      | _ => cases hk
    obtain ⟨m, m1, m2, m3⟩ := reading_core now msg v u c t i k [py!"ERROR", ds] _ d hs ha (hdef u) (hdef [])
      (tables_sane.2 0 _ (lookup_some_mem _ _ _ hd)) (texts_id _ (talker_short hs) h4 h5) hdf
      (by intro a b hab; simp at hab)
      (by
        intro p name kind text e1 e2
        match p, e1 with
        | 0, e1 =>
          obtain ⟨rfl, rfl⟩ : py!"status" = name ∧ Kind.text = kind := by simpa [fields] using e1
          exact ⟨_, .text _⟩
        | 1, e1 =>
          obtain ⟨rfl, rfl⟩ : py!"errcode" = name ∧ Kind.whole = kind := by simpa [fields] using e1
          obtain rfl : ds = text := by simpa using e2
          exact ⟨_, by simpa [signText] using Denotes.whole false ds hne hds hlen⟩)
    refine ⟨m, m1, ?_⟩
    obtain ⟨v0, x1, x2⟩ := m3 0 py!"status" .text py!"ERROR" rfl rfl
    obtain ⟨v1, y1, y2⟩ := m3 1 py!"errcode" .whole ds rfl rfl
    generalize m.attrs = at_ at m2 x2 y2
    match at_, m2 with
    | [(n, w), (n', w')], m2 =>
      obtain ⟨rfl, rfl⟩ : n = py!"status" ∧ n' = py!"errcode" := by simpa [fields] using m2
      cases x1
      rw [hden _ y1] at y2
      simp [lookup, oriented] at x2 y2
      rw [x2, y2]

/-! ## Trimble dates

In the Trimble sentences `PTNL,GGK`, `PTNL,PJK` and `PTNL,BPQ` the date is written `mmddyy`, as in
`PTNL,VGK` and `PTNL,VHD`; the library takes it for `ddmmyy`. -/

def trimbleDates : List Str := [py!"GGK", py!"PJK", py!"BPQ"]

/-- Day and month exchanged. -/
def exchanged (d : Date) : Date := ⟨d.year, d.day, d.month⟩

theorem exchanged_valid {d : Date} (h : d.Valid) (hd : d.day ≤ 12) : (exchanged d).Valid := by
  obtain ⟨h1, h2, h3, h4, h5, h6⟩ := h
  refine ⟨h1, h2, h5, hd, h3, ?_⟩
  show d.month ≤ daysInMonth d.year d.day
  unfold daysInMonth
  split_ifs <;> omega

/-- The definition of the three sentences: the third field is taken for a date `ddmmyy`. -/
theorem trimble_definition (w : Str) (hw : w ∈ trimbleDates) :
    ∃ d, lookup (upper (py!"TNL" ++ w)) (proprietaryDefs 0) = some d ∧ IsStatic d = true ∧
      (slotsOf d [])[2]? = some (py!"utcdate", DT) ∧ ((slotsOf d []).map Prod.fst).Nodup ∧ SaneNames d := by
  revert w
  decide +kernel

/-- Whenever such a sentence is accepted and its date is `mmddyy` with a day up to 12, the attribute
`utcdate` has day and month exchanged. -/
theorem C74_trimble_dates (now : Nat → DateTime) (msg : RawMsg) (v : Nat) (u : UDefs) (m : Msg) (c t k w : Str)
    (rest : List Str) (tm : Str) (d : Date) (hw : w ∈ trimbleDates) (hd : d.Valid) (h0 : 1969 ≤ d.year)
    (h1 : d.year ≤ 2068) (h12 : d.day ≤ 12)
    (hs : IsSentence msg c t py!"TNL"
      (w :: tm :: (dec 2 d.month ++ dec 2 d.day ++ dec 2 (d.year % 100)) :: rest) k)
    (ha : Admitted 0 v u c t py!"TNL" k) (hm : parse now msg 0 v u = .ok (some m)) :
    lookup py!"utcdate" m.attrs = some (.date (exchanged d)) := by
  generalize hf : w :: tm :: (dec 2 d.month ++ dec 2 d.day ++ dec 2 (d.year % 100)) :: rest = f at hs
  obtain ⟨df, e1, e2, e3, e4, e5⟩ := trimble_definition w hw
  have hdef : definitionFor 0 u py!"TNL" f = .ok (some df) := by
    have hn : layoutName 0 (upper (py!"TNL" ++ w)) f = .ok (upper (py!"TNL" ++ w)) := by
      have hk : ∀ w ∈ trimbleDates, upper (py!"TNL" ++ w) ∉ [py!"QTMSN", py!"STMDRSENMSG"] ∧
          layouts.all (fun l => decide (l.1.1 ≠ 0) || decide (l.1.2.1 ≠ upper (py!"TNL" ++ w))) = true ∧
          (upper (py!"TNL" ++ w)).take 3 ≠ py!"QTM" := by decide +kernel
      obtain ⟨k1, k2, k3⟩ := hk w hw
      simp only [List.mem_cons, List.not_mem_nil, or_false, not_or] at k1
      unfold layoutName
      rw [if_neg (fun e => k1.1 e.1), if_neg k1.2, lookup_layouts_none _ _ k2]
      simp only
      rw [if_neg (fun e => k3 e.2.1)]
    unfold definitionFor fullId
    subst hf
    rw [if_pos (by decide)]
    simp only
    rw [if_neg (by decide)]
    simp only
    rw [if_neg (by decide +kernel), if_pos (by decide +kernel), hn]
    simp only
    rw [e1]
  have hft : fieldTexts t py!"TNL" f = f := by
    apply fieldTexts_id
    rintro (e | ⟨_, e, _⟩)
    · have := congrArg (fun l => l.reverse.take 3) e
      simp at this
    · exact absurd e (by decide)
  obtain ⟨slots, x1, x2⟩ := (C16_layout now msg 0 v u c t _ k f hs ha df hdef e5 m.attrs).1 ⟨m, hm, rfl⟩
  rw [hft] at x1 x2
  rw [(expand_static_iff 0 f df e2 slots).1 x1] at x2
  obtain ⟨val, y1, y2⟩ := readSlots_value _ _ _ _ x2 e4 2 _ _ _ e3 (by rw [← hf]; rfl) (by decide) (by decide)
  have hden := Denotes.date (exchanged d) (exchanged_valid hd h12) h0 h1
  obtain ⟨val', z1, _, z2⟩ := str2val_denotes (ty := DT) (by decide) hden
  have : val' = val := Except.ok.inj (z1.symm.trans y1)
  rw [y2, ← this, z2 (by decide) (by decide)]

/-- With a later day there is no date at all: 19 May 2010 is lost. The sentence is from the library's own
test data. -/
example : acceptedWith (fun m => decide (lookup py!"utcdate" m.attrs = some (.str [])))
    (parse clock0 (.bytes pb!"$PTNL,GGK,102939.00,051910,5000.97323841,N,00827.62010742,E,5,09,1.9,EHT150.790,M*73\r\n")
      0 3 []) = true := by decide +kernel

/-- 11 January 2012 becomes 1 November; the hypotheses of `C74_trimble_dates` are met. -/
example : acceptedWith (fun m => decide (lookup py!"utcdate" m.attrs = some (.date ⟨2012, 11, 1⟩)))
    (parse clock0 (.bytes pb!"$PTNL,PJK,202831.50,011112,+805083.350,N,+388997.346,E,10,09,1.5,GHT+25.478,M*77\r\n")
      0 3 []) = true := by decide +kernel

/-! ## Satellites of `PGPPADV,120`

The sentence `PGPPADV,120` (satellites for the operation of RTK networks) has number, elevation and azimuth of
each of any number of satellites; the library's own test data have four. The library reads the first two. -/

theorem padv_definition : ∃ d, lookup py!"GPPADV120" (proprietaryDefs 0) = some d ∧ IsStatic d = true ∧
    ((slotsOf d []).map Prod.fst) = [py!"msgId", py!"prn_01", py!"ele_01", py!"azi_01", py!"prn_02", py!"ele_02",
      py!"azi_02"] ∧ SaneNames d := by
  decide +kernel

/-- Whatever a sentence `PGPPADV,120` says after its second satellite is dropped without an error. -/
theorem C74_satellites_dropped (now : Nat → DateTime) (msg : RawMsg) (v : Nat) (u : UDefs) (m : Msg) (c t k : Str)
    (rest : List Str) (hs : IsSentence msg c t py!"GPPADV" (py!"120" :: rest) k)
    (ha : Admitted 0 v u c t py!"GPPADV" k) (hm : parse now msg 0 v u = .ok (some m)) :
    m.attrs.map Prod.fst = [py!"msgId", py!"prn_01", py!"ele_01", py!"azi_01", py!"prn_02", py!"ele_02",
      py!"azi_02"].take (rest.length + 1) := by
  obtain ⟨df, e1, e2, e3, e4⟩ := padv_definition
  have hdef : definitionFor 0 u py!"GPPADV" (py!"120" :: rest) = .ok (some df) := by
    have hn : layoutName 0 py!"GPPADV120" (py!"120" :: rest) = .ok py!"GPPADV120" := by
      unfold layoutName
      rw [if_neg (by rintro ⟨e, _⟩; revert e; decide), if_neg (by decide),
        lookup_layouts_none _ _ (by decide +kernel)]
      simp only
      rw [if_neg (by rintro ⟨_, e, _⟩; revert e; decide)]
    unfold definitionFor fullId
    rw [if_pos (by decide)]
    simp only
    rw [if_neg (by decide)]
    simp only
    rw [if_neg (by decide +kernel), if_pos (by decide +kernel)]
    rw [show upper (py!"GPPADV" ++ py!"120") = py!"GPPADV120" by decide, hn]
    simp only
    rw [e1]
  have hft : fieldTexts t py!"GPPADV" (py!"120" :: rest) = py!"120" :: rest :=
    texts_id _ (talker_short hs) (by decide) (by decide)
  obtain ⟨slots, x1, x2⟩ := (C16_layout now msg 0 v u c t _ k _ hs ha df hdef e4 m.attrs).1 ⟨m, hm, rfl⟩
  rw [hft] at x1 x2
  rw [(expand_static_iff 0 _ df e2 slots).1 x1] at x2
  rw [readSlots_keys _ _ _ _ x2 (by rw [e3]; decide) (by simp), e3]
  rfl

/-- Four satellites from the library's own test data; two are read. -/
example : acceptedWith (fun m => decide (m.attrs.map Prod.fst = [py!"msgId", py!"prn_01", py!"ele_01",
      py!"azi_01", py!"prn_02", py!"ele_02", py!"azi_02"]))
    (parse clock0 (.bytes pb!"$PGPPADV,120,21,76.82,68.51,29,20.66,317.47,28,52.38,276.81,22,42.26,198.96*67\r\n")
      0 3 []) = true := by decide +kernel

/-! ## Examples -/

/-- The hypotheses of `C74_variants` are met: the rate of a message, without its version. -/
def msgrate3 : List Str := [py!"OK", py!"RMC", py!"1"]

def msgrate3Layout : List Item := [.one py!"status" .text, .one py!"msgname" .text, .one py!"rate" .whole]

example : ∃ m, parse clock0 (.bytes pb!"$PQTMCFGMSGRATE,OK,RMC,1*44\r\n") 0 3 [] = .ok (some m) ∧
    m.attrs.length = 3 ∧ lookup py!"msgname" m.attrs = some (.str py!"RMC") := by
  obtain ⟨m, h1, h2, h3⟩ := C74_variants clock0 (.bytes pb!"$PQTMCFGMSGRATE,OK,RMC,1*44\r\n") 3 [] py!"PQTMCFGMSGRATE,OK,RMC,1" py!"P" py!"QTMCFGMSGRATE" py!"44"
    msgrate3 (.count 3) msgrate3Layout (by decide +kernel) rfl
    ((getParts_sentence _ ⟨_, _, _, _, _⟩).1 (by decide +kernel))
    ⟨.inl rfl, fun _ => by decide +kernel, fun _ => ⟨by decide +kernel, by decide +kernel⟩⟩
    (by intro p b h; simp [msgrate3Layout] at h)
    (by
      intro p name kind text hp ht
      match p, hp, ht with
      | 0, hp, _ => obtain ⟨_, rfl⟩ : _ ∧ Kind.text = kind := by simpa [fields, msgrate3Layout] using hp
                    exact ⟨_, .text _⟩
      | 1, hp, _ => obtain ⟨_, rfl⟩ : _ ∧ Kind.text = kind := by simpa [fields, msgrate3Layout] using hp
                    exact ⟨_, .text _⟩
      | 2, hp, ht =>
        obtain ⟨_, rfl⟩ : _ ∧ Kind.whole = kind := by simpa [fields, msgrate3Layout] using hp
        obtain rfl : py!"1" = text := by simpa [msgrate3] using ht
        exact ⟨_, Denotes.whole false py!"1" (by decide) (by decide) (by decide)⟩)
  refine ⟨m, h1, ?_, ?_⟩
  · have := congrArg List.length h2
    simpa [fields, msgrate3Layout, msgrate3] using this
  · obtain ⟨val, x1, x2⟩ := h3 1 py!"msgname" .text py!"RMC" rfl rfl
    cases x1
    exact x2

/-- The hypotheses of `C74_acknowledged` and `C74_refused` are met. -/
example : ∃ m, parse clock0 (.bytes pb!"$PQTMSAVEPAR,OK*72\r\n") 0 3 [] = .ok (some m) ∧
    m.attrs = [(py!"status", .str py!"OK")] :=
  C74_acknowledged clock0 _ 3 [] py!"PQTMSAVEPAR,OK" py!"P" py!"QTMSAVEPAR" py!"72" (by decide +kernel) (by decide +kernel)
    (by decide +kernel) ((getParts_sentence _ ⟨_, _, _, _, _⟩).1 (by decide +kernel))
    ⟨.inl rfl, fun _ => by decide +kernel, fun _ => ⟨by decide +kernel, by decide +kernel⟩⟩

example : ∃ m, parse clock0 (.bytes pb!"$PQTMCFGRCVRMODE,ERROR,2*26\r\n") 0 3 [] = .ok (some m) ∧
    m.attrs = [(py!"status", .str py!"ERROR"), (py!"errcode", .int 2)] :=
  C74_refused clock0 _ 3 [] py!"PQTMCFGRCVRMODE,ERROR,2" py!"P" py!"QTMCFGRCVRMODE" py!"26" py!"2" (by decide +kernel)
    (by decide +kernel) (by decide +kernel) (by decide) (by decide) (by decide)
    ((getParts_sentence _ ⟨_, _, _, _, _⟩).1 (by decide +kernel))
    ⟨.inl rfl, fun _ => by decide +kernel, fun _ => ⟨by decide +kernel, by decide +kernel⟩⟩

/-- A simple check for well-formed fields. -/
def plainField (k : Kind) (s : Str) : Bool :=
  decide (s = []) || (match k with
    | .text | .north | .east => true
    | .whole => decide (IsDigits s ∧ s.length ≤ 4300)
    | .decimal => decide (IsDigits s)
    | _ => false)

theorem plainField_denotes {k : Kind} {s : Str} (h : plainField k s = true) : ∃ val, Denotes k s val := by
  unfold plainField at h
  rw [Bool.or_eq_true, decide_eq_true_eq] at h
  by_cases h0 : s = []
  · subst h0; exact ⟨_, .empty k⟩
  rcases h with h | h
  · exact absurd h h0
  cases k with
  | text => exact ⟨_, .text s⟩
  | north => exact ⟨_, .north s⟩
  | east => exact ⟨_, .east s⟩
  | whole =>
    simp only [decide_eq_true_eq] at h
    exact ⟨_, by have := Denotes.whole false s h0 h.1 h.2; simpa [signText] using this⟩
  | decimal =>
    simp only [decide_eq_true_eq] at h
    exact ⟨_, by have := Denotes.integral false s h0 h; simpa [signText] using this⟩
  | time | date | usdate | latitude | longitude => cases h

/-- Satellite status from a u-blox receiver. -/
def ubx03 : List Str := [py!"03", py!"02", py!"23", py!"-", [], [], py!"45", py!"010", py!"29", py!"U", py!"065",
  py!"18", [], py!"000"]

def ubx03Layout : List Item := [.one py!"msgId" .text, .one py!"numSv" .whole, .counted 1 [(py!"svid", .whole),
  (py!"status", .text), (py!"azi", .decimal), (py!"ele", .decimal), (py!"cno", .whole), (py!"lck", .whole)]]

theorem vendor_ubx03 : IsSentence (.bytes pb!"$PUBX,03,02,23,-,,,45,010,29,U,065,18,,000*56\r\n")
    py!"PUBX,03,02,23,-,,,45,010,29,U,065,18,,000" py!"P" py!"UBX" ubx03 py!"56" :=
  (getParts_sentence _ ⟨_, _, _, _, _⟩).1 (by decide +kernel)

theorem ubx03_fields : fields ubx03 ubx03Layout 0 =
    [(py!"msgId", .text), (py!"numSv", .whole), (py!"svid_01", .whole), (py!"status_01", .text),
     (py!"azi_01", .decimal), (py!"ele_01", .decimal), (py!"cno_01", .whole), (py!"lck_01", .whole),
     (py!"svid_02", .whole), (py!"status_02", .text), (py!"azi_02", .decimal), (py!"ele_02", .decimal),
     (py!"cno_02", .whole), (py!"lck_02", .whole)] := by decide +kernel

/-- The hypotheses of `C74_reading` are met by this sentence. -/
example : ∃ m, parse clock0 (.bytes pb!"$PUBX,03,02,23,-,,,45,010,29,U,065,18,,000*56\r\n") 0 3 [] = .ok (some m) ∧
    m.attrs.length = 14 ∧ lookup py!"status_02" m.attrs = some (.str py!"U") ∧
    lookup py!"svid_02" m.attrs = some (.int 29) := by
  obtain ⟨m, h1, h2, h3⟩ := C74_reading clock0 _ 3 [] _ _ _ _ ubx03 (.word py!"03") ubx03Layout (by decide +kernel) rfl
    vendor_ubx03 ⟨.inl rfl, fun _ => by decide +kernel, fun _ => ⟨by decide +kernel, by decide +kernel⟩⟩
    (by
      intro p b h
      simp only [ubx03Layout, List.mem_cons, List.not_mem_nil, or_false, reduceCtorEq, false_or,
        Item.counted.injEq] at h
      obtain ⟨rfl, _⟩ := h
      exact ⟨py!"02", rfl, by decide, by decide⟩)
    (by
      intro p name kind text hp ht
      apply plainField_denotes
      have : ∀ x ∈ (fields ubx03 ubx03Layout 0).zip ubx03, plainField x.1.2 x.2 = true := by decide +kernel
      exact this ((name, kind), text) (List.mem_of_getElem? (by rw [List.getElem?_zip_eq_some]; exact ⟨hp, ht⟩)))
  refine ⟨m, h1, ?_, ?_, ?_⟩
  · have := congrArg List.length h2
    rw [ubx03_fields] at this
    simpa [ubx03] using this
  · obtain ⟨val, hd, hl⟩ := h3 9 py!"status_02" .text py!"U" (by rw [ubx03_fields]; rfl) rfl
    rw [hl]
    cases hd with
    | text => rfl
  · obtain ⟨val, hd, hl⟩ := h3 8 py!"svid_02" .whole py!"29" (by rw [ubx03_fields]; rfl) rfl
    rw [hl]
    have e := str2val_denotes (ty := IN) (by decide) hd
    have e2 := str2val_denotes (ty := IN) (by decide) (Denotes.whole false py!"29" (by decide) (by decide) (by decide))
    obtain ⟨v1, a1, _, a2⟩ := e
    obtain ⟨v2, b1, _, b2⟩ := e2
    have : str2val (signText false ++ py!"29") IN = str2val py!"29" IN := rfl
    rw [this, a1] at b1
    cases b1
    rw [← a2 (by decide) (by decide), b2 (by decide) (by decide)]
    decide

/-! ## Square brackets -/

theorem connections_ok : (match lookup py!"SSNSNC" (proprietaryDefs 0) with
    | some d => layoutOk d connections | none => false) = true := by decide +kernel

/-- The status of NTRIP connections of a Septentrio receiver, `PSSN,SNC`, the one sentence with square brackets: `parse`
reads its fields, wherever they have brackets, without them, as many connections as the sentence has. -/
theorem C74_brackets (now : Nat → DateTime) (msg : RawMsg) (v : Nat) (u : UDefs) (c k : Str) (r g : List Str)
    (hs : IsSentence msg c py!"P" py!"SSN" (py!"SNC" :: r) k) (ha : Admitted 0 v u c py!"P" py!"SSN" k)
    (hg : g = py!"SNC" :: r.map unbracketed)
    (hw : ∀ (p : Nat) name kind text, (fields g connections 0)[p]? = some (name, kind) → g[p]? = some text →
      ∃ val, Denotes kind text val) :
    ∃ m, parse now msg 0 v u = .ok (some m) ∧
      m.attrs.map Prod.fst = ((fields g connections 0).map Prod.fst).take g.length ∧
      ∀ (p : Nat) name kind text, (fields g connections 0)[p]? = some (name, kind) → g[p]? = some text →
        ∃ val, Denotes kind text val ∧ lookup name m.attrs = some val := by
  have hdf := connections_ok
  cases hd : lookup py!"SSNSNC" (proprietaryDefs 0) with
  | none => rw [hd] at hdf; cases hdf
  | some d =>
    rw [hd] at hdf
    have hdef : ∀ u, definitionFor 0 u py!"SSN" (py!"SNC" :: r) = .ok (some d) := by
      intro u
      have e1 : fullId py!"SSN" (py!"SNC" :: r) = .ok py!"SSNSNC" := by
        unfold fullId
        rw [if_pos (by decide +kernel)]
        simp only
        rw [if_neg (by decide)]
        rfl
      have e2 : layoutName 0 (upper py!"SSNSNC") (py!"SNC" :: r) = .ok py!"SSNSNC" := by
        rw [show upper py!"SSNSNC" = py!"SSNSNC" by decide +kernel]
        unfold layoutName
        rw [if_neg (by rintro ⟨e, _⟩; revert e; decide), if_neg (by decide),
          lookup_layouts_none _ _ (by decide +kernel)]
        simp only
        rw [if_neg (by rintro ⟨_, e, _⟩; revert e; decide)]
      unfold definitionFor
      rw [e1]
      simp only
      rw [if_neg (by decide +kernel), if_pos (by decide +kernel), e2]
      simp only
      rw [hd]
    obtain ⟨m, h1, h2, h3⟩ := reading_texts now msg 0 v u c py!"P" py!"SSN" k _ g connections d hs ha (hdef u) (hdef [])
      (tables_sane.2 0 _ (lookup_some_mem _ _ _ hd)) (by
        rw [hg]
        unfold fieldTexts
        rw [if_neg (by decide), if_pos ⟨rfl, rfl, rfl⟩]
        rfl) hdf (by intro a b hab; simp [connections] at hab) hw
    refine ⟨m, h1, h2, fun p name kind text e1 e2 => ?_⟩
    obtain ⟨val, x1, x2⟩ := h3 p name kind text e1 e2
    refine ⟨val, x1, ?_⟩
    have hk : kind ≠ .latitude ∧ kind ≠ .longitude := by
      have := fields_kinds g connections 0 _ (List.mem_of_getElem? e1)
      change kind ∈ _ at this
      clear * - this
      revert this
      cases kind <;> decide
    rw [x2]
    unfold oriented
    rw [if_neg]
    rintro (⟨e, _⟩ | ⟨e, _⟩)
    · exact hk.1 e
    · exact hk.2 e

/-- The fields of an example from the library's own test data, without their brackets. -/
def snc2 : List Str := [py!"SNC", py!"0", py!"379359123", py!"1841", py!"1", py!"2", py!"0", py!"0", py!"2", py!"3",
  py!"0", py!"0"]

/-- The hypotheses of `C74_brackets` are met. -/
example : ∃ m, parse clock0 (.bytes pb!"$PSSN,SNC,[0,379359123,1841,[1,2,0,0],[2,3,0,0]]*4A\r\n") 0 3 [] = .ok (some m) ∧
    m.attrs.length = 12 ∧ lookup py!"status_02" m.attrs = some (.str py!"3") := by
  obtain ⟨m, h1, h2, h3⟩ := C74_brackets clock0
    (.bytes pb!"$PSSN,SNC,[0,379359123,1841,[1,2,0,0],[2,3,0,0]]*4A\r\n") 3 []
    py!"PSSN,SNC,[0,379359123,1841,[1,2,0,0],[2,3,0,0]]" py!"4A"
    [py!"[0", py!"379359123", py!"1841", py!"[1", py!"2", py!"0", py!"0]", py!"[2", py!"3", py!"0", py!"0]]"] snc2
    ((getParts_sentence _ ⟨_, _, _, _, _⟩).1 (by decide +kernel))
    ⟨.inl rfl, fun _ => by decide +kernel, fun _ => ⟨by decide +kernel, by decide +kernel⟩⟩ (by decide) (by
      intro p name kind text hp ht
      apply plainField_denotes
      have : ∀ x ∈ (fields snc2 connections 0).zip snc2, plainField x.1.2 x.2 = true := by decide +kernel
      exact this ((name, kind), text) (List.mem_of_getElem? (by rw [List.getElem?_zip_eq_some]; exact ⟨hp, ht⟩)))
  refine ⟨m, h1, ?_, ?_⟩
  · have := congrArg List.length h2
    rw [List.length_map] at this
    rw [this]; decide +kernel
  · obtain ⟨val, hd, hl⟩ := h3 9 py!"status_02" .text py!"3" (by decide +kernel) rfl
    rw [hl]
    cases hd with
    | text => rfl

end Props.Vendor
