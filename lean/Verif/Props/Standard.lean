import Verif.Lemmas.Reading
/-!
# Standard sentences are read as the standard says (C68)
-/
namespace Props
open Py Nmea Spec Spec.Nmea0183

/-- What is checked of each of the sentences. -/
def sentenceOk (x : Str × List Item) : Bool :=
  match lookup (upper x.1) (standardDefs 0) with
  | none => false
  | some d =>
    layoutOk d x.2 && decide (IsStandard x.1) && decide (x.1 ∉ NMEA_PREFIX_PROP) && decide (x.1.length = 3) &&
      x.2.all (fun i => match i with | .counted _ _ => false | _ => true)

theorem sentences_ok : ∀ x ∈ sentences, sentenceOk x = true := by decide +kernel

theorem sentence_facts {i : Str} {lay : List Item} (h : (i, lay) ∈ sentences) :
    ∃ d, lookup (upper i) (standardDefs 0) = some d ∧ layoutOk d lay = true ∧ IsStandard i ∧
      i ∉ NMEA_PREFIX_PROP ∧ i.length = 3 ∧ ∀ p b, Item.counted p b ∉ lay := by
  have := sentences_ok _ h
  unfold sentenceOk at this
  cases hd : lookup (upper i) (standardDefs 0) with
  | none => rw [hd] at this; cases this
  | some d =>
    rw [hd] at this
    simp only [Bool.and_eq_true, decide_eq_true_eq, List.all_eq_true] at this
    obtain ⟨⟨⟨⟨a, b⟩, c⟩, e⟩, g⟩ := this
    exact ⟨d, rfl, a, b, c, e, fun p b hm => by have := g _ hm; simp at this⟩

theorem layout_definition {i : Str} {d : PDict} (hd : lookup (upper i) (standardDefs 0) = some d)
    (hs : IsStandard i) (hp : i ∉ NMEA_PREFIX_PROP) (u : UDefs) (f : List Str) :
    definitionFor 0 u i f = .ok (some d) := by
  unfold definitionFor fullId
  rw [if_neg hp]
  simp only
  rw [if_pos hs, hd]

/-- `parse` reads each of the standard sentences as the standard says: if every field is well-formed
(or empty), the sentence is accepted, with the attributes of the fields that are present, in their order,
and each attribute has the value its field denotes, coordinates with the sign of their hemisphere. The
sentence may have any number of fields. -/
theorem C68_reading (now : Nat → DateTime) (msg : RawMsg) (v : Nat) (u : UDefs) (c t i k : Str) (f : List Str)
    (lay : List Item) (hl : (i, lay) ∈ sentences) (hs : IsSentence msg c t i f k) (ha : Admitted 0 v u c t i k)
    (hw : ∀ (p : Nat) name kind text, (fields f lay 0)[p]? = some (name, kind) → f[p]? = some text →
      ∃ val, Denotes kind text val) :
    ∃ m, parse now msg 0 v u = .ok (some m) ∧
      m.attrs.map Prod.fst = ((fields f lay 0).map Prod.fst).take f.length ∧
      ∀ (p : Nat) name kind text, (fields f lay 0)[p]? = some (name, kind) → f[p]? = some text →
        ∃ val, Denotes kind text val ∧
          lookup name m.attrs =
            some (oriented kind ((fields f lay 0)[p + 1]?.map Prod.snd) f[p + 1]? val) := by
  obtain ⟨d, hd, hok, hstd, hpre, hlen, hcnt⟩ := sentence_facts hl
  have hmem : (upper i, d) ∈ standardDefs 0 := lookup_some_mem _ _ _ hd
  have hft : fieldTexts t i f = f := by
    apply fieldTexts_id
    have htl : t.length ≤ 2 := by
      obtain ⟨_, _, _, _, _, h⟩ := hs
      rcases h with rfl | ⟨_, h | h⟩
      · decide
      · omega
      · omega
    rintro (h | ⟨_, h, _⟩)
    · have := congrArg List.length h
      rw [List.length_append, hlen] at this
      have e : (py!"PSSNSNC").length = 7 := by decide
      omega
    · subst h
      exact hpre (by decide)
  exact reading_core now msg v u c t i k f lay d hs ha (layout_definition hd hstd hpre u f)
    (layout_definition hd hstd hpre [] f) (tables_sane.1 0 _ hmem) hft hok (fun p b h => absurd h (hcnt p b)) hw

/-- The type of the library for each kind. -/
theorem kind_has_type (k : Kind) : ∃ ty, kindOf ty = some k := by
  cases k
  · exact ⟨CH, by decide⟩
  · exact ⟨IN, by decide⟩
  · exact ⟨DE, by decide⟩
  · exact ⟨TM, by decide⟩
  · exact ⟨DT, by decide⟩
  · exact ⟨DM, by decide⟩
  · exact ⟨LA, by decide⟩
  · exact ⟨LN, by decide⟩
  · exact ⟨LAD, by decide⟩
  · exact ⟨LND, by decide⟩

/-- A text denotes at most one value, except that a coordinate is only determined up to `6e-11` degrees:
so for every other field, the value of the attribute in `C68_reading` is determined by the sentence. -/
theorem C68_unambiguous (k : Kind) (text : Str) (a b : PyVal) (ha : Denotes k text a) (hb : Denotes k text b)
    (h1 : k ≠ .latitude) (h2 : k ≠ .longitude) : a = b := by
  obtain ⟨ty, hty⟩ := kind_has_type k
  obtain ⟨v, e1, _, e2⟩ := str2val_denotes hty ha
  obtain ⟨w, e3, _, e4⟩ := str2val_denotes hty hb
  rw [e1] at e3; cases e3
  rw [← e2 h1 h2, ← e4 h1 h2]

/-- The float denoted by a decimal number is as near to it as half a unit in the last place of a float:
relatively within `2 ^ -53`, for all magnitudes from `2 ^ -1022` (and zero) up to `10 ^ 300`. -/
theorem C68_decimal_accuracy (negative : Bool) (q : ℚ) (h0 : q = 0 ∨ (2 : ℚ) ^ (-1022 : ℤ) ≤ q) (h1 : q ≤ 10 ^ 300) :
    ∃ r, PyFloat.ofMag negative q = .fin negative r ∧ |r - q| ≤ q * (2 : ℚ) ^ (-53 : ℤ) := by
  rcases h0 with rfl | h0
  · exact ⟨0, by cases negative <;> decide +kernel, by simp⟩
  · have he := roundMag_rel_err h0
    have hq : 0 ≤ q := le_trans (by positivity) h0
    refine ⟨_, PyFloat.ofMag_fin ?_, he⟩
    have h2 : roundMag q ≤ q + q * (2 : ℚ) ^ (-53 : ℤ) := by
      have := abs_le.1 he
      linarith [this.2]
    have h3 : q * (2 : ℚ) ^ (-53 : ℤ) ≤ q * 1 :=
      mul_le_mul_of_nonneg_left (by norm_num) hq
    have h4 : (2 : ℚ) * 10 ^ 300 < f64Limit := by decide +kernel
    linarith

/-- A position report. -/
def gllFields : List Str := [py!"5327.04319", py!"S", py!"00214.41396", py!"E", py!"223232.00", py!"A", py!"A"]

theorem standard_gll : IsSentence (.bytes pb!"$GNGLL,5327.04319,S,00214.41396,E,223232.00,A,A*68\r\n")
    py!"GNGLL,5327.04319,S,00214.41396,E,223232.00,A,A" py!"GN" py!"GLL" gllFields py!"68" :=
  (getParts_sentence _ ⟨_, _, _, _, _⟩).1 (by decide +kernel)

theorem gll_fields_ok : ∀ (p : Nat) name kind text,
    (fields gllFields [.one py!"lat" .latitude, .one py!"NS" .north, .one py!"lon" .longitude,
      .one py!"EW" .east, .one py!"time" .time, .one py!"status" .text, .one py!"posMode" .text] 0)[p]? =
        some (name, kind) → gllFields[p]? = some text → ∃ val, Denotes kind text val := by
  intro p name kind text h1 h2
  match p with
  | 0 =>
    simp only [fields, gllFields, List.getElem?_cons_zero, Option.some.injEq, Prod.mk.injEq] at h1 h2
    obtain ⟨_, rfl⟩ := h1; subst h2
    exact ⟨_, Denotes.latitude py!"53" py!"27" py!"04319" _ (by decide) (by decide) (by decide) rfl rfl
      (by rw [sub_self, abs_zero]; norm_num)⟩
  | 1 =>
    simp only [fields, gllFields, List.getElem?_cons_succ, List.getElem?_cons_zero, Option.some.injEq, Prod.mk.injEq] at h1 h2
    obtain ⟨_, rfl⟩ := h1; exact ⟨_, .north _⟩
  | 2 =>
    simp only [fields, gllFields, List.getElem?_cons_succ, List.getElem?_cons_zero, Option.some.injEq, Prod.mk.injEq] at h1 h2
    obtain ⟨_, rfl⟩ := h1; subst h2
    exact ⟨_, Denotes.longitude py!"002" py!"14" py!"41396" _ (by decide) (by decide) (by decide) rfl rfl
      (by rw [sub_self, abs_zero]; norm_num)⟩
  | 3 =>
    simp only [fields, gllFields, List.getElem?_cons_succ, List.getElem?_cons_zero, Option.some.injEq, Prod.mk.injEq] at h1 h2
    obtain ⟨_, rfl⟩ := h1; exact ⟨_, .east _⟩
  | 4 =>
    simp only [fields, gllFields, List.getElem?_cons_succ, List.getElem?_cons_zero, Option.some.injEq, Prod.mk.injEq] at h1 h2
    obtain ⟨_, rfl⟩ := h1; subst h2
    exact ⟨_, Denotes.fraction 22 32 32 py!"00" (by omega) (by omega) (by omega) (by decide) (by decide) (by decide)⟩
  | 5 =>
    simp only [fields, gllFields, List.getElem?_cons_succ, List.getElem?_cons_zero, Option.some.injEq, Prod.mk.injEq] at h1 h2
    obtain ⟨_, rfl⟩ := h1; exact ⟨_, .text _⟩
  | 6 =>
    simp only [fields, gllFields, List.getElem?_cons_succ, List.getElem?_cons_zero, Option.some.injEq, Prod.mk.injEq] at h1 h2
    obtain ⟨_, rfl⟩ := h1; exact ⟨_, .text _⟩
  | p + 7 => simp [fields] at h1

/-- The hypotheses of `C68_reading` are met by this sentence: `lat` is negative, `lon` is not. -/
example : ∃ m val val', parse clock0 (.bytes pb!"$GNGLL,5327.04319,S,00214.41396,E,223232.00,A,A*68\r\n") 0 3 [] =
      .ok (some m) ∧ Denotes .latitude py!"5327.04319" val ∧ lookup py!"lat" m.attrs = some (negated val) ∧
      Denotes .longitude py!"00214.41396" val' ∧ lookup py!"lon" m.attrs = some val' ∧
      lookup py!"time" m.attrs = some (.time ⟨22, 32, 32, 0⟩) := by
  obtain ⟨m, h1, _, h3⟩ := C68_reading clock0 _ 3 [] _ _ _ _ gllFields _ (by decide +kernel) standard_gll
    ⟨.inl rfl, fun _ => by decide +kernel, fun _ => ⟨by decide +kernel, by decide +kernel⟩⟩ gll_fields_ok
  obtain ⟨val, d1, l1⟩ := h3 0 _ _ _ rfl rfl
  obtain ⟨val', d2, l2⟩ := h3 2 _ _ _ rfl rfl
  obtain ⟨val4, d4, l4⟩ := h3 4 _ _ _ rfl rfl
  refine ⟨m, val, val', h1, d1, l1, d2, l2, ?_⟩
  have := C68_unambiguous _ _ _ _ d4 (Denotes.fraction 22 32 32 py!"00" (by omega) (by omega) (by omega)
    (by decide) (by decide) (by decide)) (by decide) (by decide)
  rw [l4, this]
  rfl

/-- Satellites in view: a sentence with `4 n + 3` (or one more) fields describes `n` satellites. -/
example : fields (List.replicate 12 []) [.one py!"numMsg" .whole, .one py!"msgNum" .whole, .one py!"numSV" .whole,
      .many [(py!"svid", .whole), (py!"elv", .whole), (py!"az", .whole), (py!"cno", .whole)],
      .one py!"signalID" .text] 0 =
    [(py!"numMsg", .whole), (py!"msgNum", .whole), (py!"numSV", .whole),
     (py!"svid_01", .whole), (py!"elv_01", .whole), (py!"az_01", .whole), (py!"cno_01", .whole),
     (py!"svid_02", .whole), (py!"elv_02", .whole), (py!"az_02", .whole), (py!"cno_02", .whole),
     (py!"signalID", .text)] := by decide +kernel

end Props
