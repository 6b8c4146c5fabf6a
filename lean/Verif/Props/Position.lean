import Verif.Props.Geo
import Verif.Props.RoundTrip
import Mathlib.Analysis.Real.Pi.Bounds
/-!
# Where a position ends up that is written into a sentence and read back (C93)
-/
set_option linter.unusedSimpArgs false
namespace Props
open Py Nmea Spec Geo Real InnerProductGeometry

theorem arccos_cos_le (x : ℝ) : arccos (cos x) ≤ |x| := by
  by_cases h : |x| ≤ π
  · rw [← cos_abs, arccos_cos (abs_nonneg x) h]
  · exact (arccos_le_pi _).trans (le_of_lt (not_le.1 h))

/-- The angle between two points of the sphere is at most the difference of the latitudes plus that of the longitudes. -/
theorem angle_le_differences (lat1 lon1 lat2 lon2 : ℝ) :
    angle (spherePoint lat1 lon1) (spherePoint lat2 lon2) ≤ |toRad (lat2 - lat1)| + |toRad (lon2 - lon1)| := by
  have e : ∀ x y : ℝ, rad x - rad y = toRad (x - y) := by intro x y; unfold rad toRad; ring
  refine (angle_le_angle_add_angle _ (spherePoint lat2 lon1) _).trans (add_le_add ?_ ?_)
  · unfold angle
    rw [norm_spherePoint, norm_spherePoint, mul_one, div_one, ← inner_sphere, sub_self, cos_zero, sub_self, mul_zero, sub_zero,
      e]
    exact arccos_cos_le _
  · unfold angle
    rw [norm_spherePoint, norm_spherePoint, mul_one, div_one, ← inner_sphere, sub_self, cos_zero, e]
    refine le_trans (arccos_le_arccos ?_) (arccos_cos_le _)
    have h1 := cos_le_one (toRad (lon2 - lon1))
    have h2 : cos (rad lat2) * cos (rad lat2) ≤ 1 := by nlinarith [cos_sq_le_one (rad lat2)]
    nlinarith

/-- C93. Two points whose latitudes and longitudes differ by less than `ε` degrees are less than `2 ε π / 180` radii
apart, anywhere on the sphere. -/
theorem C93_nearby (lat1 lon1 lat2 lon2 ε radius : ℝ) (hr : 0 < radius) (h1 : |lat2 - lat1| < ε) (h2 : |lon2 - lon1| < ε) :
    ∃ d, haversine lat1 lon1 lat2 lon2 radius = .ok d ∧ 0 ≤ d ∧ d < radius * (2 * ε * π / 180) := by
  refine ⟨_, C42_haversine .., mul_nonneg hr.le (angle_nonneg _ _), ?_⟩
  refine mul_lt_mul_of_pos_left ((angle_le_differences ..).trans_lt ?_) hr
  have e : ∀ x : ℝ, |toRad x| = π / 180 * |x| := by
    intro x; unfold toRad; rw [abs_div, abs_mul, abs_of_pos pi_pos, abs_of_pos (by norm_num : (0:ℝ) < 180)]; ring
  rw [e, e]
  have : 0 < π / 180 := by positivity
  nlinarith

/-- How far a position moves at most: 2.3 centimetres, 0.23 millimetres in high precision mode; in kilometres. -/
noncomputable def maxShift (hp : Bool) : ℝ := if hp then 23 / 10 ^ 8 else 23 / 10 ^ 6

theorem shift_earth (hp : Bool) (q1 q2 r1 r2 : ℚ) (h1 : |r1 - q1| < (if hp then 1 / 10 ^ 9 else 1 / 10 ^ 7))
    (h2 : |r2 - q2| < (if hp then 1 / 10 ^ 9 else 1 / 10 ^ 7)) :
    ∃ d, haversine q1 q2 r1 r2 (smajAxis / 1000) = .ok d ∧ 0 ≤ d ∧ d < maxShift hp := by
  have c : ∀ q r : ℚ, |r - q| < (if hp then 1 / 10 ^ 9 else 1 / 10 ^ 7) →
      |(r : ℝ) - (q : ℝ)| < (if hp then 1 / 10 ^ 9 else 1 / 10 ^ 7) := by
    intro q r h
    have h' : ((|r - q| : ℚ) : ℝ) < ((if hp then 1 / 10 ^ 9 else 1 / 10 ^ 7 : ℚ) : ℝ) := by exact_mod_cast h
    push_cast at h'
    cases hp <;> simpa using h'
  obtain ⟨d, hd, h0, hlt⟩ := C93_nearby (q1 : ℝ) q2 r1 r2 _ (smajAxis / 1000) (by unfold smajAxis; norm_num) (c _ _ h1) (c _ _ h2)
  refine ⟨d, hd, h0, hlt.trans ?_⟩
  have := pi_lt_d4
  unfold smajAxis maxShift
  cases hp <;> norm_num <;> nlinarith

/-- C93. A coordinate pair read back from the fields of a sentence is less than 2.3 cm (0.23 mm in high precision mode) from
the pair that was written, on the sphere with the Earth's equatorial radius. -/
theorem C93_fields (hp : Bool) (lat lon w1 w2 : PyVal) (q1 q2 : ℚ) (h1 : degreesOf lat = some q1) (h2 : degreesOf lon = some q2)
    (s1 : Survives hp py!"LA" lat w1) (s2 : Survives hp py!"LN" lon w2) :
    ∃ r1 r2 d, degreesOf (resign (IsNegative lat) w1) = some r1 ∧ degreesOf (resign (IsNegative lon) w2) = some r2 ∧
      haversine q1 q2 r1 r2 (smajAxis / 1000) = .ok d ∧ d < maxShift hp := by
  obtain ⟨r1, e1, b1⟩ := C64_coordinate hp _ lat w1 q1 (.inl rfl) h1 s1
  obtain ⟨r2, e2, b2⟩ := C64_coordinate hp _ lon w2 q2 (.inr rfl) h2 s2
  obtain ⟨d, hd, -, hlt⟩ := shift_earth hp q1 q2 r1 r2 b1 b2
  exact ⟨r1, r2, d, e1, e2, hd, hlt⟩

/-- The fields have one `name` of type `ty`, followed by a direction of type `dty`. -/
def coordinateAt (name ty dty : Str) (s : List Slot) : Bool :=
  (List.range s.length).any (fun p => s[p]? == some (name, ty) && (s.drop (p + 1)).all (fun x => x.1 != name) &&
    (s.drop (p + 1)).any (fun x => x.2 == dty))

theorem coordinateAt_iff (name ty dty letter : Str) (s : List Slot) (hg : Governs dty name letter)
    (h : coordinateAt name ty dty s = true) : ∃ p : Nat, s[p]? = some (name, ty) ∧ LastFor s p name ∧ SignCarried s p name := by
  unfold coordinateAt at h
  simp only [List.any_eq_true, List.mem_range, Bool.and_eq_true, beq_iff_eq, List.all_eq_true, bne_iff_ne, ne_eq] at h
  obtain ⟨p, -, ⟨h1, h2⟩, x, h3, h4⟩ := h
  refine ⟨p, h1, ?_, ?_⟩
  · intro q y hq hy
    apply h2
    exact List.mem_iff_getElem?.2 ⟨q - (p + 1), by rw [List.getElem?_drop, show p + 1 + (q - (p + 1)) = q by omega]; exact hy⟩
  · obtain ⟨k, hk⟩ := List.mem_iff_getElem?.1 h3
    rw [List.getElem?_drop] at hk
    subst h4
    exact ⟨p + 1 + k, x.1, x.2, letter, by omega, hk, hg⟩

/-- Every built-in definition with the attributes `lat` and `lon` of the types latitude and longitude has constant layout, and
both coordinates are followed by their directions. -/
theorem positions_carried : ∀ mode name d, BuiltIn mode name d → (py!"lat", py!"LA") ∈ d.entries →
    (py!"lon", py!"LN") ∈ d.entries → IsStatic d = true ∧ coordinateAt py!"lat" py!"LA" py!"LAD" (slotsOf d []) = true ∧
      coordinateAt py!"lon" py!"LN" py!"LND" (slotsOf d []) = true := by
  have h1 : ∀ mode, ∀ x ∈ standardDefs mode, (py!"lat", py!"LA") ∈ x.2.entries → (py!"lon", py!"LN") ∈ x.2.entries →
      IsStatic x.2 = true ∧ coordinateAt py!"lat" py!"LA" py!"LAD" (slotsOf x.2 []) = true ∧
      coordinateAt py!"lon" py!"LN" py!"LND" (slotsOf x.2 []) = true := by
    intro mode
    unfold standardDefs
    split <;> decide +kernel
  have h2 : ∀ mode, ∀ x ∈ proprietaryDefs mode, (py!"lat", py!"LA") ∈ x.2.entries → (py!"lon", py!"LN") ∈ x.2.entries →
      IsStatic x.2 = true ∧ coordinateAt py!"lat" py!"LA" py!"LAD" (slotsOf x.2 []) = true ∧
      coordinateAt py!"lon" py!"LN" py!"LND" (slotsOf x.2 []) = true := by
    intro mode
    unfold proprietaryDefs
    split <;> decide +kernel
  rintro mode name d (h | h) ha hb
  · exact h1 mode _ h ha hb
  · exact h2 mode _ h ha hb

/-- A coordinate given by keyword is the attribute of the generated message. -/
theorem coordinate_attr (now : Nat → DateTime) (t i : Str) (mode : Int) (hp : Bool) (v : Nat) (u : UDefs)
    (kw : List (Str × PyVal)) (m : Msg) (hkw : PlainKeywords i kw) (d : PDict)
    (hd : KwDefinition mode.toNat u i kw d) (hsane : SaneGen d) (h : mkMsg now t i mode hp v u none ⟨none, kw⟩ = .ok m)
    (hst : IsStatic d = true) (p : Nat) (name ty : Str) (hslot : (slotsOf d [])[p]? = some (name, ty))
    (hlast : LastFor (slotsOf d []) p name) (hty : ty = py!"LA" ∨ ty = py!"LN") (val : PyVal)
    (hval : lookup name kw = some val) : lookup name m.attrs = some val := by
  obtain ⟨ws, he, -, hattrs, -⟩ := C09_direction now t i mode hp v u kw m hkw d hd hsane h
  have hmap := emit_static he hst
  simp only [List.map_nil, List.nil_append] at hmap
  rw [← hmap, List.getElem?_map] at hslot
  obtain ⟨w, hw, e⟩ := Option.map_eq_some_iff.1 hslot
  simp only [Prod.mk.injEq] at e
  obtain ⟨rfl, rfl⟩ := e
  obtain ⟨c, -⟩ := emit_each he (by intro q w hq; simp at hq) p w hw
  have hdir : directionOf w.ty = none := by rcases hty with e | e <;> rw [e] <;> rfl
  have hv1 : w.val = val := by
    unfold chosen at c
    simp only [hdir] at c
    cases hn : nomval w.ty mode.toNat (now (clockReads (ws.take p))) with
    | error e => rw [hn] at c; cases c
    | ok nv =>
      rw [hn] at c
      simp only [Except.map, keywordOr, Except.ok.injEq, hval] at c
      exact c.symm
  obtain ⟨hlt, hget⟩ := List.getElem?_eq_some_iff.1 hw
  have hsp : ws = ws.take p ++ w :: ws.drop (p + 1) := by
    rw [← hget, ← List.drop_eq_getElem_cons hlt, List.take_append_drop]
  rw [hattrs, hsp, ← hv1]
  refine Props.lookup_attrsOf _ _ _ ?_
  intro x hx
  obtain ⟨q, hq⟩ := List.mem_iff_getElem?.1 hx
  rw [List.getElem?_drop] at hq
  exact hlast (p + 1 + q) (x.name, x.ty) (by omega) (by rw [← hmap]; simp [hq])

theorem position_back (now : Nat → DateTime) (t i : Str) (mode : Int) (hp : Bool) (v : Nat) (u : UDefs)
    (kw : List (Str × PyVal)) (m m' : Msg) (hkw : PlainKeywords i kw) (d : PDict) (name : Str) (hb : BuiltIn mode.toNat name d)
    (hd : KwDefinition mode.toNat u i kw d) (h : mkMsg now t i mode hp v u none ⟨none, kw⟩ = .ok m)
    (slots : List Slot) (hex : Expand mode.toNat m.payload d [] [] slots) (hc : CameBack hp slots m m')
    (hlat : (py!"lat", py!"LA") ∈ d.entries) (hlon : (py!"lon", py!"LN") ∈ d.entries) (lat lon : PyVal) (q1 q2 : ℚ)
    (k1 : lookup py!"lat" kw = some lat) (k2 : lookup py!"lon" kw = some lon) (h1 : degreesOf lat = some q1)
    (h2 : degreesOf lon = some q2) :
    ∃ lat' lon' r1 r2 dist, lookup py!"lat" m'.attrs = some lat' ∧ lookup py!"lon" m'.attrs = some lon' ∧
      degreesOf lat' = some r1 ∧ degreesOf lon' = some r2 ∧
      haversine q1 q2 r1 r2 (smajAxis / 1000) = .ok dist ∧ dist < maxShift hp := by
  obtain ⟨hst, p1, p2⟩ := positions_carried _ _ _ hb hlat hlon
  obtain ⟨a, a1, a2, a3⟩ := coordinateAt_iff _ _ _ _ _ .lat p1
  obtain ⟨b, b1, b2, b3⟩ := coordinateAt_iff _ _ _ _ _ .lon p2
  rw [expand_static_iff _ _ _ hst] at hex
  subst hex
  have hsane : SaneGen d := by
    rcases hb with hb | hb
    · exact tables_sane_gen.1 _ _ hb
    · exact tables_sane_gen.2 _ _ hb
  obtain ⟨x, w, x', hx, hx', hs, hsc, -⟩ := hc.2 a _ _ a1 a2
  obtain ⟨y, z, y', hy, hy', hs2, hsc2, -⟩ := hc.2 b _ _ b1 b2
  rw [coordinate_attr now t i mode hp v u kw m hkw d hd hsane h hst a _ _ a1 a2 (.inl rfl) lat k1] at hx
  rw [coordinate_attr now t i mode hp v u kw m hkw d hd hsane h hst b _ _ b1 b2 (.inr rfl) lon k2] at hy
  cases hx; cases hy
  obtain ⟨r1, r2, dist, e1, e2, hd1, hd2⟩ := C93_fields hp lat lon w z q1 q2 h1 h2 hs hs2
  rw [← hsc a3] at e1
  rw [← hsc2 b3] at e2
  exact ⟨x', y', r1, r2, dist, hx', hy', e1, e2, hd1, hd2⟩

/-- C93. A position given to the constructor of a standard message (`lat` and `lon` as signed numbers of degrees), serialized
and parsed - in any hemisphere, at the poles, across the date line: the position read back is less than 2.3 cm (0.23 mm in high
precision mode) away. The types with these attributes are `GGA`, `GLL`, `GNS`, `RMC`, `WPL` and others. -/
theorem C93_standard (now : Nat → DateTime) (t i : Str) (mode : Int) (hp : Bool) (v : Nat) (u : UDefs)
    (kw : List (Str × PyVal)) (m : Msg) (hkw : PlainKeywords i kw) (hi : IsStandard i) (hi1 : i ≠ py!"LR2")
    (hi2 : i ≠ py!"FOO") (d : PDict) (hd : KwDefinition mode.toNat u i kw d)
    (h : mkMsg now t i mode hp v u none ⟨none, kw⟩ = .ok m)
    (hplain : PlainStrings kw) (hhead : PlainText (t ++ i)) (hsplit : SplitsBack t i)
    (hnat : NaturalKeywords d kw) (hnow : ClockOk now)
    (hlat : (py!"lat", py!"LA") ∈ d.entries) (hlon : (py!"lon", py!"LN") ∈ d.entries) (lat lon : PyVal) (q1 q2 : ℚ)
    (k1 : lookup py!"lat" kw = some lat) (k2 : lookup py!"lon" kw = some lon) (h1 : degreesOf lat = some q1)
    (h2 : degreesOf lon = some q2)
    (now' : Nat → DateTime) (v' : Nat) (u' : UDefs) (hids : KnownIds v' u' t i) :
    ∃ raw m' lat' lon' r1 r2 dist, m.serialize = .ok raw ∧ parse now' (.bytes raw) mode v' u' = .ok (some m') ∧
      lookup py!"lat" m'.attrs = some lat' ∧ lookup py!"lon" m'.attrs = some lon' ∧
      degreesOf lat' = some r1 ∧ degreesOf lon' = some r2 ∧
      haversine q1 q2 r1 r2 (smajAxis / 1000) = .ok dist ∧ dist < maxShift hp := by
  obtain ⟨raw, m', slots, h3, h4, h5, -, h6⟩ := C64_standard now t i mode hp v u kw m hkw hi hi1 hi2 d hd h hplain hhead hsplit
    hnat hnow now' v' u' hids
  obtain ⟨-, hb⟩ := standard_definition mode.toNat u u' i hi kw d hd m.payload
  obtain ⟨lat', lon', r1, r2, dist, hh⟩ := position_back now t i mode hp v u kw m m' hkw d i (.inl hb) hd h slots h5 h6 hlat hlon
    lat lon q1 q2 k1 k2 h1 h2
  exact ⟨raw, m', lat', lon', r1, r2, dist, h3, h4, hh⟩

/-- C93. The same for proprietary messages (see C64 for the exceptions). -/
theorem C93_proprietary (now : Nat → DateTime) (t i : Str) (mode : Int) (hp : Bool) (v : Nat) (u : UDefs)
    (kw : List (Str × PyVal)) (m : Msg) (hkw : PlainKeywords i kw) (hi : IsProprietary i) (hi' : ¬ IsStandard i)
    (hsub : i ∈ NMEA_PREFIX_PROP → ∃ s, lookup py!"msgId" kw = some (.str s) ∧ s ≠ [] ∧ fullId i [s] = .ok (i ++ s))
    (d : PDict) (hd : KwDefinition mode.toNat u i kw d)
    (h : mkMsg now t i mode hp v u none ⟨none, kw⟩ = .ok m)
    (hplain : PlainStrings kw) (hhead : PlainText (t ++ i)) (hsplit : SplitsBack t i)
    (hnat : NaturalKeywords d kw) (hnow : ClockOk now)
    (hack : mode = 0 → i.take 3 = py!"QTM" → m.payload ≠ [py!"OK"] ∧
      ¬ (m.payload.length = 2 ∧ m.payload.head? = some py!"ERROR"))
    (hsn : mode = 0 → i = py!"QTMSN" → ∃ f ∈ m.payload.head?, isNumeric f = false)
    (hss : IsSnc t i m.payload → ∀ f ∈ m.payload, (91 : Nat) ∉ f ∧ (93 : Nat) ∉ f)
    (hlat : (py!"lat", py!"LA") ∈ d.entries) (hlon : (py!"lon", py!"LN") ∈ d.entries) (lat lon : PyVal) (q1 q2 : ℚ)
    (k1 : lookup py!"lat" kw = some lat) (k2 : lookup py!"lon" kw = some lon) (h1 : degreesOf lat = some q1)
    (h2 : degreesOf lon = some q2)
    (now' : Nat → DateTime) (v' : Nat) (u' : UDefs) (hids : KnownIds v' u' t i) :
    ∃ raw m' lat' lon' r1 r2 dist, m.serialize = .ok raw ∧ parse now' (.bytes raw) mode v' u' = .ok (some m') ∧
      lookup py!"lat" m'.attrs = some lat' ∧ lookup py!"lon" m'.attrs = some lon' ∧
      degreesOf lat' = some r1 ∧ degreesOf lon' = some r2 ∧
      haversine q1 q2 r1 r2 (smajAxis / 1000) = .ok dist ∧ dist < maxShift hp := by
  obtain ⟨raw, m', slots, h3, h4, h5, -, h6⟩ := C64_proprietary now t i mode hp v u kw m hkw hi hi' hsub d hd h hplain hhead
    hsplit hnat hnow hack hsn hss now' v' u' hids
  obtain ⟨name, hb⟩ := proprietary_mem hi hi' hd
  obtain ⟨lat', lon', r1, r2, dist, hh⟩ := position_back now t i mode hp v u kw m m' hkw d name (.inr hb) hd h slots h5 h6 hlat hlon
    lat lon q1 q2 k1 k2 h1 h2
  exact ⟨raw, m', lat', lon', r1, r2, dist, h3, h4, hh⟩

/-- C93. Distances: if two positions move by less than `s` each, their distance changes by less than `2 s`. With the theorems
above: the distance of two positions that were sent in sentences is right to 4.6 cm (0.46 mm). -/
theorem C93_distance (lat1 lon1 lat2 lon2 lat1' lon1' lat2' lon2' s radius d1 d2 : ℝ) (hr : 0 ≤ radius)
    (h1 : haversine lat1 lon1 lat1' lon1' radius = .ok d1) (h2 : haversine lat2 lon2 lat2' lon2' radius = .ok d2)
    (b1 : d1 < s) (b2 : d2 < s) :
    ∃ d d', haversine lat1 lon1 lat2 lon2 radius = .ok d ∧ haversine lat1' lon1' lat2' lon2' radius = .ok d' ∧
      |d' - d| < 2 * s := by
  refine ⟨_, _, C42_haversine .., C42_haversine .., ?_⟩
  rw [C42_haversine] at h1 h2
  cases h1; cases h2
  rw [← mul_sub, abs_mul, abs_of_nonneg hr]
  have t1 := angle_le_angle_add_angle (spherePoint lat1 lon1) (spherePoint lat1' lon1') (spherePoint lat2 lon2)
  have t2 := angle_le_angle_add_angle (spherePoint lat1' lon1') (spherePoint lat2' lon2') (spherePoint lat2 lon2)
  have t3 := angle_le_angle_add_angle (spherePoint lat1' lon1') (spherePoint lat1 lon1) (spherePoint lat2' lon2')
  have t4 := angle_le_angle_add_angle (spherePoint lat1 lon1) (spherePoint lat2 lon2) (spherePoint lat2' lon2')
  rw [angle_comm (spherePoint lat2' lon2') (spherePoint lat2 lon2)] at t2
  rw [angle_comm (spherePoint lat1' lon1') (spherePoint lat1 lon1)] at t3
  have : |angle (spherePoint lat1' lon1') (spherePoint lat2' lon2') - angle (spherePoint lat1 lon1) (spherePoint lat2 lon2)| ≤
      angle (spherePoint lat1 lon1) (spherePoint lat1' lon1') + angle (spherePoint lat2 lon2) (spherePoint lat2' lon2') := by
    rw [abs_le]; constructor <;> linarith
  nlinarith [mul_le_mul_of_nonneg_left this hr]

/-- The hypotheses of `C93_standard` are met by the GLL example at 53.5 degrees south, 2.25 degrees east. -/
theorem C93_example : ∃ d, KwDefinition 0 [] py!"GLL" gllKw d ∧ NaturalKeywords d gllKw ∧ (py!"lat", py!"LA") ∈ d.entries ∧
    (py!"lon", py!"LN") ∈ d.entries ∧ lookup py!"lat" gllKw = some (.float (.fin true (107/2))) ∧
    degreesOf (.float (.fin true (107/2))) = some (-(107/2)) ∧ IsStandard py!"GLL" := by
  have h : ((lookup py!"GLL" NMEA_PAYLOADS_GET).map (fun d => (py!"lat", py!"LA") ∈ d.entries ∧ (py!"lon", py!"LN") ∈ d.entries)
    : Option Prop) = some True := by
    have : (lookup py!"GLL" NMEA_PAYLOADS_GET).any (fun d => decide ((py!"lat", py!"LA") ∈ d.entries ∧
      (py!"lon", py!"LN") ∈ d.entries)) = true := by decide +kernel
    cases hd : lookup py!"GLL" NMEA_PAYLOADS_GET with
    | none => rw [hd] at this; cases this
    | some d => rw [hd] at this; simp only [Option.any_some, decide_eq_true_eq] at this; simp [this]
  cases hd : lookup py!"GLL" NMEA_PAYLOADS_GET with
  | none => rw [hd] at h; cases h
  | some d =>
    rw [hd] at h
    simp only [Option.map_some, Option.some.injEq, eq_iff_iff, iff_true] at h
    exact ⟨d, ⟨py!"GLL", by decide +kernel, by rw [if_pos (by decide +kernel)]; exact hd⟩, gllKw_natural d hd, h.1, h.2,
      by decide +kernel, rfl, by decide +kernel⟩

end Props
