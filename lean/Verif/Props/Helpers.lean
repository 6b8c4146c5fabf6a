import Verif.Lemmas.IntText
import Verif.Lemmas.ParseErr
import Verif.Spec.Framing
import Verif.Props.Checksum
/-!
# Small helpers (C40, C41, C45, C46, C54)
-/
namespace Props
open Py Nmea Spec

/-! ## C40 -/

/-- The part of a keyword name after its first underscore. -/
def GroupSuffix (name sfx : Str) : Prop := ∃ pre, name = pre ++ py!"_" ++ sfx ∧ 95 ∉ pre

theorem groupSuffix_iff (name sfx : Str) :
    GroupSuffix name sfx ↔ ∃ pre, splitFirst 95 name = some (pre, sfx) := by
  unfold GroupSuffix
  constructor
  · rintro ⟨pre, rfl, h⟩
    exact ⟨pre, by rw [List.append_assoc]; exact splitFirst_of 95 pre sfx h⟩
  · rintro ⟨pre, h⟩
    rw [splitFirst_some] at h
    exact ⟨pre, by rw [h.1]; simp, h.2⟩

theorem groupsize_from (names : List Str) (a : Int) :
    (∀ r, names.foldlM (fun (idx : Int) a =>
        match splitFirst 95 a with
        | none => (Except.ok idx : Except Err Int)
        | some (_, sfx) => do
          let n ← intOfStr sfx
          pure (max idx n)) a = .ok r ↔
      (∀ name ∈ names, ∀ sfx, GroupSuffix name sfx → ∃ n, intOfStr sfx = .ok n ∧ n ≤ r) ∧ a ≤ r ∧
        (r = a ∨ ∃ name ∈ names, ∃ sfx, GroupSuffix name sfx ∧ intOfStr sfx = .ok r)) ∧
    (∀ e, names.foldlM (fun (idx : Int) a =>
        match splitFirst 95 a with
        | none => (Except.ok idx : Except Err Int)
        | some (_, sfx) => do
          let n ← intOfStr sfx
          pure (max idx n)) a = .error e ↔
      e = .value ∧ ∃ name ∈ names, ∃ sfx, GroupSuffix name sfx ∧ intOfStr sfx = .error .value) := by
  induction names generalizing a with
  | nil =>
    constructor
    · intro r
      simp only [List.foldlM_nil, pure, Except.pure, Except.ok.injEq]
      constructor
      · rintro rfl; simp
      · rintro ⟨_, h1, h2⟩
        rcases h2 with h | ⟨_, h, _⟩
        · exact h.symm
        · simp at h
    · intro e
      simp [pure, Except.pure]
  | cons name names ih =>
    have hsfx : ∀ pre sfx, splitFirst 95 name = some (pre, sfx) →
        (GroupSuffix name sfx ∧ ∀ s', GroupSuffix name s' → s' = sfx) := by
      intro pre sfx h
      refine ⟨(groupSuffix_iff _ _).2 ⟨pre, h⟩, ?_⟩
      intro s' hs'
      obtain ⟨p', h'⟩ := (groupSuffix_iff _ _).1 hs'
      rw [h] at h'; cases h'; rfl
    simp only [List.foldlM_cons, bind, Except.bind]
    cases hs : splitFirst 95 name with
    | none =>
      have hno : ∀ s', ¬ GroupSuffix name s' := by
        intro s' h
        obtain ⟨p', h'⟩ := (groupSuffix_iff _ _).1 h
        rw [hs] at h'; cases h'
      simp only
      obtain ⟨i1, i2⟩ := ih a
      constructor
      · intro r
        refine (i1 r).trans ?_
        simp only [List.mem_cons]
        constructor
        · rintro ⟨h1, h2, h3⟩
          refine ⟨?_, h2, ?_⟩
          · rintro n (rfl | hn) s hsf
            · exact absurd hsf (hno s)
            · exact h1 n hn s hsf
          · rcases h3 with h | ⟨n, hn, s, h⟩
            · exact .inl h
            · exact .inr ⟨n, .inr hn, s, h⟩
        · rintro ⟨h1, h2, h3⟩
          refine ⟨fun n hn => h1 n (.inr hn), h2, ?_⟩
          rcases h3 with h | ⟨n, rfl | hn, s, h⟩
          · exact .inl h
          · exact absurd h.1 (hno s)
          · exact .inr ⟨n, hn, s, h⟩
      · intro e
        refine (i2 e).trans ?_
        simp only [List.mem_cons]
        constructor
        · rintro ⟨h1, n, hn, h⟩; exact ⟨h1, n, .inr hn, h⟩
        · rintro ⟨h1, n, rfl | hn, s, h⟩
          · exact absurd h.1 (hno s)
          · exact ⟨h1, n, hn, s, h⟩
    | some q =>
      obtain ⟨pre, sfx⟩ := q
      obtain ⟨g1, g2⟩ := hsfx pre sfx hs
      simp only
      cases hi : intOfStr sfx with
      | error e' =>
        have he' := intOfStr_error sfx e' hi
        subst he'
        simp only
        constructor
        · intro r
          constructor
          · intro h; cases h
          · rintro ⟨h1, _⟩
            obtain ⟨n, h, _⟩ := h1 name (by simp) sfx g1
            rw [hi] at h; cases h
        · intro e
          constructor
          · intro h; cases h; exact ⟨rfl, name, by simp, sfx, g1, hi⟩
          · rintro ⟨rfl, _⟩; rfl
      | ok n =>
        simp only [pure, Except.pure]
        obtain ⟨i1, i2⟩ := ih (max a n)
        constructor
        · intro r
          refine (i1 r).trans ?_
          simp only [List.mem_cons]
          constructor
          · rintro ⟨h1, h2, h3⟩
            refine ⟨?_, by omega, ?_⟩
            · rintro m (rfl | hm) s hsf
              · rw [g2 s hsf]; exact ⟨n, hi, by omega⟩
              · exact h1 m hm s hsf
            · rcases h3 with h | ⟨m, hm, s, h⟩
              · by_cases han : a ≤ n
                · exact .inr ⟨name, .inl rfl, sfx, g1, by rw [hi, h]; congr 1; omega⟩
                · exact .inl (by omega)
              · exact .inr ⟨m, .inr hm, s, h⟩
          · rintro ⟨h1, h2, h3⟩
            obtain ⟨n', hn', hle⟩ := h1 name (.inl rfl) sfx g1
            rw [hi] at hn'; cases hn'
            refine ⟨fun m hm => h1 m (.inr hm), by omega, ?_⟩
            rcases h3 with h | ⟨m, rfl | hm, s, h⟩
            · exact .inl (by omega)
            · rw [g2 s h.1, hi] at h
              have := h.2
              cases this
              exact .inl (by omega)
            · exact .inr ⟨m, hm, s, h⟩
        · intro e
          refine (i2 e).trans ?_
          simp only [List.mem_cons]
          constructor
          · rintro ⟨h1, m, hm, h⟩; exact ⟨h1, m, .inr hm, h⟩
          · rintro ⟨h1, m, rfl | hm, s, h⟩
            · rw [g2 s h.1, hi] at h; cases h.2
            · exact ⟨h1, m, hm, s, h⟩

/-- `groupsize` is the largest integer after the first underscore of a keyword name (0 if there is
none, or if all are negative); all these suffixes must be integers. -/
theorem C40_groupsize (names : List Str) (r : Int) :
    groupsize names = .ok r ↔
      (∀ name ∈ names, ∀ sfx, GroupSuffix name sfx → ∃ n, intOfStr sfx = .ok n ∧ n ≤ r) ∧ 0 ≤ r ∧
        (r = 0 ∨ ∃ name ∈ names, ∃ sfx, GroupSuffix name sfx ∧ intOfStr sfx = .ok r) :=
  (groupsize_from names 0).1 r

/-- It raises, namely `ValueError`, exactly when some suffix is not an integer literal. -/
theorem C40_error (names : List Str) (e : Err) :
    groupsize names = .error e ↔
      e = .value ∧ ∃ name ∈ names, ∃ sfx, GroupSuffix name sfx ∧ intOfStr sfx = .error .value :=
  (groupsize_from names 0).2 e

/-- It does not depend on the order (or multiplicity) of the names. -/
theorem C40_order (a b : List Str) (h : ∀ x, x ∈ a ↔ x ∈ b) : groupsize a = groupsize b := by
  cases ha : groupsize a with
  | ok r =>
    have := (C40_groupsize a r).1 ha
    simp only [h] at this
    exact ((C40_groupsize b r).2 this).symm
  | error e =>
    have := (C40_error a e).1 ha
    simp only [h] at this
    exact ((C40_error b e).2 this).symm

example : groupsize [py!"svid_02", py!"numSV", py!"svid_10", py!"svid_01"] = .ok 10 := by decide +kernel

/-- Underscores in attribute names defeat it; suffixes of nested groups are read as one number. -/
theorem C40_counterexamples : groupsize [py!"sensor_info_01"] = .error .value ∧
    groupsize [py!"a_01_02"] = .ok 102 := by
  constructor <;> decide +kernel

/-! ## C41 -/

/-- `msgdesc` is the description of the standard table, else that of the proprietary table, else the
text for unknown ids. -/
theorem C41_msgdesc (id : Str) :
    (∀ d, (id, d) ∈ NMEA_MSGIDS → msgdesc id = d) ∧
    (id ∉ NMEA_MSGIDS.map Prod.fst → ∀ d, (id, d) ∈ NMEA_MSGIDS_PROP → msgdesc id = d) ∧
    (id ∉ NMEA_MSGIDS.map Prod.fst → id ∉ NMEA_MSGIDS_PROP.map Prod.fst →
      msgdesc id = py!"Unknown msgID " ++ id) := by
  have n1 : (NMEA_MSGIDS.map Prod.fst).Nodup := by decide +kernel
  have n2 : (NMEA_MSGIDS_PROP.map Prod.fst).Nodup := by decide +kernel
  have key : ∀ (T : List (Str × Str)), (T.map Prod.fst).Nodup → ∀ d, (id, d) ∈ T → lookup id T = some d := by
    intro T
    induction T with
    | nil => intro _ d h; cases h
    | cons p r ih =>
      obtain ⟨k, v⟩ := p
      intro hn d hd
      rw [List.map_cons, List.nodup_cons] at hn
      rw [lookup]
      rcases List.mem_cons.1 hd with h | h
      · cases h; rw [if_pos rfl]
      · rw [if_neg, ih hn.2 d h]
        rintro rfl
        exact hn.1 (List.mem_map.2 ⟨_, h, rfl⟩)
  refine ⟨?_, ?_, ?_⟩
  · intro d hd
    unfold msgdesc; rw [key _ n1 d hd]
  · intro h d hd
    unfold msgdesc; rw [(lookup_none_iff _ _).2 h, key _ n2 d hd]
  · intro h h'
    unfold msgdesc; rw [(lookup_none_iff _ _).2 h, (lookup_none_iff _ _).2 h']

example : (py!"GLL", msgdesc py!"GLL") ∈ NMEA_MSGIDS ∧ msgdesc py!"XYZ" = py!"Unknown msgID XYZ" := by
  decide +kernel

/-! ## C45 -/

theorem padZero_hex (w n : Nat) :
    padZero w (hexUpper n) = (List.replicate (w - (digits 16 n).length) 0 ++ digits 16 n).map digitUpper := by
  unfold padZero hexUpper
  simp only [List.length_map, List.map_append, List.map_replicate]
  rfl

theorem stripHexPrefix_id (ds : List Nat) (h : ∀ d ∈ ds, d < 16) :
    stripHexPrefix (ds.map digitUpper) = ds.map digitUpper := by
  match ds, h with
  | [], _ => rfl
  | [a], _ => rfl
  | a :: b :: r, h =>
    have hb := digitUpper_range b (h b (by simp))
    simp only [List.map_cons, stripHexPrefix]
    rw [if_neg (by omega)]

/-- `int(hex2str(z, p), 16) = z` for every integer and padding, and the text has exactly `p` characters, or
as many as the unpadded text if that is longer. -/
theorem C45_inverse (z : Int) (p : Nat) :
    intOfStr16 (hex2str z p) = .ok z ∧ (hex2str z p).length = max p (hex2str z 0).length := by
  have hval : ∀ ds : List Nat, (∀ d ∈ ds, d < 16) → ds ≠ [] → ofDigits 16 ds = z.natAbs → ∀ k : Nat,
      intOfStr16 (List.replicate k 32 ++ ((if z < 0 then [45] else []) ++ ds.map digitUpper)) = .ok z := by
    intro ds hd hne hv k
    have hup : ∀ c ∈ ds.map digitUpper, isHexUp c := by
      intro c hc
      obtain ⟨d, h, rfl⟩ := List.mem_map.1 hc
      exact digitUpper_range d (hd d h)
    have hne' : ds.map digitUpper ≠ [] := by simpa using hne
    unfold intOfStr16
    rw [toAsciiNum_ascii _ (by
      intro c hc
      rcases List.mem_append.1 hc with h | h
      · have := List.eq_of_mem_replicate h; omega
      · rcases List.mem_append.1 h with h | h
        · split at h
          · simp at h; omega
          · simp at h
        · have := hup c h; unfold isHexUp at this; omega)]
    have hst : stripBy isAsciiSpace (List.replicate k 32 ++ ((if z < 0 then [45] else []) ++ ds.map digitUpper)) =
        (if z < 0 then [45] else []) ++ ds.map digitUpper := by
      have := stripBy_of_stripped isAsciiSpace (List.replicate k 32)
        ((if z < 0 then [45] else []) ++ ds.map digitUpper) []
        ⟨fun c hc => by
          split at hc
          · simp at hc; subst hc; rfl
          · exact isHexUp_space c (hup c (List.mem_of_mem_head? (by simpa using hc))),
          fun c hc => by
            rw [List.getLast?_append, List.getLast?_eq_some_getLast hne', Option.some_or,
              ← List.getLast?_eq_some_getLast hne'] at hc
            exact isHexUp_space c (hup c (List.mem_of_mem_getLast? hc))⟩
        (by
          rw [List.all_eq_true]
          intro c hc
          rw [List.eq_of_mem_replicate hc]; rfl) (by simp)
      simpa using this
    rw [hst]
    by_cases hz : z < 0
    · rw [if_pos hz]
      show (match scanDigits 16 false (stripHexPrefix (ds.map digitUpper)) with
        | some ds => Except.ok (applySign true (ofDigits 16 ds))
        | none => .error Err.value) = _
      rw [stripHexPrefix_id ds hd, scanDigits_map 16 (by omega) ds hd false (.inr hne)]
      simp only [hv, applySign]
      congr 1
      simp only [if_true]
      omega
    · rw [if_neg hz, List.nil_append, splitSign_digit _ (fun c hc => by
        have := hup c (List.mem_of_mem_head? hc); unfold isHexUp at this; omega)]
      simp only
      rw [stripHexPrefix_id ds hd, scanDigits_map 16 (by omega) ds hd false (.inr hne)]
      simp only [hv, applySign]
      congr 1
      simp only [Bool.false_eq_true, if_false]
      omega
  have hlen : (hex2str z 0).length = (if z < 0 then [45] else [] : Str).length + (digits 16 z.natAbs).length := by
    unfold hex2str padZero hexUpper
    simp
  rw [hlen]
  unfold hex2str
  simp only
  split
  · constructor
    · have := hval (List.replicate (p - (if z < 0 then [45] else [] : Str).length - (digits 16 z.natAbs).length) 0 ++
          digits 16 z.natAbs)
        (by
          intro d h
          rcases List.mem_append.1 h with h | h
          · rw [List.eq_of_mem_replicate h]; omega
          · exact digits_lt 16 _ (by omega) d h)
        (by simp [digits_ne_nil])
        (by rw [ofDigits_append, ofDigits_zeros, ofDigits_digits 16 _ (by omega)]; omega) 0
      rw [padZero_hex]
      simpa using this
    · rw [List.length_append, padZero_length]
      unfold hexUpper
      rw [List.length_map]
      omega
  · constructor
    · exact hval (digits 16 z.natAbs) (digits_lt 16 _ (by omega)) (digits_ne_nil 16 _)
        (ofDigits_digits 16 _ (by omega)) _
    · unfold hexUpper
      rw [List.length_append, List.length_replicate, List.length_append, List.length_map]
      omega

/-- For paddings below ten the text is a minus sign for negative numbers, followed by upper-case hexadecimal
digits only. -/
theorem C45_digits (z : Int) (p : Nat) (hp : p < 10) :
    ∃ ds, hex2str z p = (if z < 0 then py!"-" else []) ++ ds ∧ ds ≠ [] ∧ ∀ c ∈ ds, c ∈ hexDigits := by
  unfold hex2str
  simp only [if_pos hp]
  refine ⟨_, rfl, ?_, ?_⟩
  · rw [padZero_hex]; simp [digits_ne_nil]
  rw [padZero_hex]
  intro c hc
  obtain ⟨d, h, rfl⟩ := List.mem_map.1 hc
  have hd : d < 16 := by
    rcases List.mem_append.1 h with h | h
    · rw [List.eq_of_mem_replicate h]; omega
    · exact digits_lt 16 _ (by omega) d h
  have : ∀ d < 16, digitUpper d ∈ hexDigits := by decide
  exact this d hd

/-- Without padding there are no superfluous zeros. -/
theorem C45_unpadded (z : Int) :
    hex2str z 0 = py!"0" ∧ z = 0 ∨
    ∃ d ds, hex2str z 0 = (if z < 0 then py!"-" else []) ++ d :: ds ∧ d ≠ 48 ∧ z ≠ 0 := by
  by_cases hz : z = 0
  · subst hz; exact .inl ⟨by decide, rfl⟩
  · right
    have h0 := digits_head_ne_zero 16 z.natAbs (by omega) (by omega)
    have hlt := digits_lt 16 z.natAbs (by omega)
    unfold hex2str padZero hexUpper
    simp only [Nat.zero_sub, List.replicate_zero, List.nil_append, Nat.zero_lt_succ, if_true]
    cases hd : digits 16 z.natAbs with
    | nil => exact absurd hd (digits_ne_nil _ _)
    | cons a r =>
      refine ⟨digitUpper a, r.map digitUpper, rfl, ?_, hz⟩
      rw [hd] at h0 hlt
      have : ∀ d < 16, d ≠ 0 → digitUpper d ≠ 48 := by decide
      exact this a (hlt a (by simp)) (h0 a (by simp))

example : hex2str 255 4 = py!"00FF" ∧ hex2str (-10) 3 = py!"-0A" ∧ hex2str (-10) 0 = py!"-A" := by decide +kernel

/-- From a padding of ten on it pads with spaces instead of zeros. -/
theorem C45_counterexample : hex2str 255 10 = py!"        FF" := by decide +kernel

/-! ## C46 -/

/-- `knots2spd` raises `KeyError` exactly for units (upper-cased) outside the table. -/
theorem C46_key (knots : PyVal) (unit : Str) :
    knots2spd knots unit = .error .key ↔ upper unit ∉ [py!"MS", py!"FS", py!"MPH", py!"KMPH"] := by
  have hk : KNOTSCONV.map Prod.fst = [py!"MS", py!"FS", py!"MPH", py!"KMPH"] := rfl
  rw [← hk, ← lookup_none_iff]
  unfold knots2spd
  constructor
  · intro h
    split at h
    · assumption
    · split at h
      · cases h
      · cases h
      · rename_i i _
        unfold PyFloat.ofInt at h
        simp only [bind, Except.bind] at h
        split at h
        · rename_i heq
          split at heq
          · cases heq
          · cases heq; cases h
        · cases h
  · intro h; rw [h]

/-- Otherwise a float is multiplied by the factor of the unit, whatever its letter case. -/
theorem C46_value (x : PyFloat) (unit : Str) (f : Rat) (h : (upper unit, f) ∈ KNOTSCONV) :
    knots2spd (.float x) unit = .ok (x.mul (.ofRat f)) := by
  have hl : lookup (upper unit) KNOTSCONV = some f := by
    simp only [KNOTSCONV, List.mem_cons, Prod.mk.injEq, List.not_mem_nil, or_false] at h
    rcases h with ⟨h, rfl⟩ | ⟨h, rfl⟩ | ⟨h, rfl⟩ | ⟨h, rfl⟩ <;> rw [h] <;> rfl
  unfold knots2spd
  rw [hl]; rfl

theorem C46_case (knots : PyVal) (a b : Str) (h : upper a = upper b) : knots2spd knots a = knots2spd knots b := by
  unfold knots2spd; rw [h]

example : upper py!"kmph" = py!"KMPH" ∧ knots2spd (.float (.fin false 0)) py!"kmph" = .ok (.fin false 0) := by
  decide +kernel

/-! ## C54 -/

theorem reprDigits_head (ds : List Nat) (p : Int) : (reprDigits ds p).head? ≠ some 45 ∧
    (reprDigits ds p).head? ≠ some 43 := by
  have hu : ∀ d, digitUpper d ≥ 48 := by intro d; unfold digitUpper; split <;> omega
  unfold reprDigits
  simp only
  split
  · match ds with
    | [] => simp
    | [a] => have := hu a; simp; omega
    | a :: b :: r => have := hu a; simp; omega
  · split
    · simp
    · rename_i h1 h2
      split
      · match ds with
        | [] =>
          cases hp : p.toNat with
          | zero => simp
          | succ n => simp [List.replicate_succ]
        | a :: r => have := hu a; simp; omega
      · match ds with
        | [] =>
          cases hp : p.toNat with
          | zero => simp
          | succ n => simp
        | a :: r =>
          cases hp : p.toNat with
          | zero => omega
          | succ n => have := hu a; simp; omega

/-- The text of a float without sign does not begin with a sign. -/
theorem repr_abs_head (x : PyFloat) : (reprFloat x.abs).head? ≠ some 45 ∧ (reprFloat x.abs).head? ≠ some 43 := by
  cases x with
  | nan => decide
  | inf s => cases s <;> decide
  | fin s m =>
    simp only [PyFloat.abs, reprFloat]
    rw [if_neg (by simp)]
    split
    · decide
    · exact reprDigits_head _ _

/-- Latitude and longitude are written as exactly one sign, `-` exactly for negative values,
followed by the text of the magnitude, which does not begin with a sign. -/
theorem C54_signs (lat lon alt : PyFloat) (crs : Str) :
    ∃ s1 s2 rest, llh2iso6709 lat lon alt crs =
        s1 :: (reprFloat lat.abs ++ s2 :: (reprFloat lon.abs ++ rest)) ∧
      (s1 = 45 ∧ lat.ltZero = true ∨ s1 = 43 ∧ lat.ltZero = false) ∧
      (s2 = 45 ∧ lon.ltZero = true ∨ s2 = 43 ∧ lon.ltZero = false) ∧
      (∀ c ∈ (reprFloat lat.abs).head?, c ≠ 45 ∧ c ≠ 43) ∧
      (∀ c ∈ (reprFloat lon.abs).head?, c ≠ 45 ∧ c ≠ 43) := by
  have hh : ∀ x : PyFloat, ∀ c ∈ (reprFloat x.abs).head?, c ≠ 45 ∧ c ≠ 43 := by
    intro x c hc
    have := repr_abs_head x
    constructor
    · rintro rfl; exact this.1 hc
    · rintro rfl; exact this.2 hc
  refine ⟨if lat.ltZero then 45 else 43, if lon.ltZero then 45 else 43,
    (if alt.ltZero then py!"-" else py!"+") ++ reprFloat alt ++ py!"CRS" ++ crs ++ py!"/", ?_, ?_, ?_, hh lat, hh lon⟩
  · unfold llh2iso6709
    simp only
    cases lat.ltZero <;> cases lon.ltZero <;> simp [List.append_assoc] <;> rfl
  · cases lat.ltZero <;> simp
  · cases lon.ltZero <;> simp

/-- Counterexample for the altitude: a negative one gets two signs. -/
theorem C54_altitude_counterexample :
    llh2iso6709 (.fin false 1) (.fin false 2) (.fin true 3) py!"WGS_84" =
      py!"+1.0+2.0--3.0CRSWGS_84/" := by decide +kernel

/-- In general: the altitude is written as its sign followed by the full signed text. -/
theorem C54_altitude (lat lon : PyFloat) (m : Rat) (hm : 0 < m) (crs : Str) :
    ∃ pre digits, llh2iso6709 lat lon (.fin true m) crs =
      pre ++ py!"--" ++ digits ++ py!"CRS" ++ crs ++ py!"/" ∧ digits = reprFloat (.fin false m) := by
  refine ⟨(if lat.ltZero then py!"-" else py!"+") ++ reprFloat lat.abs ++
    (if lon.ltZero then py!"-" else py!"+") ++ reprFloat lon.abs, _, ?_, rfl⟩
  unfold llh2iso6709
  simp only [PyFloat.ltZero, Bool.true_and, decide_eq_true_eq, if_pos hm, reprFloat, if_true]
  simp [List.append_assoc]

end Props
