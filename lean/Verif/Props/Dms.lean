import Verif.Lemmas.DmsText
import Verif.Props.Values
/-!
# Degree formatting helpers (C44)
-/
set_option linter.unusedSimpArgs false
namespace Nmea
open Py

theorem degSuffix_eq (b : Bool) (att : Str) : degSuffix b att = hemisphere b (decide (att = LA)) := by
  unfold degSuffix hemisphere
  by_cases h : att = LA <;> cases b <;> simp [h]

theorem isDouble_le_1000 {neg : Bool} {q : ℚ} (h : IsF64 q) (hb : q ≤ 1000) : IsDouble (.fin neg q) := by
  obtain ⟨m, e, hm, he, rfl⟩ := h
  exact isDouble_of_small hm he (by norm_num; linarith)

/-- C44. `deg2dmm` prints whole degrees, minutes and the hemisphere letter; the printed angle is within
`1e-9` degrees of the magnitude of the argument. -/
theorem C44_dmm_format (neg : Bool) (a : ℚ) (hx : IsDouble (.fin neg a)) (ha : a ≤ 999) (att : Str) :
    ∃ (D : ℕ) (M : ℚ), IsDouble (.fin false M) ∧ M ≤ 60 ∧ |((D : ℚ) + M / 60) - a| ≤ 1 / 10 ^ 9 ∧
      deg2dmm (.float (.fin neg a)) att = .ok (natDec D ++ py!"°" ++ reprFloat (.fin false M) ++ py!"′" ++
        hemisphere (neg && decide (0 < a)) (decide (att = LA))) := by
  obtain ⟨D, M, -, h2, h3, h4, h5, h6⟩ := deg2dmm_text neg a (hx.wf).1.nonneg ha att
  refine ⟨D, M, isDouble_le_1000 h2 (by linarith), h4, by norm_num; linarith, ?_⟩
  rw [h6, degSuffix_eq]

example : deg2dmm (.float (.fin true (3 / 2))) LA = .ok py!"1°30.0′S" := by decide +kernel

/-- C44. `deg2dms` prints whole degrees, whole minutes below sixty, seconds and the hemisphere letter; the
printed angle is within `2e-9` degrees of the magnitude of the argument. -/
theorem C44_dms_format (neg : Bool) (a : ℚ) (hx : IsDouble (.fin neg a)) (ha : a ≤ 999) (att : Str) :
    ∃ (D M : ℕ) (S : ℚ), M < 60 ∧ IsDouble (.fin false S) ∧ S ≤ 60 ∧
      |((D : ℚ) + M / 60 + S / 3600) - a| ≤ 2 / 10 ^ 9 ∧
      deg2dms (.float (.fin neg a)) att = .ok (natDec D ++ py!"°" ++ natDec M ++ py!"′" ++
        reprFloat (.fin false S) ++ py!"″" ++ hemisphere (neg && decide (0 < a)) (decide (att = LA))) := by
  obtain ⟨D, M, S, -, h1, h2, h3, h4, h5, h6⟩ := deg2dms_text neg a (hx.wf).1.nonneg ha att
  refine ⟨D, M, S, by omega, isDouble_le_1000 h2 (by linarith), h4, by norm_num; linarith, ?_⟩
  rw [h6, degSuffix_eq]

example : deg2dms (.float (.fin false (41 / 32))) LN = .ok py!"1°16′52.5″E" := by decide +kernel

/-- C44. `latlon2dmm` and `latlon2dms` format the latitude with N/S and the longitude with E/W. -/
theorem C44_latlon (lat lon : PyVal) (a b : Str) :
    (latlon2dmm lat lon = .ok (a, b) ↔ deg2dmm lat py!"LA" = .ok a ∧ deg2dmm lon py!"LN" = .ok b) ∧
    (latlon2dms lat lon = .ok (a, b) ↔ deg2dms lat py!"LA" = .ok a ∧ deg2dms lon py!"LN" = .ok b) := by
  unfold latlon2dmm latlon2dms
  constructor
  · cases deg2dmm lat LA with
    | error e => simp [bind, Except.bind]
    | ok x =>
      cases deg2dmm lon LN with
      | error e => simp [bind, Except.bind]
      | ok y => simp [bind, Except.bind, pure, Except.pure]
  · cases deg2dms lat LA with
    | error e => simp [bind, Except.bind]
    | ok x =>
      cases deg2dms lon LN with
      | error e => simp [bind, Except.bind]
      | ok y => simp [bind, Except.bind, pure, Except.pure]

/-- C44. Anything that is not a number - and nan and the infinities - is formatted as an empty text. -/
theorem C44_invalid (v : PyVal) (att : Str)
    (h : ((∀ b, v ≠ .bool b) ∧ (∀ i, v ≠ .int i) ∧ ∀ x, v ≠ .float x) ∨ v = .float .nan ∨ ∃ s, v = .float (.inf s)) :
    deg2dmm v att = .ok [] ∧ deg2dms v att = .ok [] := by
  rcases h with h | rfl | ⟨s, rfl⟩
  · have : v.num? = none := by cases v <;> simp_all [PyVal.num?]
    unfold deg2dmm deg2dms
    simp only [this]
    exact ⟨rfl, rfl⟩
  · exact ⟨rfl, rfl⟩
  · exact ⟨rfl, rfl⟩

/-- C44. `True` and `False` are formatted as the numbers 1 and 0. -/
theorem C44_bool (b : Bool) (att : Str) : deg2dmm (.bool b) att = deg2dmm (.int (if b then 1 else 0)) att ∧
    deg2dms (.bool b) att = deg2dms (.int (if b then 1 else 0)) att := by
  cases b <;> exact ⟨rfl, rfl⟩

/-! ## Reading -/

/-- C44. Text that - spaces aside - is not one to three numbers each followed by a delimiter, an optional
hemisphere letter and an optional line feed, raises `ValueError`. -/
theorem C44_rejects (s : Str) (rnd : ℤ) (h : ∀ us, ¬ IsDms (removeChar 32 s) us) :
    dms2deg s rnd = .error .value := by
  have : dmsMatch (removeChar 32 s) = false := by
    rw [Bool.eq_false_iff]
    intro hm
    obtain ⟨us, hu⟩ := (dmsMatch_iff _).mp hm
    exact h us hu
  unfold dms2deg
  simp only [this, Bool.not_false, if_true]

theorem asciiDigits_num {c : Nat} (h : c = 46 ∨ isAsciiDigit c = true) : IsNumberChar c := by
  rcases h with h | h
  · exact Or.inl h
  · right
    simp only [isAsciiDigit, Bool.and_eq_true, decide_eq_true_eq] at h
    have : ∀ c : Fin 58, 48 ≤ c.1 → (decimalValue c.1).isSome = true := by decide +kernel
    exact this ⟨c, by omega⟩ h.1

theorem floatOfStr_decimal {s : Str} {q : ℚ} (h : IsDecimal s q) :
    floatOfStr s = .ok (PyFloat.ofMag false q) ∧ 0 ≤ q := by
  obtain ⟨hc, h⟩ := h
  have dig : ∀ t : Str, (∀ c ∈ t, c ∈ s) → (∀ c ∈ t, c ≠ 46) → ∀ c ∈ t, isAsciiDigit c = true := by
    intro t h1 h2 c hct
    have := hc c (h1 c hct)
    have := h2 c hct
    simp only [isAsciiDigit, Bool.and_eq_true, decide_eq_true_eq]
    omega
  rcases h with ⟨hne, hn, rfl⟩ | ⟨ip, fp, rfl, hne, hn, rfl⟩
  · exact ⟨floatOfStr_int s (dig s (fun _ h => h) hn) hne, by positivity⟩
  · have h1 : ∀ c ∈ ip, isAsciiDigit c = true :=
      dig ip (fun c h => by simp [h]) (fun c h => hn c (by simp [h]))
    have h2 : ∀ c ∈ fp, isAsciiDigit c = true :=
      dig fp (fun c h => by simp [h]) (fun c h => hn c (by simp [h]))
    refine ⟨?_, by positivity⟩
    rw [floatOfStr_dot ip fp h1 h2 hne, asciiVal_append, pow10_eq, zpow_neg, zpow_natCast]
    congr 2
    push_cast
    unfold asciiDigitsVal
    field_simp

/-- C44. Accepted text with plain decimal numbers below 1000 gives, with the default seven decimals, a
float within `6e-8` of degrees plus minutes/60 plus seconds/3600, negative exactly when the text contains
`S` or `W`. -/
theorem C44_reading (s : Str) (us : List (Str × Nat)) (qs : List ℚ) (hs : IsDms (removeChar 32 s) us)
    (hlen : us.length = qs.length)
    (h : ∀ i (hi : i < us.length), IsDecimal (us[i]).1 (qs[i]'(by omega)) ∧ qs[i]'(by omega) < 1000) :
    ∃ r, dms2deg s 7 = .ok (.fin (decide (83 ∈ s ∨ 87 ∈ s)) r) ∧ 0 ≤ r ∧
      |r - (qs[0]?.getD 0 + qs[1]?.getD 0 / 60 + qs[2]?.getD 0 / 3600)| ≤ 6 / 10 ^ 8 := by
  have hb : ∀ q : ℚ, 0 ≤ q → q < 1000 → |roundMag q - q| ≤ 1 / 17592186044416 ∧ roundMag q ≤ 1000 := by
    intro q a b
    have := roundMag_abs_err (q := q) (e := 10) a (by norm_num; linarith) (by norm_num)
    have n3 : (2 : ℚ) ^ ((10 : ℤ) - 54) = 1 / 17592186044416 := by norm_num
    rw [n3] at this
    refine ⟨this, ?_⟩
    have := roundMag_le (q := q) (y := ((1000 : ℕ) : ℚ)) (by push_cast; linarith) (isF64_nat (by norm_num))
    exact_mod_cast this
  obtain ⟨r, er, hr0, -, hre⟩ := dms2deg_value s us hs (qs.map roundMag) (by simpa using hlen) (by
    intro i hi
    obtain ⟨a, b⟩ := h i hi
    obtain ⟨c, d⟩ := floatOfStr_decimal a
    rw [List.getElem_map]
    refine ⟨?_, isF64_roundMag _, (hb _ d b).2⟩
    rw [c, PyFloat.ofMag_small (by norm_num; linarith)])
  refine ⟨r, er, hr0, ?_⟩
  have key : ∀ i : ℕ, |((qs.map roundMag)[i]?.getD 0 : ℚ) - (qs[i]?.getD 0 : ℚ)| ≤ 1 / 17592186044416 := by
    intro i
    rw [List.getElem?_map]
    rcases Nat.lt_or_ge i qs.length with hi | hi
    · rw [List.getElem?_eq_getElem hi]
      simp only [Option.map_some, Option.getD_some]
      obtain ⟨a, b⟩ := h i (by omega)
      exact (hb _ (floatOfStr_decimal a).2 b).1
    · rw [List.getElem?_eq_none (by omega)]
      simp
  -- the bound of `dms2deg_value` has room for the rounding of the numbers themselves
  have k0 := key 0
  have k1 := key 1
  have k2 := key 2
  rw [abs_le] at k0 k1 k2 hre ⊢
  rw [show (6 : ℚ) / 10 ^ 8 = 6 / 100000000 by norm_num]
  constructor <;> linarith [k0.1, k0.2, k1.1, k1.2, k2.1, k2.2, hre.1, hre.2]


example : ∃ r, dms2deg py!"51° 20′ 45.6″ S" 7 = .ok (.fin true r) ∧ 0 ≤ r ∧
    |r - (51 + 20 / 60 + 45.6 / 3600)| ≤ 6 / 10 ^ 8 := by
  have d0 : IsDecimal py!"51" 51 ∧ (51 : ℚ) < 1000 :=
    ⟨⟨by decide, Or.inl ⟨by decide, by decide, by norm_num [ofDigits]⟩⟩, by norm_num⟩
  have d1 : IsDecimal py!"20" 20 ∧ (20 : ℚ) < 1000 :=
    ⟨⟨by decide, Or.inl ⟨by decide, by decide, by norm_num [ofDigits]⟩⟩, by norm_num⟩
  have d2 : IsDecimal py!"45.6" (45 + 6 / 10) ∧ (45 + 6 / 10 : ℚ) < 1000 :=
    ⟨⟨by decide, Or.inr ⟨py!"45", py!"6", by decide, by decide, by decide, by norm_num [ofDigits]⟩⟩, by norm_num⟩
  have h := C44_reading py!"51° 20′ 45.6″ S" [(py!"51", 0xb0), (py!"20", 0x2032), (py!"45.6", 0x2033)]
    [51, 20, 45 + 6 / 10]
    ⟨by decide, by decide, by
      intro u hu
      simp only [List.mem_cons, List.not_mem_nil, or_false] at hu
      unfold IsUnit IsNumberChar
      rcases hu with rfl | rfl | rfl <;> decide +kernel, py!"S", by decide, [], by decide, by decide⟩ rfl (by
      intro i hi
      have : i = 0 ∨ i = 1 ∨ i = 2 := by simp only [List.length_cons, List.length_nil] at hi; omega
      rcases this with rfl | rfl | rfl
      · exact d0
      · exact d1
      · exact d2)
  obtain ⟨r, a, b, c⟩ := h
  refine ⟨r, a, b, ?_⟩
  simp only [List.getElem?_cons_zero, List.getElem?_cons_succ, Option.getD_some] at c
  norm_num at c ⊢
  exact c

/-- C44. Accepted text in which some number is not a readable float (two points, a lone point) raises
`ValueError` too. -/
theorem C44_bad_number (s : Str) (us : List (Str × Nat)) (hs : IsDms (removeChar 32 s) us)
    (u : Str × Nat) (hu : u ∈ us) (hbad : floatOfStr u.1 = .error .value) (rnd : ℤ) :
    dms2deg s rnd = .error .value := by
  obtain ⟨j, hj⟩ := dmsSplit_dms hs
  have hm := (dmsMatch_iff _).mpr ⟨us, hs⟩
  have herr : ∀ (t : Str) (e : Err), floatOfStr t = .error e → e = .value := by
    intro t e h
    unfold floatOfStr at h
    split at h
    · exact (Except.error.inj h).symm
    · simp only at h
      split at h
      · cases h
      · exact (Except.error.inj h).symm
  have hdiv : ∀ (x : ℕ) (f : PyFloat), ∃ y, PyFloat.div f (.fin false ((60 ^ x : ℕ) : ℚ)) = .ok y := by
    intro x f
    have : ((60 ^ x : ℕ) : ℚ) ≠ 0 := by positivity
    cases f <;> simp [PyFloat.div, this]
  have key : ∀ (l : List Str) (x : ℕ) (acc : PyFloat), u.1 ∈ l → dmsSum x acc l = .error .value := by
    have hne : u.1 ≠ [] := (hs.2.2.1 u hu).1
    intro l
    induction l with
    | nil => intro x acc h; simp at h
    | cons d ds ih =>
      intro x acc h
      rw [dmsSum]
      by_cases hd : d = []
      · have : u.1 ∈ ds := by
          rcases List.mem_cons.mp h with h | h
          · exact absurd (h.trans hd) hne
          · exact h
        simp only [hd, if_true, bind, Except.bind, pure, Except.pure]
        exact ih _ _ this
      · rw [if_neg hd]
        cases hf : floatOfStr d with
        | error e =>
          rw [herr d e hf]
          rfl
        | ok f =>
          have : u.1 ∈ ds := by
            rcases List.mem_cons.mp h with h | h
            · rw [h, hf] at hbad; cases hbad
            · exact h
          obtain ⟨y, hy⟩ := hdiv x f
          simp only [bind, Except.bind, hy]
          exact ih _ _ this
  unfold dms2deg
  simp only [hm, Bool.not_true, Bool.false_eq_true, if_false, hj]
  rw [key _ 0 _ (List.mem_append_left _ (List.mem_map_of_mem hu))]
  rfl

example : dms2deg py!"1.2.3°" 7 = .error .value :=
  C44_bad_number py!"1.2.3°" [(py!"1.2.3", 0xb0)]
    ⟨by decide, by decide, by
      intro u hu
      simp only [List.mem_cons, List.not_mem_nil, or_false] at hu
      unfold IsUnit IsNumberChar
      subst hu; decide +kernel, [], by decide, [], by decide, by decide⟩ (py!"1.2.3", 0xb0) (by decide)
    (by decide +kernel) 7

/-! ## Sign -/

theorem dmsSplit_last (n : Nat) (t : Str) (c d : Nat) (hc : isDmsChar c = false) (hd : isDmsChar d = false) :
    ∃ A B B', dmsSplit n (t ++ [c]) = A ++ [B] ∧ dmsSplit n (t ++ [d]) = A ++ [B'] := by
  induction t generalizing n with
  | nil =>
    cases n with
    | zero => exact ⟨[], [c], [d], by simp [dmsSplit], by simp [dmsSplit]⟩
    | succ n =>
      have h0 := dmsSplit_ne_nil n []
      refine ⟨[] :: (dmsSplit n []).dropLast, (dmsSplit n []).getLast h0, (dmsSplit n []).getLast h0, ?_, ?_⟩
      · simp [dmsSplit, hc, List.dropLast_append_getLast]
      · simp [dmsSplit, hd, List.dropLast_append_getLast]
  | cons x t ih =>
    cases n with
    | zero => exact ⟨[], x :: t ++ [c], x :: t ++ [d], by simp [dmsSplit], by simp [dmsSplit]⟩
    | succ n =>
      by_cases hx : isDmsChar x = true
      · obtain ⟨A, B, B', h1, h2⟩ := ih (n + 1)
        cases A with
        | nil => exact ⟨[], x :: B, x :: B', by simp [dmsSplit, hx, h1], by simp [dmsSplit, hx, h2]⟩
        | cons a A => exact ⟨(x :: a) :: A, B, B', by simp [dmsSplit, hx, h1], by simp [dmsSplit, hx, h2]⟩
      · obtain ⟨A, B, B', h1, h2⟩ := ih n
        exact ⟨[] :: A, B, B', by simp [dmsSplit, hx, h1], by simp [dmsSplit, hx, h2]⟩

theorem append_last {a b : Str} {x y : Nat} (h : a ++ [x] = b ++ [y]) : a = b ∧ x = y := by
  have := List.append_inj' h rfl
  exact ⟨this.1, by simpa using this.2⟩

theorem unitsText_append (a b : List (Str × Nat)) : unitsText (a ++ b) = unitsText a ++ unitsText b := by
  simp [unitsText]

theorem dmsMatch_swap (t : Str) (c d : Nat) (hc : c = 78 ∨ c = 83 ∨ c = 69 ∨ c = 87)
    (hd : d = 78 ∨ d = 83 ∨ d = 69 ∨ d = 87) (h : dmsMatch (t ++ [c]) = true) : dmsMatch (t ++ [d]) = true := by
  have hdm : [d] ∈ [[], py!"N", py!"S", py!"E", py!"W"] := by
    rcases hd with rfl | rfl | rfl | rfl <;> decide
  have hdn : ¬ IsNumberChar d := by
    rw [← isDmsChar_false]
    rcases hd with rfl | rfl | rfl | rfl <;> decide
  obtain ⟨us, h1, h3, hu, hemi, hh, lf, hl, e⟩ := (dmsMatch_iff _).mp h
  rw [dmsMatch_iff]
  simp only [List.mem_cons, List.not_mem_nil, or_false] at hl
  rcases hl with rfl | rfl
  · rw [List.append_nil] at e
    have hcase : hemi = [] ∨ ∃ x, hemi = [x] := by
      simp only [List.mem_cons, List.not_mem_nil, or_false] at hh
      rcases hh with rfl | rfl | rfl | rfl | rfl
      · exact Or.inl rfl
      all_goals exact Or.inr ⟨_, rfl⟩
    rcases hcase with rfl | ⟨x, rfl⟩
    · -- the letter is the delimiter of the last unit
      rw [List.append_nil] at e
      have hne : us ≠ [] := by intro h0; rw [h0] at h1; simp at h1
      obtain ⟨us', u, rfl⟩ : ∃ us' u, us = us' ++ [u] := ⟨us.dropLast, us.getLast hne,
        (List.dropLast_append_getLast hne).symm⟩
      rw [unitsText_append] at e
      have eu : unitsText [u] = u.1 ++ [u.2] := by simp [unitsText]
      rw [eu, ← List.append_assoc] at e
      obtain ⟨e1, e2⟩ := append_last e
      refine ⟨us' ++ [(u.1, d)], by simp, by simpa using h3, ?_, [], by simp, [], by simp, ?_⟩
      · intro w hw
        rcases List.mem_append.mp hw with hw | hw
        · exact hu w (List.mem_append_left _ hw)
        · simp only [List.mem_singleton] at hw
          subst hw
          have := hu u (by simp)
          exact ⟨this.1, this.2.1, hdn⟩
      · rw [e1, unitsText_append]
        simp [unitsText]
    · obtain ⟨e1, e2⟩ := append_last e
      exact ⟨us, h1, h3, hu, [d], hdm, [], by simp, by rw [e1]; simp⟩
  · obtain ⟨-, e2⟩ := append_last e
    omega

theorem ofMag_neg (s : Bool) (q : ℚ) : PyFloat.ofMag (!s) q = (PyFloat.ofMag s q).neg := by
  unfold PyFloat.ofMag
  simp only
  split <;> rfl

theorem roundTo_neg (x : PyFloat) (n : ℤ) : PyFloat.roundTo x.neg n = (PyFloat.roundTo x n).map PyFloat.neg := by
  cases x with
  | nan => rfl
  | inf s => rfl
  | fin s m =>
    unfold PyFloat.roundTo PyFloat.neg
    simp only
    split
    · rfl
    · split
      · rfl
      · rw [ofMag_neg]
        cases PyFloat.ofMag s ((roundHalfEven (m * pow10 n) : ℚ) * pow10 (-n)) <;> rfl

theorem mul_neg_one (x : PyFloat) : PyFloat.mul x (.fin true 1) = (PyFloat.mul x (.fin false 1)).neg := by
  cases x with
  | nan => rfl
  | inf s => cases s <;> simp [PyFloat.mul, PyFloat.neg]
  | fin s m =>
    simp only [PyFloat.mul]
    rw [← ofMag_neg]
    cases s <;> rfl

/-- C44. Replacing the northern/eastern hemisphere letter by the southern/western one negates the result
exactly - for any text, any rounding, and failures stay failures. -/
theorem C44_sign (t : Str) (rnd : ℤ) (hS : py!"S".all (fun c => !t.contains c)) (hW : py!"W".all (fun c => !t.contains c))
    (pos neg : Str) (hp : pos = py!"N" ∨ pos = py!"E") (hn : neg = py!"S" ∨ neg = py!"W") :
    dms2deg (t ++ neg) rnd = (dms2deg (t ++ pos) rnd).map PyFloat.neg := by
  have hS' : 83 ∉ t := by simpa using hS
  have hW' : 87 ∉ t := by simpa using hW
  obtain ⟨c, rfl, hc⟩ : ∃ c, pos = [c] ∧ (c = 78 ∨ c = 69) := by
    rcases hp with rfl | rfl
    · exact ⟨78, rfl, Or.inl rfl⟩
    · exact ⟨69, rfl, Or.inr rfl⟩
  obtain ⟨d, rfl, hd⟩ : ∃ d, neg = [d] ∧ (d = 83 ∨ d = 87) := by
    rcases hn with rfl | rfl
    · exact ⟨83, rfl, Or.inl rfl⟩
    · exact ⟨87, rfl, Or.inr rfl⟩
  have hcd : isDmsChar c = false := by rcases hc with rfl | rfl <;> decide
  have hdd : isDmsChar d = false := by rcases hd with rfl | rfl <;> decide
  have rc : removeChar 32 (t ++ [c]) = removeChar 32 t ++ [c] := by
    simp only [removeChar, List.filter_append]
    rcases hc with rfl | rfl <;> rfl
  have rd : removeChar 32 (t ++ [d]) = removeChar 32 t ++ [d] := by
    simp only [removeChar, List.filter_append]
    rcases hd with rfl | rfl <;> rfl
  have hmm : dmsMatch (removeChar 32 t ++ [d]) = dmsMatch (removeChar 32 t ++ [c]) := by
    rw [Bool.eq_iff_iff]
    exact ⟨dmsMatch_swap _ _ _ (by tauto) (by tauto), dmsMatch_swap _ _ _ (by tauto) (by tauto)⟩
  have nS : 83 ∉ removeChar 32 t := by simp [removeChar, List.mem_filter, hS']
  have nW : 87 ∉ removeChar 32 t := by simp [removeChar, List.mem_filter, hW']
  have s1 : ((removeChar 32 t ++ [c]).contains 83 || (removeChar 32 t ++ [c]).contains 87) = false := by
    simp [nS, nW]
    omega
  have s2 : ((removeChar 32 t ++ [d]).contains 83 || (removeChar 32 t ++ [d]).contains 87) = true := by
    simp [nS, nW]
    omega
  obtain ⟨A, B, B', e1, e2⟩ := dmsSplit_last 3 (removeChar 32 t) c d hcd hdd
  unfold dms2deg
  simp only [rc, rd, hmm, s1, s2, e1, e2, List.dropLast_concat]
  cases dmsMatch (removeChar 32 t ++ [c]) with
  | false => rfl
  | true =>
    simp only [Bool.not_true, Bool.false_eq_true, if_false]
    cases dmsSum 0 (.fin false 0) A with
    | error e => rfl
    | ok x =>
      simp only [bind, Except.bind]
      rw [mul_neg_one, roundTo_neg]

example : dms2deg py!"51°30.0′W" 3 = .ok (.fin true (103 / 2)) ∧
    dms2deg py!"51°30.0′E" 3 = .ok (.fin false (103 / 2)) := by decide +kernel

/-! ## Round trip -/

theorem natDec_unit (n d : Nat) (hd : isDmsChar d = false) : IsUnit (natDec n) d :=
  ⟨natDec_ne_nil n, fun _ hc => asciiDigits_num (Or.inr (natDec_digit n _ hc)), (isDmsChar_false d).mp hd⟩

theorem repr_ne_nil {q : ℚ} (h : IsF64 q) (hb : q ≤ 1000) : reprFloat (.fin false q) ≠ [] := by
  intro h0
  have hw : (PyFloat.fin false q).Wf := (isDouble_le_1000 h hb).wf
  have := floatOfStr_reprFloat _ hw
  rw [h0] at this
  have e : floatOfStr [] = .error .value := by decide
  rw [e] at this
  cases this

theorem repr_unit {q : ℚ} (h : IsF64 q) (hq : q = 0 ∨ 1 / 10000 ≤ q) (hb : q ≤ 1000) (d : Nat)
    (hd : isDmsChar d = false) : IsUnit (reprFloat (.fin false q)) d := by
  refine ⟨repr_ne_nil h hb, fun c hc => asciiDigits_num (repr_plain h ?_ c hc), (isDmsChar_false d).mp hd⟩
  rcases hq with h | h
  · exact Or.inl h
  · exact Or.inr ⟨h, hb⟩

theorem plain_no_char (s : Str) (h : ∀ c ∈ s, IsNumberChar c) (x : Nat) (hx : isDmsChar x = false) : x ∉ s :=
  fun hc => (isDmsChar_false x).mp hx (h x hc)

theorem hemi_mem (a b : Bool) : hemisphere a b ∈ [[], py!"N", py!"S", py!"E", py!"W"] := by
  cases a <;> cases b <;> decide

theorem hemi_sign (a b : Bool) (s : Str) (h83 : 83 ∉ s) (h87 : 87 ∉ s) :
    decide (83 ∈ s ++ hemisphere a b ∨ 87 ∈ s ++ hemisphere a b) = a := by
  cases a <;> cases b <;> simp [hemisphere, h83, h87]

theorem removeChar_id (s : Str) (h : 32 ∉ s) : removeChar 32 s = s := by
  unfold removeChar
  rw [List.filter_eq_self]
  intro c hc
  have : c ≠ 32 := fun e => h (e ▸ hc)
  simpa using this

theorem floatOfStr_natDec (n : ℕ) (h : n ≤ 1000) : floatOfStr (natDec n) = .ok (.fin false (n : ℚ)) := by
  rw [floatOfStr_int (natDec n) (natDec_digit n) (natDec_ne_nil n), asciiVal_natDec,
    PyFloat.ofMag_small (by
      have : (n : ℚ) ≤ 1000 := by exact_mod_cast h
      norm_num; linarith), roundMag_f64 (isF64_nat (by omega))]

/-- C44. Formatting with `deg2dms` and reading back with `dms2deg` returns the signed angle to within
`1e-7` degrees - unless the printed seconds are between 0 and 0.0001, when Python prints them with an
exponent ("5e-05") and reading back raises `ValueError`. -/
theorem C44_round_trip (neg : Bool) (a : ℚ) (hx : IsDouble (.fin neg a)) (ha : a ≤ 999) (att : Str) :
    ∃ (D M : ℕ) (S : ℚ) (t : Str), deg2dms (.float (.fin neg a)) att = .ok t ∧
      t = natDec D ++ py!"°" ++ natDec M ++ py!"′" ++ reprFloat (.fin false S) ++ py!"″" ++
        hemisphere (neg && decide (0 < a)) (decide (att = LA)) ∧
      ((S = 0 ∨ 1 / 10000 ≤ S) → ∃ r, dms2deg t 7 = .ok (.fin (neg && decide (0 < a)) r) ∧ 0 ≤ r ∧
        |r - a| ≤ 1 / 10 ^ 7) ∧
      (0 < S → S < 1 / 10000 → dms2deg t 7 = .error .value) := by
  obtain ⟨D, M, S, hD, hM, h2, h3, h4, h5, h6⟩ := deg2dms_text neg a (hx.wf).1.nonneg ha att
  rw [degSuffix_eq] at h6
  have cb : isDmsChar 0xb0 = false := by decide
  have c1 : isDmsChar 0x2032 = false := by decide
  have c2 : isDmsChar 0x2033 = false := by decide
  have c83 : isDmsChar 83 = false := by decide
  have c87 : isDmsChar 87 = false := by decide
  have c32 : isDmsChar 32 = false := by decide
  have hnum : ∀ n, ∀ c ∈ natDec n, IsNumberChar c := fun n c hc => asciiDigits_num (Or.inr (natDec_digit n c hc))
  refine ⟨D, M, S, _, h6, rfl, ?_, ?_⟩
  · intro hS
    have uS := repr_unit h2 hS (by linarith) 0x2033 c2
    have not_in : ∀ x : Nat, isDmsChar x = false → x ≠ 0xb0 → x ≠ 0x2032 → x ≠ 0x2033 →
        x ∉ natDec D ++ py!"°" ++ natDec M ++ py!"′" ++ reprFloat (.fin false S) ++ py!"″" := by
      intro x hx a1 a2 a3
      have n1 := plain_no_char _ (hnum D) x hx
      have n2 := plain_no_char _ (hnum M) x hx
      have n3 := plain_no_char _ uS.2.1 x hx
      simp [n1, n2, n3, a1, a2, a3]
    have hsp : 32 ∉ natDec D ++ py!"°" ++ natDec M ++ py!"′" ++ reprFloat (.fin false S) ++ py!"″" ++
        hemisphere (neg && decide (0 < a)) (decide (att = LA)) := by
      rw [List.mem_append, not_or]
      refine ⟨not_in 32 c32 (by decide) (by decide) (by decide), ?_⟩
      have : ∀ a b, 32 ∉ hemisphere a b := by decide
      exact this _ _
    have hdms : IsDms (removeChar 32 (natDec D ++ py!"°" ++ natDec M ++ py!"′" ++ reprFloat (.fin false S) ++ py!"″" ++
        hemisphere (neg && decide (0 < a)) (decide (att = LA))))
        [(natDec D, 0xb0), (natDec M, 0x2032), (reprFloat (.fin false S), 0x2033)] := by
      rw [removeChar_id _ hsp]
      refine ⟨by simp, by simp, ?_, hemisphere (neg && decide (0 < a)) (decide (att = LA)), hemi_mem _ _, [], by simp, by simp [unitsText]⟩
      intro u hu
      simp only [List.mem_cons, List.not_mem_nil, or_false] at hu
      rcases hu with rfl | rfl | rfl
      · exact natDec_unit D _ cb
      · exact natDec_unit M _ c1
      · exact uS
    have hDq : (D : ℚ) ≤ 999 := by exact_mod_cast hD
    have hMq : (M : ℚ) ≤ 59 := by exact_mod_cast hM
    obtain ⟨r, er, hr0, -, hre⟩ := dms2deg_value _ _ hdms [(D : ℚ), (M : ℚ), S] rfl (by
      intro i hi
      have : i = 0 ∨ i = 1 ∨ i = 2 := by simp only [List.length_cons, List.length_nil] at hi; omega
      rcases this with rfl | rfl | rfl
      · exact ⟨floatOfStr_natDec D (by omega), isF64_nat (by omega), by simp only [List.getElem_cons_zero]; linarith⟩
      · exact ⟨floatOfStr_natDec M (by omega), isF64_nat (by omega), by simp only [List.getElem_cons_zero, List.getElem_cons_succ]; linarith⟩
      · exact ⟨floatOfStr_reprFloat (.fin false S) (isDouble_le_1000 h2 (by linarith)).wf, h2, by simp only [List.getElem_cons_zero, List.getElem_cons_succ]; linarith⟩)
    rw [hemi_sign _ _ _ (not_in 83 c83 (by decide) (by decide) (by decide))
      (not_in 87 c87 (by decide) (by decide) (by decide))] at er
    refine ⟨r, er, hr0, ?_⟩
    simp only [List.getElem?_cons_zero, List.getElem?_cons_succ, Option.getD_some] at hre
    rw [abs_le] at hre h5 ⊢
    norm_num
    constructor <;> linarith [hre.1, hre.2, h5.1, h5.2]
  · intro hS0 hS1
    obtain ⟨mant, r, hne, hm, hrep⟩ := repr_exp h2 hS0 hS1
    apply C44_rejects
    intro us hus
    have hmatch := (dmsMatch_iff _).mpr ⟨us, hus⟩
    have e : removeChar 32 (natDec D ++ py!"°" ++ natDec M ++ py!"′" ++ reprFloat (.fin false S) ++ py!"″" ++
        hemisphere (neg && decide (0 < a)) (decide (att = LA))) =
        natDec D ++ 0xb0 :: (natDec M ++ 0x2032 :: (mant ++ 101 :: (45 :: (removeChar 32 (r ++ py!"″" ++
        hemisphere (neg && decide (0 < a)) (decide (att = LA))))))) := by
      have rid : ∀ s : Str, (∀ c ∈ s, IsNumberChar c) → s.filter (fun x => x != 32) = s := by
        intro s hs
        exact removeChar_id s (plain_no_char s hs 32 c32)
      rw [hrep]
      unfold removeChar
      simp only [List.filter_append, rid _ (hnum D), rid _ (hnum M), rid mant (fun c hc => asciiDigits_num (hm c hc)),
        List.append_assoc, List.filter_cons]
      simp
    rw [e] at hmatch
    have c101 : isDmsChar 101 = false := by decide
    have c45 : isDmsChar 45 = false := by decide
    have um : IsUnit mant 101 := ⟨hne, fun c hc => asciiDigits_num (hm c hc), (isDmsChar_false 101).mp c101⟩
    unfold dmsMatch at hmatch
    rw [dmsUnit_unit _ _ _ (natDec_unit D _ cb)] at hmatch
    simp only at hmatch
    rw [dmsUnit_unit _ _ _ (natDec_unit M _ c1)] at hmatch
    simp only at hmatch
    rw [dmsUnit_unit _ _ _ um] at hmatch
    -- none of the three remainders is a tail
    have t3 : ∀ y : Str, dmsTail (45 :: y) = false := by
      intro y; simp [dmsTail]
    have tnum : ∀ (s : Str) (d : Nat) (y : Str), s ≠ [] → (∀ c ∈ s, IsNumberChar c) → dmsTail (s ++ d :: y) = false := by
      intro s d y hne hs
      obtain ⟨c, s', rfl⟩ := List.exists_cons_of_ne_nil hne
      have hc := (isDmsChar_iff c).mpr (hs c (by simp))
      have k1 : c ≠ 78 := by rintro rfl; revert hc; decide
      have k2 : c ≠ 83 := by rintro rfl; revert hc; decide
      have k3 : c ≠ 69 := by rintro rfl; revert hc; decide
      have k4 : c ≠ 87 := by rintro rfl; revert hc; decide
      have k5 : c ≠ 10 := by rintro rfl; revert hc; decide
      simp [dmsTail, k1, k2, k3, k4, k5]
    rw [tnum _ _ _ (natDec_ne_nil M) (hnum M), tnum _ _ _ hne (fun c hc => asciiDigits_num (hm c hc))] at hmatch
    simp only [t3] at hmatch
    simp at hmatch

/-- Such angles exist: 51 degrees and half a ten-thousandth of a second. -/
theorem C44_unreadable : deg2dms (.float (.fin false (7177611908076415 / 140737488355328))) LA = .ok py!"51°0′5e-05″N" ∧
    dms2deg py!"51°0′5e-05″N" 7 = .error .value := by
  decide +kernel

/-- The opposite case, where everything is printed plainly. -/
example : deg2dms (.float (.fin true (7262054399134925 / 140737488355328))) LN = .ok py!"51°36′0.0″W" ∧
    dms2deg py!"51°36′0.0″W" 7 = .ok (.fin true (roundMag (516 / 10))) := by
  decide +kernel

/-! ## ISO 6709 -/

/-- C54. For an altitude that is not negative the text is a sign and a number for each of the three coordinates, then the
name of the reference system; the signs are those of the coordinates, and reading the numbers as floats gives exactly
their magnitudes. -/
theorem C54_reading (lat lon alt : PyFloat) (hlat : IsDouble lat) (hlon : IsDouble lon) (halt : IsDouble alt)
    (h : alt.ltZero = false) (crs : Str) :
    ∃ a b c, llh2iso6709 lat lon alt crs =
        (if lat.ltZero then py!"-" else py!"+") ++ a ++ (if lon.ltZero then py!"-" else py!"+") ++ b ++ py!"+" ++ c ++
          py!"CRS" ++ crs ++ py!"/" ∧
      floatOfStr a = .ok lat.abs ∧ floatOfStr b = .ok lon.abs ∧ floatOfStr c = .ok alt := by
  have habs : ∀ x : PyFloat, IsDouble x → x.abs.Wf := by
    intro x hx
    cases x with
    | fin s m => exact hx.wf
    | inf s => trivial
    | nan => trivial
  refine ⟨_, _, _, ?_, floatOfStr_reprFloat _ (habs _ hlat), floatOfStr_reprFloat _ (habs _ hlon),
    floatOfStr_reprFloat _ halt.wf⟩
  unfold llh2iso6709
  simp only [h, Bool.false_eq_true, if_false]

example : IsDouble (.fin false 3) ∧ (PyFloat.fin false 3).ltZero = false ∧
    llh2iso6709 (.fin false 1) (.fin true 2) (.fin false 3) py!"WGS_84" = py!"+1.0-2.0+3.0CRSWGS_84/" := by
  refine ⟨⟨3, 0, by norm_num, by norm_num, by norm_num, by norm_num⟩, by decide +kernel, by decide +kernel⟩

end Nmea
