import Verif.Model.Benchmark
import Verif.Lemmas.Float
import Verif.Lemmas.SetPDict
/-!
# The benchmark program (C99)
-/
namespace Props.Benchmark
open Py Nmea

/-- A full bar of twenty blocks, `n` of them dark, after the percentage. -/
def barText (n : Nat) : Str :=
  fmt02d (5 * n) ++ py!"% " ++ List.replicate n 0x2593 ++ List.replicate (20 - n) 0x2591 ++ py!"\r"

/-- All messages of the benchmark are valid: `parse` returns a message for each. -/
theorem C99_messages (now : Nat → DateTime) : ∀ b ∈ benchMessages, ∃ m, parse now (.bytes b) 0 1 [] = .ok (some m) := by
  have key : ∀ b ∈ benchMessages, ((parse (fun _ => ⟨⟨2024, 1, 1⟩, ⟨0, 0, 0, 0⟩⟩) (.bytes b) 0 1 []).toOption.bind id).isSome = true := by
    decide +kernel
  intro b hb
  have h := key b hb
  rw [parse_now _ now] at h
  cases hp : parse now (.bytes b) 0 1 [] with
  | error e => rw [hp] at h; cases h
  | ok x =>
    cases x with
    | none => rw [hp] at h; cases h
    | some m => exact ⟨m, rfl⟩

/-- A float beyond all numbers of cycles considered. -/
def huge : ℚ := 2 ^ (1020 : ℤ)

theorem huge_f64 : IsF64 huge := ⟨1, 1020, by norm_num, by norm_num, by rw [Nat.cast_one, one_mul]; rfl⟩
theorem huge_lt : huge < f64Limit := by decide +kernel
theorem huge_ge : (10 : ℚ) ^ 300 ≤ huge := by decide +kernel
theorem huge_ge' : (10 : ℚ) ^ 306 ≤ huge := by decide +kernel
theorem huge_100 : (100 : ℚ) ≤ huge := by decide +kernel

theorem trueDiv_nonneg {a b : Int} (ha : 0 ≤ a) (hb : 0 < b) (h : (a : ℚ) / b ≤ huge) :
    trueDiv a b = .ok (.fin false (roundMag ((a : ℚ) / b))) := by
  unfold trueDiv
  have hq : (0 : ℚ) ≤ (a : ℚ) / b := by
    have : (0 : ℚ) ≤ a := by exact_mod_cast ha
    have : (0 : ℚ) < b := by exact_mod_cast hb
    positivity
  have hlim : roundMag ((a : ℚ) / b) < f64Limit := by
    exact lt_of_le_of_lt (roundMag_le h huge_f64) huge_lt
  rw [if_neg (by omega)]
  simp only [PyFloat.ofRat, not_lt.mpr hq, decide_false, if_false]
  rw [PyFloat.ofMag_fin hlim]

theorem natFloor (q : ℚ) (h : 0 ≤ q) : ∃ n : ℕ, q.floor = n ∧ (n : ℚ) ≤ q ∧ q < n + 1 := by
  have h0 : 0 ≤ ⌊q⌋ := Int.floor_nonneg.mpr h
  refine ⟨⌊q⌋.toNat, by rw [ratFloor]; omega, ?_, ?_⟩
  · have := Int.floor_le q
    have e : ((⌊q⌋.toNat : ℕ) : ℚ) = (⌊q⌋ : ℚ) := by
      have : ((⌊q⌋.toNat : ℕ) : ℤ) = ⌊q⌋ := Int.toNat_of_nonneg h0
      exact_mod_cast this
    rw [e]; exact this
  · have := Int.lt_floor_add_one q
    have e : ((⌊q⌋.toNat : ℕ) : ℚ) = (⌊q⌋ : ℚ) := by
      have : ((⌊q⌋.toNat : ℕ) : ℤ) = ⌊q⌋ := Int.toNat_of_nonneg h0
      exact_mod_cast this
    rw [e]; exact this

theorem natCast_floor (n : ℕ) : ((n : ℚ)).floor = n := by rw [ratFloor, Int.floor_natCast]

/-- How many blocks are dark. -/
theorem dark {i lim : Int} (h0 : 0 ≤ i) (h1 : i < lim) :
    ∃ n : ℕ, (roundMag (((i * 20 : Int) : ℚ) / lim)).floor = n ∧ n ≤ 20 ∧
      (n : ℚ) ≤ 20 * i / lim + 1 / 2 ^ 49 ∧ 20 * (i : ℚ) / lim < n + 1 := by
  have hl : (0 : ℚ) < lim := by exact_mod_cast (show 0 < lim by omega)
  have hi : (0 : ℚ) ≤ i := by exact_mod_cast h0
  have hil : (i : ℚ) < lim := by exact_mod_cast h1
  have e : (((i * 20 : Int) : ℚ) / lim) = 20 * i / lim := by push_cast; ring
  have hq0 : 0 ≤ 20 * (i : ℚ) / lim := by positivity
  have hq1 : 20 * (i : ℚ) / lim < 20 := by rw [div_lt_iff₀ hl]; linarith
  rw [e]
  generalize 20 * (i : ℚ) / lim = q at *
  obtain ⟨n, e1, e2, e3⟩ := natFloor (roundMag q) (roundMag_nonneg q)
  have hn : n ≤ 20 := by
    have : roundMag q ≤ ((20 : ℕ) : ℚ) := roundMag_le (by push_cast; linarith) (isF64_nat (by norm_num))
    have : (n : ℚ) ≤ ((20 : ℕ) : ℚ) := le_trans e2 this
    exact_mod_cast this
  refine ⟨n, e1, hn, ?_, ?_⟩
  · have := roundMag_abs_err (q := q) (e := 5) hq0 (by norm_num; linarith) (by norm_num)
    have n1 : (2 : ℚ) ^ ((5 : ℤ) - 54) = 1 / 2 ^ 49 := by norm_num
    rw [n1, abs_le] at this
    linarith [this.2]
  · by_contra hc
    rw [not_lt] at hc
    have : ((n + 1 : ℕ) : ℚ) ≤ roundMag q := le_roundMag (by push_cast; exact hc) (isF64_nat (by omega))
    push_cast at this
    linarith

/-- With twenty cycles or more the progress bar never fails. Where it prints, the bar has twenty blocks; the dark ones are
the part done (rounded down), and the percentage agrees with them. -/
theorem C99_bar (i lim : Int) (h0 : 0 ≤ i) (h1 : i < lim) (h20 : 20 ≤ lim) (hmax : lim ≤ 10 ^ 300) :
    ∃ n : ℕ, n ≤ 20 ∧ (n : ℚ) ≤ 20 * i / lim + 1 / 2 ^ 49 ∧ 20 * (i : ℚ) / lim < n + 1 ∧
      (progbar i lim 20 = .ok none ∨ progbar i lim 20 = .ok (some (barText n))) := by
  obtain ⟨n, e1, hn, b1, b2⟩ := dark h0 h1
  refine ⟨n, hn, b1, b2, ?_⟩
  have hl : (0 : ℚ) < lim := by exact_mod_cast (show 0 < lim by omega)
  have hi : (0 : ℚ) ≤ i := by exact_mod_cast h0
  have hil : (i : ℚ) < lim := by exact_mod_cast h1
  have d1 := trueDiv_nonneg (a := i * 20) (b := lim) (by omega) (by omega) (by
    rw [div_le_iff₀ hl]
    push_cast
    have := mul_le_mul_of_nonneg_right huge_100 hl.le
    linarith)
  have d2 := trueDiv_nonneg (a := lim) (b := 20) (by omega) (by omega) (by
    have h : (lim : ℚ) ≤ 10 ^ 300 := by exact_mod_cast hmax
    have := huge_ge
    push_cast
    rw [div_le_iff₀ (by norm_num)]
    have h5 := huge_100
    generalize (10 : ℚ) ^ 300 = x at *
    linarith)
  have d3 := trueDiv_nonneg (a := (n : Int) * 100) (b := 20) (by omega) (by omega) (by
    have : (n : ℚ) ≤ 20 := by exact_mod_cast hn
    have h5 := huge_100
    push_cast
    rw [div_le_iff₀ (by norm_num)]
    linarith)
  have e3 : roundMag (((n : Int) * 100 : Int) / (20 : Int) : ℚ) = ((5 * n : ℕ) : ℚ) := by
    rw [show (((n : Int) * 100 : Int) / (20 : Int) : ℚ) = ((5 * n : ℕ) : ℚ) by push_cast; ring]
    exact roundMag_f64 (isF64_nat (by omega))
  rw [e3] at d3
  -- the step is not zero
  obtain ⟨k, e4, _, k2⟩ := natFloor (roundMag ((lim : ℚ) / (20 : Int))) (roundMag_nonneg _)
  have hk : 0 < k := by
    have : ((1 : ℕ) : ℚ) ≤ roundMag ((lim : ℚ) / (20 : Int)) := le_roundMag (by
      have : (20 : ℚ) ≤ lim := by exact_mod_cast h20
      push_cast
      rw [le_div_iff₀ (by norm_num)]
      linarith) (isF64_nat (by norm_num))
    push_cast at this
    have : (0 : ℚ) < k := by linarith
    exact_mod_cast this
  unfold progbar
  have hmin : min i lim = i := by omega
  simp only [hmin, d1, d2, bind, Except.bind, PyFloat.toInt, Bool.false_eq_true, if_false, e1, e4, d3, pure,
    Except.pure, natCast_floor]
  rw [if_neg (by omega)]
  split
  · right
    simp only [barText]
    congr 4
    · congr 2
      congr 1
      omega
    all_goals (congr 1; omega)
  · left; rfl

/-- With one to nineteen cycles the program ends with `ZeroDivisionError` before it parses anything. -/
theorem C99_few (now : Nat → DateTime) (cyc duration : Int) (h1 : 1 ≤ cyc) (h2 : cyc < 20) :
    benchmark now cyc duration = (⟨[], 0, 0⟩, .error .zeroDivision) := by
  have key : ∀ c : Fin 20, 1 ≤ c.val → progbar 0 (c.val : Int) 20 = .error .zeroDivision := by decide +kernel
  have hp := key ⟨cyc.toNat, by omega⟩ (by show 1 ≤ cyc.toNat; omega)
  have e : ((cyc.toNat : ℕ) : Int) = cyc := Int.toNat_of_nonneg (by omega)
  simp only [e] at hp
  unfold benchmark
  obtain ⟨k, hk⟩ : ∃ k, cyc.toNat = k + 1 := ⟨cyc.toNat - 1, by omega⟩
  rw [hk]
  simp only [benchLoop, hp]

/-- Without cycles nothing is parsed or printed, and the rates are those of `30 * cyc` transactions and no bytes. -/
theorem C99_none (now : Nat → DateTime) (cyc duration : Int) (h : cyc ≤ 0) :
    benchmark now cyc duration = (⟨[], 0, 0⟩, rates (30 * cyc) 0 duration) := by
  unfold benchmark
  rw [show cyc.toNat = 0 by omega]
  rfl

theorem messages_length : benchMessages.length = 30 := by decide
theorem messages_bytes : (benchMessages.map List.length).sum = 1889 := by decide +kernel

theorem cycle_ok (now : Nat → DateTime) (l : List Bytes) (h : ∀ b ∈ l, ∃ m, parse now (.bytes b) 0 1 [] = .ok (some m))
    (b : Bench) :
    benchCycle now l b = .ok { b with parsed := b.parsed + l.length, msglen := b.msglen + (l.map List.length).sum } := by
  induction l generalizing b with
  | nil => simp [benchCycle]
  | cons x r ih =>
    obtain ⟨m, hm⟩ := h x (by simp)
    simp only [benchCycle, hm]
    rw [ih (fun y hy => h y (by simp [hy]))]
    simp only [List.length_cons, List.map_cons, List.sum_cons]
    congr 2 <;> omega

theorem loop_ok (now : Nat → DateTime) (cyc : Int) (h20 : 20 ≤ cyc) (hmax : cyc ≤ 10 ^ 300) (k : ℕ) (i : Int)
    (h0 : 0 ≤ i) (hk : i + k = cyc) (b : Bench) (hb : ∀ t ∈ b.bars, ∃ n ≤ 20, t = barText n) :
    ∃ bars, (∀ t ∈ bars, ∃ n ≤ 20, t = barText n) ∧
      benchLoop now cyc k i b = .ok ⟨bars, b.parsed + 30 * k, b.msglen + 1889 * k⟩ := by
  induction k generalizing i b with
  | zero => exact ⟨b.bars, hb, rfl⟩
  | succ k ih =>
    obtain ⟨n, hn, _, _, hp⟩ := C99_bar i cyc h0 (by omega) h20 hmax
    obtain ⟨bar, hbar, ht⟩ : ∃ bar : Option Str, progbar i cyc 20 = .ok bar ∧ ∀ t ∈ bar.toList, ∃ n ≤ 20, t = barText n := by
      rcases hp with hp | hp
      · exact ⟨none, hp, by simp⟩
      · exact ⟨_, hp, by simp only [Option.toList_some, List.mem_singleton]; rintro t rfl; exact ⟨n, hn, rfl⟩⟩
    simp only [benchLoop, hbar]
    rw [cycle_ok now _ (C99_messages now)]
    obtain ⟨bars, h1, h2⟩ := ih (i + 1) (by omega) (by push_cast at hk; omega)
      ⟨b.bars ++ bar.toList, b.parsed + benchMessages.length, b.msglen + (benchMessages.map List.length).sum⟩ (by
        intro t h
        rcases List.mem_append.1 h with h | h
        · exact hb t h
        · exact ht t h)
    refine ⟨bars, h1, ?_⟩
    simp only
    rw [h2]
    simp only [messages_length, messages_bytes]
    congr 2 <;> omega

/-- With twenty cycles or more every message is parsed in every cycle, only whole bars are printed, and the result is that of
`rates`. -/
theorem C99_runs (now : Nat → DateTime) (cyc duration : Int) (h20 : 20 ≤ cyc) (hmax : cyc ≤ 10 ^ 300) :
    ∃ bars, (∀ t ∈ bars, ∃ n ≤ 20, t = barText n) ∧
      benchmark now cyc duration = (⟨bars, 30 * cyc.toNat, 1889 * cyc.toNat⟩, rates (30 * cyc) (1889 * cyc) duration) := by
  obtain ⟨bars, h1, h2⟩ := loop_ok now cyc h20 hmax cyc.toNat 0 (le_refl _) (by omega) ⟨[], 0, 0⟩ (by simp)
  refine ⟨bars, h1, ?_⟩
  unfold benchmark
  rw [h2]
  simp only [Nat.zero_add]
  rw [messages_length]
  push_cast
  rw [Int.toNat_of_nonneg (by omega)]

/-! ## The result -/

theorem roundTo_two {x : PyFloat} (hx : x.Wf) : ∃ y, x.roundTo 2 = .ok y := by
  cases x with
  | inf s => exact ⟨_, rfl⟩
  | nan => exact ⟨_, rfl⟩
  | fin s m =>
    obtain ⟨hf, hlim⟩ := hx
    have hm0 := hf.nonneg
    have p2 : pow10 2 = 100 := by rw [pow10_eq]; norm_num
    have p2' : pow10 (-2) = 1 / 100 := by rw [pow10_eq]; norm_num
    suffices h : ∃ r, PyFloat.ofMag s ((roundHalfEven (m * 100) : ℚ) * (1 / 100)) = .fin s r by
      obtain ⟨r, hr⟩ := h
      exact ⟨.fin s r, by simp only [PyFloat.roundTo]; rw [if_neg (by norm_num), if_neg (by norm_num), p2, p2', hr]⟩
    by_cases hs : m ≤ 2 ^ 60
    · refine ⟨_, PyFloat.ofMag_small ?_⟩
      have := rhe_err (m * 100)
      rw [abs_le] at this
      norm_num at hs ⊢
      linarith [this.2]
    · rw [not_le] at hs
      have hint : ∃ z : ℤ, m = z := by
        obtain ⟨k, e, hk, _, rfl⟩ := hf
        have he : 0 ≤ e := by
          by_contra hc
          have : (2 : ℚ) ^ e ≤ 1 := zpow_le_one_of_nonpos₀ (by norm_num) (by omega)
          have hkq : (k : ℚ) ≤ 2 ^ 53 := by exact_mod_cast hk
          have : (k : ℚ) * 2 ^ e ≤ 2 ^ 53 * 1 := by gcongr
          norm_num at this hs
          linarith
        obtain ⟨n, rfl⟩ := Int.eq_ofNat_of_zero_le he
        exact ⟨k * 2 ^ n, by push_cast; rfl⟩
      obtain ⟨z, rfl⟩ := hint
      have e1 : roundHalfEven ((z : ℚ) * 100) = z * 100 := by
        apply le_antisymm
        · exact rhe_le (by push_cast; exact le_refl _)
        · exact rhe_ge (by push_cast; exact le_refl _)
      rw [e1, show (((z * 100 : ℤ) : ℚ) * (1 / 100)) = (z : ℚ) by push_cast; ring]
      exact ⟨_, PyFloat.ofMag_fin (by rw [roundMag_f64 hf]; exact hlim)⟩

theorem ofInt_pos {a : Int} (h0 : 0 ≤ a) (h : a ≤ 10 ^ 306) :
    PyFloat.ofInt a = .ok (.fin false (roundMag (a : ℚ))) := by
  have hq : (0 : ℚ) ≤ a := by exact_mod_cast h0
  have hlim : roundMag (a : ℚ) < f64Limit := by
    have h' : (a : ℚ) ≤ 10 ^ 306 := by exact_mod_cast h
    exact lt_of_le_of_lt (roundMag_le (le_trans h' huge_ge') huge_f64) huge_lt
  unfold PyFloat.ofInt
  simp only [PyFloat.ofRat, not_lt.mpr hq, decide_false, if_false]
  rw [PyFloat.ofMag_fin hlim]

/-- The clock must have advanced: the rates exist if it has, otherwise the program ends with `ZeroDivisionError`. -/
theorem C99_rates (t b duration : Int) (ht : 0 ≤ t) (ht' : t ≤ 10 ^ 306) (hb : 0 ≤ b) (hb' : b ≤ 10 ^ 306)
    (hd : 0 ≤ duration) (hd' : duration ≤ 10 ^ 306) :
    if duration = 0 then rates t b duration = .error .zeroDivision else ∃ r, rates t b duration = .ok r := by
  have et := ofInt_pos ht ht'
  have eb := ofInt_pos hb hb'
  have ed := ofInt_pos hd hd'
  have en : PyFloat.ofInt 1000000000 = .ok (.fin false 1000000000) := by decide +kernel
  have ha : ∀ x, ∃ y, PyFloat.mul (.fin false x) (.fin false 1000000000) = PyFloat.ofMag false y := fun x => ⟨_, rfl⟩
  have hshape : ∀ y, (∃ z, PyFloat.ofMag false y = .fin false z) ∨ PyFloat.ofMag false y = .inf false := by
    intro y
    unfold PyFloat.ofMag
    dsimp only
    split
    · exact .inr rfl
    · exact .inl ⟨_, rfl⟩
  have hdiv : ∀ x d : ℚ, d ≠ 0 → ∃ w, PyFloat.div (PyFloat.ofMag false x) (.fin false d) = .ok w ∧
      w.Wf ∧ ((∃ z, w = PyFloat.ofMag false z) ∨ w = .inf false) := by
    intro x d hd
    rcases hshape x with ⟨z, hz⟩ | hz
    · rw [hz]
      refine ⟨PyFloat.ofMag false (z / d), by simp [PyFloat.div, hd], PyFloat.ofMag_wf _ _, .inl ⟨_, rfl⟩⟩
    · rw [hz]
      exact ⟨.inf false, by simp [PyFloat.div, hd], trivial, .inr rfl⟩
  have hdiv2 : ∀ w : PyFloat, ((∃ z, w = PyFloat.ofMag false z) ∨ w = .inf false) →
      ∃ w', PyFloat.div w (.fin false 1024) = .ok w' ∧ w'.Wf := by
    rintro w (⟨z, rfl⟩ | rfl)
    · obtain ⟨w', h1, h2, _⟩ := hdiv z 1024 (by norm_num)
      exact ⟨w', h1, h2⟩
    · exact ⟨.inf false, by simp [PyFloat.div], trivial⟩
  obtain ⟨y1, h1⟩ := ha (roundMag (t : ℚ))
  obtain ⟨y2, h2⟩ := ha (roundMag (b : ℚ))
  split
  · next h0 =>
    subst h0
    have ez : PyFloat.ofInt 0 = .ok (.fin false 0) := by decide +kernel
    unfold rates
    rw [en, et, ez]
    simp only [bind, Except.bind, h1]
    have : PyFloat.div (PyFloat.ofMag false y1) (.fin false 0) = .error .zeroDivision := by
      simp [PyFloat.div]
    rw [this]
  · next h0 =>
    have hne : roundMag (duration : ℚ) ≠ 0 := by
      have : ((1 : ℕ) : ℚ) ≤ roundMag (duration : ℚ) := le_roundMag (by
        push_cast; exact_mod_cast (show 1 ≤ duration by omega)) (isF64_nat (by norm_num))
      push_cast at this
      intro hc; rw [hc] at this; norm_num at this
    obtain ⟨w1, a1, a2, _⟩ := hdiv y1 _ hne
    obtain ⟨w2, b1, _, b3⟩ := hdiv y2 _ hne
    obtain ⟨w3, c1, c2⟩ := hdiv2 w2 b3
    obtain ⟨r1, hr1⟩ := roundTo_two a2
    obtain ⟨r2, hr2⟩ := roundTo_two c2
    refine ⟨(r1, r2), ?_⟩
    unfold rates
    simp only [en, et, eb, ed, bind, Except.bind, h1, h2, a1, b1, c1, hr1, hr2, pure, Except.pure]

/-- The default, ten thousand cycles, taking two seconds. -/
example : ∃ bars r, benchmark (fun _ => ⟨⟨2024, 1, 1⟩, ⟨0, 0, 0, 0⟩⟩) 10000 2000000000 = (⟨bars, 300000, 18890000⟩, .ok r) := by
  obtain ⟨bars, _, h⟩ := C99_runs (fun _ => ⟨⟨2024, 1, 1⟩, ⟨0, 0, 0, 0⟩⟩) 10000 2000000000 (by norm_num) (by decide +kernel)
  have hr := C99_rates (30 * 10000) (1889 * 10000) 2000000000 (by norm_num) (by decide +kernel) (by norm_num) (by decide +kernel)
    (by norm_num) (by decide +kernel)
  rw [if_neg (by norm_num)] at hr
  obtain ⟨r, hr⟩ := hr
  exact ⟨bars, r, by rw [h, hr]; rfl⟩

/-- A quarter done. -/
example : progbar 2500 10000 20 = .ok (some (barText 5)) := by decide +kernel

end Props.Benchmark
