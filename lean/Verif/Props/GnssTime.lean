import Verif.Lemmas.GnssRoll
/-!
# GNSS time: leap seconds, week numbers, rollover (C36–C39)
-/
set_option linter.unusedSimpArgs false
namespace Nmea
open Py

/-! ## C36 -/

/-- C36. For every instant and GNSS, `leapsecond` succeeds and returns 0 before 1972 and otherwise
TAI−UTC at that instant (9 s plus one second per published step not after it) minus the fixed
offset of the GNSS from TAI. -/
theorem C36_value (t : Int) (g : Gnss) (h : IsDatetime t) :
    leapsecond t g = .ok (if t < midnight 1972 1 then 0 else taiUtc t - taiMinus g) :=
  leapsecond_eq (datetime_abs h) g

private theorem dates_table : ∀ i : Fin 27,
    midnight 1972 1 ≤ midnight (leapDates[i.1]'(by have : leapDates.length = 28 := rfl; omega)).1
      (leapDates[i.1]'(by have : leapDates.length = 28 := rfl; omega)).2 ∧
    midnight (leapDates[i.1 + 1]'(by have : leapDates.length = 28 := rfl; omega)).1
      (leapDates[i.1 + 1]'(by have : leapDates.length = 28 := rfl; omega)).2 ≤ midnight 2017 1 ∧
    taiUtc (midnight (leapDates[i.1]'(by have : leapDates.length = 28 := rfl; omega)).1
      (leapDates[i.1]'(by have : leapDates.length = 28 := rfl; omega)).2) = 10 + i.1 ∧
    taiUtc (midnight (leapDates[i.1 + 1]'(by have : leapDates.length = 28 := rfl; omega)).1
      (leapDates[i.1 + 1]'(by have : leapDates.length = 28 := rfl; omega)).2 - 1) = 10 + i.1 := by
  decide +kernel

/-- C36. The documented value on each interval between consecutive steps, with the exact
boundaries (the step belongs to the later interval). -/
theorem C36_intervals (i : Nat) (hi : i + 1 < leapDates.length) (t : Int) (g : Gnss)
    (h0 : midnight leapDates[i].1 leapDates[i].2 ≤ t)
    (h1 : t < midnight leapDates[i + 1].1 leapDates[i + 1].2) :
    leapsecond t g = .ok (10 + i - taiMinus g) := by
  have hl : leapDates.length = 28 := rfl
  obtain ⟨b0, b1, c0, c1⟩ := dates_table ⟨i, by omega⟩
  simp only at b0 b1 c0 c1
  have hv := midnight_vals
  have hv2 : midnight 2017 1 = 3692217600000000 := by decide
  rw [C36_value t g (by have := maxInstant_val; have := minInstant_val; unfold IsDatetime; omega),
    if_neg (by omega)]
  congr 2
  have m0 := taiUtc_mono h0
  have m1 := taiUtc_mono (show t ≤ midnight leapDates[i + 1].1 leapDates[i + 1].2 - 1 by omega)
  omega

/-- C36. After the last step (2017-01-01) the value stays at 18 s (BeiDou 4 s). -/
theorem C36_now (t : Int) (g : Gnss) (h0 : midnight 2017 1 ≤ t) (h1 : t ≤ maxInstant) :
    leapsecond t g = .ok (if g = .bds then 4 else 18) := by
  have hv := midnight_vals
  have hv2 : midnight 2017 1 = 3692217600000000 := by decide
  rw [C36_value t g (by have := minInstant_val; unfold IsDatetime; omega), if_neg (by omega)]
  have a := taiUtc_mono h0
  have b := taiUtc_le t
  have c : taiUtc (midnight 2017 1) = 37 := by decide +kernel
  have : taiUtc t = 37 := by omega
  rw [this, taiMinus]; split <;> rfl

/-- C36. From 1972 on the offset never decreases. -/
theorem C36_monotone (s t : Int) (g : Gnss) (a b : Int) (h0 : midnight 1972 1 ≤ s) (hst : s ≤ t)
    (ht : t ≤ maxInstant) (ha : leapsecond s g = .ok a) (hb : leapsecond t g = .ok b) : a ≤ b := by
  have := minInstant_val
  have hv := midnight_vals
  rw [C36_value s g (by unfold IsDatetime; omega), if_neg (by omega), Except.ok.injEq] at ha
  rw [C36_value t g (by unfold IsDatetime; omega), if_neg (by omega), Except.ok.injEq] at hb
  have := taiUtc_mono hst
  omega

/-- C36. It is 0 at the GPS epoch (BeiDou: at the BeiDou epoch), and it is *not* monotone across
1972-01-01, where it drops from 0 to -9. -/
theorem C36_epoch :
    leapsecond (weekZero .gps) .gps = .ok 0 ∧ leapsecond (weekZero .bds) .bds = .ok 0 ∧
    leapsecond (midnight 1972 1 - 1) .gps = .ok 0 ∧ leapsecond (midnight 1972 1) .gps = .ok (-9) := by
  refine ⟨?_, ?_, ?_, ?_⟩ <;>
  · rw [leapsecond_eq (by decide)]; decide +kernel

example : IsDatetime 3918628800000000 ∧ leapsecond 3918628800000000 .gps = .ok 18 ∧
    leapsecond (midnight 2017 1 - 1) .gps = .ok 17 := by
  unfold IsDatetime; decide +kernel

/-! ## C39 -/

/-- C39. `utc2wnotow` succeeds for every instant from the start of the week count. The week number
is the exact number of whole weeks (reduced modulo the cycle of the GNSS if asked), the third
component is the offset of the time scale from UTC, and the time of week is that of the instant
plus this offset, truncated to milliseconds with an error below 50 µs; it is exact for whole seconds. -/
theorem C39_value (g : Gnss) (t : Int) (modwno : Bool) (h0 : weekZero g ≤ t) (h1 : t ≤ maxInstant) :
    ∃ tow, utc2wnotow t g modwno
        = .ok (if modwno then weekOf g t % weekCycle g else weekOf g t, tow, ahead g t) ∧
      intoWeek g t + 1000000 * ahead g t - 1050 < tow * 1000 ∧
      tow * 1000 ≤ intoWeek g t + 1000000 * ahead g t + 50 ∧
      (1000000 ∣ t → tow * 1000 = intoWeek g t + 1000000 * ahead g t) := by
  obtain ⟨tow, h, -, a, b, c⟩ := utc2wnotow_spec h0 h1 modwno
  exact ⟨tow, h, a, b, c⟩

/-- C39. Ranges: a modular week number is below the cycle of the GNSS; the time of week lies
between 0 and a week plus the leap-second offset, which is between 0 and 18 s. -/
theorem C39_range (g : Gnss) (t : Int) (modwno : Bool) (wno tow ls : Int) (h0 : weekZero g ≤ t)
    (h1 : t ≤ maxInstant) (h : utc2wnotow t g modwno = .ok (wno, tow, ls)) :
    0 ≤ wno ∧ (modwno = true → wno < weekCycle g) ∧ 0 ≤ ls ∧ ls ≤ 18 ∧
    0 ≤ tow ∧ tow ≤ 604800000 + 1000 * ls := by
  obtain ⟨tow', h', p0, -, p2, -⟩ := utc2wnotow_spec h0 h1 modwno
  rw [h'] at h
  simp only [Except.ok.injEq, Prod.mk.injEq] at h
  obtain ⟨hw, ht, hl⟩ := h
  have ha := ahead_bounds g h0
  have hi1 : intoWeek g t < weekUs := Int.emod_lt_of_pos _ (by decide)
  have hwk := weekUs_val
  have hw0 : 0 ≤ weekOf g t := Int.ediv_nonneg (by omega) (by decide)
  have hm := Int.emod_lt_of_pos (weekOf g t) (weekCycle_pos g)
  have hm0 := Int.emod_nonneg (weekOf g t) (ne_of_gt (weekCycle_pos g))
  refine ⟨?_, ?_, by omega, by omega, by omega, by omega⟩
  · rw [← hw]; split <;> assumption
  · intro hb; rw [← hw, if_pos hb]; exact hm

/-- C39. Within the last seconds of a week the time of week really exceeds a week (the week number
is that of UTC, the time of week that of the GNSS): 2024-03-09T23:59:50 for GPS. -/
theorem C39_overrun : utc2wnotow 3919017590000000 .gps true = .ok (256, 604808000, 18) := by
  decide +kernel

example : weekZero .gps ≤ 3918628800000000 ∧
    utc2wnotow 3918628800000000 .gps true = .ok (256, 216018000, 18) ∧
    utc2wnotow 3918628800000000 .gal true = .ok (1280, 216018000, 18) ∧
    utc2wnotow 3918628800000000 .bds false = .ok (948, 216004000, 4) := by
  decide +kernel

/-! ## C37 -/

/-- Week and time of week put back together. -/
private theorem rejoin {g : Gnss} {t : Int} :
    weekZero g + weekOf g t * weekUs + intoWeek g t = t := by
  have : weekUs * weekOf g t + intoWeek g t = t - weekZero g := Int.mul_ediv_add_emod _ weekUs
  rw [mul_comm] at this
  omega

/-- C37 (supplied leap seconds). For every whole-second instant whose GNSS time of week does not
pass the end of the UTC week, feeding the three results of `utc2wnotow` to `wnotow2utc` gives the
instant back, for continuous week numbers and for modular ones in the first cycle. -/
theorem C37_supplied (g : Gnss) (t : Int) (modwno : Bool) (now wno tow ls : Int)
    (h0 : weekZero g ≤ t) (h1 : t ≤ maxInstant - 20000000) (hs : 1000000 ∣ t)
    (hw : intoWeek g t + 1000000 * ahead g t < weekUs)
    (hm : modwno = true → weekOf g t < weekCycle g)
    (h : utc2wnotow t g modwno = .ok (wno, tow, ls)) :
    wnotow2utc wno tow (some ls) g false modwno now = .ok t := by
  obtain ⟨tow', h', p0, -, -, p3⟩ := utc2wnotow_spec h0 (by omega) modwno
  rw [h'] at h
  simp only [Except.ok.injEq, Prod.mk.injEq] at h
  obtain ⟨hwn, ht, hl⟩ := h
  have p3 := p3 hs
  rw [ht] at p0 p3
  have ha := ahead_bounds g h0
  have hwk := weekUs_val
  have hw0 : 0 ≤ weekOf g t := Int.ediv_nonneg (by omega) (by decide)
  have hwn' : (if modwno = true then wno % weekCycle g else wno) = weekOf g t := by
    rw [← hwn]
    by_cases hb : modwno = true
    · simp only [hb, if_true]
      rw [Int.emod_emod, Int.emod_eq_of_lt hw0 (hm hb)]
    · simp only [hb, if_false]; simp
  have htm : tow % 604800000 = tow := Int.emod_eq_of_lt p0 (by omega)
  have hr := rejoin (g := g) (t := t)
  have hgi : gnssInstant g (weekOf g t) tow = t + 1000000 * ahead g t := by
    unfold gnssInstant; omega
  have hz := weekZero_bounds g
  have hmv := midnight_vals
  have hmx := maxInstant_val
  have hmn := minInstant_val
  rw [plain_ok, hwn', htm, hgi]
  unfold IsDatetime
  refine ⟨⟨by omega, by omega⟩, ⟨by omega, by omega⟩, ?_⟩
  unfold lessBy
  by_cases hg : g = .glo
  · have : ahead g t = 0 := by simp [ahead, hg]
    rw [if_pos hg]; omega
  · rw [if_neg hg]
    simp only [show usSec = 1000000 from rfl]
    omega

/-- C37 (derived leap seconds). The same without supplying the leap seconds, when no leap-second
step falls between the instant and its GNSS reading. -/
theorem C37_derived (g : Gnss) (t : Int) (modwno : Bool) (now wno tow ls : Int)
    (h0 : weekZero g ≤ t) (h1 : t ≤ maxInstant - 20000000) (hs : 1000000 ∣ t)
    (hw : intoWeek g t + 1000000 * ahead g t < weekUs)
    (hm : modwno = true → weekOf g t < weekCycle g)
    (hl : ∀ d ∈ leapDates, ¬ (t < midnight d.1 d.2 ∧ midnight d.1 d.2 ≤ t + 1000000 * ahead g t))
    (h : utc2wnotow t g modwno = .ok (wno, tow, ls)) :
    wnotow2utc wno tow none g false modwno now = .ok t := by
  have h2 := C37_supplied g t modwno now wno tow ls h0 h1 hs hw hm h
  obtain ⟨tow', h', p0, -, -, p3⟩ := utc2wnotow_spec h0 (by omega) modwno
  rw [h'] at h
  simp only [Except.ok.injEq, Prod.mk.injEq] at h
  obtain ⟨hwn, ht, hls⟩ := h
  rw [plain_ok] at h2 ⊢
  obtain ⟨a, b, c⟩ := h2
  refine ⟨a, b, ?_⟩
  have ha := ahead_bounds g h0
  have hz := weekZero_bounds g
  have hmv := midnight_vals
  generalize hu : gnssInstant g (if modwno = true then wno % weekCycle g else wno) (tow % 604800000) = u at *
  unfold lessBy at c ⊢
  by_cases hg : g = .glo
  · rw [if_pos hg] at c ⊢; exact c
  · rw [if_neg hg] at c ⊢
    simp only [show usSec = 1000000 from rfl] at c ⊢
    have hut : u = t + 1000000 * ahead g t := by omega
    rw [if_neg (by omega)]
    have : taiUtc u = taiUtc t := by
      unfold taiUtc
      have : (leapDates.filter fun d => decide (midnight d.1 d.2 ≤ u))
          = leapDates.filter fun d => decide (midnight d.1 d.2 ≤ t) := by
        apply List.filter_congr
        intro d hd
        have := hl d hd
        rw [decide_eq_decide]
        constructor <;> intro <;> omega
      rw [this]
    rw [this]
    have hah : ahead g t = taiUtc t - taiMinus g := by rw [ahead, if_neg hg]
    omega

/-- C37 (any instant). For instants that are not whole seconds the round trip loses the part of a
millisecond that `utc2wnotow` truncates, and float rounding moves it by at most 50 µs. -/
theorem C37_close (g : Gnss) (t : Int) (modwno : Bool) (now wno tow ls : Int)
    (h0 : weekZero g ≤ t) (h1 : t ≤ maxInstant - 20000000)
    (hw : intoWeek g t + 1000000 * ahead g t + 50 < weekUs)
    (hm : modwno = true → weekOf g t < weekCycle g)
    (h : utc2wnotow t g modwno = .ok (wno, tow, ls)) :
    ∃ r, wnotow2utc wno tow (some ls) g false modwno now = .ok r ∧ t - 1050 < r ∧ r ≤ t + 50 := by
  obtain ⟨tow', h', p0, p1, p2, -⟩ := utc2wnotow_spec h0 (by omega) modwno
  rw [h'] at h
  simp only [Except.ok.injEq, Prod.mk.injEq] at h
  obtain ⟨hwn, ht, hl⟩ := h
  rw [ht] at p0 p1 p2
  have ha := ahead_bounds g h0
  have hwk := weekUs_val
  have hw0 : 0 ≤ weekOf g t := Int.ediv_nonneg (by omega) (by decide)
  have hwn' : (if modwno = true then wno % weekCycle g else wno) = weekOf g t := by
    rw [← hwn]
    by_cases hb : modwno = true
    · simp only [hb, if_true]
      rw [Int.emod_emod, Int.emod_eq_of_lt hw0 (hm hb)]
    · simp only [hb, if_false]; simp
  have htm : tow % 604800000 = tow := Int.emod_eq_of_lt p0 (by omega)
  have hr := rejoin (g := g) (t := t)
  have hz := weekZero_bounds g
  have hmv := midnight_vals
  have hmx := maxInstant_val
  have hmn := minInstant_val
  set u := gnssInstant g (weekOf g t) tow with hu
  have hgi : t + 1000000 * ahead g t - 1050 < u ∧ u ≤ t + 1000000 * ahead g t + 50 := by
    rw [hu]; unfold gnssInstant; omega
  refine ⟨u - 1000000 * ahead g t, ?_, by omega, by omega⟩
  rw [plain_ok, hwn', htm, ← hu]
  unfold IsDatetime
  refine ⟨⟨by omega, by omega⟩, ⟨by omega, by omega⟩, ?_⟩
  unfold lessBy
  by_cases hg : g = .glo
  · have : ahead g t = 0 := by simp [ahead, hg]
    rw [if_pos hg]; omega
  · rw [if_neg hg]
    simp only [show usSec = 1000000 from rfl]
    omega

/-- C37 (where it fails). In the last leap-offset seconds of every week the round trip is wrong by
exactly one week: the result is seven days before the instant. -/
theorem C37_last_seconds (g : Gnss) (t : Int) (now wno tow ls : Int)
    (h0 : weekZero g ≤ t) (h1 : t ≤ maxInstant - 20000000) (hs : 1000000 ∣ t)
    (hw : weekUs ≤ intoWeek g t + 1000000 * ahead g t)
    (h : utc2wnotow t g false = .ok (wno, tow, ls)) :
    wnotow2utc wno tow (some ls) g false false now = .ok (t - weekUs) := by
  obtain ⟨tow', h', p0, -, -, p3⟩ := utc2wnotow_spec h0 (by omega) false
  rw [h'] at h
  simp only [Except.ok.injEq, Prod.mk.injEq, Bool.false_eq_true, if_false] at h
  obtain ⟨hwn, ht, hl⟩ := h
  have p3 := p3 hs
  rw [ht] at p0 p3
  have ha := ahead_bounds g h0
  have hwk := weekUs_val
  have hi1 : intoWeek g t < weekUs := Int.emod_lt_of_pos _ (by decide)
  have htm : tow % 604800000 = tow - 604800000 := by omega
  have hr := rejoin (g := g) (t := t)
  have hgi : gnssInstant g (weekOf g t) (tow - 604800000) = t + 1000000 * ahead g t - weekUs := by
    unfold gnssInstant; omega
  have hz := weekZero_bounds g
  have hmv := midnight_vals
  have hmx := maxInstant_val
  have hmn := minInstant_val
  rw [plain_ok, ← hwn, htm]
  simp only [Bool.false_eq_true, if_false]
  rw [hgi]
  unfold IsDatetime
  refine ⟨⟨by omega, by omega⟩, ⟨by omega, by omega⟩, ?_⟩
  unfold lessBy
  by_cases hg : g = .glo
  · have : ahead g t = 0 := by simp [ahead, hg]
    rw [if_pos hg]; omega
  · rw [if_neg hg]
    simp only [show usSec = 1000000 from rfl]
    omega

/-- C37 (current dates). With modular week numbers and `autoroll`, the instant comes back whenever
it is not after the current time and less than one cycle before it. -/
theorem C37_autoroll (g : Gnss) (t now wno tow ls : Int)
    (h0 : weekZero g ≤ t) (hs : 1000000 ∣ t)
    (hw : intoWeek g t + 1000000 * ahead g t < weekUs)
    (hn : t ≤ now) (hn1 : now < t + weekCycle g * weekUs)
    (hmax : t + weekCycle g * weekUs ≤ maxInstant)
    (h : utc2wnotow t g true = .ok (wno, tow, ls)) :
    wnotow2utc wno tow (some ls) g true true now = .ok t := by
  have hcp : 1024 ≤ weekCycle g ∧ weekCycle g ≤ 8192 := by cases g <;> decide
  have hwk := weekUs_val
  have ha := ahead_bounds g h0
  have hz := weekZero_bounds g
  have hmv := midnight_vals
  have hmx := maxInstant_val
  have hmn := minInstant_val
  have hcw : 1024 * 604800000000 ≤ weekCycle g * weekUs := by rw [hwk]; omega
  obtain ⟨tow', h', p0, -, -, p3⟩ := utc2wnotow_spec (g := g) (t := t) h0 (by omega) true
  rw [h'] at h
  simp only [Except.ok.injEq, Prod.mk.injEq, if_true] at h
  obtain ⟨hwn, ht, hl⟩ := h
  have p3 := p3 hs
  rw [ht] at p0 p3
  have hw0 : 0 ≤ weekOf g t := Int.ediv_nonneg (by omega) (by decide)
  have htm : tow % 604800000 = tow := Int.emod_eq_of_lt p0 (by omega)
  have hr := rejoin (g := g) (t := t)
  -- the cycle count of the instant
  set k : Int := weekOf g t / weekCycle g with hk
  have hk0 : 0 ≤ k := Int.ediv_nonneg hw0 (by omega)
  have hmod : wno = weekOf g t - k * weekCycle g := by
    have := Int.mul_ediv_add_emod (weekOf g t) (weekCycle g)
    rw [mul_comm, ← hk, hwn] at this; omega
  have hwn2 : wno % weekCycle g = wno := by rw [← hwn, Int.emod_emod]
  -- the conversion for any cycle count
  have hc : ∀ j : Nat, (j : Int) ≤ k →
      wnotow2utc (wno + j * weekCycle g) tow (some ls) g false false now
        = .ok (t - (k - j) * (weekCycle g * weekUs)) := by
    intro j hj
    have hgi : gnssInstant g (wno + j * weekCycle g) tow
        = t - (k - j) * (weekCycle g * weekUs) + 1000000 * ahead g t := by
      unfold gnssInstant
      have e : (wno + j * weekCycle g) * weekUs
          = weekOf g t * weekUs - (k - j) * (weekCycle g * weekUs) := by rw [hmod]; ring
      omega
    have hlow : weekZero g ≤ gnssInstant g (wno + j * weekCycle g) tow := by
      unfold gnssInstant
      have hwno0 : 0 ≤ wno := by
        rw [← hwn]; exact Int.emod_nonneg _ (by omega)
      have : 0 ≤ (wno + j * weekCycle g) * weekUs :=
        mul_nonneg (add_nonneg hwno0 (mul_nonneg (by omega) (by omega))) (by decide)
      omega
    have hnn : 0 ≤ (k - j) * (weekCycle g * weekUs) := mul_nonneg (by omega) (by omega)
    rw [plain_ok, htm]
    simp only [Bool.false_eq_true, if_false]
    unfold IsDatetime
    refine ⟨⟨by omega, by omega⟩, ⟨by omega, by omega⟩, ?_⟩
    unfold lessBy
    by_cases hg : g = .glo
    · have : ahead g t = 0 := by simp [ahead, hg]
      rw [if_pos hg]; omega
    · rw [if_neg hg]
      simp only [show usSec = 1000000 from rfl]
      omega
  rw [auto_loop]
  simp only [if_true]
  rw [hwn2]
  have hkc : ((k.toNat : Nat) : Int) = k := by omega
  refine loop_stop g wno tow (some ls) now (weekCycle_pos g) k.toNat t ?_ ?_ hn1 k.toNat 0 (by omega) ?_
  · have := hc k.toNat (by omega)
    rw [this, hkc]; simp
  · unfold IsDatetime; omega
  · intro j _ hj
    refine ⟨_, hc j (by omega), ?_, ?_⟩
    · have : weekCycle g * weekUs ≤ (k - j) * (weekCycle g * weekUs) :=
        le_mul_of_one_le_left (by omega) (by omega)
      omega
    · have h1 : weekCycle g * weekUs ≤ (k - j) * (weekCycle g * weekUs) :=
        le_mul_of_one_le_left (by omega) (by omega)
      have h2 : (k - j) * (weekCycle g * weekUs) ≤ k * (weekCycle g * weekUs) :=
        mul_le_mul_of_nonneg_right (by omega) (by omega)
      have h3 : k * (weekCycle g * weekUs) ≤ weekOf g t * weekUs := by
        rw [← mul_assoc]
        apply mul_le_mul_of_nonneg_right _ (by decide)
        exact Int.ediv_mul_le _ (by omega)
      have hi0 : 0 ≤ intoWeek g t := Int.emod_nonneg _ (by decide)
      unfold IsDatetime; omega

/-- C37. Concrete failures of the unrestricted claim: the last seconds of a GPS week come back a
week early; an instant ten seconds before the leap second of 2017-01-01 comes back one second
early when the leap seconds are derived; a whole millisecond is lost to float rounding. -/
theorem C37_counterexamples :
    (utc2wnotow 3919017590000000 .gps false = .ok (2304, 604808000, 18) ∧
      wnotow2utc 2304 604808000 none .gps false false 0 = .ok (3919017590000000 - weekUs)) ∧
    (utc2wnotow 3692217590000000 .gps false = .ok (1929, 604807000, 17) ∧
      wnotow2utc 1929 604807000 (some 17) .gps false false 0 = .ok (3692217590000000 - weekUs)) ∧
    (utc2wnotow 3692217590000000 .bds false = .ok (573, 604793000, 3) ∧
      wnotow2utc 573 604793000 none .bds false false 0 = .ok 3692217590000000) ∧
    (utc2wnotow 3600655658751000 .gps false = .ok (1778, 367674750, 16) ∧
      wnotow2utc 1778 367674750 none .gps false false 0 = .ok 3600655658750000) := by
  decide +kernel

example : let t := 3918628800000000
    weekZero .gps ≤ t ∧ t ≤ maxInstant - 20000000 ∧ 1000000 ∣ t ∧
    intoWeek .gps t + 1000000 * ahead .gps t < weekUs ∧
    (∀ d ∈ leapDates, ¬ (t < midnight d.1 d.2 ∧ midnight d.1 d.2 ≤ t + 1000000 * ahead .gps t)) ∧
    wnotow2utc 2304 216018000 none .gps false false 0 = .ok t ∧
    t ≤ 3985372800000000 ∧ 3985372800000000 < t + weekCycle .gps * weekUs ∧
    wnotow2utc 256 216018000 none .gps true true 3985372800000000 = .ok t := by
  decide +kernel

/-! ## C38 -/

/-- C38. Autoroll always terminates (the model's loop is total), and its only error is
`OverflowError`. -/
theorem C38_errors (wno tow : Int) (ls : Option Int) (g : Gnss) (autoroll modwno : Bool) (now : Int)
    (e : Err) (h : wnotow2utc wno tow ls g autoroll modwno now = .error e) : e = .overflow := by
  cases autoroll with
  | false => exact plain_err h
  | true =>
    rw [auto_loop] at h
    exact (loop_spec g _ tow ls now (weekCycle_pos g) 0).2 e h

/-- C38. The result of autoroll is the plain conversion of the week number plus some number `k`
of cycles; it is less than one cycle before the current time, and every smaller number of cycles
gives an instant at least one cycle before the current time. -/
theorem C38_latest (wno tow : Int) (ls : Option Int) (g : Gnss) (modwno : Bool) (now r : Int)
    (h : wnotow2utc wno tow ls g true modwno now = .ok r) :
    ∃ k : Nat,
      wnotow2utc ((if modwno then wno % weekCycle g else wno) + k * weekCycle g) tow ls g
        false false now = .ok r ∧
      now < r + weekCycle g * weekUs ∧
      ∀ j < k, ∃ c,
        wnotow2utc ((if modwno then wno % weekCycle g else wno) + j * weekCycle g) tow ls g
          false false now = .ok c ∧
        c + weekCycle g * weekUs ≤ now := by
  rw [auto_loop] at h
  obtain ⟨k, -, h2, h3, h4⟩ := (loop_spec g _ tow ls now (weekCycle_pos g) 0).1 r h
  exact ⟨k, h2, h3, fun j hj => h4 j (by omega) hj⟩

private theorem less_mono {ls : Option Int} {g : Gnss} {u v : Int} (h0 : midnight 1972 1 ≤ u)
    (h : u ≤ v) : lessBy ls g u ≤ lessBy ls g v := by
  unfold lessBy
  split
  · omega
  · cases ls with
    | some l => exact le_refl _
    | none =>
      simp only
      rw [if_neg (by omega), if_neg (by omega)]
      have := taiUtc_mono h; omega

/-- C38. If the result of autoroll is after the current time, then nothing was rolled over: it is
the plain conversion. Equivalently a rolled-over result is never in the future. -/
theorem C38_not_future (wno tow : Int) (ls : Option Int) (g : Gnss) (modwno : Bool) (now r : Int)
    (hw : modwno = true ∨ 0 ≤ wno)
    (h : wnotow2utc wno tow ls g true modwno now = .ok r) :
    r ≤ now ∨ wnotow2utc wno tow ls g false modwno now = .ok r := by
  obtain ⟨k, h1, -, h3⟩ := C38_latest wno tow ls g modwno now r h
  rw [plain_mod wno]
  set w := (if modwno = true then wno % weekCycle g else wno) with hwd
  have hcp := weekCycle_pos g
  have hw0 : 0 ≤ w := by
    rw [hwd]
    by_cases hb : modwno = true
    · rw [if_pos hb]; exact Int.emod_nonneg _ (by omega)
    · rw [if_neg hb]; tauto
  cases k with
  | zero => right; simpa using h1
  | succ k =>
    left
    obtain ⟨c, hc, hle⟩ := h3 k (by omega)
    obtain ⟨-, -, e1⟩ := plain_ok.mp h1
    obtain ⟨-, -, e2⟩ := plain_ok.mp hc
    simp only [Bool.false_eq_true, if_false] at e1 e2
    have ht0 : 0 ≤ tow % 604800000 := Int.emod_nonneg _ (by decide)
    have hg : gnssInstant g (w + (k + 1 : Nat) * weekCycle g) (tow % 604800000)
        = gnssInstant g (w + k * weekCycle g) (tow % 604800000) + weekCycle g * weekUs := by
      unfold gnssInstant; push_cast; ring
    have hpos : 0 < weekCycle g * weekUs := mul_pos hcp (by decide)
    have hz := weekZero_bounds g
    have hmv := midnight_vals
    have hlow : midnight 1972 1 ≤ gnssInstant g (w + k * weekCycle g) (tow % 604800000) := by
      unfold gnssInstant
      have : 0 ≤ (w + k * weekCycle g) * weekUs :=
        mul_nonneg (add_nonneg hw0 (mul_nonneg (by omega) (by omega))) (by decide)
      omega
    rw [hg] at e1
    have := less_mono (ls := ls) (g := g) hlow
      (show gnssInstant g (w + k * weekCycle g) (tow % 604800000)
        ≤ gnssInstant g (w + k * weekCycle g) (tow % 604800000) + weekCycle g * weekUs by omega)
    simp only [show usSec = 1000000 from rfl] at e1 e2
    omega

/-- C38. A past week number stays in the past: if the plain conversion is not after the current
time, neither is the autorolled one. -/
theorem C38_past (wno tow : Int) (ls : Option Int) (g : Gnss) (modwno : Bool) (now r c : Int)
    (hw : modwno = true ∨ 0 ≤ wno)
    (h : wnotow2utc wno tow ls g true modwno now = .ok r)
    (hc : wnotow2utc wno tow ls g false modwno now = .ok c) (hle : c ≤ now) : r ≤ now := by
  rcases C38_not_future wno tow ls g modwno now r hw h with h1 | h1
  · exact h1
  · rw [hc] at h1; simp only [Except.ok.injEq] at h1; omega

/-- C38. Autoroll succeeds: with a modular week number and leap seconds from the table, for every
week number, time of week, GNSS and current time at least a cycle and a day before the end of
the calendar. -/
theorem C38_succeeds (wno tow : Int) (g : Gnss) (now : Int)
    (hn : now + weekCycle g * weekUs + usDay ≤ maxInstant) :
    ∃ r, wnotow2utc wno tow none g true true now = .ok r := by
  set w := wno % weekCycle g with hwd
  have hcp : 1024 ≤ weekCycle g ∧ weekCycle g ≤ 8192 := by cases g <;> decide
  have hw0 : 0 ≤ w := Int.emod_nonneg _ (by omega)
  have hw1 : w < weekCycle g := Int.emod_lt_of_pos _ (by omega)
  have ht0 : 0 ≤ tow % 604800000 := Int.emod_nonneg _ (by decide)
  have ht1 : tow % 604800000 < 604800000 := Int.emod_lt_of_pos _ (by decide)
  have hwk := weekUs_val
  have hz := weekZero_bounds g
  have hmv := midnight_vals
  have hmx := maxInstant_val
  have hmn := minInstant_val
  have hday : usDay = 86400000000 := rfl
  have hR0 : 1024 * 604800000000 ≤ weekCycle g * weekUs := by rw [hwk]; omega
  have hR1 : weekCycle g * weekUs ≤ 8192 * 604800000000 := by rw [hwk]; omega
  let U : Nat → Int := fun j => gnssInstant g (w + j * weekCycle g) (tow % 604800000)
  let V : Nat → Int := fun j => U j - lessBy none g (U j) * usSec
  have hU : ∀ j : Nat, U j = weekZero g + w * weekUs + j * (weekCycle g * weekUs) + (tow % 604800000) * 1000 := by
    intro j; show gnssInstant g _ _ = _; unfold gnssInstant; ring
  have hwU : 0 ≤ w * weekUs ∧ w * weekUs ≤ weekCycle g * weekUs - weekUs := by
    rw [hwk]; omega
  have hjn : ∀ j : Nat, 0 ≤ (j : Int) * (weekCycle g * weekUs) := fun j => mul_nonneg (by omega) (by omega)
  have hlow : ∀ j, weekZero g ≤ U j := by
    intro j; have := hU j; have := hjn j; omega
  have hless : ∀ j, 0 ≤ lessBy none g (U j) ∧ lessBy none g (U j) ≤ 18 := by
    intro j
    have h1 := hlow j
    have h2 := ahead_bounds g h1
    unfold lessBy ahead at *
    by_cases hg : g = .glo
    · simp [hg]
    · simp only [hg, if_false] at h2 ⊢
      rw [if_neg (by omega)]; exact h2
  have hV : ∀ j, U j - 18000000 ≤ V j ∧ V j ≤ U j := by
    intro j; have := hless j
    show U j - 18000000 ≤ U j - lessBy none g (U j) * usSec ∧ U j - lessBy none g (U j) * usSec ≤ U j
    rw [show usSec = 1000000 from rfl]; omega
  have hstep : ∀ j, V (j + 1) ≤ V j + weekCycle g * weekUs := by
    intro j
    have e : U (j + 1) = U j + weekCycle g * weekUs := by rw [hU, hU]; push_cast; ring
    have := less_mono (ls := none) (g := g) (u := U j) (v := U (j + 1)) (by have := hlow j; omega) (by omega)
    show U (j + 1) - lessBy none g (U (j + 1)) * usSec ≤ U j - lessBy none g (U j) * usSec + weekCycle g * weekUs
    rw [show usSec = 1000000 from rfl]; omega
  have hplain : ∀ j : Nat, U j ≤ maxInstant →
      wnotow2utc (w + j * weekCycle g) tow none g false false now = .ok (V j) := by
    intro j hj
    rw [plain_ok]
    simp only [Bool.false_eq_true, if_false]
    have h1 := hlow j
    have h2 := hV j
    refine ⟨⟨?_, hj⟩, ⟨?_, ?_⟩, rfl⟩
    · show minInstant ≤ U j; omega
    · omega
    · omega
  have hex : ∃ j : Nat, now < V j + weekCycle g * weekUs := by
    refine ⟨now.toNat, ?_⟩
    have h1 := hV now.toNat
    have h2 := hU now.toNat
    have h3 : (now.toNat : Int) ≤ (now.toNat : Int) * (weekCycle g * weekUs) :=
      le_mul_of_one_le_right (by omega) (by omega)
    omega
  classical
  have hk := Nat.find_spec hex
  have hmin : ∀ j, j < Nat.find hex → V j + weekCycle g * weekUs ≤ now :=
    fun j hj => not_lt.mp (Nat.find_min hex hj)
  set k := Nat.find hex with hkd
  refine ⟨V k, ?_⟩
  rw [auto_loop]
  simp only [if_true, ← hwd]
  have hbound : V k + weekCycle g * weekUs ≤ maxInstant ∧ U k ≤ maxInstant := by
    rcases Nat.eq_zero_or_pos k with h0 | h0
    · have h1 := hV k
      have h2 := hU k
      rw [h0] at h1 h2 ⊢
      simp only [Nat.cast_zero, zero_mul] at h2
      omega
    · have h1 := hV k
      have h2 := hstep (k - 1)
      have h3 := hmin (k - 1) (by omega)
      rw [show k - 1 + 1 = k by omega] at h2
      omega
  refine loop_stop g w tow none now (weekCycle_pos g) k (V k) (hplain k hbound.2) ?_ hk k 0 (by omega) ?_
  · have h1 := hV k; have h2 := hlow k
    exact ⟨by omega, hbound.1⟩
  · intro j _ hj
    have h1 := hV j; have h2 := hlow j; have h3 := hmin j hj
    exact ⟨V j, hplain j (by omega), h3, by omega, by omega⟩

example : (3985372800000000 : Int) + weekCycle .bds * weekUs + usDay ≤ maxInstant := by decide

/-- C38. The documented examples (current date 2026-04-17). The first two give the documented
instants, 2026-04-16T09:59:42 and 1987-01-15T09:59:56. The other two do not: for a time of week of
610000000 ms the code drops the week it overruns by, so the results, 2006-09-10T01:26:26 and
1987-01-25T01:26:36, are one week before the documented ones. -/
theorem C38_documented :
    wnotow2utc 366 381600000 none .gps true true 3985372800000000 = .ok 3985322382000000 ∧
    wnotow2utc 366 381600000 none .gps false true 3985372800000000 = .ok 2746691996000000 ∧
    wnotow2utc 368 610000000 none .gps true true 3985372800000000
      = .ok (3367445186000000 - weekUs) ∧
    wnotow2utc 368 610000000 none .gps false true 3985372800000000
      = .ok (2748129996000000 - weekUs) := by
  decide +kernel

end Nmea
