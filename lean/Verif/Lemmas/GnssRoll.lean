import Verif.Lemmas.GnssWeek
/-!
# `wnotow2utc`
-/
set_option linter.unusedSimpArgs false
namespace Nmea
open Py

theorem mkInstant_ok {t r : Int} : mkInstant t = .ok r ↔ IsDatetime t ∧ r = t := by
  unfold mkInstant IsDatetime
  split
  · next h => simp [h, eq_comm]
  · next h => simp; intro a b; exact absurd ⟨a, b⟩ h

theorem mkInstant_err {t : Int} {e : Err} (h : mkInstant t = .error e) : e = .overflow := by
  unfold mkInstant at h; split at h <;> simp_all

theorem mkInstant_of {t : Int} (h : IsDatetime t) : mkInstant t = .ok t := mkInstant_ok.mpr ⟨h, rfl⟩

theorem datetime_abs {t : Int} (h : IsDatetime t) : |t| ≤ 2 ^ 60 := by
  have := maxInstant_val; have := minInstant_val
  unfold IsDatetime at h
  rw [abs_le]; constructor <;> omega

/-- Instant (in GNSS time, read as UTC) of a week number and time of week. -/
def gnssInstant (g : Gnss) (w tow : Int) : Int := weekZero g + w * weekUs + tow * 1000

/-- The leap seconds applied by `wnotow2utc`. -/
def lessBy (ls : Option Int) (g : Gnss) (u : Int) : Int :=
  if g = .glo then 0
  else match ls with
    | some l => l
    | none => if u < midnight 1972 1 then 0 else taiUtc u - taiMinus g

theorem candidate_eq (g : Gnss) (w tow : Int) (ls : Option Int) (i : Nat) :
    wnoCandidate (weekZero g) (weekCycle g) w tow ls g i
      = (do
        let u ← mkInstant (gnssInstant g (w + i * weekCycle g) tow)
        mkInstant (u - lessBy ls g u * usSec)) := by
  have e : weekZero g + (w + i * weekCycle g) * 7 * usDay + tow * 1000
      = gnssInstant g (w + i * weekCycle g) tow := by
    unfold gnssInstant; rw [weekUs_val, show usDay = 86400000000 from rfl]; ring
  unfold wnoCandidate
  rw [e]
  cases hm : mkInstant (gnssInstant g (w + i * weekCycle g) tow) with
  | error e => rfl
  | ok u =>
    obtain ⟨hd, hu⟩ := mkInstant_ok.mp hm
    simp only [bind, Except.bind]
    by_cases hg : g = .glo
    · rw [if_pos hg]
      have : u - lessBy ls g u * usSec = u := by simp [lessBy, hg]
      rw [this, mkInstant_of (hu ▸ hd)]; rfl
    · rw [if_neg hg]
      cases ls with
      | some l => simp [lessBy, hg, pure, Except.pure]
      | none =>
        rw [hu] at *
        rw [leapsecond_eq (datetime_abs hd)]
        simp only [lessBy, if_neg hg]

/-- `wnotow2utc` without rollover handling. -/
theorem plain_eq (w tow : Int) (ls : Option Int) (g : Gnss) (modwno : Bool) (now : Int) :
    wnotow2utc w tow ls g false modwno now
      = (do
        let u ← mkInstant (gnssInstant g (if modwno then w % weekCycle g else w) (tow % 604800000))
        mkInstant (u - lessBy ls g u * usSec)) := by
  unfold wnotow2utc
  simp only [epochOf_eq, Bool.false_eq_true, if_false]
  rw [candidate_eq]
  simp

theorem plain_ok {w tow : Int} {ls : Option Int} {g : Gnss} {modwno : Bool} {now r : Int} :
    wnotow2utc w tow ls g false modwno now = .ok r ↔
      IsDatetime (gnssInstant g (if modwno then w % weekCycle g else w) (tow % 604800000)) ∧
      IsDatetime r ∧
      r = gnssInstant g (if modwno then w % weekCycle g else w) (tow % 604800000)
        - lessBy ls g (gnssInstant g (if modwno then w % weekCycle g else w) (tow % 604800000)) * usSec := by
  rw [plain_eq]
  generalize gnssInstant g (if modwno then w % weekCycle g else w) (tow % 604800000) = u
  constructor
  · intro h
    cases hu : mkInstant u with
    | error e => rw [hu] at h; simp [bind, Except.bind] at h
    | ok v =>
      obtain ⟨a, b⟩ := mkInstant_ok.mp hu
      rw [hu, b] at h
      simp only [bind, Except.bind] at h
      obtain ⟨c, d⟩ := mkInstant_ok.mp h
      exact ⟨a, d ▸ c, d⟩
  · rintro ⟨a, b, c⟩
    rw [mkInstant_of a]
    simp only [bind, Except.bind]
    rw [← c]; exact mkInstant_of b

theorem plain_err {w tow : Int} {ls : Option Int} {g : Gnss} {modwno : Bool} {now : Int} {e : Err}
    (h : wnotow2utc w tow ls g false modwno now = .error e) : e = .overflow := by
  rw [plain_eq] at h
  cases hu : mkInstant (gnssInstant g (if modwno then w % weekCycle g else w) (tow % 604800000)) with
  | error e' =>
    rw [hu] at h
    simp only [bind, Except.bind, Except.error.injEq] at h
    rw [← h]; exact mkInstant_err hu
  | ok v =>
    rw [hu] at h
    exact mkInstant_err h

theorem plain_mod (w tow : Int) (ls : Option Int) (g : Gnss) (now : Int) (modwno : Bool) :
    wnotow2utc w tow ls g false modwno now
      = wnotow2utc (if modwno then w % weekCycle g else w) tow ls g false false now := by
  rw [plain_eq, plain_eq]; cases modwno <;> simp

theorem plain_now (w tow : Int) (ls : Option Int) (g : Gnss) (now now' : Int) (modwno : Bool) :
    wnotow2utc w tow ls g false modwno now = wnotow2utc w tow ls g false modwno now' := by
  rw [plain_eq, plain_eq]

theorem candidate_plain (g : Gnss) (w tow : Int) (ls : Option Int) (i : Nat) (now : Int) :
    wnoCandidate (weekZero g) (weekCycle g) w (tow % 604800000) ls g i
      = wnotow2utc (w + i * weekCycle g) tow ls g false false now := by
  rw [plain_eq, candidate_eq]; simp

/-- What the rollover loop computes. -/
theorem loop_spec (g : Gnss) (w tow : Int) (ls : Option Int) (now : Int)
    (hr : 0 < weekCycle g) (i : Nat) :
    (∀ r, wnoLoop (weekZero g) (weekCycle g) w (tow % 604800000) ls g now hr i = .ok r →
      ∃ k, i ≤ k ∧ wnotow2utc (w + k * weekCycle g) tow ls g false false now = .ok r ∧
        now < r + weekCycle g * weekUs ∧
        ∀ j, i ≤ j → j < k → ∃ c, wnotow2utc (w + j * weekCycle g) tow ls g false false now = .ok c ∧
          c + weekCycle g * weekUs ≤ now) ∧
    (∀ e, wnoLoop (weekZero g) (weekCycle g) w (tow % 604800000) ls g now hr i = .error e →
      e = .overflow) := by
  induction i using wnoLoop.induct (ep0 := weekZero g) (rollover := weekCycle g) (wno := w)
      (tow := tow % 604800000) (ls := ls) (g := g) (now := now) (hr := hr) with
  | case1 i e he =>
    rw [wnoLoop, he]
    refine ⟨by simp, ?_⟩
    intro e' h'
    simp only [Except.error.injEq] at h'
    rw [candidate_plain g w tow ls i now] at he
    rw [← h']; exact plain_err he
  | case2 i utc hu hle e he =>
    rw [wnoLoop, hu]
    simp only [dif_pos hle, he]
    refine ⟨by simp, ?_⟩
    intro e' h'
    simp only [Except.error.injEq] at h'
    rw [← h']; exact mkInstant_err he
  | case3 i utc hu hle nxt hn hgt =>
    rw [wnoLoop, hu]
    simp only [dif_pos hle, hn, if_pos hgt]
    refine ⟨?_, by simp⟩
    intro r hr'
    simp only [Except.ok.injEq] at hr'
    rw [candidate_plain g w tow ls i now] at hu
    obtain ⟨-, hn'⟩ := mkInstant_ok.mp hn
    have : weekCycle g * 7 * usDay = weekCycle g * weekUs := by
      rw [weekUs_val, show usDay = 86400000000 from rfl]; ring
    rw [this] at hn'
    refine ⟨i, le_refl _, hr' ▸ hu, by omega, ?_⟩
    intro j h1 h2; omega
  | case4 i utc hu hle nxt hn hgt ih =>
    rw [wnoLoop, hu]
    simp only [dif_pos hle, hn, if_neg hgt]
    refine ⟨?_, ih.2⟩
    intro r hr'
    obtain ⟨k, h1, h2, h3, h4⟩ := ih.1 r hr'
    rw [candidate_plain g w tow ls i now] at hu
    obtain ⟨-, hn'⟩ := mkInstant_ok.mp hn
    have : weekCycle g * 7 * usDay = weekCycle g * weekUs := by
      rw [weekUs_val, show usDay = 86400000000 from rfl]; ring
    rw [this] at hn'
    refine ⟨k, by omega, h2, h3, ?_⟩
    intro j hj1 hj2
    rcases eq_or_lt_of_le hj1 with he | hl
    · rw [← he]; exact ⟨utc, hu, by omega⟩
    · exact h4 j hl hj2
  | case5 i utc hu hle =>
    rw [wnoLoop, hu]
    simp only [dif_neg hle]
    refine ⟨by simp, ?_⟩
    intro e' h'
    simp only [Except.error.injEq] at h'
    exact h'.symm

theorem auto_loop (w tow : Int) (ls : Option Int) (g : Gnss) (modwno : Bool) (now : Int) :
    wnotow2utc w tow ls g true modwno now
      = wnoLoop (weekZero g) (weekCycle g) (if modwno then w % weekCycle g else w)
          (tow % 604800000) ls g now (weekCycle_pos g) 0 := by
  unfold wnotow2utc
  simp only [epochOf_eq, if_true]

/-- The loop stops with a result at the first suitable count when nothing overflows before. -/
theorem loop_stop (g : Gnss) (w tow : Int) (ls : Option Int) (now : Int)
    (hr : 0 < weekCycle g) (k : Nat) (r : Int)
    (hk : wnotow2utc (w + k * weekCycle g) tow ls g false false now = .ok r)
    (hd : IsDatetime (r + weekCycle g * weekUs)) (hgt : now < r + weekCycle g * weekUs)
    (d : Nat) : ∀ i, i + d = k →
    (∀ j, i ≤ j → j < k → ∃ c, wnotow2utc (w + j * weekCycle g) tow ls g false false now = .ok c ∧
          c + weekCycle g * weekUs ≤ now ∧ IsDatetime (c + weekCycle g * weekUs)) →
    wnoLoop (weekZero g) (weekCycle g) w (tow % 604800000) ls g now hr i = .ok r := by
  have hR : weekCycle g * 7 * usDay = weekCycle g * weekUs := by
    rw [weekUs_val, show usDay = 86400000000 from rfl]; ring
  have hle : ∀ (j : Nat) (c : Int), wnotow2utc (w + j * weekCycle g) tow ls g false false now = .ok c →
      weekZero g + (w + j * weekCycle g) * 7 * usDay + (tow % 604800000) * 1000 ≤ maxInstant := by
    intro j c hc
    have h1 := (plain_ok.mp hc).1
    have e : weekZero g + (w + j * weekCycle g) * 7 * usDay + (tow % 604800000) * 1000
      = gnssInstant g (w + j * weekCycle g) (tow % 604800000) := by
      unfold gnssInstant; rw [weekUs_val, show usDay = 86400000000 from rfl]; ring
    rw [e]; simpa using h1.2
  induction d with
  | zero =>
    intro i hi _
    have hi : i = k := by omega
    subst hi
    rw [wnoLoop, candidate_plain g w tow ls i now, hk]
    simp only [dif_pos (hle _ _ hk), hR, mkInstant_of hd]
    rw [if_pos hgt]
  | succ d ih =>
    intro i hi hj
    obtain ⟨c, hc, hc1, hc2⟩ := hj i (le_refl _) (by omega)
    rw [wnoLoop, candidate_plain g w tow ls i now, hc]
    simp only [dif_pos (hle _ _ hc), hR, mkInstant_of hc2]
    rw [if_neg (by omega)]
    exact ih (i + 1) (by omega) (fun j h1 h2 => hj j (by omega) h2)

end Nmea
