import Verif.Spec.GnssTime
import Verif.Lemmas.Float
/-!
# Lemmas on the GNSS time functions
-/
set_option linter.unusedSimpArgs false
namespace Nmea
open Py

theorem maxInstant_val : maxInstant = 255611289599999999 := by decide
theorem minInstant_val : minInstant = -59926608000000000 := by decide

theorem abs_bound {t : Int} (h : |t| ≤ 2 ^ 60) : |(t : ℚ) / 1000000| ≤ 2 ^ (64 : ℕ) := by
  have : |(t : ℚ)| ≤ 2 ^ 60 := by exact_mod_cast h
  rw [abs_div]
  rw [div_le_iff₀ (by norm_num)]
  refine le_trans this ?_
  norm_num

theorem totalSeconds_eq {t : Int} (h : |t| ≤ 2 ^ 60) :
    totalSeconds t = PyFloat.rnd ((t : ℚ) / 1000000) :=
  PyFloat.toRat_ofRat (abs_bound h)

/-- Whole-second comparisons survive the rounding of `total_seconds`. -/
theorem le_totalSeconds {t k : Int} (h : |t| ≤ 2 ^ 60) (k0 : 1 ≤ k) (k1 : k < 2 ^ 32) :
    (k : ℚ) ≤ totalSeconds t ↔ k * 1000000 ≤ t := by
  rw [totalSeconds_eq h]
  constructor
  · intro hk
    by_contra hlt
    have hlt : t ≤ k * 1000000 - 1 := by omega
    have hq : (t : ℚ) / 1000000 ≤ (k : ℚ) - 1 / 2 ^ 20 := by
      rw [div_le_iff₀ (by norm_num)]
      have : (t : ℚ) ≤ k * 1000000 - 1 := by exact_mod_cast hlt
      refine le_trans this ?_
      rw [sub_mul]; norm_num; linarith
    have hF : IsF64 |(k : ℚ) - 1 / 2 ^ 20| := by
      have hk1 : (1 : ℚ) ≤ k := by exact_mod_cast k0
      rw [abs_of_nonneg (by norm_num; linarith)]
      obtain ⟨n, hn⟩ : ∃ n : ℕ, (n : ℤ) = k * 2 ^ 20 - 1 := ⟨(k * 2 ^ 20 - 1).toNat, by omega⟩
      refine ⟨n, -20, by omega, by norm_num, ?_⟩
      have : (n : ℚ) = (k : ℚ) * 2 ^ 20 - 1 := by exact_mod_cast hn
      rw [this, show (2 : ℚ) ^ (-20 : ℤ) = 1 / 2 ^ 20 by norm_num]
      ring
    have h1 := PyFloat.rnd_mono hq
    rw [PyFloat.rnd_exact hF] at h1
    have : (0 : ℚ) < 1 / 2 ^ 20 := by norm_num
    linarith
  · intro hk
    have hq : (k : ℚ) ≤ (t : ℚ) / 1000000 := by
      rw [le_div_iff₀ (by norm_num)]; exact_mod_cast hk
    have h1 := PyFloat.rnd_mono hq
    rwa [PyFloat.rnd_int (by rw [abs_of_pos (by omega)]; omega)] at h1

/-! ## The leap-second table -/

/-- Keys increase and values count up from `v`. -/
def Stair : List (Int × Int) → Int → Prop
  | [], _ => True
  | (k, w) :: r, v => w = v ∧ (∀ x ∈ r, k ≤ x.1) ∧ Stair r (v + 1)

theorem stair_max : ∀ (l : List (Int × Int)) (v : Int), Stair l v → ∀ (t : Int),
    ((l.filter fun kv => decide (kv.1 * 1000000 ≤ t)).map Prod.snd).max?
      = if (l.filter fun kv => decide (kv.1 * 1000000 ≤ t)) = [] then none
        else some (v - 1 + ((l.filter fun kv => decide (kv.1 * 1000000 ≤ t)).length : Int))
  | [], v, _, t => by simp
  | (k, w) :: r, v, h, t => by
    obtain ⟨hw, hk, hr⟩ := h
    have ih := stair_max r (v + 1) hr t
    by_cases hkt : k * 1000000 ≤ t
    · rw [List.filter_cons_of_pos (by simpa using hkt)]
      simp only [List.map_cons, List.max?_cons, ih, List.length_cons]
      by_cases he : (r.filter fun kv => decide (kv.1 * 1000000 ≤ t)) = []
      · simp [he, hw]
      · rw [if_neg he]
        simp only [Option.elim_some, hw]
        rw [if_neg (by simp)]
        congr 1
        push_cast
        omega
    · rw [List.filter_cons_of_neg (by simpa using hkt)]
      have he : (r.filter fun kv => decide (kv.1 * 1000000 ≤ t)) = [] := by
        rw [List.filter_eq_nil_iff]
        intro x hx
        have := hk x hx
        simp only [decide_eq_true_eq]
        intro hle
        apply hkt
        omega
      simp [he]

instance stairDec : ∀ l v, Decidable (Stair l v)
  | [], _ => isTrue trivial
  | (_, _) :: r, v => by
    have := stairDec r (v + 1)
    unfold Stair; infer_instance

theorem leap_stair : Stair LEAPSECONDS 10 := by decide

theorem leap_keys : ∀ kv ∈ LEAPSECONDS, 1 ≤ kv.1 ∧ kv.1 < 2 ^ 32 := by decide

theorem leap_dates : LEAPSECONDS.map (fun kv => kv.1 * 1000000)
    = leapDates.map (fun d => midnight d.1 d.2) := by decide +kernel

theorem filter_len (t : Int) :
    (LEAPSECONDS.filter fun kv => decide (kv.1 * 1000000 ≤ t)).length
      = (leapDates.filter fun d => decide (midnight d.1 d.2 ≤ t)).length := by
  have e1 : (LEAPSECONDS.filter fun kv => decide (kv.1 * 1000000 ≤ t)).length
      = ((LEAPSECONDS.map (fun kv => kv.1 * 1000000)).filter (fun x => decide (x ≤ t))).length := by
    rw [List.filter_map, List.length_map]; rfl
  have e2 : (leapDates.filter fun d => decide (midnight d.1 d.2 ≤ t)).length
      = ((leapDates.map (fun d => midnight d.1 d.2)).filter (fun x => decide (x ≤ t))).length := by
    rw [List.filter_map, List.length_map]; rfl
  rw [e1, e2, leap_dates]

theorem filter_total (t : Int) (h : |t| ≤ 2 ^ 60) :
    (LEAPSECONDS.filter fun kv => decide ((kv.1 : ℚ) ≤ totalSeconds t))
      = LEAPSECONDS.filter fun kv => decide (kv.1 * 1000000 ≤ t) := by
  apply List.filter_congr
  intro kv hkv
  obtain ⟨a, b⟩ := leap_keys kv hkv
  simp only [decide_eq_decide]
  exact le_totalSeconds h a b

theorem lastLeap_eq {t : Int} (h : |t| ≤ 2 ^ 60) :
    lastLeap t = if t < midnight 1972 1 then none else some (taiUtc t) := by
  unfold lastLeap
  rw [filter_total t h, stair_max _ _ leap_stair t]
  have hl := filter_len t
  have h0 : midnight 1972 1 = 2272060800 * 1000000 := by decide
  by_cases ht : t < midnight 1972 1
  · rw [if_pos ht, if_pos]
    rw [List.filter_eq_nil_iff]
    intro x hx
    have : ∀ kv ∈ LEAPSECONDS, (2272060800 : Int) ≤ kv.1 := by decide
    have := this x hx
    simp only [decide_eq_true_eq]
    omega
  · rw [if_neg ht, if_neg]
    · unfold taiUtc; rw [hl]; congr 1
    · intro he
      have hm : ((2272060800 : Int), (10 : Int)) ∈ LEAPSECONDS := by decide
      rw [List.filter_eq_nil_iff] at he
      have := he _ hm
      simp only [decide_eq_true_eq] at this
      omega

theorem taiUtc_mono {s t : Int} (h : s ≤ t) : taiUtc s ≤ taiUtc t := by
  unfold taiUtc
  have : (leapDates.filter fun d => decide (midnight d.1 d.2 ≤ s)).length
      ≤ (leapDates.filter fun d => decide (midnight d.1 d.2 ≤ t)).length := by
    apply List.Sublist.length_le
    apply List.monotone_filter_right
    intro d hd
    simp only [decide_eq_true_eq] at hd ⊢
    omega
  omega

theorem taiUtc_le (t : Int) : taiUtc t ≤ 37 := by
  unfold taiUtc
  have : (leapDates.filter fun d => decide (midnight d.1 d.2 ≤ t)).length ≤ 28 :=
    le_trans (List.length_filter_le _ _) (by decide)
  omega

theorem taiUtc_ge (t : Int) : 9 ≤ taiUtc t := by unfold taiUtc; omega

theorem leapsecond_eq {t : Int} (h : |t| ≤ 2 ^ 60) (g : Gnss) :
    leapsecond t g = .ok (if t < midnight 1972 1 then 0 else taiUtc t - taiMinus g) := by
  have hk := le_totalSeconds (k := 2272060800) h (by norm_num) (by norm_num)
  have h0 : midnight 1972 1 = 2272060800 * 1000000 := by decide
  have hb : lastLeap (if g = .bds then EPOCH0_BEIDOU else EPOCH0_GPS) = some (taiMinus g) := by
    unfold taiMinus
    split
    · rw [lastLeap_eq (by decide)]; decide +kernel
    · rw [lastLeap_eq (by decide)]; decide +kernel
  unfold leapsecond
  by_cases ht : t < midnight 1972 1
  · rw [if_pos, if_pos ht]
    rw [← not_le]
    intro hc
    have := hk.mp (by exact_mod_cast hc)
    omega
  · rw [if_neg, if_neg ht]
    · rw [lastLeap_eq h, if_neg ht, hb]
    · rw [not_lt]
      have := hk.mpr (by omega)
      exact_mod_cast this

end Nmea
