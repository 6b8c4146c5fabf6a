import Verif.Lemmas.Datum
import Verif.Lemmas.GeoGuess
/-!
# How good the first guess of `ecef2llh` is, for any ellipsoid of the Earth

As `Lemmas/GeoGuess.lean`: `x` is the squared sine of the true latitude, `t` is `ε N / (N + h)`, `u` is `r / (N + h)`, `q`
is `√(1 - ε x)`, `R = q / u` and `P = 1 / u²`.
-/
namespace Nmea.Datum
open Real
open Nmea.Geo (mul_near shrink)

structure Est (ε x t u q R P : ℝ) : Prop where
  e0 : 0.00663 ≤ ε
  e1 : ε ≤ 0.006815
  x0 : 0 ≤ x
  x1 : x ≤ 1
  t0 : 0 ≤ t
  t1 : t ≤ 0.00693
  u0 : 0 < u
  uu : u ^ 2 = 1 - 2 * t * x + t ^ 2 * x
  q0 : 0 < q
  qq : q ^ 2 = 1 - ε * x
  hR : R * u = q
  hP : P * u ^ 2 = 1

variable {ε x t u q R P : ℝ}

theorem Est.tx (h : Est ε x t u q R P) : 0 ≤ t * x ∧ t * x ≤ 0.00693 := by
  obtain ⟨-, -, x0, x1, t0, t1, -⟩ := h
  constructor
  · positivity
  · nlinarith

theorem Est.u_bounds (h : Est ε x t u q R P) : 1 - t * x ≤ u ∧ u ≤ 1 - t * x + 0.127 * t ^ 2 ∧ u ≤ 1 ∧ 0.993 ≤ u := by
  obtain ⟨a, b⟩ := h.tx
  obtain ⟨-, -, x0, x1, t0, t1, u0, uu, -⟩ := h
  have h1 : 1 - t * x ≤ u := by
    apply le_of_sq_le_sq _ u0.le
    rw [uu]
    have : 0 ≤ t ^ 2 * (x * (1 - x)) := by
      have : 0 ≤ x * (1 - x) := mul_nonneg x0 (by linarith)
      positivity
    nlinarith
  have h2 : u ≤ 1 - t * x + 0.127 * t ^ 2 := by
    apply le_of_sq_le_sq _ (by nlinarith [sq_nonneg t])
    rw [uu]
    have h4 : x * (1 - x) ≤ 1 / 4 := by nlinarith [sq_nonneg (x - 1 / 2)]
    have : t ^ 2 * (x * (1 - x)) ≤ t ^ 2 * (1 / 4) := mul_le_mul_of_nonneg_left h4 (sq_nonneg t)
    have h5 : t ^ 2 * (t * x) ≤ t ^ 2 * 0.00693 := mul_le_mul_of_nonneg_left b (sq_nonneg t)
    nlinarith [sq_nonneg (t ^ 2), sq_nonneg t]
  refine ⟨h1, h2, ?_, by linarith⟩
  apply le_of_sq_le_sq _ (by norm_num)
  rw [uu]
  nlinarith
where
  le_of_sq_le_sq {a b : ℝ} (h : a ^ 2 ≤ b ^ 2) (hb : 0 ≤ b) : a ≤ b := by
    by_contra hn
    nlinarith

theorem Est.q_bounds (h : Est ε x t u q R P) : 1 - 0.5 * ε * x - 0.0000063 ≤ q ∧ q ≤ 1 - 0.5 * ε * x ∧ q ≤ 1 := by
  obtain ⟨e1, e2⟩ : 0.00663 ≤ ε ∧ ε ≤ 0.006815 := ⟨h.e0, h.e1⟩
  obtain ⟨-, -, x0, x1, t0, t1, u0, uu, q0, qq, -⟩ := h
  have hx : 0 ≤ ε * x := by positivity
  have hx1 : ε * x ≤ 0.006815 := by nlinarith
  have hle : ∀ {a b : ℝ}, a ^ 2 ≤ b ^ 2 → 0 ≤ b → a ≤ b := by
    intro a b h hb
    by_contra hn
    nlinarith
  refine ⟨?_, ?_, ?_⟩
  · apply hle _ q0.le
    rw [qq]
    nlinarith
  · apply hle _ (by linarith)
    rw [qq]
    nlinarith
  · apply hle _ (by norm_num)
    rw [qq]
    linarith

theorem Est.R_bounds (h : Est ε x t u q R P) :
    1 + t * x - 0.5 * ε * x - 0.00006 ≤ R ∧ R ≤ 1 + t * x - 0.5 * ε * x + 0.00006 ∧ 0.9965 ≤ R ∧ R ≤ 1.007 := by
  obtain ⟨e1, e2⟩ : 0.00663 ≤ ε ∧ ε ≤ 0.006815 := ⟨h.e0, h.e1⟩
  obtain ⟨a, b⟩ := h.tx
  obtain ⟨u1, u2, u3, u4⟩ := h.u_bounds
  obtain ⟨q1, q2, q3⟩ := h.q_bounds
  obtain ⟨-, -, x0, x1, t0, t1, u0, uu, q0, qq, hR, hP⟩ := h
  have hx : 0 ≤ ε * x := by positivity
  have hx1 : ε * x ≤ 0.006815 := by nlinarith
  have ht2 : t ^ 2 ≤ 0.00693 ^ 2 := pow_le_pow_left₀ t0 t1 2
  have hR' : R = q / u := by rw [eq_div_iff u0.ne']; exact hR
  set y := t * x with hy
  set v := ε * x with hv
  have e5 : 0.5 * ε * x = 0.5 * v := by rw [hv]; ring
  rw [e5] at q1 q2 ⊢
  have l1 : 1 + y - 0.5 * v - 0.00006 ≤ R := by
    rw [hR', le_div_iff₀ u0]
    have : (1 + y - 0.5 * v - 0.00006) * u ≤ (1 + y - 0.5 * v - 0.00006) * (1 - y + 0.127 * t ^ 2) :=
      mul_le_mul_of_nonneg_left u2 (by linarith)
    nlinarith [mul_nonneg a hx]
  have l2 : R ≤ 1 + y - 0.5 * v + 0.00006 := by
    rw [hR', div_le_iff₀ u0]
    have : (1 + y - 0.5 * v + 0.00006) * (1 - y) ≤ (1 + y - 0.5 * v + 0.00006) * u :=
      mul_le_mul_of_nonneg_left u1 (by linarith)
    nlinarith [mul_nonneg a hx]
  exact ⟨l1, l2, by linarith, by linarith⟩

theorem Est.P_bounds (h : Est ε x t u q R P) :
    1 + 2 * (t * x) - 0.0002 ≤ P ∧ P ≤ 1 + 2 * (t * x) + 0.0002 ∧ 1 ≤ P ∧ P ≤ 1.0142 := by
  obtain ⟨a, b⟩ := h.tx
  obtain ⟨u1, u2, u3, u4⟩ := h.u_bounds
  obtain ⟨-, -, x0, x1, t0, t1, u0, uu, q0, qq, hR, hP⟩ := h
  have hP' : P = 1 / u ^ 2 := by rw [eq_div_iff (by positivity)]; exact hP
  have hu2 : 0 < u ^ 2 := by positivity
  set y := t * x with hy
  have htx : 0 ≤ t ^ 2 * x := by positivity
  have ht2 : t ^ 2 ≤ 0.00693 ^ 2 := pow_le_pow_left₀ t0 t1 2
  have htx1 : t ^ 2 * x ≤ 0.00693 ^ 2 := by nlinarith [sq_nonneg t]
  have uu' : u ^ 2 = 1 - 2 * y + t ^ 2 * x := by rw [uu, hy]; ring
  have l1 : 1 + 2 * y - 0.0002 ≤ P := by
    rw [hP', le_div_iff₀ hu2, uu']
    nlinarith
  have l2 : P ≤ 1 + 2 * y + 0.0002 := by
    rw [hP', div_le_iff₀ hu2, uu']
    nlinarith
  have l3 : 1 ≤ P := by
    rw [hP', le_div_iff₀ hu2]
    nlinarith
  exact ⟨l1, l2, l3, by linarith⟩

/-- The squared sine of the direction of the point. -/
theorem Est.X_bounds (h : Est ε x t u q R P) :
    x - 0.01386 ≤ x * (1 - t) ^ 2 * P ∧ x * (1 - t) ^ 2 * P ≤ x ∧ 0 ≤ x * (1 - t) ^ 2 * P ∧
      1 - 2 * t + 2 * (t * x) - 0.0003 ≤ (1 - t) ^ 2 * P ∧ (1 - t) ^ 2 * P ≤ 1 - 2 * t + 2 * (t * x) + 0.0003 ∧
      x * (1 - t) ^ 2 * P + (1 - x) * P = 1 := by
  obtain ⟨a, b⟩ := h.tx
  obtain ⟨p1, p2, p3, p4⟩ := h.P_bounds
  obtain ⟨-, -, x0, x1, t0, t1, u0, uu, q0, qq, hR, hP⟩ := h
  have ht : 0 ≤ (1 - t) ^ 2 := sq_nonneg _
  have hle : (1 - t) ^ 2 * P ≤ 1 := by
    have hu : (1 - t) ^ 2 ≤ u ^ 2 := by
      rw [uu]
      nlinarith [mul_nonneg t0 (by linarith : (0:ℝ) ≤ 1 - x)]
    calc (1 - t) ^ 2 * P ≤ u ^ 2 * P := mul_le_mul_of_nonneg_right hu (by linarith)
      _ = 1 := by rw [mul_comm]; exact hP
  have hge : 1 - 2 * t ≤ (1 - t) ^ 2 * P := by nlinarith
  refine ⟨?_, ?_, ?_, ?_, ?_, ?_⟩
  · nlinarith
  · nlinarith
  · have : 0 ≤ P := by linarith
    positivity
  · have : (1 - 2 * t) * P ≤ (1 - t) ^ 2 * P := mul_le_mul_of_nonneg_right (by nlinarith) (by linarith)
    have ht2 : t * (t * x) ≤ 0.00693 * 0.00693 := mul_le_mul t1 b a (by norm_num)
    nlinarith
  · have : (1 - t) ^ 2 * P ≤ (1 - t) ^ 2 * (1 + 2 * (t * x) + 0.0002) := mul_le_mul_of_nonneg_left p2 ht
    have ht2 : 0 ≤ t * (t * x) := mul_nonneg t0 a
    have ht3 : t ^ 2 ≤ 0.00693 ^ 2 := pow_le_pow_left₀ t0 t1 2
    have ht4 : t ^ 2 * (t * x) ≤ 0.00693 ^ 2 * 0.00693 := mul_le_mul ht3 b a (by norm_num)
    nlinarith
  · have : x * (1 - t) ^ 2 * P + (1 - x) * P = P * u ^ 2 := by rw [uu]; ring
    rw [this, hP]

theorem Est.R2 (h : Est ε x t u q R P) : |R ^ 2 - 1| ≤ 0.0142 ∧ R ^ 2 ≤ 1.0142 ∧ 0 ≤ R ^ 2 ∧ |R - 1| ≤ 0.007 := by
  obtain ⟨r1, r2, r3, r4⟩ := h.R_bounds
  rw [abs_le, abs_le]
  refine ⟨⟨by nlinarith, by nlinarith⟩, by nlinarith, by positivity, by linarith, by linarith⟩

theorem quarter (x0 : 0 ≤ x) (x1 : x ≤ 1) (t0 : 0 ≤ t) (t1 : t ≤ 0.00693) : 0.5 * (t * x) * (1 - x) ≤ 0.125 * 0.00693 := by
  have : x * (1 - x) ≤ 1 / 4 := by nlinarith [sq_nonneg (x - 1 / 2)]
  have h0 : 0 ≤ x * (1 - x) := mul_nonneg x0 (by linarith)
  have : t * (x * (1 - x)) ≤ 0.00693 * (1 / 4) := mul_le_mul t1 this h0 (by norm_num)
  linarith

/-- The middle factor of the correction in the first branch. -/
theorem Est.b1 (h : Est ε x t u q R P) :
    |R + t * R ^ 2 + x * (1 - t) ^ 2 * P * (ε / 2 * R - 5 / 2 * (t * R ^ 2)) - (1 + t - 1.5 * (t * x))| ≤ 0.001 := by
  obtain ⟨e1, e2⟩ : 0.00663 ≤ ε ∧ ε ≤ 0.006815 := ⟨h.e0, h.e1⟩
  obtain ⟨a, b⟩ := h.tx
  obtain ⟨r1, r2, r3, r4⟩ := h.R_bounds
  obtain ⟨s1, s2, s3, s4⟩ := h.R2
  obtain ⟨X1, X2, X3, -, -, -⟩ := h.X_bounds
  obtain ⟨-, -, x0, x1, t0, t1, u0, uu, q0, qq, hR, hP⟩ := h
  set X := x * (1 - t) ^ 2 * P with hX
  have hXx : |X - x| ≤ 0.01386 := by rw [abs_le]; constructor <;> linarith
  have hXa : |X| ≤ 1 := by rw [abs_of_nonneg X3]; linarith
  have hx1 : |x| ≤ 1 := by rw [abs_of_nonneg x0]; exact x1
    -- the three second-order terms
  have k1 : |t * R ^ 2 - t| ≤ 0.00693 * 0.0142 := by
    have : t * R ^ 2 - t = t * (R ^ 2 - 1) := by ring
    rw [this, abs_mul, abs_of_nonneg t0]
    exact mul_le_mul t1 s1 (abs_nonneg _) (by norm_num)
  have k2 : |X * R - x * 1| ≤ 0.01386 * 1.007 + 1 * 0.007 :=
    mul_near hXx s4 (by rw [abs_of_nonneg (by linarith)]; exact r4) hx1
  have k3 : |X * R ^ 2 - x * 1| ≤ 0.01386 * 1.0142 + 1 * 0.0142 :=
    mul_near hXx s1 (by rw [abs_of_nonneg s3]; exact s2) hx1
  have k4 : |ε / 2 * (X * R - x * 1)| ≤ 0.0034075 * (0.01386 * 1.007 + 1 * 0.007) := by
    rw [abs_mul, abs_of_nonneg (by linarith : (0:ℝ) ≤ ε / 2)]
    exact mul_le_mul (by linarith) k2 (abs_nonneg _) (by norm_num)
  have k5 : |5 / 2 * t * (X * R ^ 2 - x * 1)| ≤ 5 / 2 * 0.00693 * (0.01386 * 1.0142 + 1 * 0.0142) := by
    rw [abs_mul, abs_of_nonneg (by linarith : (0:ℝ) ≤ 5 / 2 * t)]
    exact mul_le_mul (by linarith) k3 (abs_nonneg _) (by norm_num)
  rw [abs_le] at k1 k4 k5 ⊢
  have e : R + t * R ^ 2 + X * (ε / 2 * R - 5 / 2 * (t * R ^ 2)) - (1 + t - 1.5 * (t * x)) =
      (R - (1 + t * x - 0.5 * ε * x)) + (t * R ^ 2 - t) + ε / 2 * (X * R - x * 1) - 5 / 2 * t * (X * R ^ 2 - x * 1) := by
    ring
  rw [e]
  constructor <;> linarith [k1.1, k1.2, k4.1, k4.2, k5.1, k5.2]

set_option maxHeartbeats 2000000 in
/-- The first branch: the guessed sine is the true sine times a factor close to one. -/
theorem Est.branch1 (h : Est ε x t u q R P) :
    |(1 - t) * (1 + k1 ε (t * R) (x * (1 - t) ^ 2 * P) ((1 - x) * P)) - u| ≤ 0.00245 * t := by
  obtain ⟨a, b⟩ := h.tx
  obtain ⟨u1, u2, u3, u4⟩ := h.u_bounds
  obtain ⟨p1, p2, p3, p4⟩ := h.P_bounds
  have hb := h.b1
  obtain ⟨-, -, x0, x1, t0, t1, u0, uu, q0, qq, hR, hP⟩ := h
  set B := R + t * R ^ 2 + x * (1 - t) ^ 2 * P * (ε / 2 * R - 5 / 2 * (t * R ^ 2)) with hB
  have hk : k1 ε (t * R) (x * (1 - t) ^ 2 * P) ((1 - x) * P) = t * ((1 - x) * (P * B)) := by
    unfold k1
    rw [hB]
    ring
  rw [hk]
  have hPB : |P * B - (1 + 2 * (t * x)) * (1 + t - 1.5 * (t * x))| ≤ 0.0002 * 1.008 + 1.01386 * 0.001 := by
    apply mul_near
    · rw [abs_le]; constructor <;> linarith
    · exact hb
    · rw [abs_le] at hb ⊢
      constructor <;> linarith [hb.1, hb.2]
    · rw [abs_le]; constructor <;> linarith
  set η := P * B - (1 + t + 0.5 * (t * x)) with hη
  have hη' : |η| ≤ 0.0014 := by
    rw [abs_le] at hPB ⊢
    have e : η = (P * B - (1 + 2 * (t * x)) * (1 + t - 1.5 * (t * x))) + 2 * (t * x) * (t - 1.5 * (t * x)) := by
      rw [hη]; ring
    have f1 : 0 ≤ t * (t * x) := mul_nonneg t0 a
    have f2 : t * (t * x) ≤ 0.00693 * 0.00693 := mul_le_mul t1 b a (by norm_num)
    have f3 : (t * x) * (t * x) ≤ 0.00693 * 0.00693 := mul_le_mul b b a (by norm_num)
    have f4 : 0 ≤ (t * x) * (t * x) := mul_nonneg a a
    have f5 : 2 * (t * x) * (t - 1.5 * (t * x)) = 2 * (t * (t * x)) - 3 * (t * x * (t * x)) := by ring
    rw [e, f5]
    constructor <;> linarith [hPB.1, hPB.2]
  have hPB' : P * B = 1 + t + 0.5 * (t * x) + η := by rw [hη]; ring
  rw [hPB']
  have e : (1 - t) * (1 + t * ((1 - x) * (1 + t + 0.5 * (t * x) + η))) - u =
      -(u - (1 - t * x)) + t * ((1 - x) * (0.5 * (t * x) + (-t ^ 2 - 0.5 * t * (t * x) + η * (1 - t)))) := by ring
  rw [e]
  have ht2 : t ^ 2 ≤ 0.00693 * t := by rw [pow_two]; exact mul_le_mul_of_nonneg_right t1 t0
  have g1 : |0.5 * (t * x) * (1 - x)| ≤ 0.125 * 0.00693 := by
    rw [abs_of_nonneg (mul_nonneg (by linarith) (by linarith))]
    exact quarter x0 x1 t0 t1
  have g2 : |-t ^ 2 - 0.5 * t * (t * x) + η * (1 - t)| ≤ 0.00148 := by
    have m1 : |η * (1 - t)| ≤ 0.0014 * 1 := by
      rw [abs_mul]
      exact mul_le_mul hη' (by rw [abs_le]; constructor <;> linarith) (abs_nonneg _) (by norm_num)
    have f1 : 0 ≤ t * (t * x) := mul_nonneg t0 a
    have f2 : t * (t * x) ≤ 0.00693 * 0.00693 := mul_le_mul t1 b a (by norm_num)
    rw [abs_le] at m1 ⊢
    have f3 : 0 ≤ t ^ 2 := sq_nonneg t
    have f4 : t ^ 2 ≤ 0.00693 ^ 2 := pow_le_pow_left₀ t0 t1 2
    have f5 : 0.5 * t * (t * x) = 0.5 * (t * (t * x)) := by ring
    rw [f5]
    constructor <;> linarith [m1.1, m1.2]
  have g3 : |(1 - x) * (-t ^ 2 - 0.5 * t * (t * x) + η * (1 - t))| ≤ 0.00148 :=
    shrink (by linarith) (by linarith) g2
  -- upper and lower estimate separately: the two quadratic terms have opposite sign
  have g5 : 0 ≤ 0.5 * (t * x) * (1 - x) := mul_nonneg (by linarith) (by linarith)
  have split : t * ((1 - x) * (0.5 * (t * x) + (-t ^ 2 - 0.5 * t * (t * x) + η * (1 - t)))) =
      t * (0.5 * (t * x) * (1 - x)) + t * ((1 - x) * (-t ^ 2 - 0.5 * t * (t * x) + η * (1 - t))) := by ring
  rw [split]
  set G := (1 - x) * (-t ^ 2 - 0.5 * t * (t * x) + η * (1 - t))
  set H := 0.5 * (t * x) * (1 - x)
  rw [abs_le] at g1 g3 ⊢
  have i1 : t * G ≤ t * 0.00148 := mul_le_mul_of_nonneg_left g3.2 t0
  have i2 : t * (-0.00148) ≤ t * G := mul_le_mul_of_nonneg_left g3.1 t0
  have i3 : t * H ≤ t * (0.125 * 0.00693) := mul_le_mul_of_nonneg_left g1.2 t0
  have i4 : 0 ≤ t * H := mul_nonneg t0 g5
  constructor <;> linarith

/-- The middle factor of the correction in the second branch. -/
theorem Est.b2 (h : Est ε x t u q R P) :
    |R + ε / 2 * R - t * R ^ 2 - (1 - x) * P * (ε / 2 * R - 5 / 2 * (t * R ^ 2)) - (1 + 1.5 * t - 1.5 * (t * x))| ≤ 0.001 := by
  obtain ⟨e1, e2⟩ : 0.00663 ≤ ε ∧ ε ≤ 0.006815 := ⟨h.e0, h.e1⟩
  obtain ⟨a, b⟩ := h.tx
  obtain ⟨r1, r2, r3, r4⟩ := h.R_bounds
  obtain ⟨s1, s2, s3, s4⟩ := h.R2
  obtain ⟨X1, X2, X3, -, -, X6⟩ := h.X_bounds
  obtain ⟨-, -, x0, x1, t0, t1, u0, uu, q0, qq, hR, hP⟩ := h
  set X := x * (1 - t) ^ 2 * P with hX
  have hY : (1 - x) * P = 1 - X := by linarith
  rw [hY]
  have hXx : |X - x| ≤ 0.01386 := by rw [abs_le]; constructor <;> linarith
  have hx1 : |x| ≤ 1 := by rw [abs_of_nonneg x0]; exact x1
  have k1 : |t * R ^ 2 - t| ≤ 0.00693 * 0.0142 := by
    have : t * R ^ 2 - t = t * (R ^ 2 - 1) := by ring
    rw [this, abs_mul, abs_of_nonneg t0]
    exact mul_le_mul t1 s1 (abs_nonneg _) (by norm_num)
  have k2 : |X * R - x * 1| ≤ 0.01386 * 1.007 + 1 * 0.007 :=
    mul_near hXx s4 (by rw [abs_of_nonneg (by linarith)]; exact r4) hx1
  have k3 : |X * R ^ 2 - x * 1| ≤ 0.01386 * 1.0142 + 1 * 0.0142 :=
    mul_near hXx s1 (by rw [abs_of_nonneg s3]; exact s2) hx1
  have k4 : |ε / 2 * (X * R - x * 1)| ≤ 0.0034075 * (0.01386 * 1.007 + 1 * 0.007) := by
    rw [abs_mul, abs_of_nonneg (by linarith : (0:ℝ) ≤ ε / 2)]
    exact mul_le_mul (by linarith) k2 (abs_nonneg _) (by norm_num)
  have k5 : |5 / 2 * t * (X * R ^ 2 - x * 1)| ≤ 5 / 2 * 0.00693 * (0.01386 * 1.0142 + 1 * 0.0142) := by
    rw [abs_mul, abs_of_nonneg (by linarith : (0:ℝ) ≤ 5 / 2 * t)]
    exact mul_le_mul (by linarith) k3 (abs_nonneg _) (by norm_num)
  rw [abs_le] at k1 k4 k5 ⊢
  have e : R + ε / 2 * R - t * R ^ 2 - (1 - X) * (ε / 2 * R - 5 / 2 * (t * R ^ 2)) - (1 + 1.5 * t - 1.5 * (t * x)) =
      (R - (1 + t * x - 0.5 * ε * x)) + 3 / 2 * (t * R ^ 2 - t) + ε / 2 * (X * R - x * 1) - 5 / 2 * t * (X * R ^ 2 - x * 1) := by
    ring
  rw [e]
  constructor <;> linarith [k1.1, k1.2, k4.1, k4.2, k5.1, k5.2]

set_option maxHeartbeats 2000000 in
/-- The second branch: the guessed cosine is the true cosine times a factor close to one. -/
theorem Est.branch2 (h : Est ε x t u q R P) :
    |1 - k2 ε (t * R) (x * (1 - t) ^ 2 * P) ((1 - x) * P) - u| ≤ 0.00245 * t := by
  obtain ⟨a, b⟩ := h.tx
  obtain ⟨u1, u2, u3, u4⟩ := h.u_bounds
  obtain ⟨-, -, -, X4, X5, -⟩ := h.X_bounds
  have hb := h.b2
  obtain ⟨-, -, x0, x1, t0, t1, u0, uu, q0, qq, hR, hP⟩ := h
  set B := R + ε / 2 * R - t * R ^ 2 - (1 - x) * P * (ε / 2 * R - 5 / 2 * (t * R ^ 2)) with hB
  have hk : k2 ε (t * R) (x * (1 - t) ^ 2 * P) ((1 - x) * P) = t * (x * ((1 - t) ^ 2 * P * B)) := by
    unfold k2
    rw [hB]
    ring
  rw [hk]
  have hPB : |(1 - t) ^ 2 * P * B - (1 - 2 * t + 2 * (t * x)) * (1 + 1.5 * t - 1.5 * (t * x))| ≤ 0.0003 * 1.0115 + 1 * 0.001 := by
    apply mul_near
    · rw [abs_le]; constructor <;> linarith
    · exact hb
    · have : t * x ≤ t := mul_le_of_le_one_right t0 x1
      rw [abs_le] at hb ⊢
      constructor <;> linarith [hb.1, hb.2]
    · have : t * x ≤ t := mul_le_of_le_one_right t0 x1
      rw [abs_le]; constructor <;> linarith
  set η := (1 - t) ^ 2 * P * B - (1 - 0.5 * (t * (1 - x))) with hη
  have hη' : |η| ≤ 0.00146 := by
    rw [abs_le] at hPB ⊢
    have e : η = ((1 - t) ^ 2 * P * B - (1 - 2 * t + 2 * (t * x)) * (1 + 1.5 * t - 1.5 * (t * x))) - 3 * (t * (1 - x)) ^ 2 := by
      rw [hη]; ring
    have f0 : 0 ≤ t * (1 - x) := mul_nonneg t0 (by linarith)
    have f1 : t * (1 - x) ≤ 0.00693 := (mul_le_of_le_one_right t0 (by linarith)).trans t1
    have f2 : (t * (1 - x)) ^ 2 ≤ 0.00693 ^ 2 := pow_le_pow_left₀ f0 f1 2
    have f3 : 0 ≤ (t * (1 - x)) ^ 2 := sq_nonneg _
    rw [e]
    constructor <;> linarith [hPB.1, hPB.2]
  have hPB' : (1 - t) ^ 2 * P * B = 1 - 0.5 * (t * (1 - x)) + η := by rw [hη]; ring
  rw [hPB']
  have e : 1 - t * (x * (1 - 0.5 * (t * (1 - x)) + η)) - u =
      -(u - (1 - t * x)) + t * (0.5 * (t * x) * (1 - x)) - t * (x * η) := by ring
  rw [e]
  have ht2 : t ^ 2 ≤ 0.00693 * t := by rw [pow_two]; exact mul_le_mul_of_nonneg_right t1 t0
  have g1 : 0.5 * (t * x) * (1 - x) ≤ 0.125 * 0.00693 := by
    exact quarter x0 x1 t0 t1
  have g5 : 0 ≤ 0.5 * (t * x) * (1 - x) := mul_nonneg (by linarith) (by linarith)
  have g3 : |x * η| ≤ 0.00146 := shrink x0 x1 hη'
  set G := x * η
  set H := 0.5 * (t * x) * (1 - x)
  rw [abs_le] at g3 ⊢
  have i1 : t * G ≤ t * 0.00146 := mul_le_mul_of_nonneg_left g3.2 t0
  have i2 : t * (-0.00146) ≤ t * G := mul_le_mul_of_nonneg_left g3.1 t0
  have i3 : t * H ≤ t * (0.125 * 0.00693) := mul_le_mul_of_nonneg_left g1 t0
  have i4 : 0 ≤ t * H := mul_nonneg t0 g5
  constructor <;> linarith

end Nmea.Datum
