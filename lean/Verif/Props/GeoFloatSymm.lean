import Verif.Props.GeoFloatExists
/-!
# The order of the two points in floating point (C70)

Swapping the two points gives bit for bit the same distance and the same area, or the same exception, for all
arguments whatsoever: nan, infinities and points off the globe included.
-/
namespace Nmea.GeoF
open Py PyFloat

theorem ofRat_negated (q : Rat) (h : q ≠ 0) : ofRat (-q) = (ofRat q).neg := by
  unfold ofRat ofMag PyFloat.neg
  rcases lt_or_gt_of_ne h with hq | hq
  · have : ¬ -q < 0 := by linarith
    simp only [this, hq, decide_true, decide_false, if_true, if_false]
    split <;> simp_all
  · have h1 : -q < 0 := by linarith
    have h2 : ¬ q < 0 := by linarith
    simp only [h1, h2, decide_true, decide_false, if_true, if_false, neg_neg]
    split <;> simp_all

/-- `y - x` is `x - y` or its negation. -/
theorem sub_swap (x y : PyFloat) : y.sub x = x.sub y ∨ y.sub x = (x.sub y).neg := by
  cases x with
  | nan => cases y <;> exact .inl rfl
  | inf s =>
    cases y with
    | nan => exact .inl rfl
    | inf t => cases s <;> cases t <;> first | exact .inl rfl | exact .inr rfl
    | fin t b => cases s <;> exact .inr rfl
  | fin s a =>
    cases y with
    | nan => exact .inl rfl
    | inf t => cases t <;> exact .inr rfl
    | fin t b =>
      have e1 : toRat (.fin t b) + toRat (.fin (!s) a) = -(toRat (.fin s a) + toRat (.fin (!t) b)) := by
        cases s <;> cases t <;> simp [toRat] <;> ring
      show (if toRat (.fin t b) + toRat (.fin (!s) a) = 0 then PyFloat.fin (t && !s) 0 else ofRat _) =
          (if toRat (.fin s a) + toRat (.fin (!t) b) = 0 then PyFloat.fin (s && !t) 0 else ofRat _) ∨
        (if toRat (.fin t b) + toRat (.fin (!s) a) = 0 then PyFloat.fin (t && !s) 0 else ofRat _) =
          (if toRat (.fin s a) + toRat (.fin (!t) b) = 0 then PyFloat.fin (s && !t) 0 else ofRat _).neg
      rw [e1]
      by_cases h : toRat (.fin s a) + toRat (.fin (!t) b) = 0
      · rw [h]
        cases s <;> cases t <;> simp [PyFloat.neg]
      · rw [if_neg (neg_ne_zero.mpr h), if_neg h]
        exact .inr (ofRat_negated _ h)

theorem abs_sub_swap (x y : PyFloat) : (y.sub x).abs = (x.sub y).abs := by
  rcases sub_swap x y with h | h <;> rw [h]
  cases x.sub y <;> rfl

theorem mul_swap (x y : PyFloat) : x.mul y = y.mul x := by
  cases x with
  | nan => cases y <;> rfl
  | inf s =>
    cases y with
    | nan => rfl
    | inf t => cases s <;> cases t <;> rfl
    | fin t b => cases s <;> cases t <;> rfl
  | fin s a =>
    cases y with
    | nan => rfl
    | inf t => cases s <;> cases t <;> rfl
    | fin t b =>
      show ofMag (s != t) (a * b) = ofMag (t != s) (b * a)
      rw [mul_comm a b]
      cases s <;> cases t <;> rfl

theorem math1_error {f : PyFloat → PyFloat} {x : PyFloat} {e : Err} (h : math1 f x = .error e) : e = .value := by
  unfold math1 at h
  split at h <;> simp_all

theorem rad_ok (c : PyFloat) : ∃ p, rad c = .ok p := by
  unfold rad lit PyFloat.div
  simp

theorem math1_even {f : PyFloat → PyFloat} (hf : ∀ x, f x.neg = f x) (x y : PyFloat) :
    math1 f (y.sub x) = math1 f (x.sub y) := by
  rcases sub_swap x y with h | h
  · rw [h]
  · rw [h]
    unfold math1
    rw [hf]
    generalize x.sub y = z
    generalize f z = r
    cases z <;> cases r <;> rfl

/-- Two computations that can only fail with the same error may be run in either order. -/
theorem bind_swap {α β γ : Type} {A : Except Err α} {B : Except Err β} (e : Err) (hA : ∀ x, A = .error x → x = e)
    (hB : ∀ x, B = .error x → x = e) (k : α → β → Except Err γ) :
    (do let a ← A; let b ← B; k a b) = (do let b ← B; let a ← A; k a b) := by
  cases A with
  | error x =>
    cases B with
    | error y => rw [hA x rfl, hB y rfl]; rfl
    | ok b => rfl
  | ok a =>
    cases B with
    | error y => rfl
    | ok b => rfl

/-- C70. The area between two points does not depend on their order, bit for bit: whatever the arguments and whatever the
C library computes. -/
theorem C70_area_symmetric (lib : Libm) (lat1 lon1 lat2 lon2 radius : PyFloat) :
    area lib lat2 lon2 lat1 lon1 radius = area lib lat1 lon1 lat2 lon2 radius := by
  obtain ⟨p1, e1⟩ := rad_ok lat1
  obtain ⟨p2, e2⟩ := rad_ok lat2
  unfold area
  rw [e1, e2]
  show (do let r2 ← square lib radius; _) = (do let r2 ← square lib radius; _)
  congr 1
  funext r2
  rw [bind_swap .value (fun _ => math1_error) (fun _ => math1_error)]
  simp only [abs_sub_swap lon1 lon2]
  congr 1
  funext s1
  congr 1
  funext s2
  rw [abs_sub_swap s1 s2]

/-- C70. The great-circle distance between two points does not depend on their order, bit for bit, whatever the arguments,
provided the C library's cosine is even. -/
theorem C70_haversine_symmetric (lib : Libm) (hcos : ∀ x, lib.cos x.neg = lib.cos x)
    (lat1 lon1 lat2 lon2 radius : PyFloat) :
    haversine lib lat2 lon2 lat1 lon1 radius = haversine lib lat1 lon1 lat2 lon2 radius := by
  obtain ⟨p1, e1⟩ := rad_ok lat1
  obtain ⟨p2, e2⟩ := rad_ok lat2
  obtain ⟨l1, e3⟩ := rad_ok lon1
  obtain ⟨l2, e4⟩ := rad_ok lon2
  unfold haversine
  rw [e1, e2, e3, e4]
  show (do let cd ← math1 lib.cos (p1.sub p2); _) = (do let cd ← math1 lib.cos (p2.sub p1); _)
  rw [math1_even hcos p2 p1]
  congr 1
  funext cd
  rw [bind_swap .value (fun _ => math1_error) (fun _ => math1_error), math1_even hcos l2 l1]
  congr 1
  funext c1
  congr 1
  funext c2
  rw [mul_swap c2 c1]

/-- C70. Along a parallel the planar distance does not depend on the order of the points either, bit for bit, whatever
the C library computes. (Between different latitudes it does: the cosine is that of the first.) -/
theorem C70_planar_symmetric (lib : Libm) (lat lon1 lon2 radius : PyFloat) :
    planar lib lat lon2 lat lon1 radius = planar lib lat lon1 lat lon2 radius := by
  obtain ⟨p, e1⟩ := rad_ok lat
  obtain ⟨l1, e3⟩ := rad_ok lon1
  obtain ⟨l2, e4⟩ := rad_ok lon2
  unfold planar
  rw [e1, e3, e4]
  show (do let c1 ← math1 lib.cos p; _) = (do let c1 ← math1 lib.cos p; _)
  congr 1
  funext c1
  have h : ((l1.sub l2).mul c1).mul ((l1.sub l2).mul c1) = ((l2.sub l1).mul c1).mul ((l2.sub l1).mul c1) := by
    rcases sub_swap l2 l1 with h | h <;> rw [h]
    generalize l2.sub l1 = z
    have hn : z.neg.mul c1 = (z.mul c1).neg := by
      cases z with
      | nan => cases c1 <;> rfl
      | inf s =>
        cases c1 with
        | nan => rfl
        | inf t => cases s <;> cases t <;> rfl
        | fin t b =>
          show (if b = 0 then PyFloat.nan else .inf ((!s) != t)) = (if b = 0 then PyFloat.nan else .inf (s != t)).neg
          split <;> cases s <;> cases t <;> rfl
      | fin s a =>
        cases c1 with
        | nan => rfl
        | inf t =>
          show (if a = 0 then PyFloat.nan else .inf ((!s) != t)) = (if a = 0 then PyFloat.nan else .inf (s != t)).neg
          split <;> cases s <;> cases t <;> rfl
        | fin t b =>
          show ofMag ((!s) != t) (a * b) = (ofMag (s != t) (a * b)).neg
          unfold ofMag
          dsimp only
          split <;> cases s <;> cases t <;> rfl
    rw [hn]
    cases z.mul c1 with
    | nan => rfl
    | inf s => cases s <;> rfl
    | fin s a => cases s <;> rfl
  simp only [h]

/-- C70. There is a library of the assumed accuracy whose cosine is even. -/
theorem C70_even_exists : ∃ lib, Accurate lib ∧ ∀ x : PyFloat, lib.cos x.neg = lib.cos x := by
  refine ⟨roundedLib, roundedLib_accurate, fun x => ?_⟩
  have h : val x.neg = -val x := by
    unfold val
    cases x with
    | nan => simp [PyFloat.neg, toRat]
    | inf s => simp [PyFloat.neg, toRat]
    | fin s m => cases s <;> simp [PyFloat.neg, toRat]
  show rounded (Real.cos (val x.neg)) _ = rounded (Real.cos (val x)) _
  rw [h, Real.cos_neg]

end Nmea.GeoF
