import Verif.Lemmas.Inertial
import Verif.Props.Eotvos

/-! Property theorem C122: the Eotvos correction is an acceleration in space. -/

namespace Shipgrav
open Spec Real

/-- What is left out of the rates of the deviation. -/
private theorem rates_close (f u d1 d2 p q w : ℝ) (hf0 : 0 ≤ f) (hua : |u| ≤ f) (hd1a : |d1| ≤ 2 * f * |p|)
    (hd2a : |d2| ≤ 2 * f * (|q| + 2 * p ^ 2)) (hw : w = 1 + u ^ 2) :
    |d1 - d1 / w| ≤ 2 * f ^ 3 * |p| ∧ |d2 - (d2 / w - 2 * u * d1 ^ 2 / w ^ 2)| ≤ 2 * f ^ 3 * |q| + 12 * f ^ 3 * p ^ 2 ∧
      |d1 ^ 2 - (d1 / w) ^ 2| ≤ 8 * f ^ 4 * p ^ 2 := by
  have hw1 : 1 ≤ w := by rw [hw]; nlinarith [sq_nonneg u]
  have hw0 : 0 < w := by linarith
  have hp2 : |p| * |p| = p ^ 2 := by rw [← abs_mul, ← sq, abs_of_nonneg (sq_nonneg p)]
  have hu2 : u ^ 2 ≤ f ^ 2 := by rw [← sq_abs]; exact pow_le_pow_left₀ (abs_nonneg _) hua 2
  have hd12 : d1 ^ 2 ≤ 4 * f ^ 2 * p ^ 2 := by
    rw [← sq_abs]
    refine (pow_le_pow_left₀ (abs_nonneg _) hd1a 2).trans (le_of_eq ?_)
    rw [mul_pow, mul_pow, sq_abs]
    ring
  have hδ1 : |d1 - d1 / w| ≤ 2 * f ^ 3 * |p| := by
    have : d1 - d1 / w = d1 * (u ^ 2 / w) := by rw [hw]; field_simp; ring
    rw [this, abs_mul, abs_of_nonneg (by positivity : 0 ≤ u ^ 2 / w)]
    have h1 : u ^ 2 / w ≤ f ^ 2 := (div_le_self (sq_nonneg u) hw1).trans hu2
    calc |d1| * (u ^ 2 / w) ≤ (2 * f * |p|) * f ^ 2 := mul_le_mul hd1a h1 (by positivity) (by positivity)
      _ = 2 * f ^ 3 * |p| := by ring
  have hδ2 : |d2 - (d2 / w - 2 * u * d1 ^ 2 / w ^ 2)| ≤ 2 * f ^ 3 * |q| + 12 * f ^ 3 * p ^ 2 := by
    have : d2 - (d2 / w - 2 * u * d1 ^ 2 / w ^ 2) = d2 * (u ^ 2 / w) + 2 * u * d1 ^ 2 / w ^ 2 := by rw [hw]; field_simp; ring
    rw [this]
    refine (abs_add_le _ _).trans ?_
    rw [abs_mul, abs_of_nonneg (by positivity : 0 ≤ u ^ 2 / w), abs_div, abs_mul, abs_mul, abs_of_pos (by norm_num : (0 : ℝ) < 2),
      abs_of_nonneg (sq_nonneg d1), abs_of_pos (by positivity : 0 < w ^ 2)]
    have h1 : u ^ 2 / w ≤ f ^ 2 := (div_le_self (sq_nonneg u) hw1).trans hu2
    have h2 : |d2| * (u ^ 2 / w) ≤ 2 * f * (|q| + 2 * p ^ 2) * f ^ 2 := mul_le_mul hd2a h1 (by positivity) (by positivity)
    have h3 : 2 * |u| * d1 ^ 2 / w ^ 2 ≤ 2 * f * (4 * f ^ 2 * p ^ 2) :=
      (div_le_self (by positivity) (one_le_pow₀ hw1)).trans (mul_le_mul (by linarith) hd12 (sq_nonneg _) (by positivity))
    nlinarith
  have hδs : |d1 ^ 2 - (d1 / w) ^ 2| ≤ 8 * f ^ 4 * p ^ 2 := by
    rw [show d1 ^ 2 - (d1 / w) ^ 2 = (d1 - d1 / w) * (d1 + d1 / w) by ring, abs_mul]
    have h1 : |d1 + d1 / w| ≤ 2 * (2 * f * |p|) := by
      refine (abs_add_le _ _).trans ?_
      have : |d1 / w| ≤ |d1| := by rw [abs_div, abs_of_pos hw0]; exact div_le_self (abs_nonneg _) hw1
      linarith
    calc |d1 - d1 / w| * |d1 + d1 / w| ≤ (2 * f ^ 3 * |p|) * (2 * (2 * f * |p|)) := mul_le_mul hδ1 h1 (abs_nonneg _) (by positivity)
      _ = 8 * f ^ 4 * (|p| * |p|) := by ring
      _ = _ := by rw [hp2]
  exact ⟨hδ1, hδ2, hδs⟩

theorem sin_dev (f φ : ℝ) (hf0 : 0 ≤ f) : |sin (deviation f φ)| ≤ f := by
  have hua : |f * sin (2 * φ)| ≤ f := by rw [abs_mul, abs_of_nonneg hf0]; exact mul_le_of_le_one_right hf0 (abs_sin_le_one _)
  unfold deviation
  generalize f * sin (2 * φ) = u at *
  rw [sin_arctan, abs_div, abs_of_pos (sqrt_pos.mpr (by positivity))]
  refine (div_le_self (abs_nonneg _) ?_).trans hua
  rw [one_le_sqrt]
  nlinarith [sq_nonneg u]

theorem radius_le (a f φ : ℝ) (ha : 0 < a) (hf0 : 0 ≤ f) (hf1 : f ≤ 1 / 100) : |radius a f φ| ≤ a := by
  unfold radius
  have h1 : 0 ≤ sin φ ^ 2 := sq_nonneg _
  have h2 : sin φ ^ 2 ≤ 1 := sin_sq_le_one φ
  have h3 : f * sin φ ^ 2 ≤ 1 := by nlinarith
  have h4 : 0 ≤ f * sin φ ^ 2 := by positivity
  rw [abs_mul, abs_of_pos ha, abs_of_nonneg (by linarith)]
  nlinarith

private theorem parts_close (a f p q r r1 r2 S C d1 d2 e1 e2 h h2 : ℝ) (ha : 0 < a) (hf0 : 0 ≤ f) (hf1 : f ≤ 1 / 100) (hr : |r| ≤ a)
    (hr1 : |r1| ≤ a * f * |p|) (hsD : |S| ≤ f) (hcD : |C| ≤ 1) (hδ1 : |d1 - e1| ≤ 2 * f ^ 3 * |p|)
    (hδ2 : |d2 - e2| ≤ 2 * f ^ 3 * |q| + 12 * f ^ 3 * p ^ 2) (hδs : |d1 ^ 2 - e1 ^ 2| ≤ 8 * f ^ 4 * p ^ 2) :
    |-r2 * C + 2 * r1 * S * d1 + r * (S * d2 + C * d1 ^ 2) - h2 + 2 * p * (-r1 * S - r * C * d1) + q * (-r * S) - p ^ 2 * (-r * C - h) -
        ((r * (p - e1) ^ 2 - r2) * C - (2 * r1 * (p - e1) + r * (q - e2)) * S - h2 + h * p ^ 2)| ≤
      a * f ^ 3 * (5 * p ^ 2 + |q|) := by
  have hp2 : |p| * |p| = p ^ 2 := by rw [← abs_mul, ← sq, abs_of_nonneg (sq_nonneg p)]
  obtain ⟨x1, hx1⟩ : ∃ x1, x1 = d1 - e1 := ⟨_, rfl⟩
  obtain ⟨x2, hx2⟩ : ∃ x2, x2 = d2 - e2 := ⟨_, rfl⟩
  obtain ⟨x3, hx3⟩ : ∃ x3, x3 = d1 ^ 2 - e1 ^ 2 := ⟨_, rfl⟩
  rw [← hx1] at hδ1
  rw [← hx2] at hδ2
  rw [← hx3] at hδs
  have key :
      -r2 * C + 2 * r1 * S * d1 + r * (S * d2 + C * d1 ^ 2) - h2 + 2 * p * (-r1 * S - r * C * d1) + q * (-r * S) - p ^ 2 * (-r * C - h) -
        ((r * (p - e1) ^ 2 - r2) * C - (2 * r1 * (p - e1) + r * (q - e2)) * S - h2 + h * p ^ 2) =
      r * S * x2 + r * C * x3 + (2 * r1 * S - 2 * p * r * C) * x1 := by
    rw [hx1, hx2, hx3]
    ring
  rw [key]
  have t1 : |r * S * x2| ≤ a * f * (2 * f ^ 3 * |q| + 12 * f ^ 3 * p ^ 2) := by
    rw [abs_mul, abs_mul]
    exact mul_le_mul (mul_le_mul hr hsD (abs_nonneg _) ha.le) hδ2 (abs_nonneg _) (by positivity)
  have t2 : |r * C * x3| ≤ a * 1 * (8 * f ^ 4 * p ^ 2) := by
    rw [abs_mul, abs_mul]
    exact mul_le_mul (mul_le_mul hr hcD (abs_nonneg _) ha.le) hδs (abs_nonneg _) (by positivity)
  have t3 : |(2 * r1 * S - 2 * p * r * C) * x1| ≤ (2 * (a * f * |p|) * f + 2 * |p| * a * 1) * (2 * f ^ 3 * |p|) := by
    rw [abs_mul]
    refine mul_le_mul ?_ hδ1 (abs_nonneg _) (by positivity)
    refine (abs_sub _ _).trans (add_le_add ?_ ?_)
    · rw [abs_mul, abs_mul, abs_of_pos (by norm_num : (0 : ℝ) < 2)]
      exact mul_le_mul (mul_le_mul_of_nonneg_left hr1 (by norm_num)) hsD (abs_nonneg _) (by positivity)
    · rw [abs_mul, abs_mul, abs_mul, abs_of_pos (by norm_num : (0 : ℝ) < 2)]
      exact mul_le_mul (mul_le_mul_of_nonneg_left hr (by positivity)) hcD (abs_nonneg _) (by positivity)
  refine ((abs_add_le _ _).trans (add_le_add ((abs_add_le _ _).trans (add_le_add t1 t2)) t3)).trans ?_
  have hexp : a * f * (2 * f ^ 3 * |q| + 12 * f ^ 3 * p ^ 2) + a * 1 * (8 * f ^ 4 * p ^ 2) +
      (2 * (a * f * |p|) * f + 2 * |p| * a * 1) * (2 * f ^ 3 * |p|) =
      a * f ^ 3 * (2 * f * |q| + (20 * f + 4 * f ^ 2 + 4) * (|p| * |p|)) + a * f ^ 3 * 0 + a * f^3 * (p ^ 2 - |p| * |p|) * (20 * f) := by
    ring
  rw [hexp, hp2, mul_zero, add_zero, sub_self, mul_zero, zero_mul, add_zero]
  refine mul_le_mul_of_nonneg_left ?_ (by positivity)
  have h1 : 2 * f * |q| ≤ |q| := by nlinarith [abs_nonneg q]
  have h2 : (20 * f + 4 * f ^ 2 + 4) * p ^ 2 ≤ 5 * p ^ 2 := by
    refine mul_le_mul_of_nonneg_right ?_ (sq_nonneg p)
    nlinarith
  linarith

/-- The rates of the deviation that are used leave out terms of third order in the flattening. -/
theorem meridian_close (a b : ℝ) (hb : 0 < b) (hab : b ≤ a) (hf : (a - b) / a ≤ 1 / 100) (m : Motion) :
    |meridianTerm a b m - (let f := (a - b) / a
       let r := radius a f m.lat
       let r1 := -a * f * sin (2 * m.lat) * m.lat1
       let r2 := -a * f * (sin (2 * m.lat) * m.lat2 + 2 * cos (2 * m.lat) * m.lat1 ^ 2)
       let D := deviation f m.lat
       let D1 := dev1 f m.lat m.lat1
       let D2 := dev2 f m.lat m.lat1 m.lat2
       (r * (m.lat1 - D1) ^ 2 - r2) * cos D - (2 * r1 * (m.lat1 - D1) + r * (m.lat2 - D2)) * sin D - m.ht2 + m.ht * m.lat1 ^ 2)| ≤
      a * ((a - b) / a) ^ 3 * (5 * m.lat1 ^ 2 + |m.lat2|) := by
  have ha : 0 < a := lt_of_lt_of_le hb hab
  obtain ⟨f, hfe⟩ : ∃ f, f = (a - b) / a := ⟨_, rfl⟩
  have hf0 : 0 ≤ f := by rw [hfe]; exact div_nonneg (by linarith) ha.le
  have hf1 : f ≤ 1 / 100 := by rw [hfe]; exact hf
  unfold meridianTerm
  rw [← hfe]
  simp only
  obtain ⟨φ, p, q, _, h, _, h2⟩ := m
  simp only
  obtain ⟨u, hu⟩ : ∃ u, u = f * sin (2 * φ) := ⟨_, rfl⟩
  obtain ⟨d1, hd1⟩ : ∃ d1, d1 = 2 * f * cos (2 * φ) * p := ⟨_, rfl⟩
  obtain ⟨d2, hd2⟩ : ∃ d2, d2 = 2 * f * (cos (2 * φ) * q - 2 * sin (2 * φ) * p ^ 2) := ⟨_, rfl⟩
  have hs1 := abs_sin_le_one (2 * φ)
  have hc1 := abs_cos_le_one (2 * φ)
  have hua : |u| ≤ f := by rw [hu, abs_mul, abs_of_nonneg hf0]; exact mul_le_of_le_one_right hf0 hs1
  have hd1a : |d1| ≤ 2 * f * |p| := by
    rw [hd1, abs_mul, abs_mul, abs_of_nonneg (by positivity : 0 ≤ 2 * f)]
    exact mul_le_mul_of_nonneg_right (mul_le_of_le_one_right (by positivity) hc1) (abs_nonneg _)
  have hd2a : |d2| ≤ 2 * f * (|q| + 2 * p ^ 2) := by
    rw [hd2, abs_mul, abs_of_nonneg (by positivity : 0 ≤ 2 * f)]
    refine mul_le_mul_of_nonneg_left ?_ (by positivity)
    refine (abs_sub _ _).trans (add_le_add ?_ ?_)
    · rw [abs_mul]; exact mul_le_of_le_one_left (abs_nonneg _) hc1
    · rw [abs_mul, abs_mul, abs_of_pos (by norm_num : (0 : ℝ) < 2), abs_of_nonneg (sq_nonneg p)]
      exact mul_le_mul_of_nonneg_right (mul_le_of_le_one_right (by norm_num) hs1) (sq_nonneg p)
  have he1 : dev1 f φ p = d1 / (1 + u ^ 2) := by unfold dev1; rw [hd1, hu]
  have he2 : dev2 f φ p q = d2 / (1 + u ^ 2) - 2 * u * d1 ^ 2 / (1 + u ^ 2) ^ 2 := by unfold dev2; rw [hd1, hd2, hu]
  obtain ⟨hδ1, hδ2, hδs⟩ := rates_close f u d1 d2 p q (1 + u ^ 2) hf0 hua hd1a hd2a rfl
  have hr1 : |(-a * f * sin (2 * φ) * p)| ≤ a * f * |p| := by
    rw [show -a * f * sin (2 * φ) * p = -(a * u * p) by rw [hu]; ring, abs_neg, abs_mul, abs_mul, abs_of_pos ha]
    exact mul_le_mul_of_nonneg_right (mul_le_mul_of_nonneg_left hua ha.le) (abs_nonneg _)
  rw [he1, he2, ← hd1, ← hd2]
  exact parts_close a f p q _ _ _ _ _ d1 d2 _ _ h h2 ha hf0 hf1 (radius_le a f φ ha hf0 hf1) hr1 (sin_dev f φ hf0)
    (abs_cos_le_one _) hδ1 hδ2 hδs

private theorem quad_deriv (c0 c1 c2 s : ℝ) : HasDerivAt (fun s => c0 + c1 * s + c2 * s ^ 2) (c1 + 2 * c2 * s) s := by
  refine HasDerivAt.congr_deriv ((((hasDerivAt_id s).const_mul c1).const_add c0).add (((hasDerivAt_id s).pow 2).const_mul c2)) ?_
  simp
  ring

private theorem quad_deriv1 (c1 c2 s : ℝ) : HasDerivAt (fun s => c1 + 2 * c2 * s) (2 * c2) s :=
  HasDerivAt.congr_deriv (((hasDerivAt_id s).const_mul (2 * c2)).const_add c1) (by simp)

private theorem quad_rate (c0 c1 c2 samp : ℝ) (hs : samp ≠ 0) (k : ℕ) (hk : 1 ≤ k) :
    rate (fun i => c0 + c1 * ((i : ℝ) / samp) + c2 * ((i : ℝ) / samp) ^ 2) samp k = c1 + 2 * c2 * (k / samp) := by
  obtain ⟨j, rfl⟩ : ∃ j, k = j + 1 := ⟨k - 1, by omega⟩
  unfold rate
  simp only [Nat.add_sub_cancel]
  push_cast
  field_simp
  ring

private theorem quad_accel (c0 c1 c2 samp : ℝ) (hs : samp ≠ 0) (k : ℕ) (hk : 1 ≤ k) :
    accel (fun i => c0 + c1 * ((i : ℝ) / samp) + c2 * ((i : ℝ) / samp) ^ 2) samp k = 2 * c2 := by
  obtain ⟨j, rfl⟩ : ∃ j, k = j + 1 := ⟨k - 1, by omega⟩
  unfold accel
  simp only [Nat.add_sub_cancel]
  push_cast
  field_simp
  ring

/-- **C122.** A platform whose latitude, longitude (degrees) and height (metres) are quadratic in time, sampled `samp` times a second: at
every inner sample the correction is 100000 times the downward acceleration in space in excess of that of a platform at rest, up to a term
of third order in the flattening. -/
theorem C122_inertial (n : ℕ) (samp a b : ℝ) (hs : samp ≠ 0) (hb : 0 < b) (hab : b ≤ a) (hf : (a - b) / a ≤ 1 / 100)
    (p0 p1 p2 l0 l1 l2 h0 h1 h2 : ℝ) (hn : 3 ≤ n) (lat lon ht : ℝ → ℝ) (hlat : lat = fun t => p0 + p1 * t + p2 * t ^ 2)
    (hlon : lon = fun t => l0 + l1 * t + l2 * t ^ 2) (hht : ht = fun t => h0 + h1 * t + h2 * t ^ 2) :
    ∃ E : ℕ → ℝ, eotvosFull (series n fun k => lon (k / samp)) (series n fun k => lat (k / samp)) (series n fun k => ht (k / samp)) samp a b =
        .ok (series n E) ∧ ∀ k, 1 ≤ k → k + 1 < n →
      |E k - 100000 * excessAcceleration a ((a - b) / a) (fun t => lat t * (π / 180)) (fun t => lon t * (π / 180)) ht (k / samp)| ≤
        100000 * (a * ((a - b) / a) ^ 3 * (5 * ((p1 + 2 * p2 * (k / samp)) * (π / 180)) ^ 2 + |2 * p2 * (π / 180)|)) := by
  refine ⟨_, C54_values n _ _ _ samp a b hn, fun k hk1 hk2 => ?_⟩
  rw [show min (max k 1) (n - 2) = k by omega]
  obtain ⟨t, htk⟩ : ∃ t : ℝ, t = k / samp := ⟨_, rfl⟩
  have hconv : ∀ c0 c1 c2 : ℝ, (fun i : ℕ => (c0 + c1 * ((i : ℝ) / samp) + c2 * ((i : ℝ) / samp) ^ 2) * (π / 180)) =
      fun i : ℕ => c0 * (π / 180) + c1 * (π / 180) * ((i : ℝ) / samp) + c2 * (π / 180) * ((i : ℝ) / samp) ^ 2 := by
    intro c0 c1 c2; funext i; ring
  obtain ⟨m, hm⟩ : ∃ m, m = motionAt (fun k => lon (k / samp)) (fun k => lat (k / samp)) (fun k => ht (k / samp)) samp k := ⟨_, rfl⟩
  have m0 : m.lat = lat t * (π / 180) := by rw [hm, htk]; rfl
  have m1 : m.lat1 = (p1 + 2 * p2 * t) * (π / 180) := by
    rw [hm]; simp only [motionAt, hlat, hconv]; rw [quad_rate _ _ _ _ hs k hk1, htk]; ring
  have m2 : m.lat2 = 2 * p2 * (π / 180) := by
    rw [hm]; simp only [motionAt, hlat, hconv]; rw [quad_accel _ _ _ _ hs k hk1]; ring
  have m3 : m.lon1 = (l1 + 2 * l2 * t) * (π / 180) := by
    rw [hm]; simp only [motionAt, hlon, hconv]; rw [quad_rate _ _ _ _ hs k hk1, htk]; ring
  have m4 : m.ht = ht t := by rw [hm, htk]; rfl
  have m5 : m.ht2 = 2 * h2 := by
    rw [hm]; simp only [motionAt, hht]; rw [quad_accel _ _ _ _ hs k hk1]
  have hφ : ∀ s, HasDerivAt (fun s => lat s * (π / 180)) ((p1 + 2 * p2 * s) * (π / 180)) s := fun s => by
    rw [hlat]; exact (quad_deriv p0 p1 p2 s).mul_const _
  have hφ1 : ∀ s, HasDerivAt (fun s => (p1 + 2 * p2 * s) * (π / 180)) (2 * p2 * (π / 180)) s := fun s => (quad_deriv1 p1 p2 s).mul_const _
  have hlam : ∀ s, HasDerivAt (fun s => lon s * (π / 180)) ((l1 + 2 * l2 * s) * (π / 180)) s := fun s => by
    rw [hlon]; exact (quad_deriv l0 l1 l2 s).mul_const _
  have hlam1 : ∀ s, HasDerivAt (fun s => (l1 + 2 * l2 * s) * (π / 180)) (2 * l2 * (π / 180)) s := fun s => (quad_deriv1 l1 l2 s).mul_const _
  have hh : ∀ s, HasDerivAt ht (h1 + 2 * h2 * s) s := fun s => by rw [hht]; exact quad_deriv h0 h1 h2 s
  have hx := excess_eq hφ hφ1 a ((a - b) / a) _ ht _ _ _ _ hlam hlam1 hh (fun s => quad_deriv1 h1 h2 s) t
  have hc := meridian_close a b hb hab hf m
  rw [← hm, ← htk, hx, eotvos, parallelTerm, ← mul_sub, abs_mul, abs_of_pos (by norm_num : (0 : ℝ) < 100000)]
  refine mul_le_mul_of_nonneg_left ?_ (by norm_num)
  simp only [m0, m1, m2, m3, m4, m5] at hc ⊢
  refine le_trans (le_of_eq ?_) hc
  congr 1
  unfold axisDistance
  ring

/-- **C122.** On a sphere, and for motion along a parallel on any spheroid, nothing is left out. -/
theorem C122_exact (n : ℕ) (samp a b : ℝ) (hs : samp ≠ 0) (hb : 0 < b) (hab : b ≤ a) (hf : (a - b) / a ≤ 1 / 100)
    (p0 p1 p2 l0 l1 l2 h0 h1 h2 : ℝ) (hcase : a = b ∨ p1 = 0 ∧ p2 = 0) (hn : 3 ≤ n) (lat lon ht : ℝ → ℝ)
    (hlat : lat = fun t => p0 + p1 * t + p2 * t ^ 2) (hlon : lon = fun t => l0 + l1 * t + l2 * t ^ 2)
    (hht : ht = fun t => h0 + h1 * t + h2 * t ^ 2) :
    ∃ E : ℕ → ℝ, eotvosFull (series n fun k => lon (k / samp)) (series n fun k => lat (k / samp)) (series n fun k => ht (k / samp)) samp a b =
        .ok (series n E) ∧ ∀ k, 1 ≤ k → k + 1 < n →
      E k = 100000 * excessAcceleration a ((a - b) / a) (fun t => lat t * (π / 180)) (fun t => lon t * (π / 180)) ht (k / samp) := by
  obtain ⟨E, h1, h2⟩ := C122_inertial n samp a b hs hb hab hf p0 p1 p2 l0 l1 l2 h0 h1 h2 hn lat lon ht hlat hlon hht
  refine ⟨E, h1, fun k hk1 hk2 => ?_⟩
  have := h2 k hk1 hk2
  rw [← sub_eq_zero, ← abs_nonpos_iff]
  refine this.trans (le_of_eq ?_)
  rcases hcase with rfl | ⟨rfl, rfl⟩
  · simp
  · simp

/-! ## Non-vacuity -/

/-- The flattening of the earth is small enough. -/
example : ((6378137.0 : ℝ) - 6356752.3142) / 6378137.0 ≤ 1 / 100 := by norm_num

example := C122_inertial 100 1 6378137.0 6356752.3142 (by norm_num) (by norm_num) (by norm_num) (by norm_num) 30 1e-4 1e-7 (-150) 1e-4 0 10 0 0.01
  (by norm_num) _ _ _ rfl rfl rfl

end Shipgrav
