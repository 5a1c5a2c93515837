import Verif.Lemmas.Smooth
import Verif.Props.Inertial
import Verif.Props.Nav

/-! C152: velocities and Eötvös correction on any smooth track (nav.py 8–54, grav.py 194–300 and 457–475). -/

namespace Shipgrav
open Spec Real

/-- **C152.** Velocities of `latlon_to_EN` on a track with eleven continuous derivatives: away from both ends they differ from the true
velocities (radius of curvature times rate of change of the angle) by no more than the eleventh derivative near the sample allows. -/
theorem C152_velocity (lat lon : ℝ → ℝ) (hlat : ContDiff ℝ 11 lat) (hlon : ContDiff ℝ 11 lon) (n : ℕ) (hn : 10 < n) (freq : ℝ) (hq : 0 < freq) :
    ∃ vn ve, latlonToEN (samples (fun k => lon (k / freq)) n) (samples (fun k => lat (k / freq)) n) freq = .ok (vn, ve) ∧
      ∀ i : ℕ, 5 ≤ i → i + 5 < n → ∃ x y : ℝ, vn[i]? = some (some x) ∧ ve[i]? = some (some y) ∧
        (∀ K, (∀ s, |s - i / freq| ≤ 5 / freq → |iteratedDeriv 11 lat s| ≤ K) →
          |x - meridianRadius (rad (lat (i / freq))) * rad (deriv lat (i / freq))| ≤
            |meridianRadius (rad (lat (i / freq)))| * rad (0.0046 * K / freq ^ 10)) ∧
        (∀ K, (∀ s, |s - i / freq| ≤ 5 / freq → |iteratedDeriv 11 lon s| ≤ K) →
          |y - parallelRadius (rad (lat (i / freq))) * rad (deriv lon (i / freq))| ≤
            |parallelRadius (rad (lat (i / freq)))| * rad (0.0046 * K / freq ^ 10)) := by
  refine ⟨_, _, latlon_closed _ _ n hn freq, fun i h5 hi => ?_⟩
  refine ⟨freq * (meridianRadius (rad (lat (i / freq))) * rad (centralDiff10 (fun k => lat (k / freq)) i)),
    freq * (parallelRadius (rad (lat (i / freq))) * rad (centralDiff10 (fun k => lon (k / freq)) i)), ?_, ?_, ?_⟩
  · simp only [samples, List.getElem?_map, List.getElem?_range (show i < n by omega), Option.map_some, Option.some.injEq]
    rw [if_neg (by omega)]
  · simp only [samples, List.getElem?_map, List.getElem?_range (show i < n by omega), Option.map_some, Option.some.injEq]
    rw [if_neg (by omega)]
  have key : ∀ (f : ℝ → ℝ) (M K : ℝ), ContDiff ℝ 11 f → (∀ s, |s - i / freq| ≤ 5 / freq → |iteratedDeriv 11 f s| ≤ K) →
      |freq * (M * rad (centralDiff10 (fun k => f (k / freq)) i)) - M * rad (deriv f (i / freq))| ≤ |M| * rad (0.0046 * K / freq ^ 10) := by
    intro f M K hf hK
    have h := diff10_close f (by exact_mod_cast hf) freq K hq i h5 hK
    unfold rad
    rw [show freq * (M * (centralDiff10 (fun k => f (k / freq)) i * (π / 180))) - M * (deriv f (i / freq) * (π / 180)) =
      M * ((freq * centralDiff10 (fun k => f (k / freq)) i - deriv f (i / freq)) * (π / 180)) by ring, abs_mul, abs_mul,
      abs_of_pos (by positivity : 0 < π / 180)]
    gcongr
  exact ⟨fun K hK => key lat _ K hlat hK, fun K hK => key lon _ K hlon hK⟩

/-- **C152.** `center_diff` of a function with three (four) continuous derivatives, sampled `samp` times a second: entry `k` belongs to
sample `k + 1` and is within `K / (6 samp²)` of the derivative (within `K / (12 samp²)` of the second derivative). -/
theorem C152_difference (f : ℝ → ℝ) (n : ℕ) (samp : ℝ) (hs : 0 < samp) :
    (ContDiff ℝ 3 f → ∃ d, centerDiff (series n fun k => f (k / samp)) 1 samp = .val (series (n - 2) d) ∧ ∀ (k : ℕ) (K : ℝ),
      (∀ s, |s - (k + 1) / samp| ≤ 1 / samp → |iteratedDeriv 3 f s| ≤ K) → |d k - deriv f ((k + 1) / samp)| ≤ K / (6 * samp ^ 2)) ∧
    (ContDiff ℝ 4 f → ∃ d, centerDiff (series n fun k => f (k / samp)) 2 samp = .val (series (n - 2) d) ∧ ∀ (k : ℕ) (K : ℝ),
      (∀ s, |s - (k + 1) / samp| ≤ 1 / samp → |iteratedDeriv 4 f s| ≤ K) → |d k - deriv (deriv f) ((k + 1) / samp)| ≤ K / (12 * samp ^ 2)) := by
  constructor
  · intro hf
    refine ⟨_, by rw [C56_values, if_pos rfl], fun k K hK => ?_⟩
    have h := rate_close f hf samp K hs (k + 1) (by omega) (by push_cast; exact hK)
    unfold rate at h
    push_cast at h
    refine le_trans (le_of_eq ?_) h
    push_cast
    congr 2
    ring_nf
  · intro hf
    refine ⟨_, by rw [C56_values, if_neg (by decide), if_pos rfl], fun k K hK => ?_⟩
    have h := accel_close f hf samp K hs (k + 1) (by omega) (by push_cast; exact hK)
    unfold accel at h
    push_cast at h
    rw [iteratedDeriv_succ, iteratedDeriv_one] at h
    refine le_trans (le_of_eq ?_) h
    push_cast
    congr 2
    ring_nf

private theorem abs_two {x y X Y : ℝ} (hx : |x| ≤ X) (hy : |y| ≤ Y) : |x * y| ≤ X * Y := by
  rw [abs_mul]; exact mul_le_mul hx hy (abs_nonneg _) ((abs_nonneg _).trans hx)

private theorem abs_seven {x1 x2 x3 x4 x5 x6 x7 X1 X2 X3 X4 X5 X6 X7 : ℝ} (h1 : |x1| ≤ X1) (h2 : |x2| ≤ X2) (h3 : |x3| ≤ X3) (h4 : |x4| ≤ X4)
    (h5 : |x5| ≤ X5) (h6 : |x6| ≤ X6) (h7 : |x7| ≤ X7) : |x1 + x2 + x3 + x4 + x5 + x6 + x7| ≤ X1 + X2 + X3 + X4 + X5 + X6 + X7 := by
  rw [abs_le] at *
  constructor <;> linarith

private theorem coef_p (a f r S C s c h : ℝ) (ha : 0 < a) (hf0 : 0 ≤ f) (hf1 : f ≤ 1 / 100) (hr : |r| ≤ a) (hS : |S| ≤ f) (hC : |C| ≤ 1)
    (hs : |s| ≤ 1) (hc : |c| ≤ 1) :
    |2 * f * (a * (c * C)) + -4 * f ^ 2 * (a * (s * c * S)) + -4 * f * (r * (S * s)) + 4 * f ^ 2 * (r * (C * c ^ 2)) + 2 * f * (a * (s * S)) +
        -4 * f * (r * (C * c)) + r * C + h| ≤ 1.1 * a + |h| := by
  have hc2 : |c ^ 2| ≤ 1 := by rw [abs_pow]; exact pow_le_one₀ (abs_nonneg _) hc
  have haa : |a| ≤ a := (abs_of_pos ha).le
  have h2 : |2 * f| ≤ 2 * f := (abs_of_nonneg (by positivity)).le
  have h4 : |-4 * f| ≤ 4 * f := by rw [neg_mul, abs_neg]; exact (abs_of_nonneg (by positivity)).le
  have h5 : |-4 * f ^ 2| ≤ 4 * f ^ 2 := by rw [neg_mul, abs_neg]; exact (abs_of_nonneg (by positivity)).le
  have h6 : |4 * f ^ 2| ≤ 4 * f ^ 2 := (abs_of_nonneg (by positivity)).le
  refine (abs_add_le _ _).trans (add_le_add ?_ le_rfl)
  refine (abs_seven (abs_two h2 (abs_two haa (abs_two hc hC))) (abs_two h5 (abs_two haa (abs_two (abs_two hs hc) hS)))
    (abs_two h4 (abs_two hr (abs_two hS hs))) (abs_two h6 (abs_two hr (abs_two hC hc2))) (abs_two h2 (abs_two haa (abs_two hs hS)))
    (abs_two h4 (abs_two hr (abs_two hC hc))) (abs_two hr hC)).trans ?_
  have hx : 2 * f + 4 * f ^ 2 * f + 4 * f * f + 4 * f ^ 2 + 2 * f * f + 4 * f + 1 ≤ 1.1 := by
    have : f * f ≤ 1 / 100 * (1 / 100) := mul_le_mul hf1 hf1 hf0 (by norm_num)
    have : f * f * f ≤ 1 / 100 * (1 / 100) * (1 / 100) := mul_le_mul this hf1 hf0 (by norm_num)
    nlinarith
  refine le_trans (le_of_eq ?_) (mul_le_mul_of_nonneg_right hx ha.le)
  ring

private theorem coef_q (a f r S C s c : ℝ) (ha : 0 < a) (hf0 : 0 ≤ f) (hf1 : f ≤ 1 / 100) (hr : |r| ≤ a) (hS : |S| ≤ f) (hC : |C| ≤ 1)
    (hs : |s| ≤ 1) (hc : |c| ≤ 1) : |f * (a * (s * C)) + 2 * f * (r * (S * c)) + -1 * (r * S)| ≤ 2.1 * a * f := by
  have haa : |a| ≤ a := (abs_of_pos ha).le
  have h1 : |f| ≤ f := (abs_of_nonneg hf0).le
  have h2 : |2 * f| ≤ 2 * f := (abs_of_nonneg (by positivity)).le
  have h3 : |(-1 : ℝ)| ≤ 1 := by norm_num
  refine (abs_add_le _ _).trans ((add_le_add ((abs_add_le _ _).trans (add_le_add (abs_two h1 (abs_two haa (abs_two hs hC)))
    (abs_two h2 (abs_two hr (abs_two hS hc))))) (abs_two h3 (abs_two hr hS))).trans ?_)
  have : f * f ≤ 1 / 100 * f := mul_le_mul_of_nonneg_right hf1 hf0
  nlinarith

/-- What an error of the rates does to the meridian term. -/
private theorem meridian_lip (a b : ℝ) (hb : 0 < b) (hab : b ≤ a) (hf : (a - b) / a ≤ 1 / 100) (φ p q l h h1 g p' q' l' h1' g' e1 e2 e4 : ℝ)
    (d1 : |p' - p| ≤ e1) (d2 : |q' - q| ≤ e2) (d4 : |g' - g| ≤ e4) :
    |meridianTerm a b ⟨φ, p', q', l', h, h1', g'⟩ - meridianTerm a b ⟨φ, p, q, l, h, h1, g⟩| ≤
      (1.1 * a + |h|) * ((2 * |p| + e1) * e1) + 2.1 * a * ((a - b) / a) * e2 + e4 := by
  have ha : 0 < a := lt_of_lt_of_le hb hab
  obtain ⟨f, hfe⟩ : ∃ f, f = (a - b) / a := ⟨_, rfl⟩
  have hf0 : 0 ≤ f := by rw [hfe]; exact div_nonneg (by linarith) ha.le
  have hf1 : f ≤ 1 / 100 := by rw [hfe]; exact hf
  unfold meridianTerm
  rw [← hfe]
  simp only
  have hr := radius_le a f φ ha hf0 hf1
  have hS := sin_dev f φ hf0
  have hC := abs_cos_le_one (deviation f φ)
  have hs := abs_sin_le_one (2 * φ)
  have hc := abs_cos_le_one (2 * φ)
  generalize radius a f φ = r at *
  generalize sin (deviation f φ) = S at *
  generalize cos (deviation f φ) = C at *
  generalize sin (2 * φ) = s at *
  generalize cos (2 * φ) = c at *
  have key : -(-a * f * (s * q' + 2 * c * p' ^ 2)) * C + 2 * (-a * f * s * p') * S * (2 * f * c * p') +
      r * (S * (2 * f * (c * q' - 2 * s * p' ^ 2)) + C * (2 * f * c * p') ^ 2) - g' +
      2 * p' * (-(-a * f * s * p') * S - r * C * (2 * f * c * p')) + q' * (-r * S) - p' ^ 2 * (-r * C - h) -
      (-(-a * f * (s * q + 2 * c * p ^ 2)) * C + 2 * (-a * f * s * p) * S * (2 * f * c * p) +
      r * (S * (2 * f * (c * q - 2 * s * p ^ 2)) + C * (2 * f * c * p) ^ 2) - g +
      2 * p * (-(-a * f * s * p) * S - r * C * (2 * f * c * p)) + q * (-r * S) - p ^ 2 * (-r * C - h)) =
      (2 * f * (a * (c * C)) + -4 * f ^ 2 * (a * (s * c * S)) + -4 * f * (r * (S * s)) + 4 * f ^ 2 * (r * (C * c ^ 2)) + 2 * f * (a * (s * S)) +
        -4 * f * (r * (C * c)) + r * C + h) * ((2 * p + (p' - p)) * (p' - p)) + (f * (a * (s * C)) + 2 * f * (r * (S * c)) + -1 * (r * S)) * (q' - q) - (g' - g) := by
    ring
  rw [key]
  have hA := coef_p a f r S C s c h ha hf0 hf1 hr hS hC hs hc
  have hB := coef_q a f r S C s c ha hf0 hf1 hr hS hC hs hc
  have hp : |2 * p + (p' - p)| ≤ 2 * |p| + e1 := by
    refine (abs_add_le _ _).trans (add_le_add ?_ d1)
    rw [abs_mul, abs_of_pos (by norm_num : (0 : ℝ) < 2)]
  exact (abs_sub _ _).trans (add_le_add ((abs_add_le _ _).trans (add_le_add (abs_two hA (abs_two hp d1)) (abs_two hB d2))) d4)

private theorem parallel_lip (a b : ℝ) (hb : 0 < b) (hab : b ≤ a) (hf : (a - b) / a ≤ 1 / 100) (φ p q l h h1 g p' q' l' h1' g' e3 : ℝ)
    (d3 : |l' - l| ≤ e3) :
    |parallelTerm a b ⟨φ, p', q', l', h, h1', g'⟩ - parallelTerm a b ⟨φ, p, q, l, h, h1, g⟩| ≤
      (a + |h|) * ((2 * |earthRate + l| + e3) * e3) := by
  have ha : 0 < a := lt_of_lt_of_le hb hab
  obtain ⟨f, hfe⟩ : ∃ f, f = (a - b) / a := ⟨_, rfl⟩
  have hf0 : 0 ≤ f := by rw [hfe]; exact div_nonneg (by linarith) ha.le
  have hf1 : f ≤ 1 / 100 := by rw [hfe]; exact hf
  unfold parallelTerm
  rw [← hfe]
  simp only
  have hr := radius_le a f φ ha hf0 hf1
  have e30 : 0 ≤ e3 := (abs_nonneg _).trans d3
  rw [show ((earthRate + l') ^ 2 - earthRate ^ 2) * cos φ * (radius a f φ * cos (φ - deviation f φ) + h * cos φ) -
      ((earthRate + l) ^ 2 - earthRate ^ 2) * cos φ * (radius a f φ * cos (φ - deviation f φ) + h * cos φ) =
      (cos φ * (radius a f φ * cos (φ - deviation f φ) + h * cos φ)) * ((2 * (earthRate + l) + (l' - l)) * (l' - l)) by ring, abs_mul, abs_mul, abs_mul]
  have h1 : |radius a f φ * cos (φ - deviation f φ) + h * cos φ| ≤ a + |h| := by
    refine (abs_add_le _ _).trans (add_le_add ?_ ?_)
    · rw [abs_mul]
      calc |radius a f φ| * |cos (φ - deviation f φ)| ≤ a * 1 := mul_le_mul hr (abs_cos_le_one _) (abs_nonneg _) ha.le
        _ = a := mul_one a
    · rw [abs_mul]; exact mul_le_of_le_one_right (abs_nonneg _) (abs_cos_le_one _)
  have h2 : |2 * (earthRate + l) + (l' - l)| ≤ 2 * |earthRate + l| + e3 := by
    refine (abs_add_le _ _).trans (add_le_add ?_ d3)
    rw [abs_mul, abs_of_pos (by norm_num : (0 : ℝ) < 2)]
  have h3 : |cos φ| * |radius a f φ * cos (φ - deviation f φ) + h * cos φ| ≤ 1 * (a + |h|) :=
    mul_le_mul (abs_cos_le_one _) h1 (abs_nonneg _) zero_le_one
  rw [one_mul] at h3
  exact mul_le_mul h3 (mul_le_mul h2 d3 (abs_nonneg _) (by positivity)) (by positivity) (by positivity)

private theorem deriv_chain (f : ℝ → ℝ) (hf : ContDiff ℝ 3 f) :
    (∀ s, HasDerivAt f (deriv f s) s) ∧ ∀ s, HasDerivAt (deriv f) (iteratedDeriv 2 f s) s := by
  constructor
  · exact fun s => (hf.differentiable (by norm_num) s).hasDerivAt
  · intro s
    have h := (hf.differentiable_iteratedDeriv 1 (by norm_num) s).hasDerivAt
    rw [← iteratedDeriv_succ, iteratedDeriv_one] at h
    exact h

/-- **C152.** Eötvös correction on any smooth track, sampled `samp` times a second: at every inner sample it is 100000 times the downward
acceleration in space in excess of that at rest, up to the terms of third order in the flattening of C122 and the truncation of the
differences: `e1` for the rate of latitude, `e2` for its second derivative, `e3` for the rate of longitude and `e4` for the vertical
acceleration. -/
theorem C152_eotvos (n : ℕ) (samp a b : ℝ) (hs : 0 < samp) (hb : 0 < b) (hab : b ≤ a) (hf : (a - b) / a ≤ 1 / 100) (hn : 3 ≤ n)
    (lat lon ht : ℝ → ℝ) (hlat : ContDiff ℝ 4 lat) (hlon : ContDiff ℝ 3 lon) (hht : ContDiff ℝ 4 ht) :
    ∃ E : ℕ → ℝ, eotvosFull (series n fun k => lon (k / samp)) (series n fun k => lat (k / samp)) (series n fun k => ht (k / samp)) samp a b =
        .ok (series n E) ∧ ∀ k : ℕ, 1 ≤ k → k + 1 < n → ∀ e1 e2 e3 e4 : ℝ,
      (∀ s, |s - k / samp| ≤ 1 / samp → |rad (iteratedDeriv 3 lat s)| ≤ 6 * samp ^ 2 * e1 ∧ |rad (iteratedDeriv 4 lat s)| ≤ 12 * samp ^ 2 * e2 ∧
        |rad (iteratedDeriv 3 lon s)| ≤ 6 * samp ^ 2 * e3 ∧ |iteratedDeriv 4 ht s| ≤ 12 * samp ^ 2 * e4) →
      |E k - 100000 * excessAcceleration a ((a - b) / a) (fun t => rad (lat t)) (fun t => rad (lon t)) ht (k / samp)| ≤
        100000 * (a * ((a - b) / a) ^ 3 * (5 * rad (deriv lat (k / samp)) ^ 2 + |rad (iteratedDeriv 2 lat (k / samp))|) +
          ((1.1 * a + |ht (k / samp)|) * ((2 * |rad (deriv lat (k / samp))| + e1) * e1) + 2.1 * a * ((a - b) / a) * e2 + e4) +
          (a + |ht (k / samp)|) * ((2 * |earthRate + rad (deriv lon (k / samp))| + e3) * e3)) := by
  refine ⟨_, C54_values n _ _ _ samp a b hn, fun k hk1 hk2 e1 e2 e3 e4 he => ?_⟩
  rw [show min (max k 1) (n - 2) = k by omega]
  have hdeg : ∀ (f : ℝ → ℝ) (j : ℕ) (s : ℝ), iteratedDeriv j (fun t => rad (f t)) s = rad (iteratedDeriv j f s) := fun f j s => by
    unfold rad
    exact iteratedDeriv_mul_const_field f (π / 180)
  have hdeg1 : ∀ (f : ℝ → ℝ) (s : ℝ), deriv (fun t => rad (f t)) s = rad (deriv f s) := fun f s => by
    rw [← iteratedDeriv_one, hdeg, iteratedDeriv_one]
  have hrc : ∀ (f : ℝ → ℝ) (m : ℕ), ContDiff ℝ m f → ContDiff ℝ m (fun t => rad (f t)) := fun f m h => by
    unfold rad
    exact h.mul contDiff_const
  have c1 := rate_close (fun t => rad (lat t)) (hrc lat 3 (hlat.of_le (by norm_num))) samp (6 * samp ^ 2 * e1) hs k hk1
    (fun s h => by rw [hdeg]; exact (he s h).1)
  have c2 := accel_close (fun t => rad (lat t)) (hrc lat 4 hlat) samp (12 * samp ^ 2 * e2) hs k hk1
    (fun s h => by rw [hdeg]; exact (he s h).2.1)
  have c3 := rate_close (fun t => rad (lon t)) (hrc lon 3 hlon) samp (6 * samp ^ 2 * e3) hs k hk1
    (fun s h => by rw [hdeg]; exact (he s h).2.2.1)
  have c4 := accel_close ht hht samp (12 * samp ^ 2 * e4) hs k hk1 (fun s h => (he s h).2.2.2)
  rw [mul_div_cancel_left₀ _ (by positivity), hdeg1] at c1 c3
  rw [mul_div_cancel_left₀ _ (by positivity)] at c2 c4
  rw [hdeg] at c2
  obtain ⟨φ0, φ1⟩ := deriv_chain _ (hrc lat 3 (hlat.of_le (by norm_num)))
  obtain ⟨L0, L1⟩ := deriv_chain _ (hrc lon 3 hlon)
  obtain ⟨H0, H1⟩ := deriv_chain ht (hht.of_le (by norm_num))
  have hx := excess_eq φ0 φ1 a ((a - b) / a) _ ht _ _ _ _ L0 L1 H0 H1 (k / samp)
  obtain ⟨m, hm⟩ : ∃ m : Motion, m = ⟨rad (lat (k / samp)), rad (deriv lat (k / samp)), rad (iteratedDeriv 2 lat (k / samp)),
    rad (deriv lon (k / samp)), ht (k / samp), deriv ht (k / samp), iteratedDeriv 2 ht (k / samp)⟩ := ⟨_, rfl⟩
  have hc := meridian_close a b hb hab hf m
  have hl1 := meridian_lip a b hb hab hf (rad (lat (k / samp))) _ _ (rad (deriv lon (k / samp))) (ht (k / samp)) (deriv ht (k / samp)) _ _ _
    (rate (fun i => rad (lon (i / samp))) samp k) (rate (fun i => ht (i / samp)) samp k) _ e1 e2 e4 c1 c2 c4
  have hl2 := parallel_lip a b hb hab hf (rad (lat (k / samp))) (rad (deriv lat (k / samp))) (rad (iteratedDeriv 2 lat (k / samp))) _
    (ht (k / samp)) (deriv ht (k / samp)) (iteratedDeriv 2 ht (k / samp)) (rate (fun i => rad (lat (i / samp))) samp k)
    (accel (fun i => rad (lat (i / samp))) samp k) _ (rate (fun i => ht (i / samp)) samp k) (accel (fun i => ht (i / samp)) samp k) e3 c3
  have hmk : motionAt (fun k => lon (k / samp)) (fun k => lat (k / samp)) (fun k => ht (k / samp)) samp k =
      ⟨rad (lat (k / samp)), rate (fun i => rad (lat (i / samp))) samp k, accel (fun i => rad (lat (i / samp))) samp k,
        rate (fun i => rad (lon (i / samp))) samp k, ht (k / samp), rate (fun i => ht (i / samp)) samp k, accel (fun i => ht (i / samp)) samp k⟩ := rfl
  rw [hmk, hx, eotvos, ← mul_sub, abs_mul, abs_of_pos (by norm_num : (0 : ℝ) < 100000)]
  refine mul_le_mul_of_nonneg_left ?_ (by norm_num)
  rw [← hm] at hl1 hl2
  have hp : parallelTerm a b m = ((rad (deriv lon (k / samp)) + earthRate) ^ 2 - earthRate ^ 2) * cos (rad (lat (k / samp))) *
      axisDistance a ((a - b) / a) (rad (lat (k / samp))) (ht (k / samp)) := by
    rw [hm]
    unfold parallelTerm axisDistance
    ring
  simp only [hdeg1, hdeg]
  rw [← hp]
  simp only [hm] at hc
  rw [← hm] at hc
  generalize meridianTerm a b m = M at *
  generalize parallelTerm a b m = P at *
  generalize meridianTerm a b _ = M' at *
  generalize parallelTerm a b _ = P' at *
  refine (le_of_eq (congrArg _ ?_)).trans ((abs_add_le _ _).trans (add_le_add ((abs_add_le _ _).trans (add_le_add hc hl1)) hl2))
  ring

-- a ship on the equator that surges and heaves with the swell, sampled once a second
example := C152_velocity (fun _ => 0) sin contDiff_const contDiff_sin 100 (by norm_num) 1 one_pos
example (i : ℕ) : ∀ s : ℝ, |s - i / 1| ≤ 5 / 1 → |iteratedDeriv 11 sin s| ≤ 1 := fun s _ => abs_iteratedDeriv_sin_le_one 11 s
example := C152_eotvos 100 1 6378137.0 6356752.3142 one_pos (by norm_num) (by norm_num) (by norm_num) (by norm_num) (fun _ => 0) sin sin
  contDiff_const contDiff_sin contDiff_sin
example (k : ℕ) : ∀ s : ℝ, |s - k / 1| ≤ 1 / 1 → |rad (iteratedDeriv 3 (fun _ => (0 : ℝ)) s)| ≤ 6 * 1 ^ 2 * 0 ∧
    |rad (iteratedDeriv 4 (fun _ => (0 : ℝ)) s)| ≤ 12 * 1 ^ 2 * 0 ∧
    |rad (iteratedDeriv 3 sin s)| ≤ 6 * 1 ^ 2 * (π / 180 / 6) ∧ |iteratedDeriv 4 sin s| ≤ 12 * 1 ^ 2 * (1 / 12) := by
  intro s _
  refine ⟨by simp [rad], by simp [rad], ?_, ?_⟩
  · unfold rad
    rw [abs_mul, abs_of_pos (by positivity : 0 < π / 180)]
    have := mul_le_mul_of_nonneg_right (abs_iteratedDeriv_sin_le_one 3 s) (by positivity : 0 ≤ π / 180)
    linarith
  · have := abs_iteratedDeriv_sin_le_one 4 s
    linarith

end Shipgrav
