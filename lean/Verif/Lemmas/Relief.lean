import Mathlib.Analysis.Normed.Ring.InfiniteSum
import Mathlib.Analysis.SpecificLimits.Normed
import Mathlib.Analysis.Analytic.Uniqueness
import Mathlib.Analysis.Analytic.OfScalars
import Mathlib.Algebra.BigOperators.NatAntidiagonal
import Verif.Lemmas.Newton

/-! Newton's law for mass under a relief: the inverse distance as a power series in the height, integrated term by term. -/

namespace Shipgrav
open Real MeasureTheory Set Filter Topology Finset

/-! ### The series of `1/√(1 - z)` -/

/-- Coefficients of `1/√(1 - z)`. -/
noncomputable def rootCoef : ℕ → ℝ
  | 0 => 1
  | n + 1 => rootCoef n * ((2 * n + 1) / (2 * n + 2))

theorem rootCoef_nonneg (n : ℕ) : 0 ≤ rootCoef n := by
  induction n with
  | zero => simp [rootCoef]
  | succ n ih => rw [rootCoef]; positivity

theorem rootCoef_le (n : ℕ) : rootCoef n ≤ 1 := by
  induction n with
  | zero => simp [rootCoef]
  | succ n ih =>
    rw [rootCoef]
    have : ((2 * n + 1 : ℝ) / (2 * n + 2)) ≤ 1 := by rw [div_le_one (by positivity)]; linarith
    exact mul_le_one₀ ih (by positivity) this

private theorem rootCoef_rec (n : ℕ) : 2 * ((n : ℝ) + 1) * rootCoef (n + 1) = (2 * n + 1) * rootCoef n := by
  rw [rootCoef]
  have : (2 * n + 2 : ℝ) ≠ 0 := by positivity
  field_simp

/-- The square of the series is the geometric series. -/
theorem rootCoef_conv (n : ℕ) : ∑ ij ∈ antidiagonal n, rootCoef ij.1 * rootCoef ij.2 = 1 := by
  induction n with
  | zero => simp [rootCoef]
  | succ n ih =>
    have hsw : ∀ m : ℕ, ∑ ij ∈ antidiagonal m, (ij.2 : ℝ) * (rootCoef ij.1 * rootCoef ij.2) =
        ∑ ij ∈ antidiagonal m, (ij.1 : ℝ) * (rootCoef ij.1 * rootCoef ij.2) := by
      intro m
      rw [← Finset.Nat.sum_antidiagonal_swap]
      refine Finset.sum_congr rfl fun ij _ => ?_
      simp only [Prod.fst_swap, Prod.snd_swap]
      ring
    have htot : ∀ m : ℕ, (m : ℝ) * ∑ ij ∈ antidiagonal m, rootCoef ij.1 * rootCoef ij.2 =
        2 * ∑ ij ∈ antidiagonal m, (ij.1 : ℝ) * (rootCoef ij.1 * rootCoef ij.2) := by
      intro m
      rw [two_mul]
      nth_rewrite 2 [← hsw]
      rw [← Finset.sum_add_distrib, Finset.mul_sum]
      refine Finset.sum_congr rfl fun ij hij => ?_
      rw [← mem_antidiagonal.1 hij]
      push_cast
      ring
    have h1 := htot (n + 1)
    rw [Finset.Nat.sum_antidiagonal_succ, Finset.Nat.sum_antidiagonal_succ] at h1
    simp only [Nat.cast_zero, zero_mul, zero_add] at h1
    have h2 : 2 * ∑ ij ∈ antidiagonal n, ((ij.1 + 1 : ℕ) : ℝ) * (rootCoef (ij.1 + 1) * rootCoef ij.2) =
        ∑ ij ∈ antidiagonal n, (2 * (ij.1 : ℝ) + 1) * (rootCoef ij.1 * rootCoef ij.2) := by
      rw [Finset.mul_sum]
      refine Finset.sum_congr rfl fun ij _ => ?_
      have := rootCoef_rec ij.1
      push_cast
      linear_combination rootCoef ij.2 * this
    have h3 : ∑ ij ∈ antidiagonal n, (2 * (ij.1 : ℝ) + 1) * (rootCoef ij.1 * rootCoef ij.2) =
        2 * ∑ ij ∈ antidiagonal n, (ij.1 : ℝ) * (rootCoef ij.1 * rootCoef ij.2) + ∑ ij ∈ antidiagonal n, rootCoef ij.1 * rootCoef ij.2 := by
      rw [Finset.mul_sum, ← Finset.sum_add_distrib]
      refine Finset.sum_congr rfl fun ij _ => ?_
      ring
    rw [Finset.Nat.sum_antidiagonal_succ]
    rw [h2, h3, ← htot n, ih] at h1
    have hn : ((n : ℝ) + 1) ≠ 0 := by positivity
    push_cast at h1
    have : ((n : ℝ) + 1) * (rootCoef 0 * rootCoef (n + 1) + ∑ p ∈ antidiagonal n, rootCoef (p.1 + 1) * rootCoef p.2) = ((n : ℝ) + 1) * 1 := by
      linarith
    exact mul_left_cancel₀ hn this

section
variable {z : ℂ}

private theorem root_norm (hz : ‖z‖ < 1) : Summable fun n => ‖(rootCoef n : ℂ) * z ^ n‖ := by
  refine Summable.of_nonneg_of_le (fun _ => norm_nonneg _) (fun n => ?_) (summable_geometric_of_lt_one (norm_nonneg z) hz)
  rw [norm_mul, norm_pow, Complex.norm_real, norm_of_nonneg (rootCoef_nonneg n)]
  exact mul_le_of_le_one_left (by positivity) (rootCoef_le n)

private noncomputable def root (z : ℂ) : ℂ := ∑' n, (rootCoef n : ℂ) * z ^ n

private theorem root_mul {z' : ℂ} (hz : ‖z‖ < 1) (hz' : ‖z'‖ < 1) :
    HasSum (fun n => ∑ ij ∈ antidiagonal n, ((rootCoef ij.1 : ℂ) * z ^ ij.1) * ((rootCoef ij.2 : ℂ) * z' ^ ij.2)) (root z * root z') := by
  unfold root
  rw [tsum_mul_tsum_eq_tsum_sum_antidiagonal_of_summable_norm (root_norm hz) (root_norm hz')]
  exact (summable_norm_sum_mul_antidiagonal_of_summable_norm (root_norm hz) (root_norm hz')).of_norm.hasSum

private theorem root_sq (hz : ‖z‖ < 1) : root z * root z = (1 - z)⁻¹ := by
  have h := root_mul hz hz
  have e : (fun n => ∑ ij ∈ antidiagonal n, ((rootCoef ij.1 : ℂ) * z ^ ij.1) * ((rootCoef ij.2 : ℂ) * z ^ ij.2)) = fun n => z ^ n := by
    ext n
    have : ∑ ij ∈ antidiagonal n, ((rootCoef ij.1 : ℂ) * z ^ ij.1) * ((rootCoef ij.2 : ℂ) * z ^ ij.2) =
        (∑ ij ∈ antidiagonal n, rootCoef ij.1 * rootCoef ij.2 : ℝ) * z ^ n := by
      push_cast
      rw [Finset.sum_mul]
      refine Finset.sum_congr rfl fun ij hij => ?_
      rw [← mem_antidiagonal.1 hij, pow_add]
      ring
    rw [this, rootCoef_conv]
    simp
  rw [e] at h
  exact h.unique (hasSum_geometric_of_norm_lt_one hz)

private theorem root_conj (z : ℂ) : root ((starRingEnd ℂ) z) = (starRingEnd ℂ) (root z) := by
  unfold root
  rw [Complex.conj_tsum]
  refine tsum_congr fun n => ?_
  simp

private theorem root_abs (hz : ‖z‖ < 1) : root z * root ((starRingEnd ℂ) z) = ((1 / ‖1 - z‖ : ℝ) : ℂ) := by
  rw [root_conj, Complex.mul_conj, Complex.normSq_eq_norm_sq, sq, ← norm_mul, root_sq hz, norm_inv, one_div]

end

/-! ### The inverse distance -/

/-- Coefficients of `1/√((c - s)² + r²)` as a power series in `s`. -/
noncomputable def distCoef (c r : ℝ) (n : ℕ) : ℝ :=
  (∑ ij ∈ antidiagonal n, ((rootCoef ij.1 * rootCoef ij.2 : ℝ) : ℂ) * ((⟨c, r⟩ : ℂ)⁻¹ ^ ij.1 * (⟨c, -r⟩ : ℂ)⁻¹ ^ ij.2)).re / √(c ^ 2 + r ^ 2)

private theorem norm_mk (c r : ℝ) : ‖(⟨c, r⟩ : ℂ)‖ = √(c ^ 2 + r ^ 2) := by
  rw [Complex.norm_def, Complex.normSq_mk]
  congr 1
  ring

theorem distCoef_le' {c r : ℝ} (hc : 0 < c ^ 2 + r ^ 2) (n : ℕ) : |distCoef c r n| ≤ 1 / √(c ^ 2 + r ^ 2) ^ (n + 1) := by
  have hR : 0 < √(c ^ 2 + r ^ 2) := sqrt_pos.2 hc
  unfold distCoef
  rw [abs_div, abs_of_pos hR, pow_succ (√(c ^ 2 + r ^ 2)), ← div_div]
  apply div_le_div_of_nonneg_right _ hR.le
  refine (Complex.abs_re_le_norm _).trans ((norm_sum_le _ _).trans (le_of_eq ?_))
  have h : ∀ ij ∈ antidiagonal n, ‖((rootCoef ij.1 * rootCoef ij.2 : ℝ) : ℂ) * ((⟨c, r⟩ : ℂ)⁻¹ ^ ij.1 * (⟨c, -r⟩ : ℂ)⁻¹ ^ ij.2)‖ =
      rootCoef ij.1 * rootCoef ij.2 * (1 / √(c ^ 2 + r ^ 2) ^ n) := by
    intro ij hij
    rw [norm_mul, Complex.norm_real, norm_of_nonneg (mul_nonneg (rootCoef_nonneg _) (rootCoef_nonneg _)), norm_mul, norm_pow, norm_pow, norm_inv,
      norm_inv, norm_mk, norm_mk, neg_sq, ← pow_add, mem_antidiagonal.1 hij, inv_pow, one_div]
  rw [Finset.sum_congr rfl h, ← Finset.sum_mul, rootCoef_conv, one_mul]

theorem distCoef_le {c : ℝ} (hc : 0 < c) (r : ℝ) (n : ℕ) : |distCoef c r n| ≤ 1 / √(c ^ 2 + r ^ 2) ^ (n + 1) :=
  distCoef_le' (by positivity) n

theorem distCoef_hasSum' {c r : ℝ} (hc : 0 < c ^ 2 + r ^ 2) {s : ℝ} (hs : |s| < √(c ^ 2 + r ^ 2)) :
    HasSum (fun n => distCoef c r n * s ^ n) (1 / √((c - s) ^ 2 + r ^ 2)) := by
  have hR : 0 < √(c ^ 2 + r ^ 2) := sqrt_pos.2 hc
  obtain ⟨w, hw⟩ : ∃ w : ℂ, w = ⟨c, r⟩ := ⟨_, rfl⟩
  have hwn : ‖w‖ = √(c ^ 2 + r ^ 2) := by rw [hw, norm_mk]
  have hw0 : w ≠ 0 := by rw [← norm_pos_iff, hwn]; exact hR
  have hcw : (⟨c, -r⟩ : ℂ) = (starRingEnd ℂ) w := by rw [hw]; rfl
  have hz : ‖(s : ℂ) * w⁻¹‖ < 1 := by
    rw [norm_mul, norm_inv, Complex.norm_real, hwn, ← div_eq_mul_inv, div_lt_one hR, norm_eq_abs]
    linarith
  have hz' : ‖(starRingEnd ℂ) ((s : ℂ) * w⁻¹)‖ < 1 := by rw [RCLike.norm_conj]; exact hz
  have h := root_mul hz hz'
  rw [root_abs hz] at h
  have h2 := (Complex.hasSum_re h).div_const (√(c ^ 2 + r ^ 2))
  rw [Complex.ofReal_re] at h2
  have ev : 1 / ‖1 - (s : ℂ) * w⁻¹‖ / √(c ^ 2 + r ^ 2) = 1 / √((c - s) ^ 2 + r ^ 2) := by
    have : 1 - (s : ℂ) * w⁻¹ = (w - s) * w⁻¹ := by field_simp
    rw [this, norm_mul, norm_inv, hwn, div_div, mul_assoc, inv_mul_cancel₀ hR.ne', mul_one]
    have : w - s = ⟨c - s, r⟩ := by rw [hw]; apply Complex.ext <;> simp
    rw [this, norm_mk]
  rw [ev] at h2
  rw [show (fun n => distCoef c r n * s ^ n) = fun n => (∑ ij ∈ antidiagonal n, ((rootCoef ij.1 : ℂ) * ((s : ℂ) * w⁻¹) ^ ij.1) *
    ((rootCoef ij.2 : ℂ) * ((starRingEnd ℂ) ((s : ℂ) * w⁻¹)) ^ ij.2)).re / √(c ^ 2 + r ^ 2) from funext fun n => ?_]
  · exact h2
  unfold distCoef
  rw [div_mul_eq_mul_div]
  congr 1
  rw [← Complex.re_mul_ofReal]
  congr 1
  rw [Finset.sum_mul]
  refine Finset.sum_congr rfl fun ij hij => ?_
  rw [hcw, ← hw, ← mem_antidiagonal.1 hij]
  push_cast
  rw [map_mul, Complex.conj_ofReal, map_inv₀]
  ring

theorem distCoef_hasSum {c : ℝ} (hc : 0 < c) (r : ℝ) {s : ℝ} (hs : |s| < c) :
    HasSum (fun n => distCoef c r n * s ^ n) (1 / √((c - s) ^ 2 + r ^ 2)) :=
  distCoef_hasSum' (by positivity) (hs.trans_le (le_sqrt_of_sq_le (by nlinarith [sq_nonneg r])))

theorem distCoef_zero (c r : ℝ) : distCoef c r 0 = 1 / √(c ^ 2 + r ^ 2) := by
  simp [distCoef, rootCoef]

theorem distCoef_one {c : ℝ} (hc : 0 < c) (r : ℝ) : distCoef c r 1 = c / √(c ^ 2 + r ^ 2) ^ 3 := by
  have hR : 0 < c ^ 2 + r ^ 2 := by positivity
  have hR' : 0 < √(c ^ 2 + r ^ 2) := sqrt_pos.2 hR
  have h2 : √(c ^ 2 + r ^ 2) ^ 2 = c ^ 2 + r ^ 2 := sq_sqrt hR.le
  have : distCoef c r 1 = c / (c ^ 2 + r ^ 2) / √(c ^ 2 + r ^ 2) := by
    unfold distCoef
    congr 1
    simp [Finset.Nat.antidiagonal_succ, rootCoef, Complex.inv_re, Complex.normSq_mk, ← sq]
    ring
  rw [this, div_div, show √(c ^ 2 + r ^ 2) ^ 3 = √(c ^ 2 + r ^ 2) ^ 2 * √(c ^ 2 + r ^ 2) by ring, h2]

/-! ### A column of mass -/

/-- The attraction of a column of mass between two depths. -/
theorem column_pull {z1 z2 : ℝ} (h1 : 0 < z1) (h2 : 0 < z2) (p : ℝ × ℝ) :
    ∫ z in z1..z2, pull z p = 1 / √(p.1 ^ 2 + p.2 ^ 2 + z1 ^ 2) - 1 / √(p.1 ^ 2 + p.2 ^ 2 + z2 ^ 2) := by
  have hpos : ∀ z ∈ uIcc z1 z2, 0 < z := fun z hz => lt_of_lt_of_le (lt_min h1 h2) hz.1
  have hd : ∀ z ∈ uIcc z1 z2, HasDerivAt (fun z => -(1 / √(p.1 ^ 2 + p.2 ^ 2 + z ^ 2))) (pull z p) z := by
    intro z hz
    have hz0 := hpos z hz
    have h0 : 0 < p.1 ^ 2 + p.2 ^ 2 + z ^ 2 := by positivity
    have h5 : 0 < √(p.1 ^ 2 + p.2 ^ 2 + z ^ 2) := sqrt_pos.2 h0
    have d1 : HasDerivAt (fun z : ℝ => p.1 ^ 2 + p.2 ^ 2 + z ^ 2) (2 * z) z := by
      simpa using (hasDerivAt_pow 2 z).const_add (p.1 ^ 2 + p.2 ^ 2)
    have d2 : HasDerivAt (fun z : ℝ => -(1 / √(p.1 ^ 2 + p.2 ^ 2 + z ^ 2))) _ z := ((hasDerivAt_const z (1 : ℝ)).div (d1.sqrt h0.ne') h5.ne').neg
    refine d2.congr_deriv ?_
    unfold pull
    field_simp
    ring
  have hc : ContinuousOn (fun z => pull z p) (uIcc z1 z2) := by
    intro z hz
    have hz0 := hpos z hz
    have h0 : 0 < p.1 ^ 2 + p.2 ^ 2 + z ^ 2 := by positivity
    apply ContinuousAt.continuousWithinAt
    unfold pull
    exact ContinuousAt.div (by fun_prop) (by fun_prop) (by positivity)
  rw [intervalIntegral.integral_eq_sub_of_hasDerivAt hd (hc.intervalIntegrable)]
  ring

/-- The coefficient of the power `n + 1` of the height in the attraction of a column. -/
noncomputable def powerPull (c : ℝ) (n : ℕ) (p : ℝ × ℝ) : ℝ := distCoef c (√(p.1 ^ 2 + p.2 ^ 2)) (n + 1)

section
variable {c : ℝ}

private theorem distCoef_continuous (hc : 0 < c) (n : ℕ) : Continuous fun r => distCoef c r n := by
  have e : ∀ r : ℝ, (⟨c, r⟩ : ℂ) = (c : ℂ) + r * Complex.I := fun r => by apply Complex.ext <;> simp
  have hne : ∀ r : ℝ, (c : ℂ) + r * Complex.I ≠ 0 := by
    intro r h
    have := congrArg Complex.re h
    simp at this
    linarith
  have hne' : ∀ r : ℝ, (c : ℂ) + ((-r : ℝ) : ℂ) * Complex.I ≠ 0 := fun r => hne (-r)
  unfold distCoef
  simp only [e]
  apply Continuous.div
  · apply Complex.continuous_re.comp
    refine continuous_finsetSum _ fun ij _ => ?_
    refine continuous_const.mul (Continuous.mul (Continuous.pow (Continuous.inv₀ (by fun_prop) hne) _) (Continuous.pow (Continuous.inv₀ (by fun_prop) hne') _))
  · fun_prop
  · intro r
    have : 0 < c ^ 2 + r ^ 2 := by positivity
    positivity

theorem powerPull_continuous (hc : 0 < c) (n : ℕ) : Continuous (powerPull c n) :=
  (distCoef_continuous hc (n + 1)).comp (by fun_prop)

private theorem sq_dist (p : ℝ × ℝ) (z : ℝ) : z ^ 2 + √(p.1 ^ 2 + p.2 ^ 2) ^ 2 = p.1 ^ 2 + p.2 ^ 2 + z ^ 2 := by
  rw [sq_sqrt (by positivity)]
  ring

theorem powerPull_le (hc : 0 < c) (n : ℕ) (p : ℝ × ℝ) : |powerPull c n p| ≤ (1 / c) ^ n * pull c p := by
  have h0 : 0 < p.1 ^ 2 + p.2 ^ 2 + c ^ 2 := by positivity
  have hR : 0 < √(p.1 ^ 2 + p.2 ^ 2 + c ^ 2) := sqrt_pos.2 h0
  have hcR : c ≤ √(p.1 ^ 2 + p.2 ^ 2 + c ^ 2) := le_sqrt_of_sq_le (by nlinarith [sq_nonneg p.1, sq_nonneg p.2])
  unfold powerPull pull
  cases n with
  | zero =>
    rw [zero_add, distCoef_one hc, sq_dist, pow_zero, one_mul, abs_of_nonneg (by positivity)]
  | succ n =>
    refine (distCoef_le hc _ _).trans ?_
    rw [sq_dist]
    generalize √(p.1 ^ 2 + p.2 ^ 2 + c ^ 2) = R at hR hcR
    rw [show n + 1 + 1 + 1 = n + 3 by ring, pow_add, show (1 / c) ^ (n + 1) * (c / R ^ 3) = 1 / (c ^ n * R ^ 3) by
      rw [one_div, inv_pow, pow_succ]; field_simp]
    gcongr

theorem powerPull_integrable (hc : 0 < c) (n : ℕ) (u : ℝ × ℝ → ℝ) (hu : Continuous u) (B : ℝ) (hB : ∀ p, |u p| ≤ B) :
    Integrable (fun p => u p * powerPull c n p) ∧ ∫ p, ‖u p * powerPull c n p‖ ≤ 2 * π * B * (1 / c) ^ n := by
  have hi : Integrable fun p : ℝ × ℝ => B * (1 / c) ^ n * pull c p := (pull_integrable hc).const_mul _
  have hle : ∀ p, ‖u p * powerPull c n p‖ ≤ B * (1 / c) ^ n * pull c p := by
    intro p
    rw [norm_mul, norm_eq_abs, norm_eq_abs, mul_assoc]
    exact mul_le_mul (hB p) (powerPull_le hc n p) (abs_nonneg _) ((abs_nonneg _).trans (hB p))
  have h1 : Integrable (fun p => u p * powerPull c n p) :=
    hi.mono' (hu.mul (powerPull_continuous hc n)).aestronglyMeasurable (ae_of_all _ hle)
  refine ⟨h1, (integral_mono h1.norm hi hle).trans (le_of_eq ?_)⟩
  rw [integral_const_mul]
  have := (wave_real hc 0 0 0).2
  simp only [zero_mul, add_zero, cos_zero, one_mul, ne_eq, OfNat.ofNat_ne_zero, not_false_eq_true, zero_pow, sqrt_zero, mul_zero, neg_zero, exp_zero,
    mul_one] at this
  rw [this]
  ring

/-- The attraction of columns of height `t`, weighted, power by power. -/
theorem columns_hasSum (hc : 0 < c) (u t : ℝ × ℝ → ℝ) (hu : Continuous u) (ht : Continuous t) (B H : ℝ) (hB : ∀ p, |u p| ≤ B) (hH : ∀ p, |t p| ≤ H)
    (hHc : H < c) :
    HasSum (fun n => ∫ p, u p * t p ^ (n + 1) * powerPull c n p)
      (∫ p : ℝ × ℝ, u p * (1 / √(p.1 ^ 2 + p.2 ^ 2 + (c - t p) ^ 2) - 1 / √(p.1 ^ 2 + p.2 ^ 2 + c ^ 2))) := by
  have hH0 : 0 ≤ H := (abs_nonneg _).trans (hH (0, 0))
  have hB0 : 0 ≤ B := (abs_nonneg _).trans (hB (0, 0))
  have hb : ∀ n p, |u p * t p ^ (n + 1)| ≤ B * H ^ (n + 1) := by
    intro n p
    rw [abs_mul, abs_pow]
    exact mul_le_mul (hB p) (pow_le_pow_left₀ (abs_nonneg _) (hH p) _) (by positivity) hB0
  have hF := fun n => powerPull_integrable hc n (fun p => u p * t p ^ (n + 1)) (by fun_prop) _ (hb n)
  have hs := hasSum_integral_of_summable_integral_norm (fun n => (hF n).1) ?_
  · rw [show (∫ p : ℝ × ℝ, u p * (1 / √(p.1 ^ 2 + p.2 ^ 2 + (c - t p) ^ 2) - 1 / √(p.1 ^ 2 + p.2 ^ 2 + c ^ 2))) =
      ∫ p, ∑' n, u p * t p ^ (n + 1) * powerPull c n p from ?_]
    · exact hs
    congr 1
    ext p
    have h1 := distCoef_hasSum hc (√(p.1 ^ 2 + p.2 ^ 2)) ((hH p).trans_lt hHc)
    rw [sq_dist] at h1
    have h2 := (hasSum_nat_add_iff' 1).2 h1
    rw [Finset.sum_range_one, pow_zero, mul_one, distCoef_zero, sq_dist] at h2
    have h3 := h2.mul_left (u p)
    rw [← h3.tsum_eq]
    refine tsum_congr fun n => ?_
    unfold powerPull
    ring
  · refine Summable.of_nonneg_of_le (fun n => integral_nonneg fun _ => norm_nonneg _) (fun n => (hF n).2) ?_
    have : (fun n => 2 * π * (B * H ^ (n + 1)) * (1 / c) ^ n) = fun n => 2 * π * B * H * (H / c) ^ n := by
      ext n
      rw [pow_succ, div_pow, div_pow, one_pow]
      ring
    rw [this]
    exact (summable_geometric_of_lt_one (by positivity) ((div_lt_one hc).2 hHc)).mul_left _

/-! ### One power and one wave -/

private theorem hasSum_cong {f g : ℕ → ℝ} {a : ℝ} (h : HasSum f a) (e : ∀ n, f n = g n) : HasSum g a := funext e ▸ h

private theorem wave_columns_le {z1 z2 : ℝ} (h1 : 0 < z1) (h12 : z1 ≤ z2) (a b φ : ℝ) :
    ∫ p : ℝ × ℝ, cos (a * p.1 + b * p.2 + φ) * (1 / √(p.1 ^ 2 + p.2 ^ 2 + z1 ^ 2) - 1 / √(p.1 ^ 2 + p.2 ^ 2 + z2 ^ 2)) =
      ∫ z in z1..z2, 2 * π * exp (-(z * √(a ^ 2 + b ^ 2))) * cos φ := by
  have e1 : ∀ p : ℝ × ℝ, cos (a * p.1 + b * p.2 + φ) * (1 / √(p.1 ^ 2 + p.2 ^ 2 + z1 ^ 2) - 1 / √(p.1 ^ 2 + p.2 ^ 2 + z2 ^ 2)) =
      ∫ z in Ioc z1 z2, cos (a * p.1 + b * p.2 + φ) * pull z p := by
    intro p
    rw [← column_pull h1 (h1.trans_le h12), ← intervalIntegral.integral_const_mul, intervalIntegral.integral_of_le h12]
  simp only [e1]
  have e2 : ∀ z ∈ Ioc z1 z2, 2 * π * exp (-(z * √(a ^ 2 + b ^ 2))) * cos φ = ∫ p : ℝ × ℝ, cos (a * p.1 + b * p.2 + φ) * pull z p :=
    fun z hz => (wave_real (h1.trans hz.1) a b φ).2.symm
  rw [intervalIntegral.integral_of_le h12, setIntegral_congr_fun measurableSet_Ioc e2]
  have hm : Measurable (Function.uncurry fun (p : ℝ × ℝ) (z : ℝ) => cos (a * p.1 + b * p.2 + φ) * pull z p) := by
    unfold pull
    fun_prop
  refine integral_integral_swap ?_
  have hg : Integrable (fun q : (ℝ × ℝ) × ℝ => z2 / z1 * pull z1 q.1 * 1) ((volume : Measure (ℝ × ℝ)).prod (volume.restrict (Ioc z1 z2))) :=
    ((pull_integrable h1).const_mul (z2 / z1)).mul_prod (integrable_const (1 : ℝ))
  refine hg.mono' hm.aestronglyMeasurable ?_
  have hae : ∀ᵐ q : (ℝ × ℝ) × ℝ ∂((volume : Measure (ℝ × ℝ)).prod (volume.restrict (Ioc z1 z2))), q.2 ∈ Ioc z1 z2 := by
    have : ∀ᵐ z ∂(volume.restrict (Ioc z1 z2)), z ∈ Ioc z1 z2 := ae_restrict_mem measurableSet_Ioc
    exact Measure.quasiMeasurePreserving_snd.ae this
  filter_upwards [hae] with q hq
  have hz : 0 < q.2 := h1.trans hq.1
  simp only [Function.uncurry]
  rw [norm_mul, norm_eq_abs, norm_of_nonneg (pull_nonneg hz _), mul_one]
  refine (mul_le_of_le_one_left (pull_nonneg hz _) (abs_cos_le_one _)).trans ?_
  unfold pull
  have h0 : 0 < q.1.1 ^ 2 + q.1.2 ^ 2 + z1 ^ 2 := by positivity
  rw [show z2 / z1 * (z1 / √(q.1.1 ^ 2 + q.1.2 ^ 2 + z1 ^ 2) ^ 3) = z2 / √(q.1.1 ^ 2 + q.1.2 ^ 2 + z1 ^ 2) ^ 3 by field_simp]
  have := hq.1.le
  have := hq.2
  have : 0 ≤ z2 := by linarith
  gcongr

private theorem wave_columns {z1 z2 : ℝ} (h1 : 0 < z1) (h2 : 0 < z2) (a b φ : ℝ) :
    ∫ p : ℝ × ℝ, cos (a * p.1 + b * p.2 + φ) * (1 / √(p.1 ^ 2 + p.2 ^ 2 + z1 ^ 2) - 1 / √(p.1 ^ 2 + p.2 ^ 2 + z2 ^ 2)) =
      ∫ z in z1..z2, 2 * π * exp (-(z * √(a ^ 2 + b ^ 2))) * cos φ := by
  rcases le_total z1 z2 with h | h
  · exact wave_columns_le h1 h a b φ
  · rw [intervalIntegral.integral_symm, ← wave_columns_le h2 h a b φ, ← integral_neg]
    congr 1
    ext p
    ring

private theorem exp_series (κ c s : ℝ) : HasSum (fun n : ℕ => exp (-(c * κ)) * (κ ^ n / (n + 1).factorial) * s ^ (n + 1)) (∫ z in (c - s)..c, exp (-(z * κ))) := by
  by_cases hκ : κ = 0
  · subst hκ
    simp only [mul_zero, neg_zero, exp_zero, intervalIntegral.integral_const, smul_eq_mul, mul_one, one_mul]
    have := hasSum_single (f := fun n : ℕ => (0 : ℝ) ^ n / (n + 1).factorial * s ^ (n + 1)) 0 (fun n hn => by simp [hn])
    simpa using this
  · have hd : ∀ z ∈ uIcc (c - s) c, HasDerivAt (fun z => -(exp (-(z * κ)) / κ)) (exp (-(z * κ))) z := by
      intro z _
      have h1 : HasDerivAt (fun z : ℝ => -(z * κ)) (-κ) z := by
        have := ((hasDerivAt_id z).mul_const κ).neg
        rw [one_mul] at this
        exact this
      have h2 : HasDerivAt (fun z => -(exp (-(z * κ)) / κ)) _ z := (h1.exp.div_const κ).neg
      refine h2.congr_deriv ?_
      field_simp
    rw [intervalIntegral.integral_eq_sub_of_hasDerivAt hd (Continuous.intervalIntegrable (by fun_prop) _ _)]
    have h := NormedSpace.expSeries_div_hasSum_exp (s * κ)
    rw [← Real.exp_eq_exp_ℝ] at h
    have h2 := ((hasSum_nat_add_iff' 1).2 h).mul_left (exp (-(c * κ)) / κ)
    rw [Finset.sum_range_one, pow_zero, Nat.factorial_zero, Nat.cast_one, div_one] at h2
    rw [show -(exp (-(c * κ)) / κ) - -(exp (-((c - s) * κ)) / κ) = exp (-(c * κ)) / κ * (exp (s * κ) - 1) by
      rw [show -((c - s) * κ) = -(c * κ) + s * κ by ring, exp_add]; ring]
    refine hasSum_cong h2 fun n => ?_
    rw [mul_pow, pow_succ κ]
    field_simp

private theorem coef_unique {u v : ℕ → ℝ} (hc : 0 < c) (G : ℝ → ℝ) (hu : ∀ s, |s| < c → HasSum (fun n => u n * s ^ (n + 1)) (G s))
    (hv : ∀ s, |s| < c → HasSum (fun n => v n * s ^ (n + 1)) (G s)) : u = v := by
  have key : ∀ w : ℕ → ℝ, (∀ s, |s| < c → HasSum (fun n => w n * s ^ (n + 1)) (G s)) →
      HasFPowerSeriesAt G (FormalMultilinearSeries.ofScalars ℝ (fun n => if n = 0 then 0 else w (n - 1))) 0 := by
    intro w hw
    rw [hasFPowerSeriesAt_iff]
    have : ∀ᶠ s : ℝ in 𝓝 0, |s| < c := by
      have := Metric.ball_mem_nhds (0 : ℝ) hc
      filter_upwards [this] with s hs
      simpa using hs
    filter_upwards [this] with s hs
    rw [zero_add, ← hasSum_nat_add_iff' 1]
    simp only [FormalMultilinearSeries.coeff_ofScalars, smul_eq_mul, Finset.sum_range_one, if_true, mul_zero, sub_zero, Nat.add_sub_cancel]
    refine hasSum_cong (hw s hs) fun n => ?_
    rw [if_neg (by omega)]
    ring
  have h := (key u hu).eq_formalMultilinearSeries (key v hv)
  ext n
  have h2 := congrArg (fun q => FormalMultilinearSeries.coeff q (n + 1)) h
  simpa [FormalMultilinearSeries.coeff_ofScalars] using h2

/-- A wave of the power `n + 1` of the height. -/
theorem powerPull_wave (hc : 0 < c) (n : ℕ) (a b φ : ℝ) :
    ∫ p : ℝ × ℝ, cos (a * p.1 + b * p.2 + φ) * powerPull c n p =
      2 * π * (exp (-(c * √(a ^ 2 + b ^ 2))) * (√(a ^ 2 + b ^ 2) ^ n / (n + 1).factorial)) * cos φ := by
  have := coef_unique (u := fun n => ∫ p : ℝ × ℝ, cos (a * p.1 + b * p.2 + φ) * powerPull c n p)
    (v := fun n => 2 * π * (exp (-(c * √(a ^ 2 + b ^ 2))) * (√(a ^ 2 + b ^ 2) ^ n / (n + 1).factorial)) * cos φ) hc
    (fun s => ∫ z in (c - s)..c, 2 * π * exp (-(z * √(a ^ 2 + b ^ 2))) * cos φ) ?_ ?_
  · exact congrFun this n
  · intro s hs
    have h := columns_hasSum hc (fun p => cos (a * p.1 + b * p.2 + φ)) (fun _ => s) (by fun_prop) (by fun_prop) 1 |s| (fun p => abs_cos_le_one _)
      (fun _ => le_rfl) hs
    have hs' := abs_lt.1 hs
    rw [wave_columns (by linarith) hc] at h
    refine hasSum_cong h fun n => ?_
    rw [← integral_mul_const]
    congr 1
    ext p
    ring
  · intro s hs
    have h := ((exp_series (√(a ^ 2 + b ^ 2)) c s).mul_left (2 * π)).mul_right (cos φ)
    rw [← intervalIntegral.integral_const_mul, ← intervalIntegral.integral_mul_const] at h
    refine hasSum_cong h fun n => ?_
    ring

/-- The attraction of the mass between a relief of height `t` above the depth `c` and that depth: what `P` powers leave. -/
theorem bodyPull_powers (hc : 0 < c) (t : ℝ × ℝ → ℝ) (ht : Continuous t) (H : ℝ) (hH : ∀ p, |t p| ≤ H) (hHc : H < c) (X Y : ℝ) (P : ℕ) :
    |(∑ n ∈ Finset.range P, ∫ p, t (p + (X, Y)) ^ (n + 1) * powerPull c n p) - Spec.bodyPull (fun x y => c - t (x, y)) (fun _ _ => c) X Y| ≤
      2 * π * H * (H / c) ^ P / (1 - H / c) := by
  have h := columns_hasSum hc (fun _ => 1) (fun p => t (p + (X, Y))) (by fun_prop) (by fun_prop) 1 H (by simp) (fun p => hH _) hHc
  simp only [one_mul] at h
  have e : Spec.bodyPull (fun x y => c - t (x, y)) (fun _ _ => c) X Y =
      ∫ p : ℝ × ℝ, (1 / √(p.1 ^ 2 + p.2 ^ 2 + (c - t (p + (X, Y))) ^ 2) - 1 / √(p.1 ^ 2 + p.2 ^ 2 + c ^ 2)) := by
    unfold Spec.bodyPull
    rw [← integral_add_right_eq_self _ ((X, Y) : ℝ × ℝ)]
    congr 1
    ext p
    have hp := abs_le.1 (hH (p + (X, Y)))
    rw [← column_pull (by linarith) hc]
    simp only [Prod.fst_add, Prod.snd_add, add_sub_cancel_right]
    rfl
  rw [← e] at h
  refine norm_sub_le_of_geometric_bound_of_hasSum ((div_lt_one hc).2 hHc) (fun n => ?_) h P
  have hb : ∀ p : ℝ × ℝ, |t (p + (X, Y)) ^ (n + 1)| ≤ H ^ (n + 1) := by
    intro p
    rw [abs_pow]
    exact pow_le_pow_left₀ (abs_nonneg _) (hH _) _
  refine (norm_integral_le_integral_norm _).trans ((powerPull_integrable hc n _ (by fun_prop) _ hb).2.trans (le_of_eq ?_))
  rw [pow_succ, div_pow, div_pow, one_pow]
  ring

end

end Shipgrav
