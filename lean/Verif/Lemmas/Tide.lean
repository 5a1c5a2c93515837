import Mathlib.Analysis.Real.Pi.Bounds
import Mathlib.NumberTheory.Real.Irrational
import Mathlib.Analysis.Real.Pi.Irrational
import Mathlib.Tactic.LinearCombination
import Mathlib.Tactic.Linarith
import Verif.Model.Tide
import Verif.Spec.Tide

/-! Lemmas about the tide model. -/

namespace Shipgrav
open Real Spec

theorem divR_ok {x y : ℝ} (h : y ≠ 0) : divR x y = some (x / y) := by unfold divR; rw [if_neg h]
theorem arccosR_ok {x : ℝ} (h : |x| ≤ 1) : arccosR x = some (arccos x) := by unfold arccosR; rw [if_pos h]
theorem arcsinR_ok {x : ℝ} (h : |x| ≤ 1) : arcsinR x = some (arcsin x) := by unfold arcsinR; rw [if_pos h]
theorem sqrtR_ok {x : ℝ} (h : 0 ≤ x) : sqrtR x = some (√x) := by unfold sqrtR; rw [if_pos h]

theorem omega_gt : tideI < tideOmega := by
  unfold tideI tideOmega radians
  have := pi_gt_three
  norm_num
  linarith

theorem omega_lt : tideOmega < π / 2 := by
  unfold tideOmega radians
  have := pi_pos
  norm_num
  linarith

theorem tideI_pos : 0 < tideI := by unfold tideI; norm_num

/-- `1 - x²` where `x = cos I`, as a sum of squares. -/
theorem node_sq (a b s c n m : ℝ) (h1 : a ^ 2 + b ^ 2 = 1) (h2 : s ^ 2 + c ^ 2 = 1) (h3 : n ^ 2 + m ^ 2 = 1) :
    1 - (b * c - a * s * n) ^ 2 = (s * m) ^ 2 + (a * c + b * s * n) ^ 2 := by
  have hb : b ^ 2 = 1 - a ^ 2 := by linarith
  have hc : c ^ 2 = 1 - s ^ 2 := by linarith
  have hm : m ^ 2 = 1 - n ^ 2 := by linarith
  have : (b * c - a * s * n) ^ 2 = b ^ 2 * c ^ 2 - 2 * a * b * c * s * n + a ^ 2 * s ^ 2 * n ^ 2 := by ring
  rw [this]
  have : (s * m) ^ 2 + (a * c + b * s * n) ^ 2 = s ^ 2 * m ^ 2 + a ^ 2 * c ^ 2 + 2 * a * b * c * s * n + b ^ 2 * s ^ 2 * n ^ 2 := by ring
  rw [this, hb, hc, hm]
  ring

theorem double_arctan (sa ca : ℝ) (hunit : sa ^ 2 + ca ^ 2 = 1) (hne : 1 + ca ≠ 0) :
    sin (2 * arctan (sa / (1 + ca))) = sa ∧ cos (2 * arctan (sa / (1 + ca))) = ca := by
  have h2 := cos_sq_arctan (sa / (1 + ca))
  have h3 : 1 + (sa / (1 + ca)) ^ 2 = 2 / (1 + ca) := by
    field_simp
    linarith
  rw [h3] at h2
  constructor
  · rw [sin_two_mul]
    have ht : sin (arctan (sa / (1 + ca))) = sa / (1 + ca) * cos (arctan (sa / (1 + ca))) := by
      have h := tan_arctan (sa / (1 + ca))
      rw [tan_eq_sin_div_cos, div_eq_iff (cos_arctan_pos _).ne'] at h
      exact h
    rw [ht]
    have : 2 * (sa / (1 + ca) * cos (arctan (sa / (1 + ca)))) * cos (arctan (sa / (1 + ca))) =
      2 * (sa / (1 + ca)) * cos (arctan (sa / (1 + ca))) ^ 2 := by ring
    rw [this, h2]
    field_simp
  · rw [cos_two_mul, h2]
    field_simp
    ring

theorem node_alpha (a b s c n m S : ℝ) (hS : 0 < S) (e1 : a ^ 2 + b ^ 2 = 1) (e2 : s ^ 2 + c ^ 2 = 1) (e3 : n ^ 2 + m ^ 2 = 1)
    (h : S ^ 2 = (s * m) ^ 2 + (a * c + b * s * n) ^ 2) : (a * m / S) ^ 2 + ((a * c * n + b * s) / S) ^ 2 = 1 := by
  rw [div_pow, div_pow, ← add_div, div_eq_one_iff_eq (by positivity), h]
  have hb2 : b ^ 2 = 1 - a ^ 2 := by linarith
  have hc2 : c ^ 2 = 1 - s ^ 2 := by linarith
  have hm2 : m ^ 2 = 1 - n ^ 2 := by linarith
  linear_combination (a ^ 2 - s ^ 2) * hm2 + (a ^ 2 * n ^ 2 - a ^ 2) * hc2 + (s ^ 2 - s ^ 2 * n ^ 2) * hb2

/-- The node angles exist unless the node is at longitude 180°, and have the sines and cosines of the spherical triangle. -/
theorem nodeAngles_ok (N : ℝ) (hN : cos N ≠ -1) : ∃ I nu alpha, nodeAngles N = some (I, nu, alpha) ∧ 0 < sin I ∧
    cos I = cos tideOmega * cos tideI - sin tideOmega * sin tideI * cos N ∧
    sin I * sin nu = sin tideI * sin N ∧ sin I * cos nu = sin tideOmega * cos tideI + cos tideOmega * sin tideI * cos N ∧
    sin I * sin alpha = sin tideOmega * sin N ∧ sin I * cos alpha = sin tideOmega * cos tideI * cos N + cos tideOmega * sin tideI := by
  have hi := tideI_pos
  have hio := omega_gt
  have ho := omega_lt
  have hpi := pi_pos
  have ha : 0 < sin tideOmega := sin_pos_of_pos_of_lt_pi (by linarith) (by linarith)
  have hb : 0 < cos tideOmega := cos_pos_of_mem_Ioo ⟨by linarith, by linarith⟩
  have hs : 0 < sin tideI := sin_pos_of_pos_of_lt_pi hi (by linarith)
  have hc : 0 < cos tideI := cos_pos_of_mem_Ioo ⟨by linarith, by linarith⟩
  have hdiff : 0 < sin tideOmega * cos tideI - cos tideOmega * sin tideI := by
    rw [← sin_sub]; exact sin_pos_of_pos_of_lt_pi (by linarith) (by linarith)
  have e1 := sin_sq_add_cos_sq tideOmega
  have e2 := sin_sq_add_cos_sq tideI
  have e3 := cos_sq_add_sin_sq N
  have hn1 := neg_one_le_cos N
  have hn2 := cos_le_one N
  unfold nodeAngles
  generalize sin tideOmega = a at *
  generalize cos tideOmega = b at *
  generalize sin tideI = s at *
  generalize cos tideI = c at *
  generalize cos N = n at *
  generalize sin N = m at *
  have hcv : 0 < a * c + b * s * n := by nlinarith [mul_pos hb hs]
  have hsq := node_sq a b s c n m e1 e2 e3
  have hx : |b * c - a * s * n| ≤ 1 := by
    rw [← sq_le_one_iff_abs_le_one]
    nlinarith [sq_nonneg (s * m), sq_nonneg (a * c + b * s * n)]
  obtain ⟨I, hI⟩ : ∃ I, I = arccos (b * c - a * s * n) := ⟨_, rfl⟩
  have hcosI : cos I = b * c - a * s * n := by rw [hI]; exact cos_arccos (abs_le.1 hx).1 (abs_le.1 hx).2
  have hsin2 : sin I ^ 2 = (s * m) ^ 2 + (a * c + b * s * n) ^ 2 := by
    have := sin_sq_add_cos_sq I
    rw [hcosI] at this
    linarith
  have hsin0 : 0 ≤ sin I := by rw [hI]; exact sin_nonneg_of_nonneg_of_le_pi (arccos_nonneg _) (arccos_le_pi _)
  have hsin : 0 < sin I := by
    rcases hsin0.lt_or_eq with h | h
    · exact h
    · rw [← h] at hsin2
      nlinarith [sq_nonneg (s * m), mul_pos hcv hcv]
  have hq : |s * m / sin I| ≤ 1 := by
    rw [abs_div, abs_of_pos hsin, div_le_one hsin]
    apply abs_le_of_sq_le_sq _ hsin.le
    rw [hsin2]
    nlinarith [sq_nonneg (a * c + b * s * n)]
  obtain ⟨nu, hnu⟩ : ∃ nu, nu = arcsin (s * m / sin I) := ⟨_, rfl⟩
  have hsnu : sin nu = s * m / sin I := by rw [hnu]; exact sin_arcsin (abs_le.1 hq).1 (abs_le.1 hq).2
  have hcnu0 : 0 ≤ cos nu := by rw [hnu]; exact cos_arcsin_nonneg _
  have hcnu : cos nu = (a * c + b * s * n) / sin I := by
    have h1 : cos nu ^ 2 = ((a * c + b * s * n) / sin I) ^ 2 := by
      have := sin_sq_add_cos_sq nu
      rw [hsnu] at this
      rw [div_pow, eq_div_iff (by positivity)]
      rw [div_pow] at this
      field_simp at this
      rw [hsin2] at this ⊢
      linarith
    exact (sq_eq_sq₀ hcnu0 (by positivity)).1 h1
  have hca : n * cos nu + m * sin nu * b = (a * c * n + b * s) / sin I := by
    rw [hcnu, hsnu]
    field_simp
    have hm : m ^ 2 = 1 - n ^ 2 := by linarith
    linear_combination (b * s) * hm
  have hunit := node_alpha a b s c n m (sin I) hsin e1 e2 e3 hsin2
  have hne : 1 + (a * c * n + b * s) / sin I ≠ 0 := by
    intro h
    have h1 : (a * c * n + b * s) / sin I = -1 := by linarith
    rw [h1] at hunit
    have h2 : a * m / sin I = 0 := by
      have : (a * m / sin I) ^ 2 = 0 := by linarith
      exact pow_eq_zero_iff (two_ne_zero) |>.1 this
    have h3 : m = 0 := by
      rcases div_eq_zero_iff.1 h2 with h | h
      · rcases mul_eq_zero.1 h with h | h
        · exact absurd h ha.ne'
        · exact h
      · exact absurd h hsin.ne'
    have h4 : (n - 1) * (n + 1) = 0 := by rw [h3] at e3; linarith
    rcases mul_eq_zero.1 h4 with h | h
    · have hn : n = 1 := by linarith
      rw [hn] at h1
      have : 0 < (a * c * 1 + b * s) / sin I := by positivity
      linarith
    · exact hN (by linarith)
  refine ⟨I, nu, 2 * arctan (a * m / sin I / (1 + (a * c * n + b * s) / sin I)), ?_, hsin, hcosI, ?_, ?_, ?_, ?_⟩
  · simp only [arccosR_ok hx, ← hI, Option.bind_eq_bind, Option.bind_some, divR_ok hsin.ne', arcsinR_ok hq, ← hnu, hca, divR_ok hne]
    rfl
  · rw [hsnu]; field_simp
  · rw [hcnu]; field_simp
  · rw [(double_arctan _ _ hunit hne).1]; field_simp
  · rw [(double_arctan _ _ hunit hne).2]; field_simp

/-- Direction of the moon: by the orbit or by the intersection of orbit and equator. -/
theorem orbitDir_eq (N I nu alpha L : ℝ) (hS : 0 < sin I)
    (hI : cos I = cos tideOmega * cos tideI - sin tideOmega * sin tideI * cos N)
    (h1 : sin I * sin nu = sin tideI * sin N) (h2 : sin I * cos nu = sin tideOmega * cos tideI + cos tideOmega * sin tideI * cos N)
    (h3 : sin I * sin alpha = sin tideOmega * sin N)
    (h4 : sin I * cos alpha = sin tideOmega * cos tideI * cos N + cos tideOmega * sin tideI) :
    orbitDir tideOmega tideI N (L - alpha + N) = rotZ nu (rotX I (circle L)) := by
  have e1 := sin_sq_add_cos_sq tideOmega
  have e2 := sin_sq_add_cos_sq tideI
  have e3 := sin_sq_add_cos_sq N
  have e4 := sin_sq_add_cos_sq I
  unfold orbitDir rotZ rotX circle
  rw [add_sub_cancel_right, cos_sub, sin_sub]
  generalize sin tideOmega = a at *
  generalize cos tideOmega = b at *
  generalize sin tideI = s at *
  generalize cos tideI = c at *
  generalize cos N = n at *
  generalize sin N = m at *
  generalize sin I = S at *
  generalize cos I = x at *
  generalize sin nu = sn at *
  generalize cos nu = cn at *
  generalize sin alpha = sa at *
  generalize cos alpha = ca at *
  generalize sin L = sl at *
  generalize cos L = cl at *
  have hS' := hS.ne'
  have hb : b ^ 2 = 1 - a ^ 2 := by linarith
  have hc : c ^ 2 = 1 - s ^ 2 := by linarith
  have hm : m ^ 2 = 1 - n ^ 2 := by linarith
  congr 1
  · apply mul_left_cancel₀ hS'
    simp only [mul_zero, sub_zero]
    have : S * (n * (cl * ca + sl * sa) - m * (c * (sl * ca - cl * sa))) =
      n * (cl * (S * ca) + sl * (S * sa)) - m * (c * (sl * (S * ca) - cl * (S * sa))) := by ring
    rw [this, h3, h4]
    have : S * (cn * cl - sn * (x * sl)) = (S * cn) * cl - (S * sn) * (x * sl) := by ring
    rw [this, h1, h2, hI]
    linear_combination (cl * c * a) * hm - (sl * a * n * m) * hc
  · apply mul_left_cancel₀ hS'
    simp only [mul_zero, sub_zero, add_zero]
    have : S * (b * (m * (cl * ca + sl * sa) + n * (c * (sl * ca - cl * sa))) - a * (s * (sl * ca - cl * sa))) =
      b * (m * (cl * (S * ca) + sl * (S * sa)) + n * (c * (sl * (S * ca) - cl * (S * sa)))) - a * (s * (sl * (S * ca) - cl * (S * sa))) := by ring
    rw [this, h3, h4]
    have : S * (sn * cl + cn * (x * sl)) = (S * sn) * cl + (S * cn) * (x * sl) := by ring
    rw [this, h1, h2, hI]
    linear_combination (b * a * sl) * hm + (a * b * n ^ 2 * sl - a * b * sl) * hc + (m * s * cl) * hb
  · apply mul_left_cancel₀ hS'
    simp only [mul_zero, add_zero, sub_zero]
    have : S * (a * (m * (cl * ca + sl * sa) + n * (c * (sl * ca - cl * sa))) + b * (s * (sl * ca - cl * sa))) =
      a * (m * (cl * (S * ca) + sl * (S * sa)) + n * (c * (sl * (S * ca) - cl * (S * sa)))) + b * (s * (sl * (S * ca) - cl * (S * sa))) := by ring
    rw [this, h3, h4]
    have : S * (S * sl) = sl * (1 - x ^ 2) := by rw [← e4]; ring
    rw [this, hI]
    linear_combination (sl * a ^ 2) * hm + sl * (a ^ 2 * n ^ 2 + b ^ 2) * hc + sl * hb

end Shipgrav
