import Verif.Model.CrossCoupling
import Verif.Spec.CrossCoupling
import Verif.Lemmas.Conv
import Verif.Lemmas.ListSum
import Mathlib.Analysis.Real.Pi.Bounds
import Mathlib.Algebra.Order.BigOperators.Group.Finset
import Mathlib.Tactic.FieldSimp
import Mathlib.Tactic.NormNum

/-! Helper lemmas for cross coupling. -/

namespace Shipgrav
open Spec Real

@[simp] theorem samples_length {α : Type} (f : ℕ → α) (n : ℕ) : (samples f n).length = n := by simp [samples]

theorem samples_getD (f : ℕ → ℝ) (n k : ℕ) (hk : k < n) : (samples f n).getD k 0 = f k := by
  unfold samples
  rw [List.getD_eq_getElem?_getD, List.getElem?_map, List.getElem?_range hk]; rfl

theorem samples_congr {α : Type} (f g : ℕ → α) (n : ℕ) (h : ∀ i < n, f i = g i) : samples f n = samples g n := by
  unfold samples
  exact List.map_congr_left (fun i hi => h i (by simpa using hi))

theorem slice_samples {α : Type} (f : ℕ → α) (n s e : ℕ) (he : e ≤ n) :
    ccSlice (samples f n) (s, e) = samples (fun t => f (s + t)) (e - s) := by
  unfold ccSlice samples
  apply List.ext_getElem
  · simp; omega
  · intro i h1 h2
    simp

theorem trim_samples {α : Type} (f : ℕ → α) (n k : ℕ) : trim k (samples f n) = samples (fun t => f (k + t)) (n - k - k) := by
  have := slice_samples f n k (n - k) (by omega)
  unfold ccSlice at this
  unfold trim
  rw [samples_length]
  exact this

theorem centralDiff10_congr (f g : ℕ → ℝ) (i : ℕ) (h : ∀ j, i ≤ j + 5 → j ≤ i + 5 → f j = g j) (hi : 5 ≤ i) :
    centralDiff10 f i = centralDiff10 g i := by
  unfold centralDiff10
  rw [h (i+1) (by omega) (by omega), h (i+2) (by omega) (by omega), h (i+3) (by omega) (by omega), h (i+4) (by omega) (by omega),
    h (i+5) (by omega) (by omega), h (i-1) (by omega) (by omega), h (i-2) (by omega) (by omega), h (i-3) (by omega) (by omega),
    h (i-4) (by omega) (by omega), h (i-5) (by omega) (by omega)]

/-- The convolution as a sequence. -/
theorem convolveSame_samples (f : ℕ → ℝ) (n : ℕ) :
    convolveSame (samples f n) tay10 = samples (fun i => convAt (samples f n) tay10 (i + 5)) n := by
  unfold convolveSame
  rw [samples_length]
  rfl

theorem double_conv (x : ℕ → ℝ) (n : ℕ) :
    trim 10 (convolveSame (convolveSame (samples x n) tay10) tay10) = samples (fun t => curvature x (10 + t)) (n - 10 - 10) := by
  rw [convolveSame_samples, convolveSame_samples, trim_samples]
  apply samples_congr
  intro i hi
  rw [conv_interior _ n (10 + i) (by omega) (by omega)]
  unfold curvature
  apply centralDiff10_congr _ _ _ _ (by omega)
  intro j h1 h2
  exact conv_interior x n j (by omega) (by omega)

theorem lfilter_samples (b : List ℝ) (x : ℕ → ℝ) (n i : ℕ) (hi : i < n) (hb : b.length ≤ i + 1) :
    convAt (samples x n) b i = ∑ j ∈ Finset.range b.length, b.getD j 0 * x (i - j) := by
  unfold convAt
  rw [sum_map_range]
  apply Finset.sum_congr rfl
  intro j hj
  have := Finset.mem_range.mp hj
  rw [if_pos (by omega), samples_getD _ _ _ (by omega)]

theorem blackman_eq (j : ℕ) : blackman 200 j = (1 + -cos (2 * π * j / 199)) * (0.34 + 0.16 * -cos (2 * π * j / 199)) := by
  unfold blackman
  simp only
  have h1 : cos (-π + 2 * π * j / ((200 : ℕ) - 1 : ℝ)) = -cos (2 * π * j / 199) := by
    rw [show (-π + 2 * π * j / ((200 : ℕ) - 1 : ℝ)) = 2 * π * j / 199 - π by push_cast; ring, cos_sub_pi]
  rw [cos_two_mul, h1]
  norm_num
  ring

theorem half_ne (j : ℕ) : ((j : ℝ) - 199 / 2) ≠ 0 := by
  intro h
  have h2 : (2 * j : ℝ) = 199 := by linarith
  have : 2 * j = 199 := by exact_mod_cast h2
  omega

theorem raw_eq (j : ℕ) :
    (1 / (200 : ℝ)) * npSinc ((1 / (200 : ℝ)) * ((j : ℝ) - 0.5 * ((200 : ℕ) - 1 : ℝ))) * blackman 200 j = taper j / π := by
  rw [blackman_eq]
  unfold taper npSinc
  simp only
  have hm := half_ne j
  have e : (j : ℝ) - 0.5 * ((200 : ℕ) - 1 : ℝ) = j - 199 / 2 := by norm_num
  rw [e, if_neg (by simpa using hm), show π * (1 / (200 : ℝ) * ((j : ℝ) - 199 / 2)) = π * ((j : ℝ) - 199 / 2) / 200 by ring]
  have := pi_ne_zero
  generalize (1 + -cos (2 * π * ↑j / 199)) * (0.34 + 0.16 * -cos (2 * π * ↑j / 199)) = w
  generalize sin (π * ((j : ℝ) - 199 / 2) / 200) = s
  field_simp

theorem firwin_eq : firwin 200 (1 / (200 : ℕ)) = samples lowpass 200 := by
  unfold firwin samples
  simp only [List.map_map]
  apply List.map_congr_left
  intro j _
  have hr : ∀ k : ℕ, (1 / ((200 : ℕ) : ℝ)) * npSinc ((1 / ((200 : ℕ) : ℝ)) * ((k : ℝ) - 0.5 * ((200 : ℕ) - 1 : ℝ))) * blackman 200 k = taper k / π := by
    intro k; exact_mod_cast raw_eq k
  simp only [Function.comp_def]
  rw [sum_map_range]
  simp only [hr]
  unfold lowpass
  rw [← Finset.sum_div, div_div_div_cancel_right₀ pi_ne_zero]

theorem taper_nonneg (j : ℕ) (hj : j < 200) : 0 ≤ taper j := by
  unfold taper
  simp only
  have h1 := cos_le_one (2 * π * j / 199)
  have h2 := neg_one_le_cos (2 * π * j / 199)
  apply mul_nonneg
  · have hm := half_ne j
    have hjr : (j : ℝ) ≤ 199 := by exact_mod_cast (by omega : j ≤ 199)
    have hj0 : (0 : ℝ) ≤ j := Nat.cast_nonneg j
    have hp := pi_pos
    rcases lt_or_gt_of_ne hm with h | h
    · apply div_nonneg_of_nonpos _ h.le
      apply sin_nonpos_of_nonpos_of_neg_pi_le
      · have := mul_nonpos_of_nonneg_of_nonpos hp.le h.le
        linarith
      · nlinarith
    · apply div_nonneg _ h.le
      apply sin_nonneg_of_nonneg_of_le_pi
      · have := mul_nonneg hp.le h.le
        linarith
      · nlinarith
  · apply mul_nonneg <;> norm_num <;> linarith

theorem taper_sum_pos : 0 < ∑ k ∈ Finset.range 200, taper k := by
  apply Finset.sum_pos'
  · intro i hi; exact taper_nonneg i (Finset.mem_range.mp hi)
  · refine ⟨100, by simp, ?_⟩
    unfold taper
    simp only
    have hp := pi_pos
    have hc : cos (2 * π * (100 : ℕ) / 199) ≤ 0 := by
      apply cos_nonpos_of_pi_div_two_le_of_le
      · push_cast; linarith
      · push_cast; linarith
    apply mul_pos
    · apply div_pos _ (by norm_num)
      apply sin_pos_of_pos_of_lt_pi
      · push_cast; linarith
      · push_cast; linarith
    · apply mul_pos <;> norm_num at hc ⊢ <;> linarith

theorem lowpass_sum : ∑ k ∈ Finset.range 200, lowpass k = 1 := by
  unfold lowpass
  rw [← Finset.sum_div]
  exact div_self taper_sum_pos.ne'

theorem lowpass_nonneg (j : ℕ) (hj : j < 200) : 0 ≤ lowpass j := div_nonneg (taper_nonneg j hj) taper_sum_pos.le

theorem taper_symm (j : ℕ) (hj : j < 200) : taper (199 - j) = taper j := by
  unfold taper
  have hc : ((199 - j : ℕ) : ℝ) = 199 - j := by push_cast [show j ≤ 199 by omega]; rfl
  simp only [hc]
  have h1 : cos (2 * π * (199 - j) / 199) = cos (2 * π * j / 199) := by
    rw [show 2 * π * (199 - (j : ℝ)) / 199 = 2 * π - 2 * π * j / 199 by ring, cos_two_pi_sub]
  have h2 : sin (π * (199 - j - 199 / 2) / 200) = -sin (π * (j - 199 / 2) / 200) := by
    rw [← sin_neg]; congr 1; ring
  rw [h1, h2, show (199 : ℝ) - j - 199 / 2 = -(j - 199 / 2) by ring, neg_div_neg_eq]

theorem ccProcess_samples (x : ℕ → ℝ) (n : ℕ) : ccProcess (samples x n) = samples (smoothCurvature x) (n - 420) := by
  unfold ccProcess
  simp only [show 2 * 100 = 200 from rfl]
  rw [double_conv, firwin_eq]
  unfold lfilterFir
  rw [samples_length]
  change trim 200 (samples (fun (i : ℕ) => convAt (samples (fun t => curvature x (10 + t)) (n - 10 - 10)) (samples lowpass 200) i) (n - 10 - 10)) = _
  rw [trim_samples, show n - 10 - 10 - 200 - 200 = n - 420 by omega]
  apply samples_congr
  intro i hi
  rw [lfilter_samples _ _ _ _ (by omega) (by rw [samples_length]; omega), samples_length]
  unfold smoothCurvature
  apply Finset.sum_congr rfl
  intro j hj
  have := Finset.mem_range.mp hj
  rw [samples_getD _ _ _ this, show 10 + (200 + i - j) = i + 210 - j by omega]

theorem centralDiff10_shift (x : ℕ → ℝ) (s i : ℕ) (hi : 5 ≤ i) :
    centralDiff10 (fun t => x (s + t)) i = centralDiff10 x (s + i) := by
  unfold centralDiff10
  simp only [Nat.add_assoc, Nat.add_sub_assoc (show 1 ≤ i by omega), Nat.add_sub_assoc (show 2 ≤ i by omega),
    Nat.add_sub_assoc (show 3 ≤ i by omega), Nat.add_sub_assoc (show 4 ≤ i by omega), Nat.add_sub_assoc hi]

theorem curvature_shift (x : ℕ → ℝ) (s i : ℕ) (hi : 10 ≤ i) : curvature (fun t => x (s + t)) i = curvature x (s + i) := by
  unfold curvature
  rw [← centralDiff10_shift _ _ _ (by omega)]
  apply centralDiff10_congr _ _ _ _ (by omega)
  intro j h1 h2
  exact centralDiff10_shift _ _ _ (by omega)

theorem smoothCurvature_shift (x : ℕ → ℝ) (s i : ℕ) : smoothCurvature (fun t => x (s + t)) i = smoothCurvature x (s + i) := by
  unfold smoothCurvature
  apply Finset.sum_congr rfl
  intro j hj
  have := Finset.mem_range.mp hj
  rw [curvature_shift _ _ _ (by omega), show s + (i + 210 - j) = s + i + 210 - j by omega]

theorem ccProcess_slice (x : ℕ → ℝ) (n s e : ℕ) (he : e ≤ n) :
    ccProcess (ccSlice (samples x n) (s, e)) = stretchRows x (s, e) := by
  rw [slice_samples _ _ _ _ he, ccProcess_samples]
  unfold stretchRows
  apply samples_congr
  intro i _
  exact smoothCurvature_shift x s i

/-! Linear combinations and trends. -/

theorem centralDiff10_quad (a b q : ℝ) (i : ℕ) (hi : 5 ≤ i) :
    centralDiff10 (fun t => a + b * t + q * (t : ℝ) ^ 2) i = b + 2 * q * i := by
  obtain ⟨m, rfl⟩ : ∃ m, i = m + 5 := ⟨i - 5, by omega⟩
  unfold centralDiff10
  simp only [show m + 5 - 1 = m + 4 by omega, show m + 5 - 2 = m + 3 by omega, show m + 5 - 3 = m + 2 by omega,
    show m + 5 - 4 = m + 1 by omega, show m + 5 - 5 = m by omega]
  push_cast
  ring

theorem centralDiff10_add (f g : ℕ → ℝ) (i : ℕ) : centralDiff10 (fun t => f t + g t) i = centralDiff10 f i + centralDiff10 g i := by
  unfold centralDiff10; ring

theorem centralDiff10_smul (c : ℝ) (f : ℕ → ℝ) (i : ℕ) : centralDiff10 (fun t => c * f t) i = c * centralDiff10 f i := by
  unfold centralDiff10; ring

theorem curvature_add (f g : ℕ → ℝ) (i : ℕ) : curvature (fun t => f t + g t) i = curvature f i + curvature g i := by
  unfold curvature
  rw [← centralDiff10_add]
  congr 1
  funext t; exact centralDiff10_add f g t

theorem curvature_smul (c : ℝ) (f : ℕ → ℝ) (i : ℕ) : curvature (fun t => c * f t) i = c * curvature f i := by
  unfold curvature
  rw [← centralDiff10_smul]
  congr 1
  funext t; exact centralDiff10_smul c f t

theorem curvature_quad (a b q : ℝ) (i : ℕ) (hi : 10 ≤ i) : curvature (fun t => a + b * t + q * (t : ℝ) ^ 2) i = 2 * q := by
  unfold curvature
  rw [centralDiff10_congr _ (fun t => b + 2 * q * t + 0 * (t : ℝ) ^ 2) i _ (by omega), centralDiff10_quad _ _ _ _ (by omega)]
  · ring
  · intro j h1 h2
    rw [centralDiff10_quad _ _ _ _ (by omega)]; ring

theorem smoothCurvature_add (f g : ℕ → ℝ) (i : ℕ) :
    smoothCurvature (fun t => f t + g t) i = smoothCurvature f i + smoothCurvature g i := by
  unfold smoothCurvature
  rw [← Finset.sum_add_distrib]
  exact Finset.sum_congr rfl (fun j _ => by rw [curvature_add]; ring)

theorem smoothCurvature_smul (c : ℝ) (f : ℕ → ℝ) (i : ℕ) : smoothCurvature (fun t => c * f t) i = c * smoothCurvature f i := by
  unfold smoothCurvature
  rw [Finset.mul_sum]
  exact Finset.sum_congr rfl (fun j _ => by rw [curvature_smul]; ring)

theorem smoothCurvature_quad (a b q : ℝ) (i : ℕ) : smoothCurvature (fun t => a + b * t + q * (t : ℝ) ^ 2) i = 2 * q := by
  unfold smoothCurvature
  have : ∀ j ∈ Finset.range 200, lowpass j * curvature (fun t => a + b * t + q * (t : ℝ) ^ 2) (i + 210 - j) = lowpass j * (2 * q) := by
    intro j hj
    have := Finset.mem_range.mp hj
    rw [curvature_quad _ _ _ _ (by omega)]
  rw [Finset.sum_congr rfl this, ← Finset.sum_mul, lowpass_sum, one_mul]

end Shipgrav
