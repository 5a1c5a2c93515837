import Verif.Lemmas.Signal
import Mathlib.Analysis.Convex.SpecificFunctions.Deriv
import Mathlib.Analysis.Real.Pi.Bounds
import Mathlib.Tactic.IntervalCases

/-! Frequency response of the low-pass filter of the scripts: 480 samples, cut-off at a period of 240 s, Blackman window. -/

namespace Shipgrav
open Real

/-- Argument of the sinc, half a sample and `k` samples from the middle. -/
noncomputable def lpX (k : ℕ) : ℝ := π * ((k + 1 / 2) / 120)

noncomputable def lpS (k : ℕ) : ℝ := sin (lpX k) / lpX k

noncomputable def lpC (k : ℕ) : ℝ := cos ((k + 1 / 2) * (2 * π / 479))

noncomputable def lpB (k : ℕ) : ℝ := 0.16 * (lpC k + 1) * (lpC k + 2.125)

noncomputable def lpA (k : ℕ) : ℝ := lpS k * lpB k

theorem lpX_pos (k : ℕ) : 0 < lpX k := by unfold lpX; positivity

/-- Upper values of the window at the beginning of each sixth. -/
noncomputable def lpTop : ℕ → ℝ
  | 0 => 1
  | 1 => 0.8935
  | 2 => 0.63
  | 3 => 0.34
  | 4 => 0.13
  | _ => 0.0272

theorem sqrt3 : 1.732 < √3 ∧ √3 < 1.7321 := by
  constructor
  · exact lt_sqrt_of_sq_lt (by norm_num)
  · rw [sqrt_lt' (by norm_num)]; norm_num

theorem lpTheta (k i : ℕ) (h1 : 40 * i ≤ k) (h2 : k < 40 * (i + 1)) (hi : i < 6) :
    π * (i / 6) ≤ (k + 1 / 2) * (2 * π / 479) ∧ (k + 1 / 2) * (2 * π / 479) ≤ π * ((i + 1) / 6) := by
  have hpi := pi_pos
  have a1 : (40 : ℝ) * i ≤ k := by exact_mod_cast h1
  have a2 : (k : ℝ) + 1 ≤ 40 * (i + 1) := by exact_mod_cast h2
  have a3 : (i : ℝ) + 1 ≤ 6 := by exact_mod_cast hi
  constructor
  · rw [show (k + 1 / 2 : ℝ) * (2 * π / 479) = π * ((2 * k + 1) / 479) by ring]
    refine mul_le_mul_of_nonneg_left ?_ hpi.le
    rw [div_le_div_iff₀ (by norm_num) (by norm_num)]
    linarith
  · rw [show (k + 1 / 2 : ℝ) * (2 * π / 479) = π * ((2 * k + 1) / 479) by ring]
    refine mul_le_mul_of_nonneg_left ?_ hpi.le
    rw [div_le_div_iff₀ (by norm_num) (by norm_num)]
    linarith

theorem lpX_group (k i : ℕ) (h1 : 40 * i ≤ k) (h2 : k < 40 * (i + 1)) : π * (i / 3) ≤ lpX k ∧ lpX k ≤ π * ((i + 1) / 3) := by
  have hpi := pi_pos
  have a1 : (40 : ℝ) * i ≤ k := by exact_mod_cast h1
  have a2 : (k : ℝ) + 1 ≤ 40 * (i + 1) := by exact_mod_cast h2
  unfold lpX
  constructor <;> refine mul_le_mul_of_nonneg_left ?_ hpi.le <;> linarith

theorem cos_table : cos (π * ((1 : ℕ) / 6)) = √3 / 2 ∧ cos (π * ((2 : ℕ) / 6)) = 1 / 2 ∧ cos (π * ((3 : ℕ) / 6)) = 0 ∧
    cos (π * ((4 : ℕ) / 6)) = -(1 / 2) ∧ cos (π * ((5 : ℕ) / 6)) = -(√3 / 2) := by
  refine ⟨?_, ?_, ?_, ?_, ?_⟩
  · rw [← cos_pi_div_six]; congr 1; push_cast; ring
  · rw [← cos_pi_div_three]; congr 1; push_cast; ring
  · rw [← cos_pi_div_two]; congr 1; push_cast; ring
  · rw [← cos_pi_div_three, ← cos_pi_sub]; congr 1; push_cast; ring
  · rw [← cos_pi_div_six, ← cos_pi_sub]; congr 1; push_cast; ring

theorem lpC_le (k i : ℕ) (h1 : 40 * i ≤ k) (h2 : k < 40 * (i + 1)) (hi : i < 6) : lpC k ≤ cos (π * (i / 6)) := by
  obtain ⟨a, b⟩ := lpTheta k i h1 h2 hi
  have hpi := pi_pos
  refine cos_le_cos_of_nonneg_of_le_pi (by positivity) (b.trans ?_) a
  have : (i : ℝ) + 1 ≤ 6 := by exact_mod_cast hi
  nlinarith

theorem lpC_ge (k i : ℕ) (h1 : 40 * i ≤ k) (h2 : k < 40 * (i + 1)) (hi : i < 6) : cos (π * ((i + 1 : ℕ) / 6)) ≤ lpC k := by
  obtain ⟨a, b⟩ := lpTheta k i h1 h2 hi
  have hpi := pi_pos
  have : (i : ℝ) + 1 ≤ 6 := by exact_mod_cast hi
  refine cos_le_cos_of_nonneg_of_le_pi (by positivity) ?_ (by push_cast; exact b)
  push_cast
  nlinarith

theorem lpB_nonneg (k : ℕ) : 0 ≤ lpB k := by
  unfold lpB lpC
  have := neg_one_le_cos ((k + 1 / 2) * (2 * π / 479))
  have h1 : 0 ≤ cos ((k + 1 / 2 : ℝ) * (2 * π / 479)) + 1 := by linarith
  have h2 : 0 ≤ cos ((k + 1 / 2 : ℝ) * (2 * π / 479)) + 2.125 := by norm_num; linarith
  positivity

theorem lpB_le_one (k : ℕ) : lpB k ≤ 1 := by
  have h := window_mono (neg_one_le_cos _) (cos_le_one ((k + 1 / 2) * (2 * π / 479)))
  refine h.trans (by norm_num)

theorem lpB_le (k i : ℕ) (h1 : 40 * i ≤ k) (h2 : k < 40 * (i + 1)) (hi : i < 6) : lpB k ≤ lpTop i := by
  have hc := lpC_le k i h1 h2 hi
  have h := window_mono (neg_one_le_cos _) hc
  obtain ⟨c1, c2, c3, c4, c5⟩ := cos_table
  obtain ⟨s1, s2⟩ := sqrt3
  have hs : √3 ^ 2 = 3 := sq_sqrt (by norm_num)
  interval_cases i
  · exact lpB_le_one k
  · rw [c1] at h; refine h.trans ?_; simp only [lpTop]; nlinarith
  · rw [c2] at h; refine h.trans ?_; unfold lpTop; norm_num
  · rw [c3] at h; refine h.trans ?_; unfold lpTop; norm_num
  · rw [c4] at h; refine h.trans ?_; unfold lpTop; norm_num
  · rw [c5] at h; refine h.trans ?_; simp only [lpTop]; nlinarith

theorem lpB_ge0 (k : ℕ) (h : k < 40) : 0.893 ≤ lpB k := by
  have h := window_mono (neg_one_le_cos _) (lpC_ge k 0 (by omega) (by omega) (by norm_num))
  obtain ⟨s1, s2⟩ := sqrt3
  rw [cos_table.1] at h
  have hs : √3 ^ 2 = 3 := sq_sqrt (by norm_num)
  refine le_trans ?_ h
  nlinarith

theorem lpB_ge1 (k : ℕ) (h1 : 40 ≤ k) (h : k < 80) : 0.63 ≤ lpB k := by
  have h := window_mono (neg_one_le_cos _) (lpC_ge k 1 (by omega) (by omega) (by norm_num))
  rw [cos_table.2.1] at h
  refine le_trans (by norm_num) h

theorem lpB_anti (k : ℕ) (h : k < 239) : lpB (k + 1) ≤ lpB k := by
  have hpi := pi_pos
  refine window_mono (neg_one_le_cos _) ?_
  refine cos_le_cos_of_nonneg_of_le_pi (by positivity) ?_ ?_
  · have : (k : ℝ) + 1 ≤ 239 := by exact_mod_cast h
    rw [show (((k + 1 : ℕ) : ℝ) + 1 / 2) * (2 * π / 479) = π * ((2 * (k + 1) + 1) / 479) by push_cast; ring]
    have : (2 * ((k : ℝ) + 1) + 1) / 479 ≤ 1 := by rw [div_le_one (by norm_num)]; linarith
    nlinarith
  · refine mul_le_mul_of_nonneg_right ?_ (by positivity)
    push_cast
    linarith

/-! ### The sinc -/

theorem sin_chord {x y : ℝ} (hx : 0 ≤ x) (hxy : x ≤ y) (hy : y ≤ π) (hy0 : 0 < y) : x / y * sin y ≤ sin x := by
  have h := strictConcaveOn_sin_Icc.concaveOn.2 (show (0 : ℝ) ∈ Set.Icc 0 π from ⟨le_rfl, pi_pos.le⟩) (show y ∈ Set.Icc 0 π from ⟨hy0.le, hy⟩)
    (show 0 ≤ 1 - x / y by rw [sub_nonneg, div_le_one hy0]; exact hxy) (show 0 ≤ x / y by positivity) (by ring)
  simp only [smul_eq_mul, mul_zero, sin_zero, zero_add] at h
  rwa [div_mul_cancel₀ _ hy0.ne'] at h

theorem sin_div_anti {x y : ℝ} (hx : 0 < x) (hxy : x ≤ y) (hy : y ≤ π) : sin y / y ≤ sin x / x := by
  have hy0 : 0 < y := lt_of_lt_of_le hx hxy
  have h := sin_chord hx.le hxy hy hy0
  rw [div_le_div_iff₀ hy0 hx]
  have : x * sin y ≤ sin x * y := by
    calc x * sin y = (x / y * sin y) * y := by field_simp
      _ ≤ _ := mul_le_mul_of_nonneg_right h hy0.le
  linarith

theorem lpS_abs_le_one (k : ℕ) : |lpS k| ≤ 1 := by
  have := lpX_pos k
  unfold lpS
  rw [abs_div, abs_of_pos this, div_le_one this]
  exact (abs_sin_le_abs (x := lpX k)).trans (le_of_eq (abs_of_pos this))

theorem lpS_ge0 (k : ℕ) (h : k < 40) : 0.826 ≤ lpS k := by
  obtain ⟨_, hb⟩ := lpX_group k 0 (by omega) (by omega)
  have hpi := pi_pos
  have hx := lpX_pos k
  have h1 := sin_div_anti hx (y := π / 3) (by push_cast at hb; linarith) (by linarith)
  refine le_trans ?_ h1
  rw [sin_pi_div_three, le_div_iff₀ (by positivity)]
  obtain ⟨s1, _⟩ := sqrt3
  have := pi_lt_d4
  nlinarith

theorem sin_mid {x : ℝ} (h1 : π / 3 ≤ x) (h2 : x ≤ 2 * π / 3) : √3 / 2 ≤ sin x := by
  have hpi := pi_pos
  rw [← cos_pi_div_six, ← cos_sub_pi_div_two, ← cos_abs (x - π / 2)]
  refine cos_le_cos_of_nonneg_of_le_pi (abs_nonneg _) (by linarith) ?_
  rw [abs_le]
  constructor <;> linarith

theorem lpS_ge1 (k : ℕ) (h1 : 40 ≤ k) (h : k < 80) : 0.413 ≤ lpS k := by
  obtain ⟨ha, hb⟩ := lpX_group k 1 (by omega) (by omega)
  have hx := lpX_pos k
  have hs := sin_mid (x := lpX k) (by push_cast at ha; linarith) (by push_cast at hb; linarith)
  unfold lpS
  rw [le_div_iff₀ hx]
  obtain ⟨s1, _⟩ := sqrt3
  have := pi_lt_d4
  push_cast at hb
  nlinarith

theorem lpS_ge2 (k : ℕ) (h : k < 120) : 0 ≤ lpS k := by
  have hx := lpX_pos k
  refine div_nonneg (sin_nonneg_of_nonneg_of_le_pi hx.le ?_) hx.le
  have : (k : ℝ) + 1 ≤ 120 := by exact_mod_cast h
  have hpi := pi_pos
  unfold lpX
  have : ((k : ℝ) + 1 / 2) / 120 ≤ 1 := by rw [div_le_one (by norm_num)]; linarith
  nlinarith

theorem abs_sin_edge {x : ℝ} {j : ℤ} (h : |x - j * π| ≤ π / 3) : |sin x| ≤ √3 / 2 := by
  have hpi := pi_pos
  have e : |sin x| = |sin (x - j * π)| := by
    rw [sin_sub_int_mul_pi, abs_mul, abs_zpow, abs_neg, abs_one, one_zpow, one_mul]
  rw [e, abs_sin_eq_sin_abs_of_abs_le_pi (by linarith), ← sin_pi_div_three]
  exact sin_le_sin_of_le_of_le_pi_div_two (by linarith [abs_nonneg (x - j * π)]) (by linarith) h

/-- Size of the sinc in each sixth. -/
noncomputable def lpAmp : ℕ → ℝ
  | 0 => 1
  | 1 => 0.955
  | 2 => 0.4136
  | 3 => 0.2758
  | 4 => 0.2388
  | _ => 0.1655

theorem lpS_abs (k i : ℕ) (h1 : 40 * i ≤ k) (h2 : k < 40 * (i + 1)) (hi : i < 6) : |lpS k| ≤ lpAmp i := by
  obtain ⟨ha, hb⟩ := lpX_group k i h1 h2
  have hx := lpX_pos k
  obtain ⟨s1, s2⟩ := sqrt3
  have p1 := pi_gt_d4
  have hpi := pi_pos
  have key : ∀ S v : ℝ, |sin (lpX k)| ≤ S → S ≤ v * (π * (i / 3)) → 0 ≤ v → |lpS k| ≤ v := by
    intro S v hS hv hv0
    unfold lpS
    rw [abs_div, abs_of_pos hx, div_le_iff₀ hx]
    exact hS.trans (hv.trans (mul_le_mul_of_nonneg_left ha hv0))
  interval_cases i
  · exact lpS_abs_le_one k
  · refine key 1 0.955 (abs_sin_le_one _) ?_ (by norm_num); push_cast; nlinarith
  · refine key (√3 / 2) 0.4136 (abs_sin_edge (j := 1) ?_) ?_ (by norm_num)
    · rw [abs_le]; push_cast at ha hb ⊢; constructor <;> linarith
    · push_cast; nlinarith
  · refine key (√3 / 2) 0.2758 (abs_sin_edge (j := 1) ?_) ?_ (by norm_num)
    · rw [abs_le]; push_cast at ha hb ⊢; constructor <;> linarith
    · push_cast; nlinarith
  · refine key 1 0.2388 (abs_sin_le_one _) ?_ (by norm_num); push_cast; nlinarith
  · refine key (√3 / 2) 0.1655 (abs_sin_edge (j := 2) ?_) ?_ (by norm_num)
    · rw [abs_le]; push_cast at ha hb ⊢; constructor <;> linarith
    · push_cast; nlinarith

theorem lpA_abs (k i : ℕ) (h1 : 40 * i ≤ k) (h2 : k < 40 * (i + 1)) (hi : i < 6) : |lpA k| ≤ lpAmp i * lpTop i := by
  unfold lpA
  rw [abs_mul, abs_of_nonneg (lpB_nonneg k)]
  exact mul_le_mul (lpS_abs k i h1 h2 hi) (lpB_le k i h1 h2 hi) (lpB_nonneg k) ((abs_nonneg _).trans (lpS_abs k i h1 h2 hi))

/-! ### Sums by sixths -/

theorem sum_sixths (f : ℕ → ℝ) : ∑ k ∈ Finset.range 240, f k =
    ∑ j ∈ Finset.range 40, f j + ∑ j ∈ Finset.range 40, f (40 + j) + ∑ j ∈ Finset.range 40, f (80 + j) + ∑ j ∈ Finset.range 40, f (120 + j) +
      ∑ j ∈ Finset.range 40, f (160 + j) + ∑ j ∈ Finset.range 40, f (200 + j) := by
  rw [show 240 = 200 + 40 by norm_num, Finset.sum_range_add, show 200 = 160 + 40 by norm_num, Finset.sum_range_add,
    show 160 = 120 + 40 by norm_num, Finset.sum_range_add, show 120 = 80 + 40 by norm_num, Finset.sum_range_add,
    show 80 = 40 + 40 by norm_num, Finset.sum_range_add]

theorem sixth_ge (f : ℕ → ℝ) (v : ℝ) (h : ∀ j < 40, v ≤ f j) : 40 * v ≤ ∑ j ∈ Finset.range 40, f j := by
  have := Finset.card_nsmul_le_sum (Finset.range 40) f v (fun j hj => h j (Finset.mem_range.1 hj))
  simpa using this

theorem sixth_le (f : ℕ → ℝ) (v : ℝ) (h : ∀ j < 40, f j ≤ v) : ∑ j ∈ Finset.range 40, f j ≤ 40 * v := by
  have := Finset.sum_le_card_nsmul (Finset.range 40) f v (fun j hj => h j (Finset.mem_range.1 hj))
  simpa using this

theorem lp_total : 34.7 ≤ ∑ k ∈ Finset.range 240, lpA k := by
  have g0 := sixth_ge lpA (0.826 * 0.893) (fun j hj => mul_le_mul (lpS_ge0 j hj) (lpB_ge0 j hj) (by norm_num) (lpS_ge2 j (by omega)))
  have g1 := sixth_ge (fun j => lpA (40 + j)) (0.413 * 0.63) (fun j hj =>
    mul_le_mul (lpS_ge1 _ (by omega) (by omega)) (lpB_ge1 _ (by omega) (by omega)) (by norm_num) (lpS_ge2 _ (by omega)))
  have g2 := sixth_ge (fun j => lpA (80 + j)) 0 (fun j hj => mul_nonneg (lpS_ge2 _ (by omega)) (lpB_nonneg _))
  have g3 := sixth_ge (fun j => lpA (120 + j)) (-(0.2758 * 0.34)) (fun j hj => (abs_le.1 (lpA_abs (120 + j) 3 (by omega) (by omega) (by norm_num))).1)
  have g4 := sixth_ge (fun j => lpA (160 + j)) (-(0.2388 * 0.13)) (fun j hj => (abs_le.1 (lpA_abs (160 + j) 4 (by omega) (by omega) (by norm_num))).1)
  have g5 := sixth_ge (fun j => lpA (200 + j)) (-(0.1655 * 0.0272)) (fun j hj => (abs_le.1 (lpA_abs (200 + j) 5 (by omega) (by omega) (by norm_num))).1)
  rw [sum_sixths]
  norm_num at g0 g1 g2 g3 g4 g5 ⊢
  linarith

theorem cube_sum (a : ℕ) : ∑ j ∈ Finset.range 40, (((a + j : ℕ) : ℝ) + 1 / 2) ^ 2 ≤ (((a : ℝ) + 40) ^ 3 - (a : ℝ) ^ 3) / 3 := by
  have h : ∀ j ∈ Finset.range 40, (((a + j : ℕ) : ℝ) + 1 / 2) ^ 2 ≤ (fun j : ℕ => (((a : ℝ) + j) ^ 3) / 3) (j + 1) - (fun j : ℕ => (((a : ℝ) + j) ^ 3) / 3) j := by
    intro j _
    push_cast
    nlinarith
  refine (Finset.sum_le_sum h).trans ?_
  rw [Finset.sum_range_sub (fun j : ℕ => (((a : ℝ) + j) ^ 3) / 3)]
  push_cast
  apply le_of_eq
  ring

theorem sixth_moment (i : ℕ) (hi : i < 6) : ∑ j ∈ Finset.range 40, |lpA (40 * i + j)| * (((40 * i + j : ℕ) : ℝ) + 1 / 2) ^ 2 ≤
    lpAmp i * lpTop i * ((((40 * i : ℕ) : ℝ) + 40) ^ 3 - ((40 * i : ℕ) : ℝ) ^ 3) / 3 := by
  have hA : ∀ j < 40, |lpA (40 * i + j)| ≤ lpAmp i * lpTop i := fun j hj => lpA_abs _ i (by omega) (by omega) hi
  have h0 : 0 ≤ lpAmp i * lpTop i := (abs_nonneg _).trans (hA 0 (by norm_num))
  calc _ ≤ ∑ j ∈ Finset.range 40, lpAmp i * lpTop i * (((40 * i + j : ℕ) : ℝ) + 1 / 2) ^ 2 :=
        Finset.sum_le_sum fun j hj => mul_le_mul_of_nonneg_right (hA j (Finset.mem_range.1 hj)) (by positivity)
    _ = lpAmp i * lpTop i * ∑ j ∈ Finset.range 40, (((40 * i + j : ℕ) : ℝ) + 1 / 2) ^ 2 := by rw [Finset.mul_sum]
    _ ≤ lpAmp i * lpTop i * (((((40 * i : ℕ) : ℝ) + 40) ^ 3 - ((40 * i : ℕ) : ℝ) ^ 3) / 3) := mul_le_mul_of_nonneg_left (cube_sum (40 * i)) h0
    _ = _ := by ring

theorem lp_moment : ∑ k ∈ Finset.range 240, |lpA k| * ((k : ℝ) + 1 / 2) ^ 2 ≤ 380000 := by
  rw [sum_sixths (fun k => |lpA k| * ((k : ℝ) + 1 / 2) ^ 2)]
  have m0 := sixth_moment 0 (by norm_num)
  have m1 := sixth_moment 1 (by norm_num)
  have m2 := sixth_moment 2 (by norm_num)
  have m3 := sixth_moment 3 (by norm_num)
  have m4 := sixth_moment 4 (by norm_num)
  have m5 := sixth_moment 5 (by norm_num)
  simp only [mul_zero, zero_add, mul_one, lpAmp, lpTop, show 40 * 2 = 80 from rfl, show 40 * 3 = 120 from rfl, show 40 * 4 = 160 from rfl,
    show 40 * 5 = 200 from rfl] at m0 m1 m2 m3 m4 m5
  push_cast at m0 m1 m2 m3 m4 m5 ⊢
  norm_num at m0 m1 m2 m3 m4 m5 ⊢
  linarith

/-! ### Variation of the weights -/

theorem lpS_step (k : ℕ) : |lpS (k + 1) - lpS k| ≤ π / 120 / lpX (k + 1) * (1 + 1 / lpX k) := by
  have hx := lpX_pos k
  have hy := lpX_pos (k + 1)
  have hd : lpX (k + 1) = lpX k + π / 120 := by unfold lpX; push_cast; ring
  have hpi := pi_pos
  have e : lpS (k + 1) - lpS k = (sin (lpX (k + 1)) - sin (lpX k)) / lpX (k + 1) - sin (lpX k) * (π / 120 / (lpX k * lpX (k + 1))) := by
    unfold lpS
    have : π / 120 = lpX (k + 1) - lpX k := by rw [hd]; ring
    rw [this]
    field_simp
    ring
  rw [e]
  have h1 : |sin (lpX (k + 1)) - sin (lpX k)| ≤ π / 120 := by
    have e1 : |lpX (k + 1) - lpX k| = π / 120 := by rw [hd, add_sub_cancel_left, abs_of_pos (by positivity)]
    rw [← e1]
    exact abs_sin_sub_sin_le _ _
  have h2 := abs_sin_le_one (lpX k)
  calc _ ≤ |(sin (lpX (k + 1)) - sin (lpX k)) / lpX (k + 1)| + |sin (lpX k) * (π / 120 / (lpX k * lpX (k + 1)))| := abs_sub _ _
    _ ≤ π / 120 / lpX (k + 1) + 1 * (π / 120 / (lpX k * lpX (k + 1))) := by
        rw [abs_div, abs_of_pos hy, abs_mul, abs_of_pos (show 0 < π / 120 / (lpX k * lpX (k + 1)) by positivity)]
        exact add_le_add (div_le_div_of_nonneg_right h1 hy.le) (mul_le_mul_of_nonneg_right h2 (by positivity))
    _ = _ := by field_simp

theorem lpA_anti (k : ℕ) (h : k < 119) : lpA (k + 1) ≤ lpA k := by
  have hx := lpX_pos k
  have hpi := pi_pos
  have hs : lpS (k + 1) ≤ lpS k := by
    refine sin_div_anti hx ?_ ?_
    · unfold lpX
      refine mul_le_mul_of_nonneg_left ?_ hpi.le
      push_cast
      linarith
    · have : (k : ℝ) + 1 ≤ 119 := by exact_mod_cast h
      unfold lpX
      have : (((k + 1 : ℕ) : ℝ) + 1 / 2) / 120 ≤ 1 := by rw [div_le_one (by norm_num)]; push_cast; linarith
      nlinarith
  exact mul_le_mul hs (lpB_anti k (by omega)) (lpB_nonneg _) (lpS_ge2 k (by omega))

theorem lpS_small (k : ℕ) (h1 : 119 ≤ k) (h2 : k < 240) : |lpS k| ≤ 0.2758 := by
  rcases Nat.lt_or_ge k 120 with h | h
  · have : k = 119 := by omega
    subst this
    have hx := lpX_pos 119
    have p1 := pi_gt_d4
    have p2 := pi_lt_d4
    have e : sin (lpX 119) = sin (π / 240) := by
      rw [← sin_pi_sub]
      congr 1
      unfold lpX
      push_cast
      ring
    unfold lpS
    rw [e, abs_div, abs_of_pos hx, div_le_iff₀ hx]
    have h3 : |sin (π / 240)| ≤ π / 240 := (abs_sin_le_abs).trans (le_of_eq (abs_of_pos (by positivity)))
    unfold lpX
    push_cast
    linarith
  · rcases Nat.lt_or_ge k 160 with h' | h'
    · exact lpS_abs k 3 (by omega) (by omega) (by norm_num)
    · rcases Nat.lt_or_ge k 200 with h'' | h''
      · exact (lpS_abs k 4 (by omega) (by omega) (by norm_num)).trans (by unfold lpAmp; norm_num)
      · exact (lpS_abs k 5 (by omega) (by omega) (by norm_num)).trans (by unfold lpAmp; norm_num)

/-- One step beyond the main lobe. -/
theorem lpA_step (k i : ℕ) (hi : 3 ≤ i) (hi6 : i < 6) (h1 : 40 * i ≤ k + 1) (h2 : k + 1 < 40 * (i + 1)) :
    |lpA (k + 1) - lpA k| ≤ 0.0334 / i * lpTop i + 0.2758 * (lpB k - lpB (k + 1)) := by
  have hB := lpB_le (k + 1) i h1 h2 hi6
  have hB0 := lpB_nonneg (k + 1)
  have hk : 119 ≤ k ∧ k < 239 := by constructor <;> omega
  have hs := lpS_small k hk.1 (by omega)
  have hd := lpB_anti k hk.2
  have hstep := lpS_step k
  have hx := lpX_pos k
  have hy := lpX_pos (k + 1)
  have p1 := pi_gt_d4
  have hpi := pi_pos
  have hyb : π * (i / 3) ≤ lpX (k + 1) := (lpX_group (k + 1) i h1 h2).1
  have hxb : 3.1 ≤ lpX k := by
    have : (119 : ℝ) ≤ k := by exact_mod_cast hk.1
    unfold lpX
    have : (119.5 : ℝ) / 120 ≤ (k + 1 / 2) / 120 := by norm_num; linarith
    nlinarith
  have hi0 : (0 : ℝ) < i := by exact_mod_cast (by omega : 0 < i)
  have hS : |lpS (k + 1) - lpS k| ≤ 0.0334 / i := by
    refine hstep.trans ?_
    have a1 : π / 120 / lpX (k + 1) ≤ 0.025 / i := by
      rw [div_le_div_iff₀ hy hi0]
      calc π / 120 * i = 0.025 * (π * (i / 3)) := by ring
        _ ≤ _ := mul_le_mul_of_nonneg_left hyb (by norm_num)
    have a2 : 1 + 1 / lpX k ≤ 1.324 := by
      have : 1 / lpX k ≤ 1 / 3.1 := one_div_le_one_div_of_le (by norm_num) hxb
      have : (1 : ℝ) / 3.1 ≤ 0.324 := by norm_num
      linarith
    calc _ ≤ (0.025 : ℝ) / i * 1.324 := mul_le_mul a1 a2 (by positivity) (by positivity)
      _ ≤ 0.0334 / i := by
        rw [div_mul_eq_mul_div]
        exact div_le_div_of_nonneg_right (by norm_num) hi0.le
  have e : lpA (k + 1) - lpA k = (lpS (k + 1) - lpS k) * lpB (k + 1) + lpS k * -(lpB k - lpB (k + 1)) := by unfold lpA; ring
  rw [e]
  refine (abs_add_le _ _).trans ?_
  rw [abs_mul, abs_mul, abs_neg, abs_of_nonneg hB0, abs_of_nonneg (sub_nonneg.2 hd)]
  refine add_le_add (mul_le_mul hS hB hB0 (by positivity)) (mul_le_mul_of_nonneg_right hs (sub_nonneg.2 hd))

theorem lp_variation : ∑ k ∈ Finset.range 239, |lpA (k + 1) - lpA k| + |lpA 239| ≤ 1.4 := by
  have hlast : |lpA 239| ≤ 0.0051 := (lpA_abs 239 5 (by norm_num) (by norm_num) (by norm_num)).trans (by unfold lpAmp lpTop; norm_num)
  have hmain : ∑ k ∈ Finset.range 119, |lpA (k + 1) - lpA k| ≤ 1 := by
    have e : ∀ k ∈ Finset.range 119, |lpA (k + 1) - lpA k| = lpA k - lpA (k + 1) := by
      intro k hk
      rw [abs_sub_comm, abs_of_nonneg (sub_nonneg.2 (lpA_anti k (Finset.mem_range.1 hk)))]
    rw [Finset.sum_congr rfl e, Finset.sum_range_sub']
    have h1 : lpA 0 ≤ 1 := by
      have := (le_abs_self _).trans (lpA_abs 0 0 (by norm_num) (by norm_num) (by norm_num))
      rwa [show lpAmp 0 * lpTop 0 = 1 by simp [lpAmp, lpTop]] at this
    have h2 : 0 ≤ lpA 119 := mul_nonneg (lpS_ge2 119 (by norm_num)) (lpB_nonneg _)
    linarith
  have hgroup : ∀ i, 3 ≤ i → i < 6 → ∑ j ∈ Finset.range 40, |lpA (40 * i - 1 + j + 1) - lpA (40 * i - 1 + j)| ≤
      40 * (0.0334 / i * lpTop i) + 0.2758 * (lpB (40 * i - 1) - lpB (40 * i - 1 + 40)) := by
    intro i h3 h6
    refine (Finset.sum_le_sum fun j hj => lpA_step (40 * i - 1 + j) i h3 h6 (by have := Finset.mem_range.1 hj; omega)
      (by have := Finset.mem_range.1 hj; omega)).trans ?_
    rw [Finset.sum_add_distrib, ← Finset.mul_sum (f := fun x => lpB (40 * i - 1 + x) - lpB (40 * i - 1 + x + 1))]
    have := Finset.sum_range_sub' (fun j => lpB (40 * i - 1 + j)) 40
    simp only [← add_assoc, add_zero] at this
    rw [this]
    simp
  have g3 := hgroup 3 (by norm_num) (by norm_num)
  have g4 := hgroup 4 (by norm_num) (by norm_num)
  have g5 := hgroup 5 (by norm_num) (by norm_num)
  have hsplit : ∑ k ∈ Finset.range 239, |lpA (k + 1) - lpA k| = ∑ k ∈ Finset.range 119, |lpA (k + 1) - lpA k| +
      ∑ j ∈ Finset.range 40, |lpA (119 + j + 1) - lpA (119 + j)| + ∑ j ∈ Finset.range 40, |lpA (159 + j + 1) - lpA (159 + j)| +
      ∑ j ∈ Finset.range 40, |lpA (199 + j + 1) - lpA (199 + j)| := by
    rw [show 239 = 199 + 40 by norm_num, Finset.sum_range_add, show 199 = 159 + 40 by norm_num, Finset.sum_range_add,
      show 159 = 119 + 40 by norm_num, Finset.sum_range_add]
  have hb0 := lpB_nonneg 239
  have hb1 : lpB 119 ≤ 0.63 := lpB_le 119 2 (by norm_num) (by norm_num) (by norm_num)
  rw [hsplit]
  simp only [show 40 * 3 - 1 = 119 from rfl, show 40 * 4 - 1 = 159 from rfl, show 40 * 5 - 1 = 199 from rfl, show 119 + 40 = 159 from rfl,
    show 159 + 40 = 199 from rfl, show 199 + 40 = 239 from rfl, lpTop] at g3 g4 g5
  push_cast at g3 g4 g5
  norm_num at g3 g4 g5 hmain hlast hb1 ⊢
  linarith

/-- Response at `ω` radians per sample. -/
noncomputable def lpH (ω : ℝ) : ℝ := (∑ k ∈ Finset.range 240, lpA k * cos (ω * (k + 1 / 2))) / ∑ k ∈ Finset.range 240, lpA k

theorem lpH_long (ω : ℝ) : |1 - lpH ω| ≤ 5480 * ω ^ 2 := by
  have hT := lp_total
  have hT0 : 0 < ∑ k ∈ Finset.range 240, lpA k := lt_of_lt_of_le (by norm_num) hT
  have e : 1 - lpH ω = (∑ k ∈ Finset.range 240, lpA k * (1 - cos (ω * (k + 1 / 2)))) / ∑ k ∈ Finset.range 240, lpA k := by
    unfold lpH
    rw [eq_div_iff hT0.ne', sub_mul, one_mul, div_mul_cancel₀ _ hT0.ne', ← Finset.sum_sub_distrib]
    exact Finset.sum_congr rfl fun k _ => by ring
  rw [e, abs_div, abs_of_pos hT0, div_le_iff₀ hT0]
  calc _ ≤ ∑ k ∈ Finset.range 240, |lpA k * (1 - cos (ω * (k + 1 / 2)))| := Finset.abs_sum_le_sum_abs _ _
    _ ≤ ∑ k ∈ Finset.range 240, ω ^ 2 / 2 * (|lpA k| * ((k : ℝ) + 1 / 2) ^ 2) := by
        refine Finset.sum_le_sum fun k _ => ?_
        rw [abs_mul]
        have h1 : |1 - cos (ω * ((k : ℝ) + 1 / 2))| ≤ (ω * ((k : ℝ) + 1 / 2)) ^ 2 / 2 := by
          rw [abs_of_nonneg (by linarith [cos_le_one (ω * ((k : ℝ) + 1 / 2))])]
          have := one_sub_sq_div_two_le_cos (x := ω * ((k : ℝ) + 1 / 2))
          linarith
        calc _ ≤ |lpA k| * ((ω * ((k : ℝ) + 1 / 2)) ^ 2 / 2) := mul_le_mul_of_nonneg_left h1 (abs_nonneg _)
          _ = _ := by ring
    _ = ω ^ 2 / 2 * ∑ k ∈ Finset.range 240, |lpA k| * ((k : ℝ) + 1 / 2) ^ 2 := by rw [Finset.mul_sum]
    _ ≤ ω ^ 2 / 2 * 380000 := mul_le_mul_of_nonneg_left lp_moment (by positivity)
    _ ≤ 5480 * ω ^ 2 * 34.7 := by nlinarith [sq_nonneg ω]
    _ ≤ _ := mul_le_mul_of_nonneg_left hT (by positivity)

theorem lpH_short (ω : ℝ) : |lpH ω| * |sin (ω / 2)| ≤ 1 / 48 := by
  have hT := lp_total
  have hT0 : 0 < ∑ k ∈ Finset.range 240, lpA k := lt_of_lt_of_le (by norm_num) hT
  have habel : ∀ n : ℕ, 2 * sin (ω / 2) * ∑ k ∈ Finset.range (n + 1), lpA k * cos (ω * (k + 1 / 2)) =
      lpA n * sin (ω * (n + 1)) - ∑ k ∈ Finset.range n, (lpA (k + 1) - lpA k) * sin (ω * (k + 1)) := by
    have hstep : ∀ k : ℕ, 2 * sin (ω / 2) * cos (ω * ((k : ℝ) + 1 / 2)) = sin (ω * (k + 1)) - sin (ω * k) := by
      intro k
      have a : ω * ((k : ℝ) + 1) = ω * (k + 1 / 2) + ω / 2 := by ring
      have b : ω * (k : ℝ) = ω * (k + 1 / 2) - ω / 2 := by ring
      rw [a, b, sin_add, sin_sub]
      ring
    intro n
    induction n with
    | zero =>
      have := hstep 0
      simp only [zero_add, Finset.sum_range_one, Finset.sum_range_zero, sub_zero]
      push_cast at this ⊢
      rw [mul_zero, sin_zero, sub_zero, zero_add] at this
      rw [zero_add, ← this]
      ring
    | succ n ih =>
      rw [Finset.sum_range_succ, mul_add, ih, Finset.sum_range_succ _ n]
      have := hstep (n + 1)
      push_cast at this ⊢
      linear_combination lpA (n + 1) * this
  have h := habel 239
  have hb : |2 * sin (ω / 2) * ∑ k ∈ Finset.range 240, lpA k * cos (ω * (k + 1 / 2))| ≤ 1.4 := by
    rw [h]
    refine (abs_sub _ _).trans ?_
    have h1 : |lpA 239 * sin (ω * ((239 : ℕ) + 1))| ≤ |lpA 239| := by
      rw [abs_mul]; exact mul_le_of_le_one_right (abs_nonneg _) (abs_sin_le_one _)
    have h2 : |∑ k ∈ Finset.range 239, (lpA (k + 1) - lpA k) * sin (ω * (k + 1))| ≤ ∑ k ∈ Finset.range 239, |lpA (k + 1) - lpA k| := by
      refine (Finset.abs_sum_le_sum_abs _ _).trans (Finset.sum_le_sum fun k _ => ?_)
      rw [abs_mul]; exact mul_le_of_le_one_right (abs_nonneg _) (abs_sin_le_one _)
    exact (add_le_add h1 h2).trans ((add_comm _ _).trans_le lp_variation)
  rw [abs_mul, abs_mul, abs_of_pos (by norm_num : (0 : ℝ) < 2)] at hb
  unfold lpH
  rw [abs_div, abs_of_pos hT0, div_mul_eq_mul_div, div_le_iff₀ hT0]
  have : |∑ k ∈ Finset.range 240, lpA k * cos (ω * (k + 1 / 2))| * |sin (ω / 2)| ≤ 0.7 := by nlinarith
  norm_num at hT this ⊢
  linarith

end Shipgrav
