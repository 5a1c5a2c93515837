import Verif.Lemmas.Gaussian
import Mathlib.Tactic.Positivity
import Mathlib.Tactic.FieldSimp

/-! Properties C01–C05 of `gaussian_filter` (utils.py 9–71). -/

namespace Shipgrav
open Spec

/-! ## C01 -/

/-- C01: the filter output is, sample by sample, the causal FIR sum with the normalised weights. -/
theorem C01_gaussian_filter_is_fir (x : List ℝ) (fl : ℕ) (h1 : 1 ≤ fl) (hx : fl < x.length) :
    gaussianFilter x fl = .ok ((List.range x.length).map (fir (taps fl) (weight fl) x)) :=
  gaussianFilter_eq x fl h1 hx

/-- C01: a series not longer than the filter is rejected. -/
theorem C01_short_series_rejected (x : List ℝ) (fl : ℤ) (h : (x.length : ℤ) ≤ fl) :
    gaussianFilter x fl = .error .assertionError := by
  unfold gaussianFilter; rw [if_neg (by omega)]

/-- C01: non-positive filter lengths always raise (which exception depends on `fl`). -/
theorem C01_nonpositive_length_raises (x : List ℝ) (fl : ℤ) (hx : x ≠ []) (h : fl ≤ 0) :
    gaussianFilter x fl = .error
      (if fl = 0 then .zeroDivisionError else if fl < -2 then .valueError else .indexError) := by
  have hl : 0 < x.length := List.length_pos_of_ne_nil hx
  unfold gaussianFilter
  rw [if_pos (by omega)]
  unfold gaussianCoeffs
  by_cases h0 : fl = 0
  · simp [h0]
  · by_cases h3 : fl < -2
    · have : fl / 2 + 1 < 0 := by omega
      simp [h0, h3, this]
    · have h4 : fl / 2 + 1 = 0 := by omega
      simp [h0, h3, h4]

/-- C01: causality. If two series agree up to and including sample `i`, so do the outputs at `i`. -/
theorem C01_causal (x x' : List ℝ) (fl : ℕ) (h1 : 1 ≤ fl) (hx : fl < x.length) (hx' : fl < x'.length)
    (y y' : List ℝ) (hy : gaussianFilter x fl = .ok y) (hy' : gaussianFilter x' fl = .ok y')
    (i : ℕ) (hi : i < x.length) (hi' : i < x'.length) (hagree : ∀ k ≤ i, x[k]? = x'[k]?) : y[i]? = y'[i]? := by
  rw [gaussianFilter_eq x fl h1 hx] at hy
  rw [gaussianFilter_eq x' fl h1 hx'] at hy'
  cases hy; cases hy'
  simp only [List.getElem?_map, List.getElem?_range hi, List.getElem?_range hi', Option.map_some, Option.some.injEq]
  unfold fir
  apply Finset.sum_congr rfl
  intro j hj
  have hj' : j < taps fl := by simpa using hj
  congr 1
  unfold sampleAt
  split
  · rw [List.getD_eq_getElem?_getD, List.getD_eq_getElem?_getD, hagree]
    omega
  · rfl

/-! ## C02 -/

/-- C02: the weights are positive, symmetric, `2⌊fl/2⌋+1` in number, and sum to one. -/
theorem C02_kernel (fl : ℕ) (h1 : 1 ≤ fl) :
    ∃ w : List ℝ, gaussianCoeffs fl = .ok w ∧ w.length = 2 * (fl / 2) + 1 ∧ (∀ v ∈ w, 0 < v) ∧
      w.reverse = w ∧ w.sum = 1 := by
  refine ⟨_, gauss_prms fl h1, by simp [taps], ?_, ?_, ?_⟩
  · intro v hv
    obtain ⟨j, _, rfl⟩ := List.mem_map.1 hv
    exact weight_pos _ _
  · apply List.ext_getElem
    · simp
    · intro i h1 h2
      rw [List.getElem_reverse]
      simp only [List.length_map, List.length_range, List.getElem_map, List.getElem_range]
      exact weight_symm fl i (by simpa using h2)
  · rw [sum_map_range]; exact weight_sum fl

private theorem sampleAt_window (x : List ℝ) (fl i j : ℕ) (hi : 2 * (fl / 2) ≤ i) :
    sampleAt x ((i : ℤ) - (taps fl - 1 : ℕ) + j) = x.getD (i - 2 * (fl / 2) + j) 0 := by
  unfold sampleAt taps
  rw [if_pos (by omega)]
  congr 1
  omega

/-- C02: past the warm-up every output sample lies between any bounds that hold for its window
`x[i-2⌊fl/2⌋], …, x[i]`. -/
theorem C02_between_window_bounds (x : List ℝ) (fl : ℕ) (h1 : 1 ≤ fl) (hx : fl < x.length)
    (y : List ℝ) (hy : gaussianFilter x fl = .ok y) (i : ℕ) (hi : 2 * (fl / 2) ≤ i) (hil : i < x.length)
    (lo hi' : ℝ) (hb : ∀ k v, i - 2 * (fl / 2) ≤ k → k ≤ i → x[k]? = some v → lo ≤ v ∧ v ≤ hi') :
    ∃ v, y[i]? = some v ∧ lo ≤ v ∧ v ≤ hi' := by
  rw [gaussianFilter_eq x fl h1 hx] at hy
  cases hy
  refine ⟨fir (taps fl) (weight fl) x i, by simp [List.getElem?_range hil], ?_⟩
  have hw := weight_sum fl
  have hs : ∀ j ∈ Finset.range (taps fl), lo ≤ sampleAt x ((i : ℤ) - (taps fl - 1 : ℕ) + j) ∧
      sampleAt x ((i : ℤ) - (taps fl - 1 : ℕ) + j) ≤ hi' := by
    intro j hj
    have hj' : j < taps fl := by simpa using hj
    unfold taps at hj'
    rw [sampleAt_window x fl i j hi]
    have hk : i - 2 * (fl / 2) + j < x.length := by omega
    rw [List.getD_eq_getElem _ _ hk]
    exact hb _ _ (by omega) (by omega) (List.getElem?_eq_getElem hk)
  unfold fir
  constructor
  · calc lo = ∑ j ∈ Finset.range (taps fl), weight fl j * lo := by rw [← Finset.sum_mul, hw, one_mul]
      _ ≤ _ := Finset.sum_le_sum fun j hj => mul_le_mul_of_nonneg_left (hs j hj).1 (weight_pos fl j).le
  · calc _ ≤ ∑ j ∈ Finset.range (taps fl), weight fl j * hi' :=
          Finset.sum_le_sum fun j hj => mul_le_mul_of_nonneg_left (hs j hj).2 (weight_pos fl j).le
      _ = hi' := by rw [← Finset.sum_mul, hw, one_mul]

/-- C02: a constant series is reproduced exactly past the warm-up. -/
theorem C02_constant_reproduced (c : ℝ) (n fl : ℕ) (h1 : 1 ≤ fl) (hn : fl < n)
    (y : List ℝ) (hy : gaussianFilter (List.replicate n c) fl = .ok y) (i : ℕ) (hi : 2 * (fl / 2) ≤ i) (hin : i < n) :
    y[i]? = some c := by
  obtain ⟨v, hv, h2, h3⟩ := C02_between_window_bounds (List.replicate n c) fl h1 (by simpa using hn) y hy i hi
    (by simpa using hin) c c (by
      intro k v _ hk hv
      have : k < n := by omega
      rw [List.getElem?_replicate_of_lt this] at hv
      cases hv
      exact ⟨le_rfl, le_rfl⟩)
  rw [hv, le_antisymm h3 h2]

/-! ## C03 -/

/-- C03: linearity. -/
theorem C03_linear (a b : ℝ) (x y : List ℝ) (hxy : x.length = y.length) (fl : ℕ) (h1 : 1 ≤ fl) (hx : fl < x.length)
    (fx fy : List ℝ) (hfx : gaussianFilter x fl = .ok fx) (hfy : gaussianFilter y fl = .ok fy) :
    gaussianFilter (List.zipWith (fun u v => a * u + b * v) x y) fl
      = .ok (List.zipWith (fun u v => a * u + b * v) fx fy) := by
  rw [gaussianFilter_eq x fl h1 hx] at hfx
  rw [gaussianFilter_eq y fl h1 (by omega)] at hfy
  cases hfx; cases hfy
  have hl : (List.zipWith (fun u v => a * u + b * v) x y).length = x.length := by simp [hxy]
  rw [gaussianFilter_eq _ fl h1 (by omega), hl]
  congr 1
  apply List.ext_getElem
  · simp [hxy]
  · intro i h2 h3
    simp only [List.getElem_map, List.getElem_range, List.getElem_zipWith]
    unfold fir
    rw [Finset.mul_sum, Finset.mul_sum, ← Finset.sum_add_distrib]
    apply Finset.sum_congr rfl
    intro j _
    have : ∀ t : ℤ, sampleAt (List.zipWith (fun u v => a * u + b * v) x y) t = a * sampleAt x t + b * sampleAt y t := by
      intro t
      unfold sampleAt
      split
      · by_cases ht : t.toNat < x.length
        · rw [List.getD_eq_getElem _ _ (by rw [hl]; exact ht), List.getD_eq_getElem _ _ ht,
            List.getD_eq_getElem _ _ (by omega), List.getElem_zipWith]
        · rw [List.getD_eq_default _ _ (by rw [hl]; omega), List.getD_eq_default _ _ (by omega),
            List.getD_eq_default _ _ (by omega)]
          ring
      · ring
    rw [this]
    ring

/-- C03: time invariance. Prepending `d` zeros prepends `d` zeros to the output. -/
theorem C03_time_invariant (d : ℕ) (x : List ℝ) (fl : ℕ) (h1 : 1 ≤ fl) (hx : fl < x.length)
    (y : List ℝ) (hy : gaussianFilter x fl = .ok y) :
    gaussianFilter (List.replicate d 0 ++ x) fl = .ok (List.replicate d 0 ++ y) := by
  rw [gaussianFilter_eq x fl h1 hx] at hy
  cases hy
  rw [gaussianFilter_eq _ fl h1 (by simp; omega)]
  congr 1
  have hsamp : ∀ t : ℤ, sampleAt (List.replicate d 0 ++ x) t = sampleAt x (t - d) := by
    intro t
    unfold sampleAt
    by_cases h0 : 0 ≤ t
    · rw [if_pos h0]
      by_cases hd : (d : ℤ) ≤ t
      · rw [if_pos (by omega), List.getD_append_right _ _ _ _ (by simp; omega)]
        congr 1; simp
      · rw [if_neg (by omega), List.getD_append _ _ _ _ (by simp; omega), List.getD_eq_getElem _ _ (by simp; omega)]
        simp
    · rw [if_neg h0, if_neg (by omega)]
  apply List.ext_getElem
  · simp
  · intro i h2 h3
    simp only [List.getElem_map, List.getElem_range]
    by_cases hi : i < d
    · rw [List.getElem_append_left (by simpa using hi), List.getElem_replicate]
      unfold fir
      apply Finset.sum_eq_zero
      intro j hj
      have hj' : j < taps fl := by simpa using hj
      rw [hsamp]
      unfold sampleAt
      rw [if_neg (by omega), mul_zero]
    · rw [List.getElem_append_right (by simpa using hi)]
      simp only [List.getElem_map, List.getElem_range, List.length_replicate]
      unfold fir
      apply Finset.sum_congr rfl
      intro j _
      rw [hsamp]
      congr 2
      omega

/-! ## C04 -/

/-- The ramp `a + b·i`, `n` samples. -/
noncomputable def ramp (a b : ℝ) (n : ℕ) : List ℝ := (List.range n).map (fun (i : ℕ) => a + b * (i : ℝ))

private theorem first_moment (fl : ℕ) :
    ∑ j ∈ Finset.range (taps fl), weight fl j * (j : ℝ) = (fl / 2 : ℕ) := by
  have hrefl := Finset.sum_range_reflect (fun j => weight fl j * (j : ℝ)) (taps fl)
  have h2 : ∑ j ∈ Finset.range (taps fl), weight fl (taps fl - 1 - j) * ((taps fl - 1 - j : ℕ) : ℝ)
      = ∑ j ∈ Finset.range (taps fl), (weight fl j * (2 * (fl / 2 : ℕ)) - weight fl j * (j : ℝ)) := by
    apply Finset.sum_congr rfl
    intro j hj
    have hj' : j < taps fl := by simpa using hj
    rw [weight_symm fl j hj']
    have : ((taps fl - 1 - j : ℕ) : ℝ) = 2 * (fl / 2 : ℕ) - j := by
      rw [eq_sub_iff_add_eq]
      have : taps fl - 1 - j + j = 2 * (fl / 2) := by unfold taps at *; omega
      exact_mod_cast this
    rw [this]; ring
  rw [h2, Finset.sum_sub_distrib, ← Finset.sum_mul, weight_sum, one_mul] at hrefl
  linarith

/-- C04: a ramp is delayed by exactly `⌊fl/2⌋` samples past the warm-up. -/
theorem C04_ramp_delay (a b : ℝ) (n fl : ℕ) (h1 : 1 ≤ fl) (hn : fl < n)
    (y : List ℝ) (hy : gaussianFilter (ramp a b n) fl = .ok y) (i : ℕ) (hi : 2 * (fl / 2) ≤ i) (hin : i < n) :
    y[i]? = some (a + b * ((i : ℝ) - (fl / 2 : ℕ))) := by
  have hl : (ramp a b n).length = n := by simp [ramp]
  rw [gaussianFilter_eq _ fl h1 (by omega)] at hy
  cases hy
  rw [hl]
  simp only [List.getElem?_map, List.getElem?_range hin, Option.map_some, Option.some.injEq]
  unfold fir
  have : ∀ j ∈ Finset.range (taps fl), weight fl j * sampleAt (ramp a b n) ((i : ℤ) - (taps fl - 1 : ℕ) + j)
      = weight fl j * (a + b * ((i : ℝ) - 2 * (fl / 2 : ℕ))) + b * (weight fl j * (j : ℝ)) := by
    intro j hj
    have hj' : j < taps fl := by simpa using hj
    unfold taps at hj'
    rw [sampleAt_window _ fl i j hi, List.getD_eq_getElem _ _ (by rw [hl]; omega)]
    simp only [ramp, List.getElem_map, List.getElem_range]
    have : ((i - 2 * (fl / 2) + j : ℕ) : ℝ) = (i : ℝ) - 2 * (fl / 2 : ℕ) + j := by
      have : i - 2 * (fl / 2) + j + 2 * (fl / 2) = i + j := by omega
      have h : ((i - 2 * (fl / 2) + j : ℕ) : ℝ) + 2 * (fl / 2 : ℕ) = i + j := by exact_mod_cast this
      linarith
    rw [this]; ring
  rw [Finset.sum_congr rfl this, Finset.sum_add_distrib, ← Finset.sum_mul, ← Finset.mul_sum, weight_sum, first_moment]
  ring

/-- C04: the docstring's "shift by fl" is false for every filter length and every non-constant ramp. -/
theorem C04_docstring_shift_refuted (a b : ℝ) (hb : b ≠ 0) (n fl : ℕ) (h1 : 1 ≤ fl) (hn : fl < n)
    (y : List ℝ) (hy : gaussianFilter (ramp a b n) fl = .ok y) (i : ℕ) (hi : 2 * (fl / 2) ≤ i) (hin : i < n) :
    y[i]? ≠ some (a + b * ((i : ℝ) - fl)) := by
  rw [C04_ramp_delay a b n fl h1 hn y hy i hi hin]
  intro h
  have h2 : a + b * ((i : ℝ) - (fl / 2 : ℕ)) = a + b * ((i : ℝ) - fl) := Option.some.inj h
  have h3 : b * ((fl : ℝ) - (fl / 2 : ℕ)) = 0 := by linarith
  rcases mul_eq_zero.1 h3 with h4 | h4
  · exact hb h4
  · have : (fl : ℝ) = ((fl / 2 : ℕ) : ℝ) := by linarith
    have : fl = fl / 2 := by exact_mod_cast this
    omega

/-! ## C05 -/

/-- A unit spike at position `s` of a series of `n` samples. -/
noncomputable def spike (n s : ℕ) : List ℝ := (List.range n).map (fun i => if i = s then 1 else 0)

/-- Impulse response: the filter spreads a unit spike at `s` over `s, …, s+2⌊fl/2⌋` with the kernel weights. -/
theorem C05_impulse_response (n s fl : ℕ) (h1 : 1 ≤ fl) (hn : fl < n) (y : List ℝ)
    (hy : gaussianFilter (spike n s) fl = .ok y) (d : ℕ) (hd : d ≤ 2 * (fl / 2)) (hsd : s + d < n) :
    y[s + d]? = some (weight fl d) := by
  have hl : (spike n s).length = n := by simp [spike]
  rw [gaussianFilter_eq _ fl h1 (by omega)] at hy
  cases hy
  rw [hl]
  simp only [List.getElem?_map, List.getElem?_range hsd, Option.map_some, Option.some.injEq]
  unfold fir
  rw [Finset.sum_eq_single (taps fl - 1 - d)]
  · rw [weight_symm fl d (by unfold taps; omega)]
    unfold sampleAt
    rw [if_pos (by unfold taps; push_cast; omega), List.getD_eq_getElem _ _ (by rw [hl]; unfold taps; omega)]
    simp only [spike, List.getElem_map, List.getElem_range]
    rw [if_pos (by unfold taps; omega), mul_one]
  · intro j hj hne
    have hj' : j < taps fl := by simpa using hj
    unfold sampleAt
    split
    · rename_i h0
      by_cases hlt : (((s + d : ℕ) : ℤ) - (taps fl - 1 : ℕ) + j).toNat < n
      · rw [List.getD_eq_getElem _ _ (by rw [hl]; exact hlt)]
        simp only [spike, List.getElem_map, List.getElem_range]
        rw [if_neg (by unfold taps at *; omega), mul_zero]
      · rw [List.getD_eq_default _ _ (by rw [hl]; omega), mul_zero]
    · rw [mul_zero]
  · intro h; exfalso; apply h; simp [taps]

private theorem bell_anti (fl d : ℕ) (h1 : 1 ≤ fl) (hd : 1 ≤ d) : bell fl (d + 1) < bell fl d := by
  unfold bell
  apply Real.exp_lt_exp.2
  have hf : (0 : ℝ) < fl := by exact_mod_cast h1
  have h6 : (0 : ℝ) < 6 / fl := by positivity
  have hd' : (1 : ℝ) ≤ d := by exact_mod_cast hd
  push_cast
  have e1 : ((d : ℝ) + 1 - 1) * (6 / fl) = (d - 1) * (6 / fl) + 6 / fl := by ring
  rw [e1]
  have : 0 ≤ ((d : ℝ) - 1) * (6 / fl) := mul_nonneg (by linarith) h6.le
  nlinarith

/-- C05, what does hold (`_partial`): from the first neighbour of the centre outwards, in both directions, the response
to a spike strictly decreases. Missing from C05: the centre itself, see the refutation below. -/
theorem C05_bell_outside_centre_partial (n s fl : ℕ) (h1 : 1 ≤ fl) (hn : fl < n) (y : List ℝ)
    (hy : gaussianFilter (spike n s) fl = .ok y) (hs : s + 2 * (fl / 2) < n)
    (d : ℕ) (hd : 1 ≤ d) (hd2 : d + 1 ≤ fl / 2) :
    ∃ u v u' v', y[s + (fl / 2 + d)]? = some u ∧ y[s + (fl / 2 + (d + 1))]? = some v ∧ v < u ∧
      y[s + (fl / 2 - d)]? = some u' ∧ y[s + (fl / 2 - (d + 1))]? = some v' ∧ v' < u' := by
  have hw : ∀ k e : ℕ, ((k : ℤ) - (fl / 2 : ℕ)).natAbs = e →
      weight fl k = bell fl e / ∑ k ∈ Finset.range (taps fl), rawWeight fl k := by
    intro k e h; unfold weight; rw [rawWeight, h]
  have hlt := div_lt_div_of_pos_right (bell_anti fl d h1 hd) (rawSum_pos fl)
  refine ⟨_, _, _, _, C05_impulse_response n s fl h1 hn y hy _ (by omega) (by omega),
    C05_impulse_response n s fl h1 hn y hy _ (by omega) (by omega), ?_,
    C05_impulse_response n s fl h1 hn y hy _ (by omega) (by omega),
    C05_impulse_response n s fl h1 hn y hy _ (by omega) (by omega), ?_⟩
  · rw [hw _ (d + 1) (by omega), hw _ d (by omega)]; exact hlt
  · rw [hw _ (d + 1) (by omega), hw _ d (by omega)]; exact hlt

/-- C05 refuted: for *every* filter length `fl ≥ 2` the response to a spike dips at the window centre — it is strictly
smaller there than one sample earlier and one sample later. -/
theorem C05_centre_is_not_the_peak (n s fl : ℕ) (h2 : 2 ≤ fl) (hn : fl < n) (y : List ℝ)
    (hy : gaussianFilter (spike n s) fl = .ok y) (hs : s + 2 * (fl / 2) < n) :
    ∃ before centre after, y[s + (fl / 2 - 1)]? = some before ∧ y[s + fl / 2]? = some centre ∧
      y[s + (fl / 2 + 1)]? = some after ∧ centre < before ∧ centre < after := by
  have hb : bell fl 0 < bell fl 1 := by
    unfold bell
    apply Real.exp_lt_exp.2
    have hf : (0 : ℝ) < fl := by exact_mod_cast (by omega : 0 < fl)
    have h6 : (0 : ℝ) < 6 / fl := by positivity
    push_cast
    nlinarith
  have hw : ∀ k e : ℕ, ((k : ℤ) - (fl / 2 : ℕ)).natAbs = e →
      weight fl k = bell fl e / ∑ k ∈ Finset.range (taps fl), rawWeight fl k := by
    intro k e h; unfold weight; rw [rawWeight, h]
  have hlt := div_lt_div_of_pos_right hb (rawSum_pos fl)
  refine ⟨_, _, _, C05_impulse_response n s fl (by omega) hn y hy _ (by omega) (by omega),
    C05_impulse_response n s fl (by omega) hn y hy _ (by omega) (by omega),
    C05_impulse_response n s fl (by omega) hn y hy _ (by omega) (by omega), ?_, ?_⟩
  · rw [hw _ 0 (by omega), hw _ 1 (by omega)]; exact hlt
  · rw [hw _ 0 (by omega), hw _ 1 (by omega)]; exact hlt

/-! ## Non-vacuity: concrete inputs that meet the hypotheses -/

example : ∃ y, gaussianFilter (spike 101 50) 10 = .ok y ∧ y.length = 101 :=
  ⟨_, C01_gaussian_filter_is_fir (spike 101 50) 10 (by norm_num) (by simp [spike]), by simp [spike]⟩

example : ∃ y, gaussianFilter (ramp 1 2 9) 4 = .ok y ∧ y[6]? = some (1 + 2 * (6 - 2)) := by
  have h := C01_gaussian_filter_is_fir (ramp 1 2 9) 4 (by norm_num) (by simp [ramp])
  refine ⟨_, h, ?_⟩
  have := C04_ramp_delay 1 2 9 4 (by norm_num) (by norm_num) _ h 6 (by norm_num) (by norm_num)
  norm_num at this ⊢
  exact this

end Shipgrav
