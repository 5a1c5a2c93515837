import Verif.Model.Thermal
import Verif.Spec.Thermal
import Verif.Lemmas.Sine
import Mathlib.Analysis.SpecialFunctions.ExpDeriv
import Mathlib.Analysis.Real.Pi.Bounds
import Mathlib.Analysis.SpecialFunctions.Trigonometric.Deriv

/-! Property theorems C77–C80 and C95: cooling of a plate. -/

namespace Shipgrav
open Spec Topology Filter

private theorem plateMyr_pos : 0 < secondsPerMyr := by unfold secondsPerMyr; norm_num

private theorem plate_age_eq (u x : ℝ) : ageSeconds true u x = some (secondsPerMyr * x) := by
  unfold ageSeconds secyr secondsPerMyr
  rw [if_pos rfl]
  congr 1
  norm_num
  ring

private theorem terms_eq (L k t z : ℝ) : (plateTerms L k t z).foldl (· + ·) (z / L) = plateSeries 10 L k t z := by
  have hI : Finset.Icc 1 10 = {1, 2, 3, 4, 5, 6, 7, 8, 9, 10} := by decide
  unfold plateTerms plateSeries
  rw [hI]
  have key : ∀ (n c : ℝ) (e : ℝ), e = -(n * Real.pi / L) ^ 2 * k * t → c = 2 / (n * Real.pi) → ∀ s, s = n * Real.pi * z / L →
      c * Real.exp e * Real.sin s = 2 / (n * Real.pi) * Real.exp (-(n * Real.pi / L) ^ 2 * k * t) * Real.sin (n * Real.pi * z / L) := by
    intros; subst_vars; rfl
  have hp := Real.pi_ne_zero
  simp only [List.foldl_cons, List.foldl_nil]
  rw [key 1 (2 / Real.pi) _ (by ring) (by rw [one_mul]) _ (by ring), key 2 (1 / Real.pi) _ (by ring) (by field_simp) _ (by ring),
    key 3 (2 / Real.pi / 3) _ (by ring) (by field_simp) _ (by ring), key 4 (2 / Real.pi / 4) _ (by ring) (by field_simp) _ (by ring),
    key 5 (2 / Real.pi / 5) _ (by ring) (by field_simp) _ (by ring), key 6 (2 / Real.pi / 6) _ (by ring) (by field_simp) _ (by ring),
    key 7 (2 / Real.pi / 7) _ (by ring) (by field_simp) _ (by ring), key 8 (2 / Real.pi / 8) _ (by ring) (by field_simp) _ (by ring),
    key 9 (2 / Real.pi / 9) _ (by ring) (by field_simp) _ (by ring), key 10 (2 / Real.pi / 10) _ (by ring) (by field_simp) _ (by ring)]
  repeat rw [Finset.sum_insert (by decide)]
  rw [Finset.sum_singleton]
  push_cast
  ring

/-- **C77.** Every node: the ten-term cooling series, and the mantle temperature below the plate. -/
theorem C77_nodes (x z : List ℝ) (u zL0 Tm rhom rhow a k : ℝ) (hz : z ≠ []) (hr : rhom ≠ rhow) :
    ∃ T W, thermPlate x z u zL0 Tm true rhom rhow a k = .ok (T, W) ∧ T.rows = z.length ∧ T.cols = x.length ∧
      ∀ i < z.length, ∀ j < x.length, T.at' i j =
        some (if zL0 < z.getD i 0 then Tm else Tm * plateSeries 10 zL0 k (secondsPerMyr * x.getD j 0) (z.getD i 0)) := by
  refine ⟨?T77, ?W77, ?a77, ?b77, ?c77, ?d77⟩
  case a77 =>
    unfold thermPlate
    simp only
    rw [if_neg hz, if_neg (sub_ne_zero.mpr hr)]
  · rfl
  · rfl
  · intro i hi j hj
    simp only
    have : (x.map (ageSeconds true u)).getD j none = some (secondsPerMyr * x.getD j 0) := by
      rw [List.getD_eq_getElem?_getD, List.getElem?_map, List.getD_eq_getElem?_getD, List.getElem?_eq_getElem hj]
      simp [plate_age_eq]
    rw [this, Option.map_some]
    unfold plateNode
    rw [terms_eq]
    simp only [gt_iff_lt, zero_add, sub_zero]

private theorem series_surface (N : ℕ) (L k t : ℝ) : plateSeries N L k t 0 = 0 := by simp [plateSeries]

private theorem series_base (N : ℕ) (L k t : ℝ) (hL : L ≠ 0) : plateSeries N L k t L = 1 := by
  unfold plateSeries
  rw [div_self hL, Finset.sum_eq_zero, add_zero]
  intro n _
  rw [show (n : ℝ) * Real.pi * L / L = n * Real.pi by field_simp, Real.sin_nat_mul_pi, mul_zero]

/-- **C77.** Zero at the surface, the mantle temperature at the base of the plate and below. -/
theorem C77_boundaries (x z : List ℝ) (u zL0 Tm rhom rhow a k : ℝ) (hz : z ≠ []) (hr : rhom ≠ rhow) (hL : 0 < zL0) :
    ∃ T W, thermPlate x z u zL0 Tm true rhom rhow a k = .ok (T, W) ∧
      ∀ i < z.length, ∀ j < x.length, (z.getD i 0 = 0 → T.at' i j = some 0) ∧ (zL0 ≤ z.getD i 0 → T.at' i j = some Tm) := by
  obtain ⟨T, W, h, _, _, hv⟩ := C77_nodes x z u zL0 Tm rhom rhow a k hz hr
  refine ⟨T, W, h, fun i hi j hj => ⟨fun h0 => ?_, fun h1 => ?_⟩⟩
  · rw [hv i hi j hj, h0, if_neg (by linarith), series_surface, mul_zero]
  · rw [hv i hi j hj]
    rcases eq_or_lt_of_le h1 with h1 | h1
    · rw [← h1, if_neg (lt_irrefl _), series_base _ _ _ _ hL.ne', mul_one]
    · rw [if_pos h1]

/-- **C77.** No depths, or equal densities: the call raises. -/
theorem C77_errors (x z : List ℝ) (u zL0 Tm : ℝ) (time : Bool) (rhom rhow a k : ℝ) :
    thermPlate x [] u zL0 Tm time rhom rhow a k = .error .indexError ∧
    (z ≠ [] → thermPlate x z u zL0 Tm time rhom rhom a k = .error .zeroDivisionError) := by
  constructor
  · simp [thermPlate]
  · intro h; simp [thermPlate, h]

/-- The series in the angle `θ = πz/L`. -/
private theorem series_angle (N : ℕ) (L k t z : ℝ) (hL : L ≠ 0) :
    plateSeries N L k t z = (Real.pi * z / L + 2 * ∑ n ∈ Finset.Icc 1 N, Real.exp (-(n * Real.pi / L) ^ 2 * k * t) *
      (Real.sin (n * (Real.pi * z / L)) / n)) / Real.pi := by
  have hp := Real.pi_ne_zero
  unfold plateSeries
  rw [add_div, Finset.mul_sum, Finset.sum_div]
  congr 1
  · field_simp
  · apply Finset.sum_congr rfl
    intro n hn
    have hn0 : (n : ℝ) ≠ 0 := by exact_mod_cast (by have := (Finset.mem_Icc.mp hn).1; omega : n ≠ 0)
    rw [show (n : ℝ) * (Real.pi * z / L) = n * Real.pi * z / L by ring]
    field_simp

private theorem series_nonneg (N : ℕ) (L k t z : ℝ) (hL : 0 < L) (hk : 0 ≤ k) (ht : 0 ≤ t) (hz0 : 0 ≤ z) (hz1 : z ≤ L) : 0 ≤ plateSeries N L k t z := by
  have hp := Real.pi_pos
  rw [series_angle N L k t z hL.ne']
  have hθ : Real.pi * z / L ∈ Set.Icc 0 Real.pi := by
    constructor
    · positivity
    · rw [div_le_iff₀ hL]; nlinarith
  have h := weighted_nonneg (fun n => Real.exp (-((n : ℝ) * Real.pi / L) ^ 2 * k * t)) (fun n => Real.sin (n * (Real.pi * z / L)) / n) N
    (fun n _ => by
      apply Real.exp_le_exp.mpr
      have h1 : ((n : ℝ) * Real.pi / L) ^ 2 ≤ (((n + 1 : ℕ) : ℝ) * Real.pi / L) ^ 2 := by
        apply pow_le_pow_left₀ (by positivity)
        apply div_le_div_of_nonneg_right _ hL.le
        push_cast
        nlinarith
      have h2 : 0 ≤ k * t := by positivity
      nlinarith)
    (fun n => (Real.exp_pos _).le) (fun n => sineSum_nonneg n _ hθ)
  have := hθ.1
  positivity

/-- **C78, lower half.** At every age and depth the temperature is not negative. -/
theorem C78_nonnegative_partial (x z : List ℝ) (u zL0 Tm rhom rhow a k : ℝ) (hz : z ≠ []) (hr : rhom ≠ rhow) (hL : 0 < zL0) (hTm : 0 ≤ Tm)
    (hk : 0 ≤ k) (hx : ∀ t ∈ x, 0 ≤ t) (hz0 : ∀ d ∈ z, 0 ≤ d) :
    ∃ T W, thermPlate x z u zL0 Tm true rhom rhow a k = .ok (T, W) ∧
      ∀ i < z.length, ∀ j < x.length, ∃ v, T.at' i j = some v ∧ 0 ≤ v := by
  obtain ⟨T, W, h, _, _, hv⟩ := C77_nodes x z u zL0 Tm rhom rhow a k hz hr
  refine ⟨T, W, h, fun i hi j hj => ⟨_, hv i hi j hj, ?_⟩⟩
  have hzi : z.getD i 0 ∈ z := by
    rw [List.getD_eq_getElem?_getD, List.getElem?_eq_getElem hi]; exact List.getElem_mem hi
  have hxj : x.getD j 0 ∈ x := by
    rw [List.getD_eq_getElem?_getD, List.getElem?_eq_getElem hj]; exact List.getElem_mem hj
  split
  · exact hTm
  · rename_i hle
    exact mul_nonneg hTm (series_nonneg 10 zL0 k _ _ hL hk (mul_nonneg plateMyr_pos.le (hx _ hxj)) (hz0 _ hzi) (not_lt.mp hle))

/-- The series at the age at which its first factor is `q ≤ 9/20` does not exceed 1. -/
private theorem series_le_one (L k t z : ℝ) (hL : 0 < L) (hz0 : 0 ≤ z) (hz1 : z ≤ L)
    (hq : Real.exp (-(Real.pi / L) ^ 2 * k * t) ≤ 9 / 20) : plateSeries 10 L k t z ≤ 1 := by
  have hp := Real.pi_pos
  rw [series_angle 10 L k t z hL.ne', div_le_one hp]
  obtain ⟨φ, hφ⟩ : ∃ φ, φ = Real.pi - Real.pi * z / L := ⟨_, rfl⟩
  have hzL : z / L ≤ 1 := (div_le_one hL).mpr hz1
  have hzL0 : 0 ≤ z / L := by positivity
  have hφ0 : 0 ≤ φ := by rw [hφ, mul_div_assoc]; nlinarith
  have hφ1 : φ ≤ Real.pi := by rw [hφ, mul_div_assoc]; nlinarith
  have hterm : ∀ n ∈ Finset.Icc (1 : ℕ) 10, Real.exp (-((n : ℝ) * Real.pi / L) ^ 2 * k * t) * (Real.sin (n * (Real.pi * z / L)) / n) ≤ (9 / 20 : ℝ) ^ (n ^ 2) * φ := by
    intro n hn
    have hn0 : (0 : ℝ) < n := by exact_mod_cast (by have := (Finset.mem_Icc.mp hn).1; omega : 0 < n)
    have e1 : Real.exp (-((n : ℝ) * Real.pi / L) ^ 2 * k * t) ≤ (9 / 20 : ℝ) ^ (n ^ 2) := by
      have : Real.exp (-((n : ℝ) * Real.pi / L) ^ 2 * k * t) = Real.exp (-(Real.pi / L) ^ 2 * k * t) ^ (n ^ 2) := by
        rw [← Real.exp_nat_mul]
        congr 1
        push_cast
        ring
      rw [this]
      exact pow_le_pow_left₀ (Real.exp_pos _).le hq _
    have e2 : Real.sin (n * (Real.pi * z / L)) / n ≤ φ := by
      rw [div_le_iff₀ hn0]
      have h1 : Real.sin (n * (Real.pi * z / L)) = Real.sin (n * Real.pi - n * φ) := by rw [hφ]; congr 1; ring
      have h2 : |Real.sin (n * Real.pi - n * φ)| = |Real.sin (n * φ)| := by
        rw [Real.sin_sub, Real.sin_nat_mul_pi, zero_mul, zero_sub, abs_neg, abs_mul, Real.cos_nat_mul_pi, abs_neg_one_pow, one_mul]
      have h3 := abs_sin_nat_mul_le n φ hφ0 hφ1
      have h4 := Real.sin_le hφ0
      have h5 := le_abs_self (Real.sin (n * Real.pi - n * φ))
      rw [h1]
      nlinarith
    calc _ ≤ Real.exp (-((n : ℝ) * Real.pi / L) ^ 2 * k * t) * φ := mul_le_mul_of_nonneg_left e2 (Real.exp_pos _).le
      _ ≤ _ := mul_le_mul_of_nonneg_right e1 hφ0
  have hsum := Finset.sum_le_sum hterm
  rw [← Finset.sum_mul] at hsum
  have hhalf : ∑ n ∈ Finset.Icc (1 : ℕ) 10, (9 / 20 : ℝ) ^ (n ^ 2) ≤ 1 / 2 := by
    have hI : Finset.Icc 1 10 = {1, 2, 3, 4, 5, 6, 7, 8, 9, 10} := by decide
    rw [hI]
    repeat rw [Finset.sum_insert (by decide)]
    rw [Finset.sum_singleton]
    norm_num
  have : Real.pi * z / L = Real.pi - φ := by rw [hφ]; ring
  rw [this] at hsum ⊢
  nlinarith

/-- **C78, upper half, old plates.** Once the slowest term has decayed to 9/20 the temperature never exceeds the mantle temperature. -/
theorem C78_old_plates_partial (x z : List ℝ) (u zL0 Tm rhom rhow a k : ℝ) (hz : z ≠ []) (hr : rhom ≠ rhow) (hL : 0 < zL0) (hTm : 0 ≤ Tm)
    (hx : ∀ t ∈ x, Real.exp (-(Real.pi / zL0) ^ 2 * k * (secondsPerMyr * t)) ≤ 9 / 20) (hz0 : ∀ d ∈ z, 0 ≤ d) :
    ∃ T W, thermPlate x z u zL0 Tm true rhom rhow a k = .ok (T, W) ∧
      ∀ i < z.length, ∀ j < x.length, ∃ v, T.at' i j = some v ∧ v ≤ Tm := by
  obtain ⟨T, W, h, _, _, hv⟩ := C77_nodes x z u zL0 Tm rhom rhow a k hz hr
  refine ⟨T, W, h, fun i hi j hj => ⟨_, hv i hi j hj, ?_⟩⟩
  have hzi : z.getD i 0 ∈ z := by
    rw [List.getD_eq_getElem?_getD, List.getElem?_eq_getElem hi]; exact List.getElem_mem hi
  have hxj : x.getD j 0 ∈ x := by
    rw [List.getD_eq_getElem?_getD, List.getElem?_eq_getElem hj]; exact List.getElem_mem hj
  split
  · exact le_rfl
  · rename_i hle
    exact mul_le_of_le_one_right hTm (series_le_one zL0 k _ _ hL (hz0 _ hzi) (not_lt.mp hle) (hx _ hxj))

private theorem series_middle (L k : ℝ) (hL : 0 < L) : 1 < plateSeries 10 L k 0 (L / 2) := by
  have hp := Real.pi_pos
  have hI : Finset.Icc 1 10 = {1, 2, 3, 4, 5, 6, 7, 8, 9, 10} := by decide
  have hodd : ∀ m : ℕ, Real.sin ((2 * m + 1 : ℕ) * Real.pi * (L / 2) / L) = (-1) ^ m := by
    intro m
    rw [show ((2 * m + 1 : ℕ) : ℝ) * Real.pi * (L / 2) / L = Real.pi / 2 + m * Real.pi by push_cast; field_simp; ring,
      Real.sin_add_nat_mul_pi, Real.sin_pi_div_two, mul_one]
  have heven : ∀ m : ℕ, Real.sin ((2 * m : ℕ) * Real.pi * (L / 2) / L) = 0 := by
    intro m
    rw [show ((2 * m : ℕ) : ℝ) * Real.pi * (L / 2) / L = m * Real.pi by push_cast; field_simp, Real.sin_nat_mul_pi]
  unfold plateSeries
  rw [hI]
  repeat rw [Finset.sum_insert (by decide)]
  rw [Finset.sum_singleton]
  have o0 := hodd 0; have o1 := hodd 1; have o2 := hodd 2; have o3 := hodd 3; have o4 := hodd 4
  have e1 := heven 1; have e2 := heven 2; have e3 := heven 3; have e4 := heven 4; have e5 := heven 5
  norm_num at o0 o1 o2 o3 o4 e1 e2 e3 e4 e5
  norm_num
  rw [o0, o1, o2, o3, o4, e1, e2, e3, e4, e5]
  have h315 := Real.pi_lt_d2
  have hhalf : L / 2 / L = 1 / 2 := by field_simp
  rw [hhalf]
  have : (2 / Real.pi * 1 + 2 / (3 * Real.pi) * -1 + 2 / (5 * Real.pi) * 1 + 2 / (7 * Real.pi) * -1 + 2 / (9 * Real.pi) * 1) = 526 / 315 / Real.pi := by
    field_simp; norm_num
  have h2 : 1 / 2 < 526 / 315 / Real.pi := by rw [lt_div_iff₀ hp]; linarith
  linarith

/-- **C78 fails near zero age.** For every plate there is an age below which the middle of the plate is hotter than the mantle. -/
theorem C78_young_plate_refuted (u zL0 Tm rhom rhow a k : ℝ) (hr : rhom ≠ rhow) (hL : 0 < zL0) (hTm : 0 < Tm) :
    ∃ t₀ > 0, ∀ t, 0 ≤ t → t < t₀ → ∃ T W v, thermPlate [t] [zL0 / 2] u zL0 Tm true rhom rhow a k = .ok (T, W) ∧ T.at' 0 0 = some v ∧ Tm < v := by
  have hc : Continuous fun t => plateSeries 10 zL0 k (secondsPerMyr * t) (zL0 / 2) := by
    unfold plateSeries
    fun_prop
  have h0 : 1 < (fun t => plateSeries 10 zL0 k (secondsPerMyr * t) (zL0 / 2)) 0 := by
    simp only [mul_zero]
    exact series_middle zL0 k hL
  obtain ⟨ε, hε, hball⟩ := Metric.eventually_nhds_iff.mp (hc.continuousAt.eventually (lt_mem_nhds h0))
  refine ⟨ε, hε, fun t ht0 ht => ?_⟩
  obtain ⟨T, W, h, _, _, hv⟩ := C77_nodes [t] [zL0 / 2] u zL0 Tm rhom rhow a k (by simp) hr
  refine ⟨T, W, _, h, hv 0 (by simp) 0 (by simp), ?_⟩
  simp only [List.getD_cons_zero]
  rw [if_neg (by linarith)]
  have := hball (y := t) (by rw [Real.dist_eq, sub_zero, abs_of_nonneg ht0]; exact ht)
  nlinarith

/-- Subsidence relative to its scale. -/
private noncomputable def sub (L k t : ℝ) : ℝ :=
  1 / 2 - 4 / Real.pi ^ 2 * ∑ m ∈ Finset.range 3, Real.exp (-((2 * m + 1) * Real.pi / L) ^ 2 * k * t) / (2 * m + 1) ^ 2

private theorem sub_eq (c L k t : ℝ) : plateSubsidence c L k t = c * sub L k t := by
  unfold plateSubsidence sub
  simp only [Finset.sum_range_succ, Finset.sum_range_zero]
  have hp := Real.pi_ne_zero
  have e1 : -k * Real.pi ^ 2 * t / L ^ 2 = -((2 * ((0 : ℕ) : ℝ) + 1) * Real.pi / L) ^ 2 * k * t := by push_cast; ring
  have e2 : -k * 9 * Real.pi ^ 2 * t / L ^ 2 = -((2 * ((1 : ℕ) : ℝ) + 1) * Real.pi / L) ^ 2 * k * t := by push_cast; ring
  have e3 : -k * 25 * Real.pi ^ 2 * t / L ^ 2 = -((2 * ((2 : ℕ) : ℝ) + 1) * Real.pi / L) ^ 2 * k * t := by push_cast; ring
  rw [e1, e2, e3]
  push_cast
  field_simp
  ring

/-- **C79.** Plate subsidence: strictly increasing with age from a positive value, always less than half of the scale. -/
theorem C79_subsidence (zL0 Tm rhom rhow a k : ℝ) (hL : 0 < zL0) (hTm : 0 < Tm) (hrho : rhow < rhom) (hrm : 0 < rhom) (ha : 0 < a) (hk : 0 < k) :
    ∃ w : ℝ → ℝ, (∀ (x z : List ℝ) (u : ℝ), z ≠ [] → ∃ T, thermPlate x z u zL0 Tm true rhom rhow a k = .ok (T, x.map fun t => some (w t))) ∧
      StrictMonoOn w (Set.Ici 0) ∧ (∀ t ≥ 0, 0 < w t) ∧ (∀ t ≥ 0, w t < rhom * a * Tm * zL0 / (rhom - rhow) / 2) ∧
      Tendsto w atTop (𝓝 (rhom * a * Tm * zL0 / (rhom - rhow) / 2)) := by
  have hp := Real.pi_pos
  have hm := plateMyr_pos
  have hc : 0 < rhom * a * Tm * zL0 / (rhom - rhow) := div_pos (by positivity) (by linarith)
  generalize hcc : rhom * a * Tm * zL0 / (rhom - rhow) = c at hc
  have hmono : ∀ s t : ℝ, 0 ≤ s → s < t → sub zL0 k (secondsPerMyr * s) < sub zL0 k (secondsPerMyr * t) := by
    intro s t hs hst
    unfold sub
    have hlt : ∑ m ∈ Finset.range 3, Real.exp (-((2 * (m : ℝ) + 1) * Real.pi / zL0) ^ 2 * k * (secondsPerMyr * t)) / (2 * m + 1) ^ 2 <
        ∑ m ∈ Finset.range 3, Real.exp (-((2 * (m : ℝ) + 1) * Real.pi / zL0) ^ 2 * k * (secondsPerMyr * s)) / (2 * m + 1) ^ 2 := by
      apply Finset.sum_lt_sum_of_nonempty ⟨0, by simp⟩
      intro m _
      apply div_lt_div_of_pos_right _ (by positivity)
      apply Real.exp_lt_exp.mpr
      have h1 : 0 < ((2 * (m : ℝ) + 1) * Real.pi / zL0) ^ 2 * k * secondsPerMyr := by positivity
      nlinarith
    have h4 : 0 < 4 / Real.pi ^ 2 := by positivity
    nlinarith
  have h0 : 0 < sub zL0 k (secondsPerMyr * 0) := by
    unfold sub
    simp only [mul_zero, Real.exp_zero, Finset.sum_range_succ, Finset.sum_range_zero]
    have h3 := Real.pi_gt_d2
    have hsum : (0 : ℝ) + 1 / (2 * ((0 : ℕ) : ℝ) + 1) ^ 2 + 1 / (2 * ((1 : ℕ) : ℝ) + 1) ^ 2 + 1 / (2 * ((2 : ℕ) : ℝ) + 1) ^ 2 = 259 / 225 := by norm_num
    rw [hsum, sub_pos, div_mul_eq_mul_div, div_lt_div_iff₀ (by positivity) (by norm_num)]
    nlinarith
  refine ⟨fun t => c * sub zL0 k (secondsPerMyr * t), ?_, ?_, ?_, ?_, ?_⟩
  · intro x z u hz
    have hW : ((x.map (ageSeconds true u)).map fun t => t.map (plateSubsidence (rhom * a * (Tm - 0) * zL0 / (rhom - rhow)) zL0 k)) =
        x.map fun t => some (c * sub zL0 k (secondsPerMyr * t)) := by
      rw [List.map_map]
      apply List.map_congr_left
      intro t _
      simp only [Function.comp, plate_age_eq, Option.map_some, sub_eq, sub_zero, hcc]
    unfold thermPlate
    simp only
    rw [if_neg hz, if_neg (by linarith), hW]
    exact ⟨_, rfl⟩
  · intro s hs t _ hst
    exact mul_lt_mul_of_pos_left (hmono s t hs hst) hc
  · intro t ht
    apply mul_pos hc
    rcases eq_or_lt_of_le ht with h | h
    · rw [← h]; exact h0
    · exact h0.trans (hmono 0 t le_rfl h)
  · intro t _
    have : sub zL0 k (secondsPerMyr * t) < 1 / 2 := by
      unfold sub
      have : 0 < 4 / Real.pi ^ 2 * ∑ m ∈ Finset.range 3, Real.exp (-((2 * (m : ℝ) + 1) * Real.pi / zL0) ^ 2 * k * (secondsPerMyr * t)) / (2 * m + 1) ^ 2 := by
        apply mul_pos (by positivity)
        exact Finset.sum_pos (fun m _ => by positivity) ⟨0, by simp⟩
      linarith
    nlinarith
  · have hterm : ∀ m : ℕ, Tendsto (fun t : ℝ => Real.exp (-((2 * (m : ℝ) + 1) * Real.pi / zL0) ^ 2 * k * (secondsPerMyr * t)) / (2 * (m : ℝ) + 1) ^ 2) atTop (𝓝 0) := by
      intro m
      have h1 : 0 < ((2 * (m : ℝ) + 1) * Real.pi / zL0) ^ 2 * k * secondsPerMyr := by positivity
      have h2 : Tendsto (fun t : ℝ => -(((2 * (m : ℝ) + 1) * Real.pi / zL0) ^ 2 * k * secondsPerMyr * t)) atTop atBot :=
        tendsto_neg_atTop_atBot.comp (tendsto_id.const_mul_atTop h1)
      have h3 := (Real.tendsto_exp_atBot.comp h2).div_const ((2 * (m : ℝ) + 1) ^ 2)
      rw [zero_div] at h3
      refine h3.congr fun t => ?_
      simp only [Function.comp]
      congr 2
      ring
    have hs := tendsto_finsetSum (Finset.range 3) fun m _ => hterm m
    rw [Finset.sum_const_zero] at hs
    have := ((hs.const_mul (4 / Real.pi ^ 2)).const_sub (1 / 2)).const_mul c
    rw [mul_zero, sub_zero, mul_one_div] at this
    exact this

/-- The first smallest element. -/
private theorem argmin_spec (l : List ℝ) (h : l ≠ []) : ∃ v, l[argminReal l]? = some v ∧ (∀ w ∈ l, v ≤ w) ∧
    ∀ (r : ℕ) (w : ℝ), r < argminReal l → l[r]? = some w → v < w := by
  have hex : ∃ m ∈ l, ∀ w ∈ l, m ≤ w := by
    induction l with
    | nil => exact absurd rfl h
    | cons a l ih =>
      rcases l with _ | ⟨b, l⟩
      · exact ⟨a, by simp, by simp⟩
      · obtain ⟨m, hm, hmin⟩ := ih (by simp)
        rcases le_total a m with ham | ham
        · refine ⟨a, by simp, fun w hw => ?_⟩
          rcases List.mem_cons.mp hw with rfl | hw
          · exact le_rfl
          · exact ham.trans (hmin w hw)
        · refine ⟨m, List.mem_cons_of_mem _ hm, fun w hw => ?_⟩
          rcases List.mem_cons.mp hw with rfl | hw
          · exact ham
          · exact hmin w hw
  obtain ⟨m, hm, hmin⟩ := hex
  unfold argminReal
  have hlt : (l.findIdx fun v => decide (∀ w ∈ l, v ≤ w)) < l.length := List.findIdx_lt_length_of_exists ⟨m, hm, by simpa using hmin⟩
  have hg := List.findIdx_getElem (w := hlt)
  have hg' := of_decide_eq_true hg
  refine ⟨_, List.getElem?_eq_getElem hlt, hg', fun r w hr hw => ?_⟩
  have hnot := List.not_of_lt_findIdx hr
  have hrl : r < l.length := hr.trans hlt
  rw [List.getElem?_eq_getElem hrl] at hw
  injection hw with hw
  rw [hw] at hnot
  have hnot' := of_decide_eq_false hnot
  push Not at hnot'
  obtain ⟨w', hw', hlt'⟩ := hnot'
  exact (hg' w' hw').trans_lt hlt'

private theorem mapM_some {α : Type} (f : ℕ → Option α) (g : ℕ → α) (n : ℕ) (h : ∀ r < n, f r = some (g r)) :
    (List.range n).mapM f = some ((List.range n).map g) := by
  have : ∀ l : List ℕ, (∀ r ∈ l, f r = some (g r)) → l.mapM f = some (l.map g) := by
    intro l
    induction l with
    | nil => intro _; rfl
    | cons a l ih =>
      intro hl
      rw [List.mapM_cons, hl a (by simp), ih fun r hr => hl r (List.mem_cons_of_mem _ hr)]
      rfl
  exact this _ fun r hr => h r (List.mem_range.mp hr)

/-- **C80.** The depth found for each isotherm and position is that of the first node, among the depths `minz + r·zsp` below `maxz`, whose
temperature is closest to the isotherm. -/
theorem C80_nearest_node (x T : List ℝ) (u zL0 Tm minz maxz zsp rhom rhow a k : ℝ) (hz : minz < maxz) (hsp : 0 < zsp) (hr : rhom ≠ rhow) :
    ∃ (n : ℕ) (z : List ℝ) (Tp : Mat (Option ℝ)) (W : List (Option ℝ)) (R : Mat (Option ℝ)), z = (List.range n).map (fun (r : ℕ) => minz + r * zsp) ∧
      (∀ r : ℕ, r < n ↔ minz + r * zsp < maxz) ∧ thermPlate x z u zL0 Tm true rhom rhow a k = .ok (Tp, W) ∧
      thermZPlate x T u zL0 Tm true minz maxz zsp rhom rhow a k = .ok R ∧ R.rows = T.length ∧ R.cols = x.length ∧
      ∀ i < T.length, ∀ j < x.length, ∃ r < n, R.at' i j = some (minz + r * zsp) ∧ ∃ v, Tp.at' r j = some v ∧
        ∀ r' < n, ∃ v', Tp.at' r' j = some v' ∧ |v - T.getD i 0| ≤ |v' - T.getD i 0| ∧ (r' < r → |v - T.getD i 0| < |v' - T.getD i 0|) := by
  obtain ⟨n, hn⟩ : ∃ n, n = ⌈(maxz - minz) / zsp⌉₊ := ⟨_, rfl⟩
  have hiff : ∀ r : ℕ, r < n ↔ minz + r * zsp < maxz := by
    intro r
    rw [hn, Nat.lt_ceil, lt_div_iff₀ hsp]
    constructor <;> intro h <;> linarith
  have hn0 : 0 < n := (hiff 0).mpr (by simpa using hz)
  obtain ⟨z, hzz⟩ : ∃ z, z = (List.range n).map (fun (r : ℕ) => minz + r * zsp) := ⟨_, rfl⟩
  have hzl : z.length = n := by rw [hzz]; simp
  have hzne : z ≠ [] := by intro h; rw [h] at hzl; simp at hzl; omega
  have hza : arangeReal minz maxz zsp = z := by unfold arangeReal; rw [← hn, hzz]
  obtain ⟨Tp, W, hT, _, _, hv⟩ := C77_nodes x z u zL0 Tm rhom rhow a k hzne hr
  refine ⟨n, z, Tp, W, ?R80, hzz, hiff, hT, ?a80, ?b80, ?c80, ?d80⟩
  case a80 =>
    unfold thermZPlate
    rw [if_neg hsp.ne']
    simp only [hza, hT]
    rfl
  · rfl
  · rfl
  · intro i hi j hj
    obtain ⟨g, hg⟩ : ∃ g : ℕ → ℝ, ∀ r < n, Tp.at' r j = some (g r) :=
      ⟨_, fun r hr' => hv r (by rw [hzl]; exact hr') j hj⟩
    simp only
    rw [hzl, mapM_some _ g n hg, Option.map_some, List.map_map]
    obtain ⟨l, hl⟩ : ∃ l, l = (List.range n).map ((fun v => |v - T.getD i 0|) ∘ g) := ⟨_, rfl⟩
    rw [← hl]
    have hll : l.length = n := by rw [hl]; simp
    have hlg : ∀ r < n, l[r]? = some |g r - T.getD i 0| := by
      intro r hr'
      rw [hl, List.getElem?_map, List.getElem?_range hr']; rfl
    obtain ⟨v, hv1, hv2, hv3⟩ := argmin_spec l (by intro h; rw [h] at hll; simp at hll; omega)
    have hidx : argminReal l < n := by
      rw [← hll]
      exact (List.getElem?_eq_some_iff.mp hv1).1
    have hve : v = |g (argminReal l) - T.getD i 0| := by
      rw [hlg _ hidx] at hv1
      injection hv1 with h; exact h.symm
    refine ⟨argminReal l, hidx, ?_, g (argminReal l), hg _ hidx, fun r' hr' => ⟨g r', hg r' hr', ?_, fun hlt => ?_⟩⟩
    · rw [hzz, List.getD_eq_getElem?_getD, List.getElem?_map, List.getElem?_range hidx]; rfl
    · rw [← hve]
      exact hv2 _ (List.mem_of_getElem? (hlg r' hr'))
    · rw [← hve]
      exact hv3 r' _ hlt (hlg r' hr')

/-- **C80.** A zero spacing, or an empty range of depths, raises. -/
theorem C80_errors (x T : List ℝ) (u zL0 Tm : ℝ) (time : Bool) (minz maxz zsp rhom rhow a k : ℝ) :
    thermZPlate x T u zL0 Tm time minz maxz 0 rhom rhow a k = .error .zeroDivisionError ∧
    (0 < zsp → maxz ≤ minz → thermZPlate x T u zL0 Tm time minz maxz zsp rhom rhow a k = .error .indexError) := by
  constructor
  · simp [thermZPlate]
  · intro h1 h2
    unfold thermZPlate
    rw [if_neg h1.ne']
    have : arangeReal minz maxz zsp = [] := by
      unfold arangeReal
      have : (maxz - minz) / zsp ≤ 0 := div_nonpos_of_nonpos_of_nonneg (by linarith) h1.le
      rw [Nat.ceil_eq_zero.mpr this]; rfl
    simp only [this]
    rw [(C77_errors x [] u zL0 Tm time rhom rhow a k).1]

/-- **C95.** Inside the plate the temperature solves the heat equation, and with age it tends to the linear profile. -/
theorem C95_heat_equation (zL0 Tm k : ℝ) (hL : 0 < zL0) (hk : 0 < k) : ∃ T : ℝ → ℝ → ℝ,
    (∀ (x z : List ℝ) (u rhom rhow a : ℝ), z ≠ [] → rhom ≠ rhow → ∃ M W, thermPlate x z u zL0 Tm true rhom rhow a k = .ok (M, W) ∧
      ∀ i < z.length, ∀ j < x.length, z.getD i 0 ≤ zL0 → M.at' i j = some (T (secondsPerMyr * x.getD j 0) (z.getD i 0))) ∧
    (∀ t z, HeatEquation k T t z) ∧ ∀ z, Tendsto (fun t => T t z) atTop (𝓝 (Tm * (z / zL0))) := by
  have hp := Real.pi_pos
  refine ⟨fun t z => Tm * plateSeries 10 zL0 k t z, ?_, ?_, ?_⟩
  · intro x z u rhom rhow a hz hr
    obtain ⟨M, W, h, _, _, hv⟩ := C77_nodes x z u zL0 Tm rhom rhow a k hz hr
    refine ⟨M, W, h, fun i hi j hj hle => ?_⟩
    rw [hv i hi j hj, if_neg (not_lt.mpr hle)]
  · intro t z
    have hs : ∀ (n : ℕ) (y : ℝ), HasDerivAt (fun y : ℝ => (n : ℝ) * Real.pi * y / zL0) (n * Real.pi / zL0) y := by
      intro n y
      have := ((hasDerivAt_id y).const_mul ((n : ℝ) * Real.pi)).div_const zL0
      simpa using this
    refine ⟨fun y => Tm * (1 / zL0 + ∑ n ∈ Finset.Icc (1 : ℕ) 10, 2 / ((n : ℝ) * Real.pi) * Real.exp (-((n : ℝ) * Real.pi / zL0) ^ 2 * k * t) *
        (Real.cos ((n : ℝ) * Real.pi * y / zL0) * (n * Real.pi / zL0))),
      Tm * ∑ n ∈ Finset.Icc (1 : ℕ) 10, 2 / ((n : ℝ) * Real.pi) * Real.exp (-((n : ℝ) * Real.pi / zL0) ^ 2 * k * t) *
        (-Real.sin ((n : ℝ) * Real.pi * z / zL0) * (n * Real.pi / zL0) * (n * Real.pi / zL0)), ?_, ?_, ?_⟩
    · refine Eventually.of_forall fun y => ?_
      unfold plateSeries
      exact (((hasDerivAt_id y).div_const zL0).add (HasDerivAt.fun_sum fun n _ => (hs n y).sin.const_mul _)).const_mul Tm
    · have := ((HasDerivAt.fun_sum fun (n : ℕ) (_ : n ∈ Finset.Icc (1 : ℕ) 10) => ((hs n z).cos.mul_const ((n : ℝ) * Real.pi / zL0)).const_mul
        (2 / ((n : ℝ) * Real.pi) * Real.exp (-((n : ℝ) * Real.pi / zL0) ^ 2 * k * t))).const_add (1 / zL0)).const_mul Tm
      exact this
    · have he : ∀ n : ℕ, HasDerivAt (fun s : ℝ => Real.exp (-((n : ℝ) * Real.pi / zL0) ^ 2 * k * s))
          (Real.exp (-((n : ℝ) * Real.pi / zL0) ^ 2 * k * t) * (-((n : ℝ) * Real.pi / zL0) ^ 2 * k)) t := by
        intro n
        have := ((hasDerivAt_id t).const_mul (-((n : ℝ) * Real.pi / zL0) ^ 2 * k)).exp
        simpa using this
      have := ((HasDerivAt.fun_sum fun (n : ℕ) (_ : n ∈ Finset.Icc (1 : ℕ) 10) => ((he n).const_mul (2 / ((n : ℝ) * Real.pi))).mul_const
        (Real.sin ((n : ℝ) * Real.pi * z / zL0))).const_add (z / zL0)).const_mul Tm
      unfold plateSeries
      refine this.congr_deriv ?_
      rw [mul_left_comm k Tm]
      congr 1
      rw [Finset.mul_sum]
      apply Finset.sum_congr rfl
      intro n _
      ring
  · intro z
    unfold plateSeries
    have hterm : ∀ n ∈ Finset.Icc (1 : ℕ) 10, Tendsto (fun t : ℝ => 2 / ((n : ℝ) * Real.pi) * Real.exp (-((n : ℝ) * Real.pi / zL0) ^ 2 * k * t) *
        Real.sin ((n : ℝ) * Real.pi * z / zL0)) atTop (𝓝 0) := by
      intro n hn
      have hn0 : (0 : ℝ) < n := by exact_mod_cast (by have := (Finset.mem_Icc.mp hn).1; omega : 0 < n)
      have h1 : 0 < ((n : ℝ) * Real.pi / zL0) ^ 2 * k := by positivity
      have h2 : Tendsto (fun t : ℝ => -(((n : ℝ) * Real.pi / zL0) ^ 2 * k * t)) atTop atBot :=
        tendsto_neg_atTop_atBot.comp (tendsto_id.const_mul_atTop h1)
      have h3 := ((Real.tendsto_exp_atBot.comp h2).const_mul (2 / ((n : ℝ) * Real.pi))).mul_const (Real.sin ((n : ℝ) * Real.pi * z / zL0))
      rw [mul_zero, zero_mul] at h3
      refine h3.congr fun t => ?_
      simp only [Function.comp]
      congr 3
      ring
    have := ((tendsto_finsetSum _ hterm).const_add (z / zL0)).const_mul Tm
    rw [Finset.sum_const_zero, add_zero] at this
    exact this

/-! ## Non-vacuity -/

example : plateSeries 10 1 1 0 0 = 0 ∧ plateSeries 10 1 1 5 1 = 1 := ⟨series_surface 10 1 1 0, series_base 10 1 1 5 one_ne_zero⟩

/-- Ages that satisfy the hypothesis for old plates exist. -/
example : ∃ t : ℝ, Real.exp (-(Real.pi / 1) ^ 2 * 1 * (secondsPerMyr * t)) ≤ 9 / 20 := by
  refine ⟨1, ?_⟩
  have h1 : (1 : ℝ) ≤ secondsPerMyr := by unfold secondsPerMyr; norm_num
  have h3 := Real.pi_gt_three
  have : -(Real.pi / 1) ^ 2 * 1 * (secondsPerMyr * 1) ≤ -3 := by nlinarith [sq_nonneg (Real.pi - 3)]
  have he := Real.add_one_le_exp (3 : ℝ)
  calc Real.exp (-(Real.pi / 1) ^ 2 * 1 * (secondsPerMyr * 1)) ≤ Real.exp (-3) := Real.exp_le_exp.mpr this
    _ = 1 / Real.exp 3 := by rw [Real.exp_neg, one_div]
    _ ≤ 9 / 20 := by rw [div_le_div_iff₀ (Real.exp_pos _) (by norm_num)]; linarith

end Shipgrav
