import Mathlib.Topology.Algebra.Order.Floor
import Verif.Lemmas.Columns
import Verif.Props.Parker1d
import Verif.Props.Parker2d

/-! Property theorem C121: Parker's series and the attraction of the columns of rock. -/

namespace Shipgrav
open Spec Filter Topology

/-- Sums of terms that differ by at most `B`, weighted with cosines. -/
private theorem line_le (N : ℕ) (κ : ℕ → ℝ) (hκ : ∀ k, 0 ≤ κ k) (c g H : ℝ) (h : ℕ → ℝ) (hh : ∀ m < N, |h m| ≤ H) (j : ℕ) :
    |parkerLine N κ c g h j - columnLine N κ c g h j| ≤
      |g| * ∑ k ∈ Finset.Ico 1 N, κ k ^ 5 * H ^ 6 / Nat.factorial 6 * Real.exp (-(c - H) * κ k) := by
  rcases Nat.eq_zero_or_pos N with rfl | hN
  · simp [parkerLine, columnLine]
  have hNr : (0 : ℝ) < N := by exact_mod_cast hN
  unfold parkerLine columnLine
  rw [← mul_sub, ← Finset.sum_sub_distrib, abs_mul, abs_div, Nat.abs_cast, div_mul_eq_mul_div, mul_div_assoc]
  refine mul_le_mul_of_nonneg_left ?_ (abs_nonneg _)
  rw [div_le_iff₀ hNr, Finset.sum_mul]
  refine (Finset.abs_sum_le_sum_abs _ _).trans (Finset.sum_le_sum fun k _ => ?_)
  have h1 : Real.exp (-c * κ k) * ∑ p ∈ Finset.Icc 1 5, κ k ^ (p - 1) / p.factorial *
      ∑ m ∈ Finset.range N, h m ^ p * Real.cos (2 * Real.pi * k * ((j : ℝ) - m) / N) =
      ∑ m ∈ Finset.range N, (Real.exp (-c * κ k) * ∑ p ∈ Finset.Icc 1 5, κ k ^ (p - 1) / p.factorial * h m ^ p) *
        Real.cos (2 * Real.pi * k * ((j : ℝ) - m) / N) := by
    simp only [Finset.mul_sum, Finset.sum_mul]
    rw [Finset.sum_comm]
    refine Finset.sum_congr rfl fun m _ => Finset.sum_congr rfl fun p _ => ?_
    ring
  rw [h1, ← Finset.sum_sub_distrib]
  refine (Finset.abs_sum_le_sum_abs _ _).trans ?_
  rw [mul_comm _ (N : ℝ), ← nsmul_eq_mul, ← Finset.card_range N, ← Finset.sum_const, Finset.card_range]
  refine Finset.sum_le_sum fun m hm => ?_
  rw [← sub_mul, abs_mul]
  refine (mul_le_of_le_one_right (abs_nonneg _) (Real.abs_cos_le_one _)).trans ?_
  exact column_series_le _ _ _ _ 5 (hκ k) (hh m (Finset.mem_range.mp hm))

private theorem grid_le (M N : ℕ) (κ : ℕ → ℕ → ℝ) (hκ : ∀ k l, 0 ≤ κ k l) (c g H : ℝ) (P : ℕ) (h : ℕ → ℕ → ℝ)
    (hh : ∀ a < M, ∀ b < N, |h a b| ≤ H) (i j : ℕ) :
    |parkerGrid M N κ c g P h i j - columnGrid M N κ c g h i j| ≤
      |g| * ∑ k ∈ Finset.range M, ∑ l ∈ Finset.range N, if k = 0 ∧ l = 0 then 0 else
        κ k l ^ P * H ^ (P + 1) / (P + 1).factorial * Real.exp (-(c - H) * κ k l) := by
  rcases Nat.eq_zero_or_pos M with rfl | hM
  · simp [parkerGrid, columnGrid]
  rcases Nat.eq_zero_or_pos N with rfl | hN
  · simp [parkerGrid, columnGrid]
  have hMN : (0 : ℝ) < M * N := by positivity
  unfold parkerGrid columnGrid
  rw [← mul_sub, ← Finset.sum_sub_distrib, abs_mul, abs_div, abs_of_pos hMN, div_mul_eq_mul_div, mul_div_assoc]
  refine mul_le_mul_of_nonneg_left ?_ (abs_nonneg _)
  rw [div_le_iff₀ hMN, Finset.sum_mul]
  refine (Finset.abs_sum_le_sum_abs _ _).trans (Finset.sum_le_sum fun k _ => ?_)
  rw [← Finset.sum_sub_distrib, Finset.sum_mul]
  refine (Finset.abs_sum_le_sum_abs _ _).trans (Finset.sum_le_sum fun l _ => ?_)
  by_cases h0 : k = 0 ∧ l = 0
  · simp [h0]
  simp only [if_neg h0]
  obtain ⟨C, hC, hC1⟩ : ∃ C : ℕ → ℕ → ℝ, (C = fun (a b : ℕ) => Real.cos (2 * Real.pi * k * ((i : ℝ) - a) / M) *
      Real.cos (2 * Real.pi * l * ((j : ℝ) - b) / N)) ∧ ∀ a b, |C a b| ≤ 1 := by
    refine ⟨_, rfl, fun a b => ?_⟩
    rw [abs_mul]
    exact mul_le_one₀ (Real.abs_cos_le_one _) (abs_nonneg _) (Real.abs_cos_le_one _)
  have hC' : ∀ a b : ℕ, Real.cos (2 * Real.pi * k * ((i : ℝ) - a) / M) * Real.cos (2 * Real.pi * l * ((j : ℝ) - b) / N) = C a b := by
    intro a b; rw [hC]
  simp only [hC']
  have h1 : Real.exp (-c * κ k l) * ∑ p ∈ Finset.Icc 1 P, κ k l ^ (p - 1) / p.factorial *
      ∑ a ∈ Finset.range M, ∑ b ∈ Finset.range N, h a b ^ p * C a b =
      ∑ a ∈ Finset.range M, ∑ b ∈ Finset.range N,
        (Real.exp (-c * κ k l) * ∑ p ∈ Finset.Icc 1 P, κ k l ^ (p - 1) / p.factorial * h a b ^ p) * C a b := by
    simp only [Finset.mul_sum, Finset.sum_mul]
    rw [Finset.sum_comm]
    refine Finset.sum_congr rfl fun a _ => ?_
    rw [Finset.sum_comm]
    refine Finset.sum_congr rfl fun b _ => Finset.sum_congr rfl fun p _ => ?_
    ring
  rw [h1, ← Finset.sum_sub_distrib]
  refine (Finset.abs_sum_le_sum_abs _ _).trans ?_
  have hb : ∀ a ∈ Finset.range M, |∑ b ∈ Finset.range N,
      (Real.exp (-c * κ k l) * ∑ p ∈ Finset.Icc 1 P, κ k l ^ (p - 1) / p.factorial * h a b ^ p) * C a b -
      ∑ b ∈ Finset.range N, column (κ k l) c (h a b) * C a b| ≤
      N * (κ k l ^ P * H ^ (P + 1) / (P + 1).factorial * Real.exp (-(c - H) * κ k l)) := by
    intro a ha
    rw [← Finset.sum_sub_distrib]
    refine (Finset.abs_sum_le_sum_abs _ _).trans ?_
    rw [← nsmul_eq_mul, ← Finset.card_range N, ← Finset.sum_const, Finset.card_range]
    refine Finset.sum_le_sum fun b hb => ?_
    rw [← sub_mul, abs_mul]
    refine (mul_le_of_le_one_right (abs_nonneg _) (hC1 _ _)).trans ?_
    exact column_series_le _ _ _ _ P (hκ k l) (hh a (Finset.mem_range.mp ha) b (Finset.mem_range.mp hb))
  refine (Finset.sum_le_sum hb).trans (le_of_eq ?_)
  rw [Finset.sum_const, Finset.card_range, nsmul_eq_mul]
  ring

/-- **C121.** A profile with an even number of points and zero mean, relief at most `H`: at every point the anomaly is that of the columns
of rock, up to the rest of the series after five powers. -/
theorem C121_profile (xtopo : List ℝ) (n : ℕ) (hx : xtopo.length = n) (hn : 0 < n) (he : Even n) (h : ℕ → ℝ)
    (hmean : ∑ i ∈ Finset.range n, h i = 0) (dx : ℝ) (hdx : dx = (xtopo.getLastD 0 - xtopo.headD 0) / (n - 1)) (hpos : 0 < dx)
    (H : ℝ) (hh : ∀ i < n, |h i| ≤ H) (zlev rho : ℝ) :
    ∃ v : ℕ → ℝ, grav1dPadded xtopo (samples h n) zlev rho = .ok (samples v n) ∧ ∀ i < n,
      |v i - 100 * columnLine (5 * n) (fun k => 2 * Real.pi * cycles (5 * n) k / ((5 * n : ℕ) * dx)) zlev
          (2 * Real.pi * 6.673e-8 * rho) (carriedOn n h) (2 * n + i)| ≤
        100 * (|2 * Real.pi * 6.673e-8 * rho| * ∑ k ∈ Finset.Ico 1 (5 * n),
          (2 * Real.pi * cycles (5 * n) k / ((5 * n : ℕ) * dx)) ^ 5 * H ^ 6 / 720 *
            Real.exp (-(zlev - H) * (2 * Real.pi * cycles (5 * n) k / ((5 * n : ℕ) * dx)))) := by
  have hκ : (fun k => |2 * Real.pi / ((5 * n : ℕ) * dx)| * (usedCycles (5 * n) k : ℝ)) =
      fun k => 2 * Real.pi * cycles (5 * n) k / ((5 * n : ℕ) * dx) := by
    funext k
    rw [abs_of_nonneg (by positivity)]
    have : usedCycles (5 * n) k = cycles (5 * n) k := by
      unfold usedCycles cycles
      obtain ⟨m, rfl⟩ := he
      split <;> omega
    rw [this]
    ring
  have hv := C68_value xtopo n hx hn h zlev rho
  simp only at hv
  rw [← hdx, hκ, hmean, zero_div, sub_zero, show (6.673 * 1e-8 : ℝ) = 6.673e-8 by norm_num] at hv
  refine ⟨_, hv, fun i hi => ?_⟩
  rw [← mul_sub, abs_mul, abs_of_pos (by norm_num : (0 : ℝ) < 100)]
  refine mul_le_mul_of_nonneg_left ?_ (by norm_num)
  have := line_le (5 * n) (fun k => 2 * Real.pi * cycles (5 * n) k / ((5 * n : ℕ) * dx)) (fun k => by positivity) zlev
    (2 * Real.pi * 6.673e-8 * rho) H (carriedOn n h) (fun m hm => by
      unfold carriedOn
      split
      · exact hh 0 hn
      · split
        · exact hh _ (by omega)
        · exact hh _ (by omega)) (2 * n + i)
  simpa [Nat.factorial] using this

/-- **C121.** A surface with folding, relief about its mean at most `H` (metres): at every point the anomaly is that of the columns between
the mean level and the surface, up to the rest of the series after `npower` powers. -/
theorem C121_surface (nx ny : ℕ) (hnx : 0 < nx) (hny : 0 < ny) (h : ℕ → ℕ → ℝ) (dx dy drho dz : ℝ) (hdx : dx ≠ 0) (hdy : dy ≠ 0)
    (npower : ℕ) (hp : 1 ≤ npower) (H : ℝ) (hH : ∀ a < ny, ∀ b < nx, |h a b - gridMean ny nx h| ≤ H) :
    let κ := gridWavenumber (2 * ny) (2 * nx) (100000 * dy) (100000 * dx)
    let c := 100 * (gridMean ny nx h + dz)
    let g := 2 * Real.pi * 6.673e-8 * 1000 * drho
    ∃ R, grav2dFolding nx ny ⟨ny, nx, h⟩ dx dy drho dz true npower = .ok R ∧ ∀ i < ny, ∀ j < nx,
      |R.at' i j - columnGrid (2 * ny) (2 * nx) κ c g (mirrored ny nx fun a b => 100 * (gridMean ny nx h - h a b)) i j| ≤
        |g| * ∑ k ∈ Finset.range (2 * ny), ∑ l ∈ Finset.range (2 * nx), if k = 0 ∧ l = 0 then 0 else
          κ k l ^ npower * (100 * H) ^ (npower + 1) / (npower + 1).factorial * Real.exp (-(c - 100 * H) * κ k l) := by
  intro κ c g
  obtain ⟨R, h1, _, _, h4⟩ := C71_value_folded nx ny hnx hny h dx dy drho dz hdx hdy npower
  refine ⟨R, h1, fun i hi j hj => ?_⟩
  rw [h4 i hi j hj, max_eq_right hp]
  refine grid_le _ _ _ (fun k l => Real.sqrt_nonneg _) _ _ _ _ _ (fun a ha b hb => ?_) i j
  have hb' : ∀ a < ny, ∀ b < nx, |100 * (gridMean ny nx h - h a b)| ≤ 100 * H := by
    intro a ha b hb
    rw [abs_mul, abs_of_pos (by norm_num : (0 : ℝ) < 100), abs_sub_comm]
    exact mul_le_mul_of_nonneg_left (hH a ha b hb) (by norm_num)
  unfold mirrored
  apply hb'
  · split <;> omega
  · split <;> omega

/-- **C121.** Seen from more than twice the relief above the mean level, each further power brings the anomaly closer by the same factor,
whatever the spacing of the grid. -/
theorem C121_rate (nx ny : ℕ) (hnx : 0 < nx) (hny : 0 < ny) (h : ℕ → ℕ → ℝ) (dx dy drho dz : ℝ) (hdx : dx ≠ 0) (hdy : dy ≠ 0)
    (npower : ℕ) (hp : 1 ≤ npower) (H : ℝ) (hH : ∀ a < ny, ∀ b < nx, |h a b - gridMean ny nx h| ≤ H) (hc : 2 * H < gridMean ny nx h + dz) :
    let κ := gridWavenumber (2 * ny) (2 * nx) (100000 * dy) (100000 * dx)
    let g := 2 * Real.pi * 6.673e-8 * 1000 * drho
    let q := H / (gridMean ny nx h + dz - H)
    q < 1 ∧ ∃ R, grav2dFolding nx ny ⟨ny, nx, h⟩ dx dy drho dz true npower = .ok R ∧ ∀ i < ny, ∀ j < nx,
      |R.at' i j - columnGrid (2 * ny) (2 * nx) κ (100 * (gridMean ny nx h + dz)) g
          (mirrored ny nx fun a b => 100 * (gridMean ny nx h - h a b)) i j| ≤
        |g| * (4 * nx * ny) * (100 * H / (npower + 1)) * q ^ npower := by
  intro κ g q
  have hH0 : 0 ≤ H := (abs_nonneg _).trans (hH 0 hny 0 hnx)
  have ha : 0 < gridMean ny nx h + dz - H := by linarith
  refine ⟨(div_lt_one ha).2 (by linarith), ?_⟩
  obtain ⟨R, h1, h2⟩ := C121_surface nx ny hnx hny h dx dy drho dz hdx hdy npower hp H hH
  refine ⟨R, h1, fun i hi j hj => (h2 i hi j hj).trans ?_⟩
  rw [show |g| * (4 * nx * ny) * (100 * H / (npower + 1)) * q ^ npower =
    |g| * ((4 * nx * ny) * (100 * H / (npower + 1) * q ^ npower)) by ring]
  refine mul_le_mul_of_nonneg_left ?_ (abs_nonneg _)
  have hq : q = 100 * H / (100 * (gridMean ny nx h + dz) - 100 * H) := by
    rw [← mul_sub, mul_div_mul_left _ _ (by norm_num)]
  have hterm : ∀ k l : ℕ, (if k = 0 ∧ l = 0 then 0 else
      κ k l ^ npower * (100 * H) ^ (npower + 1) / (npower + 1).factorial *
        Real.exp (-(100 * (gridMean ny nx h + dz) - 100 * H) * κ k l)) ≤ 100 * H / (npower + 1) * q ^ npower := by
    intro k l
    have hr := rest_rate (κ k l) (100 * (gridMean ny nx h + dz)) (100 * H) npower (Real.sqrt_nonneg _) (by positivity) (by linarith)
    rw [← hq] at hr
    split
    · have : 0 ≤ q := div_nonneg hH0 ha.le
      positivity
    · exact hr
  refine (Finset.sum_le_sum fun k _ => Finset.sum_le_sum fun l _ => hterm k l).trans (le_of_eq ?_)
  simp only [Finset.sum_const, Finset.card_range, nsmul_eq_mul]
  push_cast
  ring

/-- **C121.** With more and more powers the anomaly of a surface tends to that of the columns, for every surface and every level. -/
theorem C121_limit (nx ny : ℕ) (hnx : 0 < nx) (hny : 0 < ny) (h : ℕ → ℕ → ℝ) (dx dy drho dz : ℝ) (hdx : dx ≠ 0) (hdy : dy ≠ 0) :
    ∃ R : ℕ → Mat ℝ, (∀ P, grav2dFolding nx ny ⟨ny, nx, h⟩ dx dy drho dz true P = .ok (R P)) ∧ ∀ i < ny, ∀ j < nx,
      Tendsto (fun P => (R P).at' i j) atTop (𝓝 (columnGrid (2 * ny) (2 * nx)
        (gridWavenumber (2 * ny) (2 * nx) (100000 * dy) (100000 * dx)) (100 * (gridMean ny nx h + dz)) (2 * Real.pi * 6.673e-8 * 1000 * drho)
        (mirrored ny nx fun a b => 100 * (gridMean ny nx h - h a b)) i j)) := by
  choose R hR _ _ _ using fun P => C71_value_folded nx ny hnx hny h dx dy drho dz hdx hdy P
  refine ⟨R, hR, fun i hi j hj => ?_⟩
  obtain ⟨H, hH⟩ : ∃ H : ℝ, ∀ a < ny, ∀ b < nx, |h a b - gridMean ny nx h| ≤ H := by
    refine ⟨∑ a ∈ Finset.range ny, ∑ b ∈ Finset.range nx, |h a b - gridMean ny nx h|, fun a ha b hb => ?_⟩
    have h1 := Finset.single_le_sum (f := fun b => |h a b - gridMean ny nx h|) (fun b _ => abs_nonneg _) (Finset.mem_range.mpr hb)
    have h2 := Finset.single_le_sum (f := fun a => ∑ b ∈ Finset.range nx, |h a b - gridMean ny nx h|)
      (fun a _ => Finset.sum_nonneg fun b _ => abs_nonneg _) (Finset.mem_range.mpr ha)
    exact h1.trans h2
  rw [tendsto_iff_norm_sub_tendsto_zero]
  obtain ⟨κ, hκ⟩ : ∃ κ, κ = gridWavenumber (2 * ny) (2 * nx) (100000 * dy) (100000 * dx) := ⟨_, rfl⟩
  obtain ⟨B, hB⟩ : ∃ B : ℕ → ℝ, B = fun P => |2 * Real.pi * 6.673e-8 * 1000 * drho| * ∑ k ∈ Finset.range (2 * ny), ∑ l ∈ Finset.range (2 * nx),
    if k = 0 ∧ l = 0 then 0 else κ k l ^ P * (100 * H) ^ (P + 1) / (P + 1).factorial *
      Real.exp (-(100 * (gridMean ny nx h + dz) - 100 * H) * κ k l) := ⟨_, rfl⟩
  have hB0 : Tendsto B atTop (𝓝 0) := by
    suffices key : Tendsto B atTop (𝓝 (|2 * Real.pi * 6.673e-8 * 1000 * drho| *
        ∑ k ∈ Finset.range (2 * ny), ∑ l ∈ Finset.range (2 * nx), (0 : ℝ))) by
      simpa using key
    rw [hB]
    refine Tendsto.const_mul _ (tendsto_finset_sum _ fun k _ => tendsto_finset_sum _ fun l _ => ?_)
    by_cases h0 : k = 0 ∧ l = 0
    · simp only [if_pos h0]
      exact tendsto_const_nhds
    · simp only [if_neg h0]
      have h1 : Tendsto (fun P : ℕ => (κ k l * (100 * H)) ^ P / P.factorial) atTop (𝓝 0) := FloorSemiring.tendsto_pow_div_factorial_atTop _
      have h2 : Tendsto (fun P : ℕ => (1 : ℝ) / ((P : ℝ) + 1)) atTop (𝓝 0) := tendsto_one_div_add_atTop_nhds_zero_nat
      have h3 := ((h1.mul h2).const_mul (100 * H)).mul_const (Real.exp (-(100 * (gridMean ny nx h + dz) - 100 * H) * κ k l))
      simp only [mul_zero, zero_mul] at h3
      refine h3.congr fun P => ?_
      rw [Nat.factorial_succ, mul_pow]
      push_cast
      have hp : (P.factorial : ℝ) ≠ 0 := by positivity
      field_simp
      ring
  refine squeeze_zero' (Eventually.of_forall fun P => norm_nonneg _) ?_ hB0
  filter_upwards [eventually_ge_atTop 1] with P hP
  obtain ⟨R', h1, h2⟩ := C121_surface nx ny hnx hny h dx dy drho dz hdx hdy P hP H hH
  have : R' = R P := by have := h1.symm.trans (hR P); injection this
  subst this
  rw [Real.norm_eq_abs, hB, hκ]
  exact h2 i hi j hj

/-! ## Non-vacuity -/

/-- Two points 1 m above and below the mean, 3 km below the observer: the hypotheses of the rate hold with `q = 1 / 2999`. -/
example : gridMean 1 2 (fun _ b => if b = 0 then 2999 else 3001) = 3000 ∧
    ∀ a < 1, ∀ b < 2, |(if b = 0 then (2999 : ℝ) else 3001) - 3000| ≤ 1 := by
  constructor
  · norm_num [gridMean, Finset.sum_range_succ]
  · intro a _ b hb
    interval_cases b <;> norm_num

/-- A column does contribute: at wavenumber zero it is its height. -/
example : column 0 5 3 = 3 := column_zero 5 3

end Shipgrav
