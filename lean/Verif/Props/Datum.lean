import Verif.Props.Parker1d
import Verif.Props.Parker2d
import Verif.Props.Layer

/-! Property theorems C98 and C99: what the gravity of a profile and of a surface owes to the level that heights are counted from. -/

namespace Shipgrav
open Spec

/-- A step of unit height in the middle of `n` points. -/
def stepProfile (n m : ℕ) : ℝ := if 2 * m < n then 0 else 1

theorem carried_step (n m : ℕ) (hn : 2 ≤ n) (hm : m < 5 * n) (c : ℝ) :
    carriedOn n (fun i => stepProfile n i + c) m = (if 2 * m < 5 * n then 0 else 1) + c := by
  have h0 : stepProfile n 0 = 0 := by unfold stepProfile; rw [if_pos (by omega)]
  have h1 : stepProfile n (n - 1) = 1 := by unfold stepProfile; rw [if_neg (by omega)]
  unfold carriedOn
  beta_reduce
  rw [h0, h1]
  by_cases ha : m < 2 * n
  · rw [if_pos ha, if_pos (by omega)]
  · rw [if_neg ha]
    by_cases hb : m < 3 * n
    · rw [if_pos hb]
      unfold stepProfile
      by_cases hc : 2 * m < 5 * n
      · rw [if_pos hc, if_pos (by omega)]
      · rw [if_neg hc, if_neg (by omega)]
    · rw [if_neg hb, if_neg (by omega)]

/-- The cosines of the second half, seen from the step. -/
private theorem half_sum (M k : ℕ) (hM : 0 < M) (h0 : 0 < k) (hk : k < 2 * M) :
    ∑ r ∈ Finset.range M, Real.cos (2 * Real.pi * k * r / (2 * M : ℕ)) = if k % 2 = 1 then 1 else 0 := by
  have hMr : (M : ℝ) ≠ 0 := by exact_mod_cast hM.ne'
  by_cases hodd : k % 2 = 1
  · rw [if_pos hodd]
    have hr : ∑ r ∈ Finset.Ico 1 M, Real.cos (2 * Real.pi * k * r / (2 * M : ℕ)) = 0 := by
      have key : ∀ S : ℝ, S = -S → S = 0 := fun S h => by linarith
      apply key
      nth_rewrite 1 [← sum_reflect_bins M]
      rw [← Finset.sum_neg_distrib]
      apply Finset.sum_congr rfl
      intro r hr
      have hrM : r ≤ M := by have := (Finset.mem_Ico.mp hr).2; omega
      obtain ⟨q, rfl⟩ : ∃ q, k = 2 * q + 1 := ⟨k / 2, by omega⟩
      rw [Nat.cast_sub hrM, show 2 * Real.pi * ((2 * q + 1 : ℕ) : ℝ) * ((M : ℝ) - r) / (2 * M : ℕ) =
        (q : ℕ) * (2 * Real.pi) + (Real.pi - 2 * Real.pi * ((2 * q + 1 : ℕ) : ℝ) * r / (2 * M : ℕ)) by push_cast; field_simp; ring]
      rw [add_comm, Real.cos_add_nat_mul_two_pi, Real.cos_pi_sub]
    rw [Finset.range_eq_Ico, Finset.sum_eq_sum_Ico_succ_bot hM, hr]
    simp
  · rw [if_neg hodd]
    obtain ⟨q, rfl⟩ : ∃ q, k = 2 * q := ⟨k / 2, by omega⟩
    have := cos_bin_sum_zero M q (by omega) (by omega) 0
    rw [← this]
    apply Finset.sum_congr rfl
    intro r _
    rw [← Real.cos_neg]
    congr 1
    push_cast
    field_simp
    ring

theorem step_cos (N k : ℕ) (hN : N % 2 = 0) (h2 : 0 < N) (h0 : 0 < k) (hk : k < N) :
    ∑ m ∈ Finset.range N, (if 2 * m < N then (0 : ℝ) else 1) * Real.cos (2 * Real.pi * k * (((N / 2 : ℕ) : ℝ) - m) / N) =
      if k % 2 = 1 then 1 else 0 := by
  obtain ⟨M, rfl⟩ : ∃ M, N = 2 * M := ⟨N / 2, by omega⟩
  rw [← half_sum M k (by omega) h0 hk, show 2 * M / 2 = M by omega]
  rw [Finset.range_eq_Ico, ← Finset.sum_Ico_consecutive _ (Nat.zero_le M) (by omega : M ≤ 2 * M)]
  have hz : ∑ m ∈ Finset.Ico 0 M, (if 2 * m < 2 * M then (0 : ℝ) else 1) * Real.cos (2 * Real.pi * k * ((M : ℝ) - m) / (2 * M : ℕ)) = 0 := by
    apply Finset.sum_eq_zero
    intro m hm
    rw [if_pos (by have := Finset.mem_Ico.mp hm; omega), zero_mul]
  rw [hz, zero_add, Finset.sum_Ico_eq_sum_range, show 2 * M - M = M by omega]
  apply Finset.sum_congr rfl
  intro r _
  rw [if_neg (by omega), one_mul, ← Real.cos_neg]
  congr 1
  push_cast
  ring

private theorem power_shift (N k p : ℕ) (hN : N % 2 = 0) (h2 : 0 < N) (h0 : 0 < k) (hk : k < N) (c : ℝ) :
    ∑ m ∈ Finset.range N, ((if 2 * m < N then (0 : ℝ) else 1) + c) ^ p * Real.cos (2 * Real.pi * k * (((N / 2 : ℕ) : ℝ) - m) / N) =
      ((1 + c) ^ p - c ^ p) * if k % 2 = 1 then 1 else 0 := by
  rw [← step_cos N k hN h2 h0 hk, Finset.mul_sum]
  have hz := cos_bin_sum_zero N k h0 hk ((N / 2 : ℕ) : ℝ)
  have hz' : ∑ m ∈ Finset.range N, c ^ p * Real.cos (2 * Real.pi * k * (((N / 2 : ℕ) : ℝ) - m) / N) = 0 := by
    rw [← Finset.mul_sum, hz, mul_zero]
  have hs : ∀ m ∈ Finset.range N,
      ((if 2 * m < N then (0 : ℝ) else 1) + c) ^ p * Real.cos (2 * Real.pi * k * (((N / 2 : ℕ) : ℝ) - m) / N) =
        ((1 + c) ^ p - c ^ p) * ((if 2 * m < N then (0 : ℝ) else 1) * Real.cos (2 * Real.pi * k * (((N / 2 : ℕ) : ℝ) - m) / N)) +
          c ^ p * Real.cos (2 * Real.pi * k * (((N / 2 : ℕ) : ℝ) - m) / N) := by
    intro m _
    split <;> ring
  rw [Finset.sum_congr rfl hs, Finset.sum_add_distrib, hz', add_zero]

/-- The value at the step, for a profile that is lifted by `c`. -/
private theorem step_value (n : ℕ) (hn : 2 ≤ n) (he : Even n) (κ : ℕ → ℝ) (d g c : ℝ) :
    parkerLine (5 * n) κ d g (carriedOn n fun i => stepProfile n i + c) (2 * n + n / 2) =
      g / (5 * n : ℕ) * ∑ k ∈ Finset.Ico 1 (5 * n), Real.exp (-d * κ k) * ((if k % 2 = 1 then 1 else 0) *
        ∑ p ∈ Finset.Icc 1 5, κ k ^ (p - 1) / p.factorial * ((1 + c) ^ p - c ^ p)) := by
  have hn2 : n % 2 = 0 := Nat.even_iff.mp he
  unfold parkerLine
  congr 1
  apply Finset.sum_congr rfl
  intro k hk
  obtain ⟨hk1, hk2⟩ := Finset.mem_Ico.mp hk
  congr 1
  rw [Finset.mul_sum]
  apply Finset.sum_congr rfl
  intro p hp
  have hp1 := (Finset.mem_Icc.mp hp).1
  have := power_shift (5 * n) k p (by omega) (by omega) (by omega) hk2 c
  rw [show 2 * n + n / 2 = 5 * n / 2 by omega]
  rw [mul_comm (if k % 2 = 1 then (1 : ℝ) else 0), mul_assoc (κ k ^ (p - 1) / _), ← this]
  congr 1
  apply Finset.sum_congr rfl
  intro m hm
  rw [carried_step n m hn (Finset.mem_range.mp hm)]

/-- **C98, refuted.** The claim: counting heights from another level — adding `c` both to the topography and to the level of observation —
changes nothing.  For a unit step in the middle of any even number of points the anomaly at the step grows with every `c > 0`, whatever the
spacing, the level of observation and the (positive) density. -/
theorem C98_datum_refuted (xtopo : List ℝ) (n : ℕ) (hx : xtopo.length = n) (hn : 2 ≤ n) (he : Even n) (hd : xtopo.getLastD 0 ≠ xtopo.headD 0)
    (zlev rho c : ℝ) (hr : 0 < rho) (hc : 0 < c) :
    ∃ v v' : ℕ → ℝ, grav1dPadded xtopo (samples (stepProfile n) n) zlev rho = .ok (samples v n) ∧
      grav1dPadded xtopo (samples (fun i => stepProfile n i + c) n) (zlev + c) rho = .ok (samples v' n) ∧ v (n / 2) < v' (n / 2) := by
  refine ⟨_, _, C68_value xtopo n hx (by omega) (stepProfile n) zlev rho,
    C68_value xtopo n hx (by omega) (fun i => stepProfile n i + c) (zlev + c) rho, ?_⟩
  have hmean : zlev + c - (∑ i ∈ Finset.range n, (stepProfile n i + c)) / n = zlev - (∑ i ∈ Finset.range n, stepProfile n i) / n := by
    rw [Finset.sum_add_distrib, Finset.sum_const, Finset.card_range, nsmul_eq_mul]
    have : (n : ℝ) ≠ 0 := by exact_mod_cast (by omega : n ≠ 0)
    field_simp
    ring
  simp only [hmean]
  generalize zlev - (∑ i ∈ Finset.range n, stepProfile n i) / n = d
  have h0 : carriedOn n (stepProfile n) = carriedOn n fun i => stepProfile n i + 0 := by simp
  rw [h0, step_value n hn he, step_value n hn he]
  have hg : 0 < 2 * Real.pi * (6.673 * 1e-8) * rho := by positivity
  have hκ : 0 < |2 * Real.pi / (((5 * n : ℕ) : ℝ) * ((xtopo.getLastD 0 - xtopo.headD 0) / (n - 1)))| := by
    have h1 : xtopo.getLastD 0 - xtopo.headD 0 ≠ 0 := sub_ne_zero.mpr hd
    have h2 : (n : ℝ) - 1 ≠ 0 := by
      have : (2 : ℝ) ≤ n := by exact_mod_cast hn
      intro h; linarith
    have h3 : ((5 * n : ℕ) : ℝ) ≠ 0 := by exact_mod_cast (by omega : 5 * n ≠ 0)
    exact abs_pos.mpr (div_ne_zero (by positivity) (mul_ne_zero h3 (div_ne_zero h1 h2)))
  generalize |2 * Real.pi / (((5 * n : ℕ) : ℝ) * ((xtopo.getLastD 0 - xtopo.headD 0) / (n - 1)))| = q at hκ
  generalize 2 * Real.pi * (6.673 * 1e-8) * rho = g at hg
  have hN : (0 : ℝ) < (5 * n : ℕ) := by exact_mod_cast (by omega : 0 < 5 * n)
  apply mul_lt_mul_of_pos_left _ (by norm_num : (0 : ℝ) < 100)
  apply mul_lt_mul_of_pos_left _ (div_pos hg hN)
  have inner : ∀ x : ℝ, 0 ≤ x → (∑ p ∈ Finset.Icc 1 5, x ^ (p - 1) / p.factorial * ((1 + c) ^ p - c ^ p)) =
      (∑ p ∈ Finset.Icc 1 5, x ^ (p - 1) / p.factorial * ((1 + (0 : ℝ)) ^ p - 0 ^ p)) +
        (x * c + x ^ 2 / 6 * (3 * c + 3 * c ^ 2) + x ^ 3 / 24 * (4 * c + 6 * c ^ 2 + 4 * c ^ 3) +
          x ^ 4 / 120 * (5 * c + 10 * c ^ 2 + 10 * c ^ 3 + 5 * c ^ 4)) := by
    intro x _
    simp only [show Finset.Icc 1 5 = ({1, 2, 3, 4, 5} : Finset ℕ) by decide]
    simp [Nat.factorial]
    ring
  apply Finset.sum_lt_sum
  · intro k hk
    apply mul_le_mul_of_nonneg_left _ (Real.exp_pos _).le
    have hx : 0 ≤ q * (usedCycles (5 * n) k : ℝ) := by positivity
    rw [inner _ hx]
    split
    · rw [one_mul, one_mul]
      have : 0 ≤ q * (usedCycles (5 * n) k : ℝ) * c := by positivity
      have h2 : 0 ≤ (q * (usedCycles (5 * n) k : ℝ)) ^ 2 / 6 * (3 * c + 3 * c ^ 2) := by positivity
      have h3 : 0 ≤ (q * (usedCycles (5 * n) k : ℝ)) ^ 3 / 24 * (4 * c + 6 * c ^ 2 + 4 * c ^ 3) := by positivity
      have h4 : 0 ≤ (q * (usedCycles (5 * n) k : ℝ)) ^ 4 / 120 * (5 * c + 10 * c ^ 2 + 10 * c ^ 3 + 5 * c ^ 4) := by positivity
      linarith
    · simp
  · refine ⟨1, Finset.mem_Ico.mpr ⟨le_refl _, by omega⟩, ?_⟩
    apply mul_lt_mul_of_pos_left _ (Real.exp_pos _)
    have hu : usedCycles (5 * n) 1 = 1 := by unfold usedCycles; rw [if_pos (by omega)]
    rw [hu, Nat.cast_one, mul_one, inner q hκ.le, if_pos (by norm_num), one_mul, one_mul]
    have : 0 < q * c := by positivity
    have h2 : 0 ≤ q ^ 2 / 6 * (3 * c + 3 * c ^ 2) := by positivity
    have h3 : 0 ≤ q ^ 3 / 24 * (4 * c + 6 * c ^ 2 + 4 * c ^ 3) := by positivity
    have h4 : 0 ≤ q ^ 4 / 120 * (5 * c + 10 * c ^ 2 + 10 * c ^ 3 + 5 * c ^ 4) := by positivity
    linarith

/-- **C98, part.** For a profile of mean level zero the anomaly is the series in the relief about that level. -/
theorem C98_zero_mean_partial (xtopo : List ℝ) (n : ℕ) (hx : xtopo.length = n) (hn : 0 < n) (h : ℕ → ℝ) (zlev rho : ℝ)
    (hm : (∑ i ∈ Finset.range n, h i) = 0) :
    let dx := (xtopo.getLastD 0 - xtopo.headD 0) / (n - 1)
    grav1dPadded xtopo (samples h n) zlev rho = .ok (samples (fun i =>
      100 * parkerLine (5 * n) (fun k => |2 * Real.pi / ((5 * n : ℕ) * dx)| * usedCycles (5 * n) k)
        zlev (2 * Real.pi * (6.673 * 1e-8) * rho) (carriedOn n h) (2 * n + i)) n) := by
  intro dx
  rw [C68_value xtopo n hx hn h zlev rho, hm, zero_div, sub_zero]

/-- **C98, part.** Moving the origin of the distances changes nothing. -/
theorem C98_origin_partial (xtopo topo : List ℝ) (a zlev rho : ℝ) :
    grav1dPadded (xtopo.map (· + a)) topo zlev rho = grav1dPadded xtopo topo zlev rho := by
  cases xtopo with
  | nil => rfl
  | cons x xs =>
    have hl : ((x :: xs).map (· + a)).getLastD 0 - ((x :: xs).map (· + a)).headD 0 = (x :: xs).getLastD 0 - (x :: xs).headD 0 := by
      rw [List.getLastD_eq_getLast?, List.getLastD_eq_getLast?, List.getLast?_map]
      cases h : (x :: xs).getLast? with
      | none => simp at h
      | some y => simp
    unfold grav1dPadded parkerData1d
    simp only [hl, List.length_map]
    simp

/-- **C99.** The gravity of a surface does not depend on the level that heights are counted from: adding `c` to every value of the grid and
taking it from the offset of the level of observation gives the same result (or the same exception), for every grid and every option. -/
theorem C99_datum (nx ny : ℕ) (Z : Mat ℝ) (dx dy drho dz c : ℝ) (ifold : Bool) (npower : ℕ) :
    grav2dFolding nx ny ⟨Z.rows, Z.cols, fun i j => Z.at' i j + c⟩ dx dy drho (dz - c) ifold npower =
      grav2dFolding nx ny Z dx dy drho dz ifold npower := by
  unfold grav2dFolding
  by_cases h0 : Z.rows = 0 ∨ Z.cols = 0
  · rw [if_pos h0, if_pos h0]
  · rw [if_neg h0, if_neg h0]
    push Not at h0
    have hm : matMean ⟨Z.rows, Z.cols, fun i j => Z.at' i j + c⟩ = matMean Z + c := by
      unfold matMean
      simp only [Finset.sum_add_distrib, Finset.sum_const, Finset.card_range, nsmul_eq_mul]
      have h1 : (Z.rows : ℝ) ≠ 0 := by exact_mod_cast h0.1
      have h2 : (Z.cols : ℝ) ≠ 0 := by exact_mod_cast h0.2
      field_simp
    have hz : (fun i j => 100 * (matMean Z + c - (Z.at' i j + c))) = fun i j => 100 * (matMean Z - Z.at' i j) := by
      funext i j; ring
    simp only [hm, hz]
    rw [show (matMean Z + c) * 100 + (dz - c) * 100 = matMean Z * 100 + dz * 100 by ring]

/-- **C99.** The density of a layer may be counted from any background: a constant added everywhere leaves the anomaly as it is. -/
theorem C99_layer_background (ny nx : ℕ) (rho : ℕ → ℕ → ℝ) (c dx dy z1 z2 : ℝ) (hdx : dx ≠ 0) (hdy : dy ≠ 0) (i j : ℕ) :
    (grav2dLayer ⟨ny, nx, fun a b => rho a b + c⟩ dx dy z1 z2).at' i j = (grav2dLayer ⟨ny, nx, rho⟩ dx dy z1 z2).at' i j := by
  have h := C72_linear ny nx rho (fun _ _ => c) 1 1 dx dy z1 z2 hdx hdy i j
  rw [C72_uniform ny nx c dx dy z1 z2 hdx hdy i j] at h
  simpa using h

/-! ## Non-vacuity -/

/-- The hypotheses of the refutation: two points a kilometre apart. -/
example : ∃ v v' : ℕ → ℝ, grav1dPadded [0, 1] (samples (stepProfile 2) 2) 3 1 = .ok (samples v 2) ∧
    grav1dPadded [0, 1] (samples (fun i => stepProfile 2 i + 1) 2) (3 + 1) 1 = .ok (samples v' 2) ∧ v 1 < v' 1 :=
  C98_datum_refuted [0, 1] 2 rfl (le_refl _) (by decide) (by norm_num) 3 1 1 one_pos one_pos

example : stepProfile 4 1 = 0 ∧ stepProfile 4 2 = 1 := by norm_num [stepProfile]

end Shipgrav
