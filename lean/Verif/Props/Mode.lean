import Verif.Lemmas.Mode
import Verif.Props.Parker2d
import Verif.Props.Layer

/-! C142: gravity of a corrugated surface and of a layer with density waves (grav.py 688–857). -/

namespace Shipgrav
open Spec Real

theorem mode_half_sum (n p : ℕ) (hn : 0 < n) (h0 : p ≠ 0) (hp : p < n) :
    ∑ a ∈ Finset.range n, cos (π * p * (2 * a + 1) / (2 * n)) = 0 := by
  have hnr : (n : ℝ) ≠ 0 := by exact_mod_cast hn.ne'
  have hfull := cos_full (2 * n) p (π * p / (2 * n))
  rw [if_neg (by
    intro h
    have := Int.le_of_dvd (by omega) h
    push_cast at this
    omega)] at hfull
  have e : ∀ a : ℕ, cos (2 * π * ((p : ℤ) : ℝ) * a / ((2 * n : ℕ) : ℝ) + π * p / (2 * n)) = cos (π * p * (2 * a + 1) / (2 * n)) := by
    intro a
    congr 1
    push_cast
    field_simp
  simp only [e] at hfull
  have hr : ∑ a ∈ Finset.range n, cos (π * p * (2 * ((n + a : ℕ) : ℝ) + 1) / (2 * n)) =
      ∑ a ∈ Finset.range n, cos (π * p * (2 * a + 1) / (2 * n)) := by
    rw [← Finset.sum_range_reflect]
    refine Finset.sum_congr rfl fun a ha => ?_
    have ha := Finset.mem_range.1 ha
    have hc : ((n + (n - 1 - a) : ℕ) : ℝ) = 2 * n - 1 - a := by
      rw [Nat.cast_add, Nat.cast_sub (by omega), Nat.cast_sub (by omega)]
      push_cast
      ring
    rw [hc, show π * p * (2 * (2 * (n : ℝ) - 1 - a) + 1) / (2 * n) = (p : ℕ) * (2 * π) - π * p * (2 * a + 1) / (2 * n) by
      field_simp; ring, cos_nat_mul_two_pi_sub]
  rw [two_mul, Finset.sum_range_add, hr] at hfull
  linarith

private theorem mean_mode (ny nx : ℕ) (hny : 0 < ny) (hnx : 0 < nx) (z0 A : ℝ) (f g : ℕ → ℝ)
    (h : ∑ a ∈ Finset.range ny, f a = 0 ∨ ∑ b ∈ Finset.range nx, g b = 0) :
    gridMean ny nx (fun a b => z0 + A * (f a * g b)) = z0 := by
  have hxr : (nx : ℝ) ≠ 0 := by exact_mod_cast hnx.ne'
  have hyr : (ny : ℝ) ≠ 0 := by exact_mod_cast hny.ne'
  have hs : ∑ a ∈ Finset.range ny, ∑ b ∈ Finset.range nx, (z0 + A * (f a * g b)) =
      ny * nx * z0 + A * ((∑ a ∈ Finset.range ny, f a) * ∑ b ∈ Finset.range nx, g b) := by
    simp only [Finset.sum_add_distrib, Finset.sum_const, Finset.card_range, nsmul_eq_mul, ← Finset.mul_sum]
    rw [Finset.sum_mul]
    ring
  unfold gridMean
  rw [hs]
  rcases h with h | h <;> rw [h] <;> field_simp <;> ring

theorem mode_mirrored_cos (n p a : ℕ) (ha : a < 2 * n) :
    cos (π * p * (2 * ((if a < n then a else 2 * n - 1 - a : ℕ) : ℝ) + 1) / (2 * n)) =
      cos (2 * π * p * a / ((2 * n : ℕ) : ℝ) + π * p / (2 * n)) := by
  have hnr : (n : ℝ) ≠ 0 := by exact_mod_cast (by omega : n ≠ 0)
  split
  · congr 1
    push_cast
    field_simp
  · have hc : ((2 * n - 1 - a : ℕ) : ℝ) = 2 * n - 1 - a := by
      rw [Nat.cast_sub (by omega), Nat.cast_sub (by omega)]
      push_cast
      ring
    rw [hc, show π * p * (2 * (2 * (n : ℝ) - 1 - a) + 1) / (2 * n) =
      (p : ℕ) * (2 * π) - (2 * π * p * a / ((2 * n : ℕ) : ℝ) + π * p / (2 * n)) by push_cast; field_simp; ring, cos_nat_mul_two_pi_sub]

private theorem scaled_sqrt (c x y X Y : ℝ) (hX : X = x / 100000) (hY : Y = y / 100000) :
    100 * c * √(X ^ 2 + Y ^ 2) = c / 1000 * √(x ^ 2 + y ^ 2) := by
  rw [hX, hY, show (x / 100000) ^ 2 + (y / 100000) ^ 2 = (x ^ 2 + y ^ 2) / 100000 ^ 2 by ring, sqrt_div (by positivity),
    sqrt_sq (by norm_num)]
  ring

/-- **C142.** A surface with `p/2` waves from top to bottom and `q/2` from left to right (crests at the edges), depths in m and spacing in km,
gives under the first power the same pattern, reversed in sign, with the amplitude of a slab that is as thick as the waves are high, times
`exp(-depth · wavenumber)`. -/
theorem C142_folded (nx ny : ℕ) (p q : ℕ) (hp : p < ny) (hq : q < nx) (hpq : p ≠ 0 ∨ q ≠ 0) (z0 A dx dy drho dz : ℝ) (hdx : dx ≠ 0)
    (hdy : dy ≠ 0) (npower : ℕ) (h1 : npower ≤ 1) :
    ∃ R, grav2dFolding nx ny ⟨ny, nx, fun a b => z0 + A * (cos (π * p * (2 * a + 1) / (2 * ny)) * cos (π * q * (2 * b + 1) / (2 * nx)))⟩
        dx dy drho dz true npower = .ok R ∧ ∀ i < ny, ∀ j < nx, R.at' i j =
      -(2 * π * 6.673e-8 * 1e5 * drho) * A * exp (-((z0 + dz) / 1000 * √((π * p / (ny * dy)) ^ 2 + (π * q / (nx * dx)) ^ 2))) *
        (cos (π * p * (2 * i + 1) / (2 * ny)) * cos (π * q * (2 * j + 1) / (2 * nx))) := by
  have hny : 0 < ny := by omega
  have hnx : 0 < nx := by omega
  have hxr : (nx : ℝ) ≠ 0 := by exact_mod_cast hnx.ne'
  have hyr : (ny : ℝ) ≠ 0 := by exact_mod_cast hny.ne'
  obtain ⟨R, hR, _, _, hv⟩ := C71_value_folded nx ny hnx hny
    (fun a b => z0 + A * (cos (π * p * (2 * a + 1) / (2 * ny)) * cos (π * q * (2 * b + 1) / (2 * nx)))) dx dy drho dz hdx hdy npower
  refine ⟨R, hR, fun i hi j hj => ?_⟩
  have hm := mean_mode ny nx hny hnx z0 A (fun a => cos (π * p * (2 * a + 1) / (2 * ny))) (fun b => cos (π * q * (2 * b + 1) / (2 * nx)))
    (hpq.imp (fun h => mode_half_sum ny p hny h hp) (fun h => mode_half_sum nx q hnx h hq))
  rw [hv i hi j hj, hm, show max 1 npower = 1 by omega]
  rw [parker_mode (2 * ny) (2 * nx) p q (by omega) (by omega) hpq (100000 * dy) (100000 * dx) _ _ (π * p / (2 * ny)) (π * q / (2 * nx)) (-100 * A)]
  · have e1 := mode_mirrored_cos ny p i (by omega)
    have e2 := mode_mirrored_cos nx q j (by omega)
    rw [if_pos hi] at e1
    rw [if_pos hj] at e2
    rw [← e1, ← e2]
    have hk : gridWavenumber (2 * ny) (2 * nx) (100000 * dy) (100000 * dx) p q =
        √((π * p / (ny * dy) / 100000) ^ 2 + (π * q / (nx * dx) / 100000) ^ 2) := by
      unfold gridWavenumber cycles
      rw [show min p (2 * ny - p) = p by omega, show min q (2 * nx - q) = q by omega]
      congr 2
      · push_cast; field_simp
      · push_cast; field_simp
    rw [hk, neg_mul, scaled_sqrt (z0 + dz) (π * p / (ny * dy)) (π * q / (nx * dx)) _ _ rfl rfl]
    ring
  · intro a ha b hb
    unfold mirrored
    rw [← mode_mirrored_cos ny p a ha, ← mode_mirrored_cos nx q b hb]
    ring

/-- **C142.** The same for a periodic grid without folding: `p` and `q` waves over the grid with any phase. -/
theorem C142_periodic (nx ny : ℕ) (hx : Even nx ∨ nx = 1) (hy : Even ny ∨ ny = 1) (hnx : 0 < nx) (hny : 0 < ny) (p q : ℕ) (hp : 2 * p ≤ ny)
    (hq : 2 * q ≤ nx) (hpq : p ≠ 0 ∨ q ≠ 0) (z0 A α β dx dy drho dz : ℝ) (hdx : dx ≠ 0) (hdy : dy ≠ 0) (npower : ℕ) (h1 : npower ≤ 1) :
    ∃ R, grav2dFolding nx ny ⟨ny, nx, fun a b => z0 + A * (cos (2 * π * p * a / ny + α) * cos (2 * π * q * b / nx + β))⟩
        dx dy drho dz false npower = .ok R ∧ ∀ i < ny, ∀ j < nx, R.at' i j =
      -(2 * π * 6.673e-8 * 1e5 * drho) * A * exp (-((z0 + dz) / 1000 * √((2 * π * p / (ny * dy)) ^ 2 + (2 * π * q / (nx * dx)) ^ 2))) *
        (cos (2 * π * p * i / ny + α) * cos (2 * π * q * j / nx + β)) := by
  obtain ⟨R, hR, _, _, hv⟩ := C71_value_unfolded nx ny hnx hny
    (fun a b => z0 + A * (cos (2 * π * p * a / ny + α) * cos (2 * π * q * b / nx + β))) dx dy drho dz hdx hdy npower hx hy
  have hxr : (nx : ℝ) ≠ 0 := by exact_mod_cast hnx.ne'
  have hyr : (ny : ℝ) ≠ 0 := by exact_mod_cast hny.ne'
  have hz : ∀ (n r : ℕ) (γ : ℝ), r ≠ 0 → 2 * r ≤ n → ∑ a ∈ Finset.range n, cos (2 * π * r * a / n + γ) = 0 := by
    intro n r γ h0 hr
    have := cos_full n r γ
    rw [if_neg (by
      intro h
      have := Int.le_of_dvd (by omega) h
      omega)] at this
    exact_mod_cast this
  refine ⟨R, hR, fun i hi j hj => ?_⟩
  have hm := mean_mode ny nx hny hnx z0 A (fun a => cos (2 * π * p * a / ny + α)) (fun b => cos (2 * π * q * b / nx + β))
    (hpq.imp (fun h => hz ny p α h hp) (fun h => hz nx q β h hq))
  rw [hv i hi j hj, hm, show max 1 npower = 1 by omega]
  rw [parker_mode ny nx p q (by omega) (by omega) hpq (100000 * dy) (100000 * dx) _ _ α β (-100 * A)]
  · have hk : gridWavenumber ny nx (100000 * dy) (100000 * dx) p q =
        √((2 * π * p / (ny * dy) / 100000) ^ 2 + (2 * π * q / (nx * dx) / 100000) ^ 2) := by
      unfold gridWavenumber cycles
      rw [show min p (ny - p) = p by omega, show min q (nx - q) = q by omega]
      congr 2
      · field_simp
      · field_simp
    rw [hk, neg_mul, scaled_sqrt (z0 + dz) (2 * π * p / (ny * dy)) (2 * π * q / (nx * dx)) _ _ rfl rfl]
    ring
  · intro a ha b hb
    ring

/-- **C142.** More powers than `P` change the result by an amount that falls like the `P`th power of relief over depth. -/
theorem C142_converges (nx ny : ℕ) (hnx : 0 < nx) (hny : 0 < ny) (h : ℕ → ℕ → ℝ) (H dx dy drho dz : ℝ) (hdx : dx ≠ 0) (hdy : dy ≠ 0)
    (hH : ∀ i < ny, ∀ j < nx, |h i j - gridMean ny nx h| ≤ H) (hd : H < gridMean ny nx h + dz) (P P' : ℕ) (h1 : 1 ≤ P) (hP : P ≤ P') :
    ∃ R R', grav2dFolding nx ny ⟨ny, nx, h⟩ dx dy drho dz true P = .ok R ∧ grav2dFolding nx ny ⟨ny, nx, h⟩ dx dy drho dz true P' = .ok R' ∧
      ∀ i < ny, ∀ j < nx, |R'.at' i j - R.at' i j| ≤ 2 * π * 6.673e-8 * 1e5 * |drho| * (4 * ny * nx) * H *
        ((H / (gridMean ny nx h + dz)) ^ P / (1 - H / (gridMean ny nx h + dz))) := by
  obtain ⟨R, hR, _, _, hv⟩ := C71_value_folded nx ny hnx hny h dx dy drho dz hdx hdy P
  obtain ⟨R', hR', _, _, hv'⟩ := C71_value_folded nx ny hnx hny h dx dy drho dz hdx hdy P'
  refine ⟨R, R', hR, hR', fun i hi j hj => ?_⟩
  rw [hv i hi j hj, hv' i hi j hj, show max 1 P = P by omega, show max 1 P' = P' by omega]
  have hH0 : 0 ≤ H := (abs_nonneg _).trans (hH 0 hny 0 hnx)
  obtain ⟨t, ht⟩ : ∃ t : ℕ → ℕ → ℝ, t = fun a b => if a < 2 * ny ∧ b < 2 * nx then mirrored ny nx (fun a b => 100 * (gridMean ny nx h - h a b)) a b else 0 :=
    ⟨_, rfl⟩
  have hcongr : ∀ Q, parkerGrid (2 * ny) (2 * nx) (gridWavenumber (2 * ny) (2 * nx) (100000 * dy) (100000 * dx)) (100 * (gridMean ny nx h + dz))
      (2 * π * 6.673e-8 * 1000 * drho) Q (mirrored ny nx fun a b => 100 * (gridMean ny nx h - h a b)) i j =
      parkerGrid (2 * ny) (2 * nx) (gridWavenumber (2 * ny) (2 * nx) (100000 * dy) (100000 * dx)) (100 * (gridMean ny nx h + dz))
      (2 * π * 6.673e-8 * 1000 * drho) Q t i j := by
    intro Q
    unfold parkerGrid
    congr 1
    refine Finset.sum_congr rfl fun k _ => Finset.sum_congr rfl fun l _ => ?_
    split
    · rfl
    congr 1
    refine Finset.sum_congr rfl fun p _ => ?_
    congr 1
    refine Finset.sum_congr rfl fun a ha => Finset.sum_congr rfl fun b hb => ?_
    rw [ht]
    simp only
    rw [if_pos ⟨Finset.mem_range.1 ha, Finset.mem_range.1 hb⟩]
  rw [hcongr, hcongr]
  refine (parker_converges (2 * ny) (2 * nx) (by omega) (by omega) _ (fun k l => sqrt_nonneg _) (100 * (gridMean ny nx h + dz)) _ (100 * H) (by linarith)
    t ?_ P P' hP i j).trans (le_of_eq ?_)
  · intro a b
    rw [ht]
    simp only
    split
    · rename_i hab
      unfold mirrored
      simp only
      rw [abs_mul, abs_of_pos (by norm_num : (0 : ℝ) < 100), abs_sub_comm]
      refine mul_le_mul_of_nonneg_left (hH _ ?_ _ ?_) (by norm_num)
      · split <;> omega
      · split <;> omega
    · rw [abs_zero]; positivity
  · rw [mul_div_mul_left _ _ (by norm_num : (100 : ℝ) ≠ 0), abs_mul, abs_of_pos (show (0 : ℝ) < 2 * π * 6.673e-8 * 1000 by positivity)]
    push_cast
    ring

private theorem freq_ok (n : ℕ) (p : ℤ) (hp : 2 * (|p| + 1) < n) :
    layerFreq n (p % n).toNat = p ∧ layerFreq n (-p % n).toNat = -p := by
  have key : ∀ p : ℤ, 2 * (|p| + 1) < n → layerFreq n (p % n).toNat = p := by
    intro p hp
    unfold layerFreq
    rcases le_or_gt 0 p with h | h
    · rw [abs_of_nonneg h] at hp
      rw [Int.emod_eq_of_lt h (by omega), if_pos (by omega)]
      omega
    · rw [abs_of_neg h] at hp
      have : p % n = p + n := by
        rw [← Int.add_emod_right, Int.emod_eq_of_lt (by omega) (by omega)]
      rw [this, if_neg (by omega)]
      omega
  exact ⟨key p hp, key (-p) (by rw [abs_neg]; exact hp)⟩

/-- **C142.** A layer with a plane wave of density, `p` and `q` cycles over the grid in the two directions (either sign), gives the same wave with
the amplitude `2πG A (exp(-κ z1) - exp(-κ z2)) / κ`. -/
theorem C142_layer (ny nx : ℕ) (p q : ℤ) (hp : 2 * (|p| + 1) < ny) (hq : 2 * (|q| + 1) < nx) (hpq : p ≠ 0 ∨ q ≠ 0)
    (r0 A φ dx dy z1 z2 κ : ℝ) (hdx : dx ≠ 0) (hdy : dy ≠ 0) (hκ : κ = √((2 * π * p / (ny * dy)) ^ 2 + (2 * π * q / (nx * dx)) ^ 2)) (i j : ℕ) :
    (grav2dLayer ⟨ny, nx, fun a b => r0 + A * cos (2 * π * (p * a / ny + q * b / nx) + φ)⟩ dx dy z1 z2).at' i j =
      2 * π * 6.673e-11 * 1e8 * A * ((exp (-κ * z1) - exp (-κ * z2)) / κ) * cos (2 * π * (p * i / ny + q * j / nx) + φ) := by
  have hy0 : 0 < ny := by have := abs_nonneg p; omega
  have hx0 : 0 < nx := by have := abs_nonneg q; omega
  have hxr : (nx : ℝ) ≠ 0 := by exact_mod_cast hx0.ne'
  have hyr : (ny : ℝ) ≠ 0 := by exact_mod_cast hy0.ne'
  have hlin := C72_linear ny nx (fun _ _ => r0) (fun a b => A * cos (2 * π * (p * a / ny + q * b / nx) + φ)) 1 1 dx dy z1 z2 hdx hdy i j
  simp only [one_mul] at hlin
  rw [hlin, C72_uniform ny nx r0 dx dy z1 z2 hdx hdy i j, zero_add, (C72_value ny nx _ dx dy z1 z2 hdx hdy).2.2]
  obtain ⟨fp, fp'⟩ := freq_ok ny p hp
  obtain ⟨fq, fq'⟩ := freq_ok nx q hq
  have hw : ∀ k l : ℕ, ((layerFreq ny k = p ∧ layerFreq nx l = q) ∨ (layerFreq ny k = -p ∧ layerFreq nx l = -q)) →
      (if k = 0 ∧ l = 0 then (0 : ℝ) else (exp (-wavenumberOf layerFreq ny nx dy dx k l * z1) -
        exp (-wavenumberOf layerFreq ny nx dy dx k l * z2)) / wavenumberOf layerFreq ny nx dy dx k l) = (exp (-κ * z1) - exp (-κ * z2)) / κ := by
    intro k l h
    rw [if_neg]
    · have : wavenumberOf layerFreq ny nx dy dx k l = κ := by
        unfold wavenumberOf
        rw [hκ]
        rcases h with ⟨a, b⟩ | ⟨a, b⟩ <;> rw [a, b]
        · rw [add_comm]
        · push_cast; rw [add_comm]; congr 1; ring
      rw [this]
    · rintro ⟨rfl, rfl⟩
      have : layerFreq ny 0 = 0 ∧ layerFreq nx 0 = 0 := by simp [layerFreq]
      omega
  have hpick := plane_pick ny nx hy0 hx0 p q (fun k l => if k = 0 ∧ l = 0 then (0 : ℝ) else (exp (-wavenumberOf layerFreq ny nx dy dx k l * z1) -
        exp (-wavenumberOf layerFreq ny nx dy dx k l * z2)) / wavenumberOf layerFreq ny nx dy dx k l) _ A φ (hw _ _ (Or.inl ⟨fp, fq⟩)) (hw _ _ (Or.inr ⟨fp', fq'⟩)) i j
  unfold layerGrid
  have hs : (∑ k ∈ Finset.range ny, ∑ l ∈ Finset.range nx, if k = 0 ∧ l = 0 then 0 else
      (exp (-wavenumberOf layerFreq ny nx dy dx k l * z1) - exp (-wavenumberOf layerFreq ny nx dy dx k l * z2)) / wavenumberOf layerFreq ny nx dy dx k l *
      ∑ a ∈ Finset.range ny, ∑ b ∈ Finset.range nx,
        A * cos (2 * π * (p * a / ny + q * b / nx) + φ) * cos (2 * π * (k * ((i : ℝ) - a) / ny + l * ((j : ℝ) - b) / nx))) =
      ny * nx * ((exp (-κ * z1) - exp (-κ * z2)) / κ) * A * cos (2 * π * (p * i / ny + q * j / nx) + φ) := by
    rw [← hpick]
    refine Finset.sum_congr rfl fun k _ => Finset.sum_congr rfl fun l _ => ?_
    split
    · simp
    · rfl
  rw [hs]
  field_simp
  ring

/-! ## Non-vacuity -/

/-- Ridges 16 km apart, 100 m above and below 3 km depth, on 16 columns of 1 km, attenuated by `exp(-2π · 3/16)`. -/
example : ∃ R, grav2dFolding 16 8 ⟨8, 16, fun a b => 3000 + 100 * (cos (π * (0 : ℕ) * (2 * a + 1) / (2 * (8 : ℕ))) *
      cos (π * (2 : ℕ) * (2 * b + 1) / (2 * (16 : ℕ))))⟩ 1 1 0.6 0 true 1 = .ok R ∧ ∀ i < 8, ∀ j < 16, R.at' i j =
    -(2 * π * 6.673e-8 * 1e5 * 0.6) * 100 * exp (-((3000 + 0) / 1000 * √((π * (0 : ℕ) / ((8 : ℕ) * 1)) ^ 2 + (π * (2 : ℕ) / ((16 : ℕ) * 1)) ^ 2))) *
      (cos (π * (0 : ℕ) * (2 * i + 1) / (2 * (8 : ℕ))) * cos (π * (2 : ℕ) * (2 * j + 1) / (2 * (16 : ℕ)))) :=
  C142_folded 16 8 0 2 (by norm_num) (by norm_num) (Or.inr (by norm_num)) 3000 100 1 1 0.6 0 (by norm_num) (by norm_num) 1 le_rfl

example : (Even 16 ∨ (16 : ℕ) = 1) ∧ 2 * 3 ≤ 16 := by decide

/-- Three cycles over eleven columns are allowed, five are not. -/
example : 2 * (|(3 : ℤ)| + 1) < (11 : ℕ) ∧ ¬ 2 * (|(5 : ℤ)| + 1) < (11 : ℕ) := by decide

/-- Relief of 100 m below 3 km of water: five powers are exact to a part in `30⁵`, times the size of the grid. -/
example : (100 : ℝ) < 3000 + 0 ∧ ((100 : ℝ) / 3000) ^ 5 < 1 / 24000000 := by norm_num

end Shipgrav
