import Verif.Props.Mode
import Verif.Lemmas.Newton

/-! C147: the anomaly of a layer is Newton's law. -/

namespace Shipgrav
open Spec Real

private theorem layer_waves (ny nx M : ℕ) (p q : ℕ → ℤ) (r0 : ℝ) (A φ : ℕ → ℝ) (dx dy z1 z2 : ℝ) (hdx : dx ≠ 0) (hdy : dy ≠ 0)
    (hp : ∀ m < M, 2 * (|p m| + 1) < ny ∧ 2 * (|q m| + 1) < nx ∧ (p m ≠ 0 ∨ q m ≠ 0)) (i j : ℕ) :
    (grav2dLayer ⟨ny, nx, fun a b => r0 + ∑ m ∈ Finset.range M, A m * cos (2 * π * (p m * a / ny + q m * b / nx) + φ m)⟩ dx dy z1 z2).at' i j =
      ∑ m ∈ Finset.range M, 2 * π * 6.673e-11 * 1e8 * A m *
        ((exp (-√((2 * π * p m / (ny * dy)) ^ 2 + (2 * π * q m / (nx * dx)) ^ 2) * z1) - exp (-√((2 * π * p m / (ny * dy)) ^ 2 + (2 * π * q m / (nx * dx)) ^ 2) * z2)) /
          √((2 * π * p m / (ny * dy)) ^ 2 + (2 * π * q m / (nx * dx)) ^ 2)) * cos (2 * π * (p m * i / ny + q m * j / nx) + φ m) := by
  induction M with
  | zero =>
    simp only [Finset.range_zero, Finset.sum_empty, add_zero]
    exact C72_uniform ny nx r0 dx dy z1 z2 hdx hdy i j
  | succ M ih =>
    rw [Finset.sum_range_succ, ← ih fun m hm => hp m (by omega)]
    obtain ⟨h1, h2, h3⟩ := hp M (by omega)
    rw [← C142_layer ny nx (p M) (q M) h1 h2 h3 0 (A M) (φ M) dx dy z1 z2 _ hdx hdy rfl i j]
    have := C72_linear ny nx (fun a b => r0 + ∑ m ∈ Finset.range M, A m * cos (2 * π * (p m * a / ny + q m * b / nx) + φ m))
      (fun a b => 0 + A M * cos (2 * π * (p M * a / ny + q M * b / nx) + φ M)) 1 1 dx dy z1 z2 hdx hdy i j
    rw [one_mul, one_mul] at this
    rw [← this]
    congr 3
    ext a b
    rw [Finset.sum_range_succ]
    ring

/-- **C147.** Take a density that varies sideways: a mean and any number of waves whose lengths fit the grid, fewer than about half as many waves as
there are points along each axis.  The anomaly of the layer at every point of the grid is the attraction, by Newton's law, of the infinite layer with
that density less its mean (densities in kg/m³, lengths in km, attraction in mGal). -/
theorem C147_layer (ny nx M : ℕ) (p q : ℕ → ℤ) (r0 : ℝ) (A φ : ℕ → ℝ) (dx dy z1 z2 : ℝ) (hdx : dx ≠ 0) (hdy : dy ≠ 0) (h0 : 0 ≤ z1) (h12 : z1 ≤ z2)
    (hp : ∀ m < M, 2 * (|p m| + 1) < ny ∧ 2 * (|q m| + 1) < nx ∧ (p m ≠ 0 ∨ q m ≠ 0)) (ρ : ℝ → ℝ → ℝ)
    (hρ : ∀ x y, ρ x y = r0 + ∑ m ∈ Finset.range M, A m * cos (2 * π * (p m * y / (ny * dy) + q m * x / (nx * dx)) + φ m)) (i j : ℕ) :
    (grav2dLayer ⟨ny, nx, fun a b => ρ (b * dx) (a * dy)⟩ dx dy z1 z2).at' i j =
      6.673e-11 * 1e8 * layerPull (fun x y => ρ x y - r0) z1 z2 (j * dx) (i * dy) := by
  rcases Nat.eq_zero_or_pos M with rfl | hM
  · simp only [Finset.range_zero, Finset.sum_empty, add_zero] at hρ
    have e : ρ = fun _ _ => r0 := by ext x y; exact hρ x y
    rw [e, C72_uniform ny nx r0 dx dy z1 z2 hdx hdy i j]
    simp [layerPull, sheetPull]
  have hny : (ny : ℝ) ≠ 0 := by
    have := (hp 0 hM).1
    have h : ny ≠ 0 := by rintro rfl; have := abs_nonneg (p 0); push_cast at *; omega
    exact_mod_cast h
  have hnx : (nx : ℝ) ≠ 0 := by
    have := (hp 0 hM).2.1
    have h : nx ≠ 0 := by rintro rfl; have := abs_nonneg (q 0); push_cast at *; omega
    exact_mod_cast h
  have e1 : (fun a b : ℕ => ρ (b * dx) (a * dy)) = fun a b : ℕ => r0 + ∑ m ∈ Finset.range M, A m * cos (2 * π * (p m * a / ny + q m * b / nx) + φ m) := by
    ext a b
    rw [hρ]
    congr 1
    refine Finset.sum_congr rfl fun m _ => ?_
    congr 3
    field_simp
  have e2 : (fun x y => ρ x y - r0) = fun x y => 0 + ∑ m ∈ Finset.range M, A m * cos (2 * π * q m / (nx * dx) * x + 2 * π * p m / (ny * dy) * y + φ m) := by
    ext x y
    rw [hρ, zero_add, add_sub_cancel_left]
    refine Finset.sum_congr rfl fun m _ => ?_
    congr 2
    ring
  have hk : ∀ m < M, √((2 * π * q m / (nx * dx)) ^ 2 + (2 * π * p m / (ny * dy)) ^ 2) ≠ 0 := by
    intro m hm
    apply ne_of_gt
    apply sqrt_pos.2
    rcases (hp m hm).2.2 with h | h
    · have : (p m : ℝ) ≠ 0 := by exact_mod_cast h
      have : 2 * π * p m / (ny * dy) ≠ 0 := by positivity
      positivity
    · have : (q m : ℝ) ≠ 0 := by exact_mod_cast h
      have : 2 * π * q m / (nx * dx) ≠ 0 := by positivity
      positivity
  rw [e1, e2, layer_waves ny nx M p q r0 A φ dx dy z1 z2 hdx hdy hp, layerPull_waves h0 h12 M 0 A _ _ φ hk, zero_mul, zero_add, Finset.mul_sum, Finset.mul_sum]
  refine Finset.sum_congr rfl fun m _ => ?_
  rw [add_comm ((2 * π * p m / (ny * dy)) ^ 2), show 2 * π * (p m * i / ny + q m * j / nx) + φ m =
    2 * π * q m / (nx * dx) * (j * dx) + 2 * π * p m / (ny * dy) * (i * dy) + φ m by field_simp; ring]
  ring

/-- **C147.** The mean that is left out: a uniform layer attracts with `2πG` times density times thickness, as in the Bouguer correction. -/
theorem C147_slab (r z1 z2 X Y : ℝ) (h0 : 0 ≤ z1) (h12 : z1 ≤ z2) : layerPull (fun _ _ => r) z1 z2 X Y = 2 * π * r * (z2 - z1) := by
  have := layerPull_waves h0 h12 0 r (fun _ => 0) (fun _ => 0) (fun _ => 0) (fun _ => 0) (by simp) X Y
  simpa [mul_assoc] using this

-- one wave over a grid of 8 by 8 points; the attraction is not zero
example : 2 * (|(0 : ℤ)| + 1) < (8 : ℕ) ∧ 2 * (|(1 : ℤ)| + 1) < (8 : ℕ) ∧ ((0 : ℤ) ≠ 0 ∨ (1 : ℤ) ≠ 0) := by decide
example : layerPull (fun x _ => cos x) 0 1 0 0 = 2 * π * (1 - exp (-1)) := by
  have := layerPull_waves (z1 := 0) (z2 := 1) le_rfl zero_le_one 1 0 (fun _ => 1) (fun _ => 1) (fun _ => 0) (fun _ => 0) (by simp) 0 0
  simpa using this

end Shipgrav
