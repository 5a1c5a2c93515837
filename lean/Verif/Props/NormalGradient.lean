import Verif.Props.NormalGravity
import Verif.Lemmas.Bruns

/-! C154: the free-air gradient is that of the level ellipsoid WGS84 (grav.py 303–318). -/

namespace Shipgrav
open Spec Real

/-- **C154.** Bruns' formula: gravity above a level ellipsoid decreases upward by `γ(1/M + 1/N) + 2ω²` per unit of height, M and N the radii of
curvature of the ellipsoid along and across the meridian, whatever the masses inside. -/
theorem C154_bruns (a b GM ω : ℝ) (hb : 0 < b) (hab : b < a) (W : Space → ℝ) (hW : LevelField a b GM ω W) (φ lam : ℝ) : ∃ γ : ℝ → ℝ,
    (∀ h, 0 ≤ h → GravityAbove a b W φ lam h (γ h)) ∧
    HasDerivWithinAt γ (-(γ 0 * (√(a ^ 2 * cos φ ^ 2 + b ^ 2 * sin φ ^ 2) ^ 3 / (a ^ 2 * b ^ 2) + √(a ^ 2 * cos φ ^ 2 + b ^ 2 * sin φ ^ 2) / a ^ 2) + 2 * ω ^ 2))
      (Set.Ici 0) 0 := by
  obtain ⟨D, h1, h2⟩ := bruns GM ω hb hab φ lam (upward_outside hb hab φ lam)
  have e0 : D 0 = _ := (h1 0 le_rfl).unique (somigliana GM ω hb hab φ lam)
  refine ⟨fun h => -D h, fun h hh => ?_, ?_⟩
  · unfold GravityAbove
    rw [neg_neg]
    refine ((h1 h hh).hasDerivWithinAt (s := Set.Ici 0)).congr (fun t ht => ?_) ?_
    · exact level_unique hb hab W _ hW (levW_field hb hab) _ (upward_outside hb hab φ lam t ht)
    · exact level_unique hb hab W _ hW (levW_field hb hab) _ (upward_outside hb hab φ lam h hh)
  · refine HasDerivWithinAt.congr_deriv h2.neg.hasDerivWithinAt ?_
    beta_reduce
    rw [e0]
    ring

/-- **C154.** The gradient of the free-air correction of `free_air_second_order` at the surface of the sea is the derivative with height of
the gravity of the level ellipsoid WGS84, within 0.000012 mGal per metre at every latitude and longitude. -/
theorem C154_free_air (W : Space → ℝ) (hW : LevelField wgs84A wgs84B wgs84GM wgs84Rate W) (lat lon : ℝ) : ∃ (γ : ℝ → ℝ) (γ' f' : ℝ),
    (∀ h, 0 ≤ h → GravityAbove wgs84A wgs84B W (rad lat) (rad lon) h (γ h)) ∧ HasDerivWithinAt γ γ' (Set.Ici 0) 0 ∧
    HasDerivAt (fun h => freeAir lat h false) f' 0 ∧ |f' - 1e5 * γ'| ≤ 1.2e-5 := by
  have hb : 0 < wgs84B := by unfold wgs84B; norm_num
  have hab : wgs84B < wgs84A := by unfold wgs84B wgs84A; norm_num
  obtain ⟨γ, g1, g2⟩ := C154_bruns _ _ _ _ hb hab W hW (rad lat) (rad lon)
  have hf : HasDerivAt (fun h => freeAir lat h false) (-(0.3087691 - 0.0004398 * sin (lat * (π / 180)) ^ 2)) 0 := by
    rw [show (fun h => freeAir lat h false) = _ from funext fun h => C58_formula lat h]
    refine HasDerivAt.congr_deriv (((hasDerivAt_id (0 : ℝ)).const_mul _).add ((hasDerivAt_pow 2 (0 : ℝ)).const_mul _)) ?_
    norm_num
  refine ⟨γ, _, _, g1, g2, hf, ?_⟩
  have hs := level_gravity hb hab W hW (rad lat) (rad lon)
  unfold SurfaceGravity at hs
  have hs2 := g1 0 le_rfl
  unfold GravityAbove at hs2
  have e0 := neg_injective ((uniqueDiffWithinAt_Ici (0 : ℝ)).eq_deriv _ hs2 hs)
  have n := wgs_level
  have hg : wgs84B = wgs84A * (1 - 1 / 298.257223563) := by unfold wgs84B wgs84A; rfl
  change |1e5 * levEquator wgs84A wgs84B wgs84GM wgs84Rate - _| ≤ _ ∧ |1e5 * ((1 - 1 / 298.257223563) * levPole wgs84A wgs84B wgs84GM wgs84Rate - levEquator wgs84A wgs84B wgs84GM wgs84Rate) - _| ≤ _ at n
  obtain ⟨n1, n2⟩ := n
  have hR : 0 < wgs84A ^ 2 * cos (rad lat) ^ 2 + wgs84B ^ 2 * sin (rad lat) ^ 2 := by
    rcases eq_or_ne (cos (rad lat)) 0 with h | h
    · have h1 : sin (rad lat) ^ 2 = 1 := by have := cos_sq_add_sin_sq (rad lat); rw [h] at this; linarith
      rw [h1]
      positivity
    · have : 0 < wgs84A := lt_trans hb hab
      positivity
  have hq := sq_sqrt hR.le
  have hp := sqrt_pos.2 hR
  rw [e0]
  generalize levEquator wgs84A wgs84B wgs84GM wgs84Rate = ge at *
  generalize levPole wgs84A wgs84B wgs84GM wgs84Rate = gp at *
  have e1 : (wgs84A * ge * cos (rad lat) ^ 2 + wgs84B * gp * sin (rad lat) ^ 2) / √(wgs84A ^ 2 * cos (rad lat) ^ 2 + wgs84B ^ 2 * sin (rad lat) ^ 2) *
      (√(wgs84A ^ 2 * cos (rad lat) ^ 2 + wgs84B ^ 2 * sin (rad lat) ^ 2) ^ 3 / (wgs84A ^ 2 * wgs84B ^ 2) +
        √(wgs84A ^ 2 * cos (rad lat) ^ 2 + wgs84B ^ 2 * sin (rad lat) ^ 2) / wgs84A ^ 2) =
      (wgs84A * ge * cos (rad lat) ^ 2 + wgs84B * gp * sin (rad lat) ^ 2) * ((wgs84A ^ 2 * cos (rad lat) ^ 2 + wgs84B ^ 2 * sin (rad lat) ^ 2) / (wgs84A ^ 2 * wgs84B ^ 2) +
        1 / wgs84A ^ 2) := by
    rw [← hq]
    generalize √(wgs84A ^ 2 * cos (rad lat) ^ 2 + wgs84B ^ 2 * sin (rad lat) ^ 2) = R at *
    rw [hq, ← hq]
    have ha : 0 < wgs84A := lt_trans hb hab
    rw [sqrt_sq hp.le]
    field_simp
  rw [e1]
  clear e1 e0 g1 g2 hf hW hR hq hp
  unfold rad
  rw [cos_sq']
  have s0 := sq_nonneg (sin (lat * (π / 180)))
  have s1 := sin_sq_le_one (lat * (π / 180))
  generalize sin (lat * (π / 180)) ^ 2 = s at *
  have e2 : 1e5 * -((wgs84A * ge * (1 - s) + wgs84B * gp * s) * ((wgs84A ^ 2 * (1 - s) + wgs84B ^ 2 * s) / (wgs84A ^ 2 * wgs84B ^ 2) + 1 / wgs84A ^ 2) + 2 * wgs84Rate ^ 2) =
      -((1e5 * ge + 1e5 * ((1 - 1 / 298.257223563) * gp - ge) * s) * (((1 / (1 - 1 / 298.257223563) ^ 2) * (1 - s) + s + 1) / 6378137) + 1e5 * (2 * 7.292115e-5 ^ 2)) := by
    rw [hg]
    unfold wgs84A wgs84Rate
    field_simp
    ring
  rw [e2]
  generalize 1e5 * ((1 - 1 / 298.257223563) * gp - ge) = c at *
  generalize 1e5 * ge = d at *
  rw [abs_le] at n1 n2 ⊢
  have k0 : (0 : ℝ) ≤ ((1 / (1 - 1 / 298.257223563) ^ 2) * (1 - s) + s + 1) / 6378137 := by
    have : 0 ≤ 1 - s := by linarith
    positivity
  have lo : (978032.53359 - 1e-6 + (978032.53359 * 0.00193185265241 - 1e-6) * s) * (((1 / (1 - 1 / 298.257223563) ^ 2) * (1 - s) + s + 1) / 6378137) ≤
      (d + c * s) * (((1 / (1 - 1 / 298.257223563) ^ 2) * (1 - s) + s + 1) / 6378137) := by
    gcongr
    · norm_num at n1 ⊢; linarith
    · norm_num at n2 ⊢; linarith
  have hi : (d + c * s) * (((1 / (1 - 1 / 298.257223563) ^ 2) * (1 - s) + s + 1) / 6378137) ≤
      (978032.53359 + 1e-6 + (978032.53359 * 0.00193185265241 + 1e-6) * s) * (((1 / (1 - 1 / 298.257223563) ^ 2) * (1 - s) + s + 1) / 6378137) := by
    gcongr
    · norm_num at n1 ⊢; linarith
    · norm_num at n2 ⊢; linarith
  generalize (d + c * s) * (((1 / (1 - 1 / 298.257223563) ^ 2) * (1 - s) + s + 1) / 6378137) = G at *
  norm_num at lo hi ⊢
  constructor <;> nlinarith [mul_nonneg s0 (sub_nonneg.2 s1)]

-- a field to which this applies, and its gravity at the pole
example : ∃ W γ, LevelField wgs84A wgs84B wgs84GM wgs84Rate W ∧ GravityAbove wgs84A wgs84B W (rad 90) 0 0 γ := by
  have hb : 0 < wgs84B := by unfold wgs84B; norm_num
  have hab : wgs84B < wgs84A := by unfold wgs84B wgs84A; norm_num
  obtain ⟨W, hW⟩ := C153_exists wgs84A wgs84B wgs84GM wgs84Rate hb hab
  exact ⟨W, _, hW, level_gravity hb hab W hW (rad 90) 0⟩

end Shipgrav
