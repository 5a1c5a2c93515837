import Verif.Props.LatCorr
import Verif.Spec.Ellipsoid
import Verif.Lemmas.LevelNumeric

/-! C153: theoretical gravity is that of the level ellipsoid WGS84 (grav.py 321–333). -/

namespace Shipgrav
open Spec Real

/-- **C153.** For every flattened ellipsoid, mass and rate of rotation there is a field whose surface is level. -/
theorem C153_exists (a b GM ω : ℝ) (hb : 0 < b) (hab : b < a) : ∃ W, LevelField a b GM ω W := ⟨_, levW_field hb hab⟩

/-- **C153.** There is one only: nothing about the masses inside matters. -/
theorem C153_unique (a b GM ω : ℝ) (hb : 0 < b) (hab : b < a) (W W' : Space → ℝ) (h : LevelField a b GM ω W) (h' : LevelField a b GM ω W')
    (p : Space) (hp : 1 ≤ ellipsoidForm a b p) : W p = W' p := level_unique hb hab W W' h h' p hp

private theorem radicand_pos {a b : ℝ} (hb : 0 < b) (hab : b < a) (φ : ℝ) : 0 < a ^ 2 * cos φ ^ 2 + b ^ 2 * sin φ ^ 2 := by
  have h1 : b ^ 2 * (cos φ ^ 2 + sin φ ^ 2) ≤ a ^ 2 * cos φ ^ 2 + b ^ 2 * sin φ ^ 2 := by
    have : b ^ 2 ≤ a ^ 2 := by nlinarith
    nlinarith [sq_nonneg (cos φ)]
  rw [cos_sq_add_sin_sq, mul_one] at h1
  exact lt_of_lt_of_le (by positivity) h1

/-- Upward from the surface is outside. -/
theorem upward_outside {a b : ℝ} (hb : 0 < b) (hab : b < a) (φ lam t : ℝ) (ht : 0 ≤ t) :
    1 ≤ ellipsoidForm a b (surfacePoint a b φ lam + t • upward φ lam) := by
  have ha : 0 < a := lt_trans hb hab
  have h0 := surface_form hb hab φ lam
  have hs0 := sqrt_pos.2 (radicand_pos hb hab φ)
  rw [← h0]
  unfold ellipsoidForm surfacePoint upward
  simp only [Prod.fst_add, Prod.snd_add, Prod.smul_mk, smul_eq_mul]
  generalize √(a ^ 2 * cos φ ^ 2 + b ^ 2 * sin φ ^ 2) = R at *
  have e : ((a ^ 2 / R * cos φ * cos lam + t * (cos φ * cos lam)) ^ 2 + (a ^ 2 / R * cos φ * sin lam + t * (cos φ * sin lam)) ^ 2) / a ^ 2 +
      (b ^ 2 / a ^ 2 * (a ^ 2 / R) * sin φ + t * sin φ) ^ 2 / b ^ 2 =
      ((a ^ 2 / R * cos φ * cos lam) ^ 2 + (a ^ 2 / R * cos φ * sin lam) ^ 2) / a ^ 2 + (b ^ 2 / a ^ 2 * (a ^ 2 / R) * sin φ) ^ 2 / b ^ 2 +
      t * (2 / R * (cos φ ^ 2 * cos lam ^ 2 + cos φ ^ 2 * sin lam ^ 2 + sin φ ^ 2) +
        t * ((cos φ ^ 2 * cos lam ^ 2 + cos φ ^ 2 * sin lam ^ 2) / a ^ 2 + sin φ ^ 2 / b ^ 2)) := by
    field_simp
    ring
  rw [e]
  have : 0 ≤ t * (2 / R * (cos φ ^ 2 * cos lam ^ 2 + cos φ ^ 2 * sin lam ^ 2 + sin φ ^ 2) +
        t * ((cos φ ^ 2 * cos lam ^ 2 + cos φ ^ 2 * sin lam ^ 2) / a ^ 2 + sin φ ^ 2 / b ^ 2)) := by positivity
  linarith

/-- Gravity of every level field by the formula of Somigliana. -/
theorem level_gravity {a b GM ω : ℝ} (hb : 0 < b) (hab : b < a) (W : Space → ℝ) (h : LevelField a b GM ω W) (φ lam : ℝ) :
    SurfaceGravity a b W φ lam ((a * levEquator a b GM ω * cos φ ^ 2 + b * levPole a b GM ω * sin φ ^ 2) / √(a ^ 2 * cos φ ^ 2 + b ^ 2 * sin φ ^ 2)) := by
  unfold SurfaceGravity
  refine ((somigliana GM ω hb hab φ lam).hasDerivWithinAt (s := Set.Ici 0)).congr (fun t ht => ?_) ?_
  · exact level_unique hb hab W _ h (levW_field hb hab) _ (upward_outside hb hab φ lam t ht)
  · exact level_unique hb hab W _ h (levW_field hb hab) _ (upward_outside hb hab φ lam 0 le_rfl)

private theorem root_close {x y : ℝ} (hx : 0.98 ≤ x) (hy : 0.98 ≤ y) : |1 / √x - 1 / √y| ≤ |y - x| := by
  norm_num at hx hy
  have px := sqrt_pos.2 (show 0 < x by linarith)
  have py := sqrt_pos.2 (show 0 < y by linarith)
  have qx := sq_sqrt (show 0 ≤ x by linarith)
  have qy := sq_sqrt (show 0 ≤ y by linarith)
  have bx : 0.98 ≤ √x := le_sqrt_of_sq_le (by norm_num; linarith)
  have bY : 0.98 ≤ √y := le_sqrt_of_sq_le (by norm_num; linarith)
  have hd : y - x = (√y - √x) * (√y + √x) := by rw [← qx, ← qy, sqrt_sq px.le, sqrt_sq py.le]; ring
  rw [hd]
  clear hd qx qy hx hy
  generalize √x = X at *
  generalize √y = Y at *
  rw [show 1 / X - 1 / Y = (Y - X) * (1 / (X * Y)) by field_simp, abs_mul, abs_mul]
  gcongr
  rw [div_le_iff₀ (by positivity)]
  have : 0.98 * 0.98 ≤ X * Y := by gcongr
  norm_num at *
  nlinarith

/-- **C153.** The theoretical gravity of `wgs_grav` is the gravity on the surface of any body with the mass and the rotation of the earth
whose surface is the level ellipsoid WGS84: within a millionth of a milligal, at every latitude and longitude. -/
theorem C153_wgs_grav (W : Space → ℝ) (hW : LevelField wgs84A wgs84B wgs84GM wgs84Rate W) (lat lon : ℝ) :
    ∃ γ g, SurfaceGravity wgs84A wgs84B W (rad lat) (rad lon) γ ∧ wgsGrav lat = some g ∧ |g - 1e5 * γ| ≤ 1e-6 := by
  have hb : 0 < wgs84B := by unfold wgs84B; norm_num
  have hab : wgs84B < wgs84A := by unfold wgs84B wgs84A; norm_num
  refine ⟨_, _, level_gravity hb hab W hW (rad lat) (rad lon), C57_formula lat, ?_⟩
  have n := wgs_level
  have hg : wgs84B = wgs84A * (1 - 1 / 298.257223563) := by unfold wgs84B wgs84A; rfl
  change |1e5 * levEquator wgs84A wgs84B wgs84GM wgs84Rate - _| ≤ _ ∧ |1e5 * ((1 - 1 / 298.257223563) * levPole wgs84A wgs84B wgs84GM wgs84Rate - levEquator wgs84A wgs84B wgs84GM wgs84Rate) - _| ≤ _ at n
  obtain ⟨n1, n2⟩ := n
  generalize levEquator wgs84A wgs84B wgs84GM wgs84Rate = ge at *
  generalize levPole wgs84A wgs84B wgs84GM wgs84Rate = gp at *
  have ha0 : 0 < wgs84A := by unfold wgs84A; norm_num
  rw [hg]
  generalize wgs84A = a at *
  unfold rad
  have hc := cos_sq' (lat * (π / 180))
  rw [hc]
  have s0 := sq_nonneg (sin (lat * (π / 180)))
  have s1 := sin_sq_le_one (lat * (π / 180))
  generalize sin (lat * (π / 180)) ^ 2 = s at *
  have hr : √(a ^ 2 * (1 - s) + (a * (1 - 1 / 298.257223563)) ^ 2 * s) = a * √(1 - (1 - (1 - 1 / 298.257223563) ^ 2) * s) := by
    rw [show a ^ 2 * (1 - s) + (a * (1 - 1 / 298.257223563)) ^ 2 * s = a ^ 2 * (1 - (1 - (1 - 1 / 298.257223563) ^ 2) * s) by ring,
      sqrt_mul (sq_nonneg a), sqrt_sq ha0.le]
  rw [hr]
  have hx : (0.98 : ℝ) ≤ 1 - 0.00669437999014 * s := by norm_num; linarith
  have hy : (0.98 : ℝ) ≤ 1 - (1 - (1 - 1 / 298.257223563) ^ 2) * s := by norm_num; linarith
  have hrc := root_close hx hy
  have hd : |1 - (1 - (1 - 1 / 298.257223563) ^ 2) * s - (1 - 0.00669437999014 * s)| ≤ 2e-15 := by
    rw [show 1 - (1 - (1 - 1 / 298.257223563) ^ 2) * s - (1 - 0.00669437999014 * s) = (0.00669437999014 - (1 - (1 - 1 / 298.257223563 : ℝ) ^ 2)) * s by ring,
      abs_mul, abs_of_nonneg s0]
    calc _ ≤ (2e-15 : ℝ) * 1 := by
          gcongr
          rw [abs_le]
          constructor <;> norm_num
      _ = _ := mul_one _
  have hrc2 := hrc.trans hd
  have px : 1 / √(1 - 0.00669437999014 * s) ≤ 1.02 := by
    have : 0.985 ≤ √(1 - 0.00669437999014 * s) := le_sqrt_of_sq_le (by norm_num; linarith)
    rw [div_le_iff₀ (by norm_num at this; linarith)]
    norm_num at *
    linarith
  have px0 : 0 ≤ 1 / √(1 - 0.00669437999014 * s) := by positivity
  have e : 978032.53359 * ((1 + 0.00193185265241 * s) / √(1 - 0.00669437999014 * s)) -
      1e5 * ((a * ge * (1 - s) + a * (1 - 1 / 298.257223563) * gp * s) / (a * √(1 - (1 - (1 - 1 / 298.257223563) ^ 2) * s))) =
      -(1e5 * ge - 978032.53359 + (1e5 * ((1 - 1 / 298.257223563) * gp - ge) - 978032.53359 * 0.00193185265241) * s) * (1 / √(1 - 0.00669437999014 * s)) +
      (1e5 * ge + 1e5 * ((1 - 1 / 298.257223563) * gp - ge) * s) * (1 / √(1 - 0.00669437999014 * s) - 1 / √(1 - (1 - (1 - 1 / 298.257223563) ^ 2) * s)) := by
    have : 0 < √(1 - (1 - (1 - 1 / 298.257223563) ^ 2) * s) := sqrt_pos.2 (by norm_num at hy ⊢; linarith)
    have : 0 < √(1 - 0.00669437999014 * s) := sqrt_pos.2 (by norm_num at hx ⊢; linarith)
    generalize √(1 - (1 - (1 - 1 / 298.257223563) ^ 2) * s) = Y at *
    generalize √(1 - 0.00669437999014 * s) = X at *
    rw [show (a * ge * (1 - s) + a * (1 - 1 / 298.257223563) * gp * s) / (a * Y) = (ge * (1 - s) + (1 - 1 / 298.257223563) * gp * s) * (1 / Y) by field_simp]
    ring
  rw [e]
  clear e hr hc hrc hd hx hy
  generalize 1 / √(1 - 0.00669437999014 * s) - 1 / √(1 - (1 - (1 - 1 / 298.257223563) ^ 2) * s) = D at *
  generalize 1 / √(1 - 0.00669437999014 * s) = X at *
  generalize 1e5 * ((1 - 1 / 298.257223563) * gp - ge) = c at *
  generalize 1e5 * ge = d at *
  have t1 : |d - 978032.53359 + (c - 978032.53359 * 0.00193185265241) * s| ≤ 4.7e-7 := by
    refine (abs_add_le _ _).trans ?_
    rw [abs_mul, abs_of_nonneg s0]
    have : |c - 978032.53359 * 0.00193185265241| * s ≤ 5e-8 * 1 := by gcongr
    norm_num at *
    linarith
  have t2 : |d + c * s| ≤ 1e6 := by
    rw [abs_le] at n1 n2 ⊢
    norm_num at n1 n2
    constructor <;> nlinarith
  refine (abs_add_le _ _).trans ?_
  rw [abs_mul, abs_mul, abs_neg, abs_of_nonneg px0]
  calc _ ≤ (4.7e-7 : ℝ) * 1.02 + 1e6 * 2e-15 := by gcongr
    _ ≤ _ := by norm_num

-- such a field exists
example : ∃ W, LevelField wgs84A wgs84B wgs84GM wgs84Rate W :=
  C153_exists _ _ _ _ (by unfold wgs84B; norm_num) (by unfold wgs84B wgs84A; norm_num)

-- the north pole of the ellipsoid and its upward direction
example : surfacePoint wgs84A wgs84B (rad 90) 0 = (0, 0, wgs84B) ∧ upward (rad 90) 0 = (0, 0, 1) := by
  have h : rad 90 = π / 2 := by unfold rad; ring
  have hb : 0 < wgs84B := by unfold wgs84B; norm_num
  have ha : 0 < wgs84A := by unfold wgs84A; norm_num
  rw [h]
  unfold surfacePoint upward
  simp [sqrt_sq hb.le]
  field_simp

end Shipgrav
