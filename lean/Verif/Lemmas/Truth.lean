import Verif.Spec.Truth
import Verif.Props.SmoothTrack
import Verif.Props.Sensitivity
import Verif.Props.TideNewton
import Verif.Props.NormalGravity

/-! For C165: each correction of the example scripts against what it stands for. -/

namespace Shipgrav
open Spec Real

private theorem deriv_chain' (f : ℝ → ℝ) (hf : ContDiff ℝ 3 f) :
    (∀ s, HasDerivAt f (deriv f s) s) ∧ ∀ s, HasDerivAt (deriv f) (iteratedDeriv 2 f s) s := by
  constructor
  · exact fun s => (hf.differentiable (by norm_num) s).hasDerivAt
  · intro s
    have h := (hf.differentiable_iteratedDeriv 1 (by norm_num) s).hasDerivAt
    rw [← iteratedDeriv_succ, iteratedDeriv_one] at h
    exact h

/-- The excess of acceleration does not depend on where the count of time starts. -/
theorem excess_shift (a f : ℝ) (φ lam h : ℝ → ℝ) (hφ : ContDiff ℝ 3 φ) (hl : ContDiff ℝ 3 lam) (hh : ContDiff ℝ 3 h) (T u : ℝ) :
    excessAcceleration a f (fun s => φ (T + s)) (fun s => lam (T + s)) (fun s => h (T + s)) u = excessAcceleration a f φ lam h (T + u) := by
  obtain ⟨φ0, φ1⟩ := deriv_chain' φ hφ
  obtain ⟨L0, L1⟩ := deriv_chain' lam hl
  obtain ⟨H0, H1⟩ := deriv_chain' h hh
  have sh : ∀ {g g' : ℝ → ℝ}, (∀ s, HasDerivAt g (g' s) s) → ∀ s, HasDerivAt (fun s => g (T + s)) (g' (T + s)) s :=
    fun hg s => (hg (T + s)).comp_const_add T s
  rw [excess_eq φ0 φ1 a f lam h _ _ _ _ L0 L1 H0 H1 (T + u),
    excess_eq (sh φ0) (sh φ1) a f _ _ _ _ _ _ (sh L0) (sh L1) (sh H0) (sh H1) u]

private theorem deg_lt' : π / 180 < 0.017454 := by
  have := Real.pi_lt_d6
  norm_num at *
  linarith

private theorem rad_le {x c : ℝ} (h : |x| ≤ c) : |rad x| ≤ 0.017454 * c := by
  have hp := deg_lt'
  unfold rad
  rw [abs_mul, abs_of_pos (by positivity : (0 : ℝ) < π / 180), mul_comm]
  exact mul_le_mul hp.le h (abs_nonneg _) (by norm_num)

/-- Correction for the motion on a cruise. -/
theorem motion_true {lon lat : ℝ → ℝ} (hc : Cruise lon lat) (n : ℕ) (hn : 3 ≤ n) (samp : ℝ) (hs : 1 ≤ samp) (T : ℝ) (k : ℕ) (h1 : 1 ≤ k) (h2 : k + 1 < n) :
    |eotvos 6378137.0 6356752.3142 (motionAt (fun k => lon (T + k / samp)) (fun k => lat (T + k / samp)) (fun _ => 0) samp (min (max k 1) (n - 2))) -
      100000 * excessAcceleration 6378137 ((6378137 - 6356752.3142) / 6378137) (fun t => rad (lat t)) (fun t => rad (lon t)) (fun _ => 0) (T + k / samp)| ≤ 0.0047 := by
  have hs0 : 0 < samp := by linarith
  have cl : ContDiff ℝ 4 (fun s => lat (T + s)) := hc.smoothLat.comp (contDiff_const.add contDiff_id)
  have co : ContDiff ℝ 3 (fun s => lon (T + s)) := hc.smoothLon.comp (contDiff_const.add contDiff_id)
  obtain ⟨E, hE, hb⟩ := C152_eotvos n samp 6378137.0 6356752.3142 hs0 (by norm_num) (by norm_num) (by norm_num) hn (fun s => lat (T + s)) (fun s => lon (T + s))
    (fun _ => 0) cl co contDiff_const
  have hE2 := C54_values n (fun k => lon (T + k / samp)) (fun k => lat (T + k / samp)) (fun _ => 0) samp 6378137.0 6356752.3142 hn
  have he : E k = eotvos 6378137.0 6356752.3142 (motionAt (fun k => lon (T + k / samp)) (fun k => lat (T + k / samp)) (fun _ => 0) samp (min (max k 1) (n - 2))) := by
    have h := hE.symm.trans hE2
    injection h with h
    have h' := congrArg (fun l => l[k]?) h
    simpa [series, List.getElem?_map, List.getElem?_range (show k < n by omega)] using h'
  rw [← he]
  have it : ∀ (f : ℝ → ℝ) (j : ℕ) (s : ℝ), iteratedDeriv j (fun s => f (T + s)) s = iteratedDeriv j f (T + s) := fun f j s => by
    rw [iteratedDeriv_comp_const_add]
  have it1 : ∀ (f : ℝ → ℝ) (s : ℝ), deriv (fun s => f (T + s)) s = deriv f (T + s) := fun f s => by
    rw [deriv_comp_const_add]
  have hq : 1 ≤ samp ^ 2 := one_le_pow₀ hs
  have hB := hb k h1 h2 (0.017454 * 1e-8 / 6) (0.017454 * 1e-10 / 12) (0.017454 * 1e-8 / 6) 0 (fun s _ => by
    simp only [it]
    refine ⟨(rad_le (hc.lat3 _)).trans ?_, (rad_le (hc.lat4 _)).trans ?_, (rad_le (hc.lon3 _)).trans ?_, ?_⟩
    · norm_num; linarith
    · norm_num; linarith
    · norm_num; linarith
    · rw [iteratedDeriv_const]; simp)
  have crad : ∀ (f : ℝ → ℝ), ContDiff ℝ 3 f → ContDiff ℝ 3 (fun t => rad (f t)) := fun f h => by
    unfold rad
    exact h.mul contDiff_const
  have hx := excess_shift 6378137.0 ((6378137.0 - 6356752.3142) / 6378137.0) (fun t => rad (lat t)) (fun t => rad (lon t)) (fun _ => 0)
    (crad _ (hc.smoothLat.of_le (by norm_num))) (crad _ hc.smoothLon) contDiff_const T (k / samp)
  rw [hx] at hB
  simp only [it, it1, abs_zero, add_zero] at hB
  rw [show (6378137.0 : ℝ) = 6378137 by norm_num] at hB
  refine hB.trans ?_
  have a1 := rad_le (hc.lat1 (T + k / samp))
  have a2 := rad_le (hc.lat2 (T + k / samp))
  have a3 : |earthRate + rad (deriv lon (T + k / samp))| ≤ 7.3e-5 + 0.017454 * 8e-4 := by
    refine (abs_add_le _ _).trans (add_le_add ?_ (rad_le (hc.lon1 _)))
    rw [abs_of_pos (by unfold earthRate; norm_num)]
    unfold earthRate; norm_num
  have a1' : rad (deriv lat (T + k / samp)) ^ 2 ≤ (0.017454 * 2e-4) ^ 2 := by
    rw [← sq_abs]
    exact pow_le_pow_left₀ (abs_nonneg _) a1 2
  generalize |rad (iteratedDeriv 2 lat (T + k / samp))| = X at *
  generalize |earthRate + rad (deriv lon (T + k / samp))| = Y at *
  generalize rad (deriv lat (T + k / samp)) ^ 2 = Z at *
  generalize |rad (deriv lat (T + k / samp))| = Z' at *
  norm_num at *
  linarith

/-- Normal gravity. -/
theorem normal_true (W : Space → ℝ) (hW : LevelField wgs84A wgs84B wgs84GM wgs84Rate W) (lat lon : ℝ) :
    ∃ γ, SurfaceGravity wgs84A wgs84B W (rad lat) (rad lon) γ ∧ |normalGravity lat - 100000 * γ| ≤ 1e-6 := by
  obtain ⟨γ, g, h1, h2, h3⟩ := C153_wgs_grav W hW lat lon
  rw [C57_formula] at h2
  injection h2 with h2
  refine ⟨γ, h1, ?_⟩
  unfold normalGravity
  rw [h2, show (100000 : ℝ) = 1e5 by norm_num]
  exact h3

/-- Tide. -/
theorem tide_true (lon lat : ℝ) (t : ℤ) (ht : ValidStamp t) :
    ∃ pull, TidePull lon lat t pull ∧ ∀ g gm gs, longman [lon] [lat] [t] 0 = .ok [some (g, gm, gs)] → |g - pull| ≤ 1.15e-4 := by
  obtain ⟨y, m, d, h, mi, s, us, v1, v2, v3⟩ := ht
  obtain ⟨a, a1, a2⟩ := C149_tide_is_newton y m d h mi s us v1 v2
  obtain ⟨g, gm, gs, e, eg, b1, b2⟩ := a2 lon lat 0 (by norm_num)
  refine ⟨_, ⟨y, m, d, h, mi, s, us, a, v1, v2, v3, a1, rfl⟩, fun g' gm' gs' e' => ?_⟩
  rw [v3, e] at e'
  simp only [Except.ok.injEq, List.cons.injEq, Option.some.injEq, Prod.mk.injEq, and_true] at e'
  rw [← e'.1, eg]
  generalize tidalUp _ _ _ _ = A at *
  generalize tidalUp _ _ _ _ = B at *
  rw [abs_le] at *
  obtain ⟨b1, b1'⟩ := b1
  obtain ⟨b2, b2'⟩ := b2
  constructor <;> · norm_num at *; linarith

/-- First and second differences of the positions on a cruise. -/
theorem gentle_of {lon lat : ℝ → ℝ} (hc : Cruise lon lat) (samp : ℝ) (hs : 1 ≤ samp) (T : ℝ) (k : ℕ) :
    |rate (fun k => lat (T + k / samp)) samp (k + 1)| ≤ 2e-4 ∧ |rate (fun k => lon (T + k / samp)) samp (k + 1)| ≤ 8e-4 ∧
      |accel (fun k => lat (T + k / samp)) samp (k + 1)| ≤ 1e-6 := by
  have hs0 : 0 < samp := by linarith
  have hp : T + ((k + 1 + 1 : ℕ) : ℝ) / samp = T + ((k + 1 : ℕ) : ℝ) / samp + 1 / samp := by push_cast; ring
  have hm : T + (k : ℝ) / samp = T + ((k + 1 : ℕ) : ℝ) / samp + -(1 / samp) := by push_cast; ring
  have hab : |1 / samp| = 1 / samp := abs_of_pos (by positivity)
  have hab' : |-(1 / samp)| = 1 / samp := by rw [abs_neg, hab]
  have first : ∀ (f : ℝ → ℝ) (K : ℝ), ContDiff ℝ ((0 + 1 : ℕ) : ℕ∞) f → (∀ s, |deriv f s| ≤ K) → |rate (fun k => f (T + k / samp)) samp (k + 1)| ≤ K := by
    intro f K hf hK
    have h1 := taylor_close f 0 hf (T + ((k + 1 : ℕ) : ℝ) / samp) (1 / samp) (1 / samp) K hab.le (fun s _ => by rw [zero_add, iteratedDeriv_one]; exact hK s)
    have h2 := taylor_close f 0 hf (T + ((k + 1 : ℕ) : ℝ) / samp) (-(1 / samp)) (1 / samp) K hab'.le (fun s _ => by rw [zero_add, iteratedDeriv_one]; exact hK s)
    rw [← hp, hab] at h1
    rw [← hm, hab'] at h2
    simp only [zero_add, Finset.sum_range_succ, Finset.sum_range_zero, iteratedDeriv_zero, Nat.factorial_zero, Nat.cast_one, div_one, pow_zero, mul_one,
      Nat.factorial_one, pow_one] at h1 h2
    unfold rate
    rw [Nat.add_sub_cancel]
    beta_reduce
    generalize f (T + ((k + 1 + 1 : ℕ) : ℝ) / samp) = A at *
    generalize f (T + (k : ℝ) / samp) = B at *
    generalize f (T + ((k + 1 : ℕ) : ℝ) / samp) = C at *
    rw [abs_mul, abs_of_pos hs0, abs_div, abs_of_pos (by norm_num : (0 : ℝ) < 2)]
    have h3 : |A - B| ≤ 2 * (K * (1 / samp)) := by
      rw [show A - B = (A - C) - (B - C) by ring]
      exact (abs_sub _ _).trans (by linarith)
    calc |A - B| / 2 * samp ≤ 2 * (K * (1 / samp)) / 2 * samp := by gcongr
      _ = K := by field_simp
  refine ⟨first lat _ (by exact_mod_cast hc.smoothLat.of_le (by norm_num)) hc.lat1, first lon _ (by exact_mod_cast hc.smoothLon.of_le (by norm_num)) hc.lon1, ?_⟩
  have hf : ContDiff ℝ ((1 + 1 : ℕ) : ℕ∞) lat := by exact_mod_cast hc.smoothLat.of_le (by norm_num)
  have h1 := taylor_close lat 1 hf (T + ((k + 1 : ℕ) : ℝ) / samp) (1 / samp) (1 / samp) 1e-6 hab.le (fun s _ => hc.lat2 s)
  have h2 := taylor_close lat 1 hf (T + ((k + 1 : ℕ) : ℝ) / samp) (-(1 / samp)) (1 / samp) 1e-6 hab'.le (fun s _ => hc.lat2 s)
  rw [← hp, hab] at h1
  rw [← hm, hab'] at h2
  simp only [zero_add, Finset.sum_range_succ, Finset.sum_range_zero, iteratedDeriv_zero, Nat.factorial_zero, Nat.cast_one, div_one, pow_zero, mul_one,
    Nat.factorial_one, pow_one, iteratedDeriv_one] at h1 h2
  rw [show ((Nat.factorial (1 + 1) : ℕ) : ℝ) = 2 by norm_num [Nat.factorial]] at h1 h2
  unfold accel
  rw [Nat.add_sub_cancel]
  beta_reduce
  generalize lat (T + ((k + 1 + 1 : ℕ) : ℝ) / samp) = A at *
  generalize lat (T + (k : ℝ) / samp) = B at *
  generalize lat (T + ((k + 1 : ℕ) : ℝ) / samp) = C at *
  generalize deriv lat _ = D at *
  rw [abs_mul, abs_of_pos (by positivity : (0 : ℝ) < samp ^ 2)]
  have h3 : |A - 2 * C + B| ≤ 1e-6 * (1 / samp) ^ 2 := by
    rw [show A - 2 * C + B = (A - (C + D * (1 / samp))) + (B - (C + D * -(1 / samp))) by ring]
    refine (abs_add_le _ _).trans ((add_le_add h1 h2).trans (le_of_eq ?_))
    ring
  calc |A - 2 * C + B| * samp ^ 2 ≤ 1e-6 * (1 / samp) ^ 2 * samp ^ 2 := by gcongr
    _ = 1e-6 := by field_simp

/-- Positions on straight lines between fixes, for a smooth track. -/
theorem line_close (f : ℝ → ℝ) (hf : ContDiff ℝ 2 f) (K : ℝ) (hK : ∀ s, |iteratedDeriv 2 f s| ≤ K) (p q T δ e u v : ℝ) (hp : p ≤ T) (hq : T ≤ q) (hpq : p < q)
    (hδ : q - p ≤ δ) (hu : |u - f p| ≤ e) (hv : |v - f q| ≤ e) : |u + (v - u) * ((T - p) / (q - p)) - f T| ≤ e + K / 8 * δ ^ 2 := by
  have hf' : ContDiff ℝ ((1 + 1 : ℕ) : ℕ∞) f := by exact_mod_cast hf
  have h1 := taylor_close f 1 hf' T (p - T) |p - T| K le_rfl (fun s _ => hK s)
  have h2 := taylor_close f 1 hf' T (q - T) |q - T| K le_rfl (fun s _ => hK s)
  have hK0 : 0 ≤ K := (abs_nonneg _).trans (hK 0)
  simp only [zero_add, Finset.sum_range_succ, Finset.sum_range_zero, iteratedDeriv_zero, Nat.factorial_zero, Nat.cast_one, div_one, pow_zero, mul_one,
    Nat.factorial_one, pow_one, iteratedDeriv_one, add_sub_cancel] at h1 h2
  rw [show ((Nat.factorial (1 + 1) : ℕ) : ℝ) = 2 by norm_num [Nat.factorial]] at h1 h2
  rw [show (1 + 1 : ℕ) = 2 from rfl, sq_abs] at h1 h2
  obtain ⟨θ, hθ⟩ : ∃ θ, θ = (T - p) / (q - p) := ⟨_, rfl⟩
  have hd : 0 < q - p := by linarith
  have t0 : 0 ≤ θ := by rw [hθ]; exact div_nonneg (by linarith) hd.le
  have t1 : θ ≤ 1 := by rw [hθ, div_le_one hd]; linarith
  have ep : p - T = -θ * (q - p) := by rw [hθ]; field_simp; ring
  have eq : q - T = (1 - θ) * (q - p) := by rw [hθ]; field_simp; ring
  rw [← hθ]
  rw [ep] at h1
  rw [eq] at h2
  generalize q - p = d at *
  generalize f T = F at *
  generalize deriv f T = D at *
  rw [show u + (v - u) * θ - F = (1 - θ) * (u - f p) + θ * (v - f q) + ((1 - θ) * (f p - (F + D * (-θ * d))) + θ * (f q - (F + D * ((1 - θ) * d)))) by ring]
  refine (abs_add_le _ _).trans (add_le_add ?_ ?_)
  · refine (abs_add_le _ _).trans ?_
    rw [abs_mul, abs_mul, abs_of_nonneg t0, abs_of_nonneg (by linarith : 0 ≤ 1 - θ)]
    have := mul_le_mul_of_nonneg_left hu (by linarith : 0 ≤ 1 - θ)
    have := mul_le_mul_of_nonneg_left hv t0
    linarith
  · refine (abs_add_le _ _).trans ?_
    rw [abs_mul, abs_mul, abs_of_nonneg t0, abs_of_nonneg (by linarith : 0 ≤ 1 - θ)]
    have b1 := mul_le_mul_of_nonneg_left h1 (by linarith : 0 ≤ 1 - θ)
    have b2 := mul_le_mul_of_nonneg_left h2 t0
    refine (add_le_add b1 b2).trans ?_
    have e1 : (1 - θ) * (K * (-θ * d) ^ 2 / 2) + θ * (K * ((1 - θ) * d) ^ 2 / 2) = K * d ^ 2 / 2 * (θ * (1 - θ)) := by ring
    rw [e1]
    have e2 : θ * (1 - θ) ≤ 1 / 4 := by nlinarith [sq_nonneg (θ - 1 / 2)]
    have e3 : d ^ 2 ≤ δ ^ 2 := pow_le_pow_left₀ hd.le hδ 2
    calc K * d ^ 2 / 2 * (θ * (1 - θ)) ≤ K * d ^ 2 / 2 * (1 / 4) := by gcongr
      _ ≤ K * δ ^ 2 / 2 * (1 / 4) := by gcongr
      _ = K / 8 * δ ^ 2 := by ring

end Shipgrav
