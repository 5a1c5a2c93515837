import Verif.Lemmas.CoolingHalfspace
import Verif.Props.Isostasy
import Verif.Props.Halfspace

/-! Property theorems C157: `therm_halfspace` and `therm_Z_halfspace` against rock that cools. -/

namespace Shipgrav
open Spec Topology Filter Set MeasureTheory

/-- **C157.** There is a half-space that cools, and no other. -/
theorem C157_one_halfspace (k Tm : ℝ) (hk : 0 < k) :
    ∃ T, CoolingHalfspace k Tm T ∧ ∀ T', CoolingHalfspace k Tm T' → ∀ t > 0, ∀ z ≥ 0, T' t z = T t z :=
  ⟨_, halfspaceTemp_cooling hk Tm, fun _ h' => CoolingHalfspace.unique hk.le h' (halfspaceTemp_cooling hk Tm)⟩

private theorem spaceMyr_pos : 0 < secondsPerMyr := by unfold secondsPerMyr; norm_num

private theorem space_age_eq (u x : ℝ) : ageSeconds true u x = some (secondsPerMyr * x) := by
  unfold ageSeconds secyr secondsPerMyr
  rw [if_pos rfl]
  congr 1
  norm_num
  ring

private theorem space_node (k Tm rhom rhow a u age d : ℝ) (hk : 0 < k) (hr : rhom ≠ rhow) (hage : 0 < age) (T : ℝ → ℝ → ℝ)
    (hT : CoolingHalfspace k Tm T) (hd : 0 ≤ d) :
    ∃ M W, thermHalfspace [age] [d] u Tm true rhom rhow a k = .ok (M, W) ∧ M.at' 0 0 = some (T (secondsPerMyr * age) d) := by
  have ht : 0 < secondsPerMyr * age := mul_pos spaceMyr_pos hage
  unfold thermHalfspace
  simp only
  rw [if_neg (sub_ne_zero.mpr hr), if_neg (by simp)]
  refine ⟨_, _, rfl, ?_⟩
  simp only [List.map_cons, List.map_nil, List.getD_cons_zero, space_age_eq]
  rw [CoolingHalfspace.unique hk.le hT (halfspaceTemp_cooling hk Tm) _ ht _ hd]
  have hs : 0 < √(k * (secondsPerMyr * age)) := by positivity
  have h0 : (0 : ℝ) ≤ k * (secondsPerMyr * age) := by positivity
  unfold halfspaceNode sqrtR erfQuot halfspaceTemp
  simp [h0, hs.ne']

/-- **C157, temperatures and subsidence.** At every positive age `therm_halfspace` returns the temperatures of the rock that cools, at every
depth, and the isostatic subsidence above it. -/
theorem C157_exact (k Tm : ℝ) (hk : 0 < k) (T : ℝ → ℝ → ℝ) (hT : CoolingHalfspace k Tm T) (x z : List ℝ) (u rhom rhow a : ℝ)
    (hr : rhom ≠ rhow) (hz : z ≠ []) (hx : ∀ t ∈ x, 0 < t) :
    ∃ M, thermHalfspace x z u Tm true rhom rhow a k =
        .ok (M, x.map fun t => some (isostaticSubsidence rhom rhow a Tm (T (secondsPerMyr * t)))) ∧
      M.rows = z.length ∧ M.cols = x.length ∧
      ∀ i < z.length, ∀ j < x.length, 0 ≤ z.getD i 0 → M.at' i j = some (T (secondsPerMyr * x.getD j 0) (z.getD i 0)) := by
  obtain ⟨f, hf⟩ := C124_halfspace Tm k hk
  have hfT : ∀ age > 0, ∀ d ≥ 0, f age d = T (secondsPerMyr * age) d := by
    intro age hage d hd
    obtain ⟨M, W, h, hM⟩ := space_node k Tm rhom rhow a u age d hk hr hage T hT hd
    obtain ⟨M', h', _, _, hn⟩ := hf u rhom rhow a [age] [d] hr (by simp) (by simpa using hage)
    rw [h'] at h
    injection h with h
    injection h with h _
    have := hn 0 (by simp) 0 (by simp)
    rw [h, hM] at this
    simp only [List.getD_cons_zero] at this
    injection this with this
    exact this.symm
  obtain ⟨M, h, hrows, hcols, hn⟩ := hf u rhom rhow a x z hr hz hx
  refine ⟨M, ?_, hrows, hcols, fun i hi j hj hd => ?_⟩
  · rw [h]
    congr 2
    apply List.map_congr_left
    intro t ht
    unfold isostaticSubsidence
    congr 2
    apply setIntegral_congr_fun measurableSet_Ioi
    intro d hd
    simp only [hfT t (hx t ht) d (le_of_lt hd)]
  · have hxj : 0 < x.getD j 0 := by
      apply hx
      rw [List.getD_eq_getElem?_getD, List.getElem?_eq_getElem hj]
      exact List.getElem_mem hj
    rw [hn i hi j hj, hfT _ hxj _ hd]

/-- **C157, isotherms.** At every positive age `therm_Z_halfspace` returns the depth at which the rock that cools has the temperature asked for;
it has it at no other depth. -/
theorem C157_isotherm (k Tm : ℝ) (hk : 0 < k) (T : ℝ → ℝ → ℝ) (hT : CoolingHalfspace k Tm T) (x : List ℝ) (iso u rhom rhow a : ℝ)
    (hr : rhom ≠ rhow) (h0 : 0 < iso) (h1 : iso < Tm) (j : ℕ) (hj : j < x.length) (hx : 0 < x.getD j 0) :
    ∃ Z W d, thermZHalfspace x iso u Tm true rhom rhow a k = .ok (Z, W) ∧ Z[j]? = some (some d) ∧ 0 < d ∧
      ∀ y ≥ 0, T (secondsPerMyr * x.getD j 0) y = iso ↔ y = d := by
  obtain ⟨Z, W, d, w, h, hd, _, hpos, M, hM, hv⟩ := C75_round_trip x iso u Tm rhom rhow a k hk hr h0 h1 j hj hx
  refine ⟨Z, W, d, h, hd, hpos, fun y hy => ?_⟩
  have ht : 0 < secondsPerMyr * x.getD j 0 := mul_pos spaceMyr_pos hx
  obtain ⟨M', W', h', hv'⟩ := space_node k Tm rhom rhow a u _ d hk hr hx T hT hpos.le
  rw [hM] at h'
  injection h' with h'
  injection h' with h' _
  rw [← h', hv] at hv'
  injection hv' with hv'
  have hu := CoolingHalfspace.unique hk.le hT (halfspaceTemp_cooling hk Tm) _ ht
  have hs : 0 < 2 * √(k * (secondsPerMyr * x.getD j 0)) := by positivity
  constructor
  · intro he
    rw [hv', hu y hy, hu d hpos.le] at he
    unfold halfspaceTemp at he
    have := erf_strictMono.injective (mul_left_cancel₀ (h0.trans h1).ne' he)
    exact (div_left_inj' hs.ne').mp this
  · rintro rfl
    exact hv'.symm

/-! ## Non-vacuity -/

/-- The values of the documentation: one solution for all calls, and an isotherm in it. -/
example : ∃ T, CoolingHalfspace 1e-6 1350 T ∧ (∃ M W, thermHalfspace [1, 4] [0, 10000] 0.02 1350 true 3300 1000 3e-5 1e-6 = .ok (M, W) ∧
    M.at' 1 1 = some (T (secondsPerMyr * 4) 10000)) ∧
    ∃ Z W d, thermZHalfspace [1, 4] 600 0.02 1350 true 3300 1000 3e-5 1e-6 = .ok (Z, W) ∧ Z[1]? = some (some d) ∧ T (secondsPerMyr * 4) d = 600 := by
  obtain ⟨T, hT, _⟩ := C157_one_halfspace 1e-6 1350 (by norm_num)
  obtain ⟨M, h, _, _, hn⟩ := C157_exact 1e-6 1350 (by norm_num) T hT [1, 4] [0, 10000] 0.02 3300 1000 3e-5 (by norm_num) (by simp) (by simp)
  obtain ⟨Z, W, d, h2, hd, hd0, hi⟩ := C157_isotherm 1e-6 1350 (by norm_num) T hT [1, 4] 600 0.02 3300 1000 3e-5 (by norm_num) (by norm_num) (by norm_num)
    1 (by simp) (by simp)
  exact ⟨T, hT, ⟨M, _, h, by simpa using hn 1 (by simp) 1 (by simp) (by simp)⟩, Z, W, d, h2, hd, by simpa using (hi d hd0.le).mpr rfl⟩

end Shipgrav
