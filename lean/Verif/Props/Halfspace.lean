import Verif.Model.Thermal
import Verif.Spec.Thermal
import Verif.Lemmas.Erf
import Mathlib.Analysis.SpecialFunctions.Sqrt
import Mathlib.Analysis.Calculus.Deriv.Inv

/-! Property theorems C74, C75, C76 and C94: cooling of a half-space. -/

namespace Shipgrav
open Spec Topology Filter

private theorem secyr_pos : 0 < secyr := by unfold secyr; norm_num

private theorem myr_pos : 0 < secondsPerMyr := by unfold secondsPerMyr; norm_num

private theorem age_eq (u x : ℝ) : ageSeconds true u x = some (secondsPerMyr * x) := by
  unfold ageSeconds secyr secondsPerMyr
  rw [if_pos rfl]
  congr 1
  norm_num
  ring

/-- Temperature at time `t` and depth `z`. -/
private noncomputable def temp (Tm k t z : ℝ) : ℝ := Tm * erf (z / (2 * √(k * t)))

private theorem node_eq (Tm k t z : ℝ) (hk : 0 < k) (ht : 0 < t) : halfspaceNode Tm k (some t) z = some (temp Tm k t z) := by
  have hs : 0 < √(k * t) := by positivity
  have h0 : (0 : ℝ) ≤ k * t := by positivity
  unfold halfspaceNode sqrtR erfQuot temp
  simp [h0, hs.ne']

private theorem call_ok (x z : List ℝ) (u Tm : ℝ) (time : Bool) (rhom rhow a k : ℝ) (hr : rhom ≠ rhow) (hz : z ≠ []) :
    thermHalfspace x z u Tm time rhom rhow a k =
      .ok (⟨z.length, x.length, fun i j => halfspaceNode Tm k ((x.map (ageSeconds time u)).getD j none) (z.getD i 0)⟩,
        x.map fun x => halfspaceSubsidence (2 * rhom * a * Tm / (rhom - rhow)) k (ageSeconds time u x)) := by
  unfold thermHalfspace
  simp only
  rw [if_neg (sub_ne_zero.mpr hr), if_neg hz, List.map_map, sub_zero]
  rfl

private theorem getD_map_age (x : List ℝ) (u : ℝ) (j : ℕ) (hj : j < x.length) :
    (x.map (ageSeconds true u)).getD j none = some (secondsPerMyr * x.getD j 0) := by
  rw [List.getD_eq_getElem?_getD, List.getElem?_map, List.getD_eq_getElem?_getD, List.getElem?_eq_getElem hj]
  simp [age_eq]

private theorem temp_deriv_z (Tm k t z : ℝ) (hk : 0 < k) (ht : 0 < t) :
    HasDerivAt (temp Tm k t) (Tm * (2 / √Real.pi * Real.exp (-(z / (2 * √(k * t))) ^ 2) * (1 / (2 * √(k * t))))) z := by
  unfold temp
  have h1 : HasDerivAt (fun z : ℝ => z / (2 * √(k * t))) (1 / (2 * √(k * t))) z := (hasDerivAt_id z).div_const _
  exact ((erf_hasDerivAt _).comp z h1).const_mul Tm

private theorem temp_strictMono (Tm k t : ℝ) (hTm : 0 < Tm) (hk : 0 < k) (ht : 0 < t) : StrictMono (temp Tm k t) := by
  intro a b hab
  have hs : 0 < 2 * √(k * t) := by positivity
  exact mul_lt_mul_of_pos_left (erf_strictMono (div_lt_div_of_pos_right hab hs)) hTm

private theorem temp_tendsto (Tm k t : ℝ) (hk : 0 < k) (ht : 0 < t) : Tendsto (temp Tm k t) atTop (𝓝 Tm) := by
  have hs : 0 < 2 * √(k * t) := by positivity
  have h := (erf_tendsto.comp (tendsto_id.atTop_div_const hs)).const_mul Tm
  rw [mul_one] at h
  exact h

private theorem temp_strictAnti (Tm k z : ℝ) (hTm : 0 < Tm) (hk : 0 < k) (hz : 0 < z) : StrictAntiOn (fun t => temp Tm k t z) (Set.Ioi 0) := by
  intro s hs t ht hst
  have hs' : (0 : ℝ) < s := hs
  have h1 : 0 < 2 * √(k * s) := by positivity
  have h2 : 2 * √(k * s) < 2 * √(k * t) :=
    mul_lt_mul_of_pos_left (Real.sqrt_lt_sqrt (by positivity) (mul_lt_mul_of_pos_left hst hk)) two_pos
  exact mul_lt_mul_of_pos_left (erf_strictMono (div_lt_div_of_pos_left hz h1 h2)) hTm

/-- The nodes of a call with ages are given by one function of age and depth. -/
private theorem nodes (Tm k : ℝ) (hk : 0 < k) (u rhom rhow a : ℝ) (x z : List ℝ) (hr : rhom ≠ rhow) (hz : z ≠ []) :
    ∃ T W, thermHalfspace x z u Tm true rhom rhow a k = .ok (T, W) ∧ T.rows = z.length ∧ T.cols = x.length ∧
      ∀ i < z.length, ∀ j < x.length, 0 < x.getD j 0 → T.at' i j = some (temp Tm k (secondsPerMyr * x.getD j 0) (z.getD i 0)) := by
  refine ⟨_, _, call_ok x z u Tm true rhom rhow a k hr hz, rfl, rfl, fun i _ j hj hx => ?_⟩
  simp only
  rw [getD_map_age x u j hj, node_eq Tm k _ _ hk (mul_pos myr_pos hx)]

/-- **C74.** Temperature at positive ages: one function of age and depth, 0 at the surface, increasing with depth towards the mantle
temperature, and decreasing with age. -/
theorem C74_temperature (Tm k : ℝ) (hTm : 0 < Tm) (hk : 0 < k) : ∃ f : ℝ → ℝ → ℝ,
    (∀ (u rhom rhow a : ℝ) (x z : List ℝ), rhom ≠ rhow → z ≠ [] →
      ∃ T W, thermHalfspace x z u Tm true rhom rhow a k = .ok (T, W) ∧ T.rows = z.length ∧ T.cols = x.length ∧
        ∀ i < z.length, ∀ j < x.length, 0 < x.getD j 0 → T.at' i j = some (f (x.getD j 0) (z.getD i 0))) ∧
    (∀ age > 0, f age 0 = 0 ∧ StrictMono (f age) ∧ (∀ z, f age z < Tm) ∧ Tendsto (f age) atTop (𝓝 Tm)) ∧
    ∀ z > 0, StrictAntiOn (fun age => f age z) (Set.Ioi 0) := by
  refine ⟨fun age z => temp Tm k (secondsPerMyr * age) z, fun u rhom rhow a x z hr hz => nodes Tm k hk u rhom rhow a x z hr hz, ?_, ?_⟩
  · intro age hage
    have ht := mul_pos myr_pos hage
    refine ⟨?_, temp_strictMono Tm k _ hTm hk ht, ?_, temp_tendsto Tm k _ hk ht⟩
    · simp [temp, erf_zero]
    · intro z
      have := erf_lt_one (z / (2 * √(k * (secondsPerMyr * age))))
      unfold temp
      nlinarith
  · intro z hz s hs t ht hst
    exact temp_strictAnti Tm k z hTm hk hz (mul_pos myr_pos hs) (mul_pos myr_pos ht) (mul_lt_mul_of_pos_left hst myr_pos)

private theorem subsidence_eq (c k t : ℝ) (hk : 0 ≤ k) (ht : 0 ≤ t) : halfspaceSubsidence c k (some t) = some (c * √(k * t / Real.pi)) := by
  have h0 : 0 ≤ k * t / Real.pi := by positivity
  unfold halfspaceSubsidence sqrtR
  simp [h0]

/-- **C74.** Subsidence grows with the square root of age. -/
theorem C74_subsidence (x z : List ℝ) (u Tm rhom rhow a k : ℝ) (hk : 0 ≤ k) (hr : rhom ≠ rhow) (hz : z ≠ []) (hx : ∀ t ∈ x, 0 ≤ t) :
    ∃ T, thermHalfspace x z u Tm true rhom rhow a k =
      .ok (T, x.map fun t => some (2 * rhom * a * Tm / (rhom - rhow) * √(k * secondsPerMyr / Real.pi) * √t)) := by
  have hW : (x.map fun x => halfspaceSubsidence (2 * rhom * a * Tm / (rhom - rhow)) k (ageSeconds true u x)) =
      x.map fun t => some (2 * rhom * a * Tm / (rhom - rhow) * √(k * secondsPerMyr / Real.pi) * √t) := ?_
  · rw [call_ok x z u Tm true rhom rhow a k hr hz, hW]; exact ⟨_, rfl⟩
  apply List.map_congr_left
  intro t ht
  have hm := myr_pos
  rw [age_eq, subsidence_eq _ _ _ hk (mul_nonneg myr_pos.le (hx t ht)), mul_assoc (_ / _), ← Real.sqrt_mul (by positivity)]
  congr 3
  ring

/-- **C74.** Without depths, or with equal densities, the call raises. -/
theorem C74_errors (x : List ℝ) (u Tm : ℝ) (time : Bool) (rhom rhow a k : ℝ) :
    (∀ z, thermHalfspace x z u Tm time rhom rhom a k = .error .zeroDivisionError) ∧
    (rhom ≠ rhow → thermHalfspace x [] u Tm time rhom rhow a k = .error .indexError) := by
  constructor
  · intro z; simp [thermHalfspace]
  · intro h; simp [thermHalfspace, sub_ne_zero.mpr h]

/-- **C75.** Evaluating the temperature at the depth found for an isotherm gives the isotherm back, with the same subsidence. -/
theorem C75_round_trip (x : List ℝ) (T u Tm rhom rhow a k : ℝ) (hk : 0 < k) (hr : rhom ≠ rhow) (hT : 0 < T) (hTm : T < Tm) (j : ℕ) (hj : j < x.length)
    (hx : 0 < x.getD j 0) :
    ∃ Z W z w, thermZHalfspace x T u Tm true rhom rhow a k = .ok (Z, W) ∧ Z[j]? = some (some z) ∧ W[j]? = some (some w) ∧ 0 < z ∧
      ∃ T', thermHalfspace [x.getD j 0] [z] u Tm true rhom rhow a k = .ok (T', [some w]) ∧ T'.at' 0 0 = some T := by
  have hTm0 : 0 < Tm := hT.trans hTm
  have ht : 0 < secondsPerMyr * x.getD j 0 := mul_pos myr_pos hx
  generalize htt : secondsPerMyr * x.getD j 0 = t at ht
  have hy : (T - Tm) / (0 - Tm) = (Tm - T) / Tm := by rw [zero_sub, ← neg_sub, neg_div_neg_eq]
  have hxj : x[j]? = some (x.getD j 0) := by
    rw [List.getD_eq_getElem?_getD, List.getElem?_eq_getElem hj]; rfl
  obtain ⟨e, he, hee⟩ := erfcinv_spec ((T - Tm) / (0 - Tm)) (by rw [hy]; exact div_pos (by linarith) hTm0)
    (by rw [hy, div_lt_iff₀ hTm0]; linarith)
  have hs : 0 < √(k * t) := by positivity
  have h0 : (0 : ℝ) ≤ k * t := by positivity
  have hval : erf e = T / Tm := by rw [hee, hy]; field_simp; ring
  have hepos : 0 < e := by
    apply erf_strictMono.lt_iff_lt.mp
    rw [erf_zero, hval]
    positivity
  have hcall := call_ok [x.getD j 0] [2 * √(k * t) * e] u Tm true rhom rhow a k hr (by simp)
  simp only [List.map_cons, List.map_nil] at hcall
  rw [age_eq, htt, subsidence_eq _ _ _ hk.le ht.le] at hcall
  refine ⟨?Z, ?W, 2 * √(k * t) * e, 2 * rhom * a * Tm / (rhom - rhow) * √(k * t / Real.pi), ?pa, ?pb, ?pc, by positivity, ?pd⟩
  case pd =>
    refine ⟨_, hcall, ?_⟩
    · simp only [List.map_cons, List.map_nil, List.getD_cons_zero]
      rw [node_eq Tm k t _ hk ht]
      unfold temp
      rw [show 2 * √(k * t) * e / (2 * √(k * t)) = e by field_simp, hval]
      congr 1
      field_simp
  case pa =>
    unfold thermZHalfspace
    simp only
    rw [if_neg (by linarith), if_neg (sub_ne_zero.mpr hr), he, sub_zero]
  · simp only [List.getElem?_map, hxj, Option.map_some, age_eq, htt]
    simp [sqrtR, h0]
  · simp only [List.getElem?_map, hxj, Option.map_some, age_eq, htt]
    rw [subsidence_eq _ _ _ hk.le ht.le]

/-- **C75.** The other way round: the depth of the isotherm through a node is the depth of the node. -/
theorem C75_depth_recovered (age z u Tm rhom rhow a k : ℝ) (hk : 0 < k) (hr : rhom ≠ rhow) (hTm : 0 < Tm) (hage : 0 < age) :
    ∃ T W v, thermHalfspace [age] [z] u Tm true rhom rhow a k = .ok (T, W) ∧ T.at' 0 0 = some v ∧
      thermZHalfspace [age] v u Tm true rhom rhow a k = .ok ([some z], W) := by
  have ht : 0 < secondsPerMyr * age := mul_pos myr_pos hage
  refine ⟨_, _, temp Tm k (secondsPerMyr * age) z, call_ok [age] [z] u Tm true rhom rhow a k hr (by simp), ?_, ?_⟩
  · simp only [List.map_cons, List.map_nil, List.getD_cons_zero]
    rw [age_eq, node_eq Tm k _ z hk ht]
  · have hs : 0 < √(k * (secondsPerMyr * age)) := by positivity
    have h0 : (0 : ℝ) ≤ k * (secondsPerMyr * age) := by positivity
    have hy : (temp Tm k (secondsPerMyr * age) z - Tm) / (0 - Tm) = 1 - erf (z / (2 * √(k * (secondsPerMyr * age)))) := by
      unfold temp
      generalize erf (z / (2 * √(k * (secondsPerMyr * age)))) = e
      have := hTm.ne'
      rw [zero_sub]
      field_simp
      ring
    unfold thermZHalfspace
    simp only
    rw [if_neg (by linarith), if_neg (sub_ne_zero.mpr hr), hy, erfcinv_erf, sub_zero]
    simp only [List.map_cons, List.map_nil]
    rw [age_eq]
    have hq : sqrtR (k * (secondsPerMyr * age)) = some √(k * (secondsPerMyr * age)) := by unfold sqrtR; rw [if_pos h0]
    have hd : 2 * √(k * (secondsPerMyr * age)) * (z / (2 * √(k * (secondsPerMyr * age)))) = z := mul_div_cancel₀ z (by positivity)
    simp only [Bind.bind, Option.bind, hq, pure, hd]

/-- Distances in metres that belong to ages in Myr at spreading rate `u`, on either side of the axis. -/
private theorem ages_eq (u : ℝ) (hu : 0 < u) (ages dists : List ℝ) (h : List.Forall₂ (fun t d => |d| = t * 1e6 * u) ages dists) (u' : ℝ) :
    ages.map (ageSeconds true u') = dists.map (ageSeconds false u) := by
  induction h with
  | nil => rfl
  | cons h _ ih =>
    rw [List.map_cons, List.map_cons, ih]
    congr 1
    have hs := secyr_pos
    have : u / secyr ≠ 0 := by positivity
    unfold ageSeconds divR
    rw [if_pos rfl, if_neg (by simp), if_neg this, h]
    congr 1
    field_simp

/-- **C76.** Ages and the distances that belong to them give the same result, for all four functions; with ages the spreading rate does not
matter. -/
theorem C76_age_or_distance (u : ℝ) (hu : 0 < u) (ages dists : List ℝ) (h : List.Forall₂ (fun t d => |d| = t * 1e6 * u) ages dists) (u' : ℝ) :
    (∀ z Tm rhom rhow a k, thermHalfspace ages z u' Tm true rhom rhow a k = thermHalfspace dists z u Tm false rhom rhow a k) ∧
    (∀ T Tm rhom rhow a k, thermZHalfspace ages T u' Tm true rhom rhow a k = thermZHalfspace dists T u Tm false rhom rhow a k) ∧
    (∀ z zL0 Tm rhom rhow a k, thermPlate ages z u' zL0 Tm true rhom rhow a k = thermPlate dists z u zL0 Tm false rhom rhow a k) ∧
    (∀ T zL0 Tm minz maxz zsp rhom rhow a k, thermZPlate ages T u' zL0 Tm true minz maxz zsp rhom rhow a k =
      thermZPlate dists T u zL0 Tm false minz maxz zsp rhom rhow a k) := by
  have he := ages_eq u hu ages dists h u'
  have hl := h.length_eq
  have hp : ∀ z zL0 Tm rhom rhow a k, thermPlate ages z u' zL0 Tm true rhom rhow a k = thermPlate dists z u zL0 Tm false rhom rhow a k := by
    intros; unfold thermPlate; simp only [he, hl]
  refine ⟨?_, ?_, hp, ?_⟩
  · intros; unfold thermHalfspace; simp only [he, hl]
  · intros; unfold thermZHalfspace; simp only [he]
  · intros; unfold thermZPlate; simp only [hp, hl]

/-- **C94.** The half-space temperature solves the heat equation, is zero at the surface, tends to the mantle temperature with depth and is the
mantle temperature everywhere at depth when the plate forms. -/
theorem C94_heat_equation (Tm k : ℝ) (hk : 0 < k) : ∃ T : ℝ → ℝ → ℝ,
    (∀ (u rhom rhow a : ℝ) (x z : List ℝ), rhom ≠ rhow → z ≠ [] →
      ∃ M W, thermHalfspace x z u Tm true rhom rhow a k = .ok (M, W) ∧ M.rows = z.length ∧ M.cols = x.length ∧
        ∀ i < z.length, ∀ j < x.length, 0 < x.getD j 0 → M.at' i j = some (T (secondsPerMyr * x.getD j 0) (z.getD i 0))) ∧
    (∀ t > 0, ∀ z, HeatEquation k T t z) ∧ (∀ t > 0, T t 0 = 0) ∧ (∀ t > 0, Tendsto (T t) atTop (𝓝 Tm)) ∧
    ∀ z > 0, Tendsto (fun t => T t z) (𝓝[>] 0) (𝓝 Tm) := by
  refine ⟨temp Tm k, fun u rhom rhow a x z hr hz => nodes Tm k hk u rhom rhow a x z hr hz, ?_, ?_, fun t ht => temp_tendsto Tm k t hk ht, ?_⟩
  · intro t ht z
    have hs : 0 < √(k * t) := by positivity
    have hsq : √(k * t) ^ 2 = k * t := Real.sq_sqrt (by positivity)
    have hpi : 0 < √Real.pi := by positivity
    refine ⟨_, Tm * (2 / √Real.pi * (Real.exp (-(z / (2 * √(k * t))) ^ 2) * (-(2 * (z / (2 * √(k * t))) * (1 / (2 * √(k * t)))))) * (1 / (2 * √(k * t)))),
      Eventually.of_forall fun y => temp_deriv_z Tm k t y hk ht, ?_, ?_⟩
    · have h1 : HasDerivAt (fun z : ℝ => z / (2 * √(k * t))) (1 / (2 * √(k * t))) z := (hasDerivAt_id z).div_const _
      have h2 := ((h1.pow 2).neg.exp.const_mul (2 / √Real.pi)).mul_const (1 / (2 * √(k * t))) |>.const_mul Tm
      refine HasDerivAt.congr_deriv h2 ?_
      simp
    · have h1 : HasDerivAt (fun s : ℝ => √(k * s)) (k / (2 * √(k * t))) t := by
        have := ((hasDerivAt_id t).const_mul k).sqrt (by simp [hk.ne', ne_of_gt ht])
        simpa using this
      have h2 : HasDerivAt (fun s : ℝ => z / (2 * √(k * s))) (z * (-(2 * (k / (2 * √(k * t)))) / (2 * √(k * t)) ^ 2)) t := by
        have := ((h1.const_mul 2).inv (by positivity)).const_mul z
        simpa [div_eq_mul_inv] using this
      have h3 := ((erf_hasDerivAt _).comp t h2).const_mul Tm
      have : (fun s => temp Tm k s z) = fun s => Tm * (erf ∘ fun s => z / (2 * √(k * s))) s := by
        funext s; rfl
      rw [this]
      refine HasDerivAt.congr_deriv h3 ?_
      rw [show (2 * √(k * t)) ^ 2 = 4 * √(k * t) ^ 2 by ring]
      generalize Real.exp (-(z / (2 * √(k * t))) ^ 2) = E
      field_simp
      ring
  · intro t _
    simp [temp, erf_zero]
  · intro z hz
    unfold temp
    have h1 : Tendsto (fun t : ℝ => 2 * √(k * t)) (𝓝[>] 0) (𝓝[>] 0) := by
      apply tendsto_nhdsWithin_iff.mpr
      constructor
      · have : Continuous fun t : ℝ => 2 * √(k * t) := by fun_prop
        have h := (this.tendsto 0).mono_left (nhdsWithin_le_nhds (s := Set.Ioi 0))
        simpa using h
      · filter_upwards [self_mem_nhdsWithin] with t ht
        have ht' : (0 : ℝ) < t := ht
        show 0 < 2 * √(k * t)
        positivity
    have h2 : Tendsto (fun t : ℝ => z / (2 * √(k * t))) (𝓝[>] 0) atTop := by
      have := (tendsto_inv_nhdsGT_zero.comp h1).const_mul_atTop hz
      refine this.congr fun t => ?_
      simp [div_eq_mul_inv]
    have := (erf_tendsto.comp h2).const_mul Tm
    rw [mul_one] at this
    exact this

/-! ## Non-vacuity -/

example : List.Forall₂ (fun t d => |d| = t * 1e6 * 0.01) [(2 : ℝ), 3] [-20000, 30000] := by
  constructor
  · norm_num
  · constructor
    · norm_num
    · exact List.Forall₂.nil

end Shipgrav
