import Verif.Model.Thermal
import Verif.Props.Plate
import Verif.Spec.Isostasy
import Verif.Lemmas.Isostasy

/-! Property theorems C124 and C125: the subsidence is that of rock with the temperatures returned beside it. -/

namespace Shipgrav
open Spec Topology Filter MeasureTheory

private theorem myr_pos : 0 < secondsPerMyr := by unfold secondsPerMyr; norm_num

private theorem age_eq (u x : ℝ) : ageSeconds true u x = some (secondsPerMyr * x) := by
  unfold ageSeconds secyr secondsPerMyr
  rw [if_pos rfl]
  congr 1
  norm_num
  ring

private theorem getD_map_age (x : List ℝ) (u : ℝ) (j : ℕ) (hj : j < x.length) :
    (x.map (ageSeconds true u)).getD j none = some (secondsPerMyr * x.getD j 0) := by
  rw [List.getD_eq_getElem?_getD, List.getElem?_map, List.getD_eq_getElem?_getD, List.getElem?_eq_getElem hj]
  simp [age_eq]

/-- **C124.** Half-space: the temperatures of every call come from one function of age and depth, and the subsidence of every call is the
isostatic response to cooling from the mantle temperature to that function, at every age. -/
theorem C124_halfspace (Tm k : ℝ) (hk : 0 < k) : ∃ f : ℝ → ℝ → ℝ,
    ∀ (u rhom rhow a : ℝ) (x z : List ℝ), rhom ≠ rhow → z ≠ [] → (∀ t ∈ x, 0 < t) →
      ∃ T, thermHalfspace x z u Tm true rhom rhow a k = .ok (T, x.map fun t => some (isostaticSubsidence rhom rhow a Tm (f t))) ∧
        T.rows = z.length ∧ T.cols = x.length ∧
        ∀ i < z.length, ∀ j < x.length, T.at' i j = some (f (x.getD j 0) (z.getD i 0)) := by
  refine ⟨fun t z => Tm * erf (z / (2 * √(k * (secondsPerMyr * t)))), ?_⟩
  intro u rhom rhow a x z hr hz hx
  have hW : (x.map (ageSeconds true u)).map (halfspaceSubsidence (2 * rhom * a * (Tm - 0) / (rhom - rhow)) k) =
      x.map fun t => some (isostaticSubsidence rhom rhow a Tm (fun z => Tm * erf (z / (2 * √(k * (secondsPerMyr * t)))))) := by
    rw [List.map_map]
    apply List.map_congr_left
    intro t ht
    have ht0 : 0 < secondsPerMyr * t := mul_pos myr_pos (hx t ht)
    have hp := Real.pi_pos
    simp only [Function.comp, age_eq]
    generalize secondsPerMyr * t = s at ht0
    have h0 : (0 : ℝ) ≤ k * s / Real.pi := by positivity
    unfold halfspaceSubsidence sqrtR isostaticSubsidence
    have hs : 0 < 2 * √(k * s) := by positivity
    have hi : (fun z => a * (Tm - Tm * erf (z / (2 * √(k * s))))) = fun z => (a * Tm) * (1 - erf (z / (2 * √(k * s)))) := by
      funext z; ring
    rw [hi, integral_const_mul, integral_erfc _ hs]
    simp only [Option.bind_eq_bind, Option.bind_some, if_pos h0, Option.pure_def, sub_zero]
    rw [Real.sqrt_div (by positivity)]
    congr 1
    ring
  refine ⟨⟨z.length, x.length, fun i j => halfspaceNode Tm k ((x.map (ageSeconds true u)).getD j none) (z.getD i 0)⟩, ?_, rfl, rfl, ?_⟩
  · unfold thermHalfspace
    simp only
    rw [if_neg (sub_ne_zero.mpr hr), if_neg hz, hW]
  · intro i _ j hj
    have hxj : 0 < x.getD j 0 := by
      apply hx
      rw [List.getD_eq_getElem?_getD, List.getElem?_eq_getElem hj]
      exact List.getElem_mem hj
    have ht0 : 0 < secondsPerMyr * x.getD j 0 := mul_pos myr_pos hxj
    simp only
    rw [getD_map_age x u j hj]
    generalize secondsPerMyr * x.getD j 0 = s at ht0
    have hs : 0 < √(k * s) := by positivity
    have h0 : (0 : ℝ) ≤ k * s := by positivity
    unfold halfspaceNode sqrtR erfQuot
    simp [h0, hs.ne']

/-- The temperature in a plate at age `t` (in seconds), as `therm_plate` gives it. -/
private noncomputable def plateT (L Tm k t z : ℝ) : ℝ := if L < z then Tm else Tm * plateSeries 10 L k t z

private theorem plate_iso (rhom rhow a Tm L k t : ℝ) (hL : 0 < L) :
    isostaticSubsidence rhom rhow a Tm (plateT L Tm k t) = rhom * a * Tm * L / (rhom - rhow) *
      (1 / 2 - ∑ n ∈ Finset.Icc (1 : ℕ) 10, 2 / (n * Real.pi) ^ 2 * (1 - (-1) ^ n) * Real.exp (-(n * Real.pi / L) ^ 2 * k * t)) := by
  unfold isostaticSubsidence
  have hI : ∫ z in Set.Ioi (0 : ℝ), a * (Tm - plateT L Tm k t z) = ∫ z in (0 : ℝ)..L, a * Tm * (1 - plateSeries 10 L k t z) := by
    rw [intervalIntegral.integral_of_le hL.le]
    rw [← Set.Ioc_union_Ioi_eq_Ioi hL.le]
    have hc : Continuous fun z : ℝ => a * Tm * (1 - plateSeries 10 L k t z) := by
      unfold plateSeries
      fun_prop
    have e1 : Set.EqOn (fun z => a * (Tm - plateT L Tm k t z)) (fun z => a * Tm * (1 - plateSeries 10 L k t z)) (Set.Ioc 0 L) := by
      intro z hz
      simp only [plateT, if_neg (not_lt.mpr hz.2)]
      ring
    have e2 : Set.EqOn (fun z => a * (Tm - plateT L Tm k t z)) (fun _ => (0 : ℝ)) (Set.Ioi L) := by
      intro z hz
      simp only [plateT, if_pos (show L < z from hz), sub_self, mul_zero]
    rw [setIntegral_union (Set.Ioc_disjoint_Ioi le_rfl) measurableSet_Ioi, setIntegral_congr_fun measurableSet_Ioc e1,
      setIntegral_congr_fun measurableSet_Ioi e2, integral_zero, add_zero]
    · exact (integrableOn_congr_fun e1 measurableSet_Ioc).mpr (hc.integrableOn_Ioc)
    · exact (integrableOn_congr_fun e2 measurableSet_Ioi).mpr integrableOn_zero
  rw [hI, intervalIntegral.integral_const_mul, integral_series 10 L k t hL]
  ring

/-- What the three terms of the subsidence leave out. -/
private theorem plate_rest (c L k t : ℝ) : plateSubsidence c L k t =
    c * (1 / 2 - ∑ n ∈ Finset.Icc (1 : ℕ) 10, 2 / (n * Real.pi) ^ 2 * (1 - (-1) ^ n) * Real.exp (-(n * Real.pi / L) ^ 2 * k * t)) +
      c * (4 / Real.pi ^ 2 * (Real.exp (-(7 * Real.pi / L) ^ 2 * k * t) / 49 + Real.exp (-(9 * Real.pi / L) ^ 2 * k * t) / 81)) := by
  have hp := Real.pi_ne_zero
  have e1 : -k * Real.pi ^ 2 * t / L ^ 2 = -(1 * Real.pi / L) ^ 2 * k * t := by ring
  have e2 : -k * 9 * Real.pi ^ 2 * t / L ^ 2 = -(3 * Real.pi / L) ^ 2 * k * t := by ring
  have e3 : -k * 25 * Real.pi ^ 2 * t / L ^ 2 = -(5 * Real.pi / L) ^ 2 * k * t := by ring
  unfold plateSubsidence
  rw [e1, e2, e3]
  have : Finset.Icc 1 10 = ({1, 2, 3, 4, 5, 6, 7, 8, 9, 10} : Finset ℕ) := by decide
  rw [this]
  simp [Finset.sum_insert]
  norm_num
  field_simp
  ring

/-- **C125 (partial).** Plate: the subsidence exceeds the isostatic response to the temperatures returned beside it, by two terms of the
series; never by more than 1.4 % of the scale, and ever less as the plate grows older.
Missing: equality, which does not hold (`C125_refuted`). -/
theorem C125_partial (zL0 Tm k : ℝ) (hL : 0 < zL0) : ∃ f : ℝ → ℝ → ℝ,
    ∀ (u rhom rhow a : ℝ) (x z : List ℝ), rhom ≠ rhow → z ≠ [] →
      ∃ T, thermPlate x z u zL0 Tm true rhom rhow a k = .ok (T, x.map fun t => some (isostaticSubsidence rhom rhow a Tm (f t) +
          rhom * a * Tm * zL0 / (rhom - rhow) * (4 / Real.pi ^ 2 *
            (Real.exp (-(7 * Real.pi / zL0) ^ 2 * k * (secondsPerMyr * t)) / 49 + Real.exp (-(9 * Real.pi / zL0) ^ 2 * k * (secondsPerMyr * t)) / 81)))) ∧
        T.rows = z.length ∧ T.cols = x.length ∧
        ∀ i < z.length, ∀ j < x.length, T.at' i j = some (f (x.getD j 0) (z.getD i 0)) := by
  refine ⟨fun t z => plateT zL0 Tm k (secondsPerMyr * t) z, ?_⟩
  intro u rhom rhow a x z hr hz
  obtain ⟨T, W, h, hrows, hcols, hn⟩ := C77_nodes x z u zL0 Tm rhom rhow a k hz hr
  refine ⟨T, ?_, hrows, hcols, fun i hi j hj => hn i hi j hj⟩
  rw [h]
  have hW : W = (x.map (ageSeconds true u)).map fun t => t.map (plateSubsidence (rhom * a * (Tm - 0) * zL0 / (rhom - rhow)) zL0 k) := by
    unfold thermPlate at h
    simp only at h
    rw [if_neg hz, if_neg (sub_ne_zero.mpr hr)] at h
    injection h with h
    exact (congrArg Prod.snd h).symm
  rw [hW, List.map_map]
  congr 2
  apply List.map_congr_left
  intro t _
  simp only [Function.comp, age_eq, Option.map_some, sub_zero]
  rw [plate_rest, plate_iso _ _ _ _ _ _ _ hL]

/-- **C125 (partial), size.** The two terms: positive, at most 1.4 %, and less than the seventh term allows. -/
theorem C125_size (zL0 k t : ℝ) (hL : 0 < zL0) (hk : 0 < k) (ht : 0 ≤ t) :
    0 < 4 / Real.pi ^ 2 * (Real.exp (-(7 * Real.pi / zL0) ^ 2 * k * t) / 49 + Real.exp (-(9 * Real.pi / zL0) ^ 2 * k * t) / 81) ∧
    4 / Real.pi ^ 2 * (Real.exp (-(7 * Real.pi / zL0) ^ 2 * k * t) / 49 + Real.exp (-(9 * Real.pi / zL0) ^ 2 * k * t) / 81) ≤
      14 / 1000 * Real.exp (-(7 * Real.pi / zL0) ^ 2 * k * t) := by
  have hp := Real.pi_pos
  have h3 := Real.pi_gt_d2
  have he := Real.exp_pos (-(7 * Real.pi / zL0) ^ 2 * k * t)
  have hle : Real.exp (-(9 * Real.pi / zL0) ^ 2 * k * t) ≤ Real.exp (-(7 * Real.pi / zL0) ^ 2 * k * t) := by
    apply Real.exp_le_exp.mpr
    have h1 : 0 ≤ (Real.pi / zL0) ^ 2 * (k * t) := by positivity
    have e7 : -(7 * Real.pi / zL0) ^ 2 * k * t = -(49 * ((Real.pi / zL0) ^ 2 * (k * t))) := by ring
    have e9 : -(9 * Real.pi / zL0) ^ 2 * k * t = -(81 * ((Real.pi / zL0) ^ 2 * (k * t))) := by ring
    rw [e7, e9]
    linarith
  refine ⟨by positivity, ?_⟩
  have h4 : 4 / Real.pi ^ 2 ≤ 4 / 9.8 := by
    apply div_le_div_of_nonneg_left (by norm_num) (by norm_num)
    nlinarith
  have h5 : Real.exp (-(7 * Real.pi / zL0) ^ 2 * k * t) / 49 + Real.exp (-(9 * Real.pi / zL0) ^ 2 * k * t) / 81 ≤
      (1 / 49 + 1 / 81) * Real.exp (-(7 * Real.pi / zL0) ^ 2 * k * t) := by linarith
  calc _ ≤ 4 / 9.8 * ((1 / 49 + 1 / 81) * Real.exp (-(7 * Real.pi / zL0) ^ 2 * k * t)) :=
        mul_le_mul h4 h5 (by positivity) (by norm_num)
    _ ≤ _ := by nlinarith

/-- **C125 refuted.** No function of age and depth that gives the temperatures of every call gives the subsidence as well: it is too large
at every age. -/
theorem C125_refuted (zL0 Tm k u rhom rhow a : ℝ) (hL : 0 < zL0) (hTm : 0 < Tm) (hr : rhow < rhom) (hrm : 0 < rhom) (ha : 0 < a)
    (f : ℝ → ℝ → ℝ) (age : ℝ)
    (hf : ∀ d, 0 < d → ∃ T W, thermPlate [age] [d] u zL0 Tm true rhom rhow a k = .ok (T, W) ∧ T.at' 0 0 = some (f age d)) :
    ∃ T w, thermPlate [age] [zL0] u zL0 Tm true rhom rhow a k = .ok (T, [some w]) ∧ isostaticSubsidence rhom rhow a Tm (f age) < w := by
  obtain ⟨g, hg⟩ := C125_partial zL0 Tm k hL
  obtain ⟨T, h, _, _, _⟩ := hg u rhom rhow a [age] [zL0] hr.ne' (by simp)
  refine ⟨T, _, h, ?_⟩
  have hfg : isostaticSubsidence rhom rhow a Tm (f age) = isostaticSubsidence rhom rhow a Tm (g age) := by
    unfold isostaticSubsidence
    congr 1
    apply setIntegral_congr_fun measurableSet_Ioi
    intro d hd
    obtain ⟨T1, W1, h1, hn1⟩ := hf d hd
    obtain ⟨T2, h2, _, _, hn2⟩ := hg u rhom rhow a [age] [d] hr.ne' (by simp)
    rw [h2] at h1
    injection h1 with h1
    have h1' := congrArg Prod.fst h1
    simp only at h1'
    have := hn2 0 (by simp) 0 (by simp)
    rw [h1', hn1] at this
    simp only [List.getD_cons_zero] at this
    injection this with this
    simp only [this]
  rw [hfg]
  have hp := Real.pi_pos
  have hd : 0 < rhom - rhow := by linarith
  have : 0 < rhom * a * Tm * zL0 / (rhom - rhow) * (4 / Real.pi ^ 2 *
            (Real.exp (-(7 * Real.pi / zL0) ^ 2 * k * (secondsPerMyr * age)) / 49 + Real.exp (-(9 * Real.pi / zL0) ^ 2 * k * (secondsPerMyr * age)) / 81)) := by
    positivity
  linarith

/-! ## Non-vacuity -/

/-- The values of the documentation, for a sea floor of one and of four million years. -/
example : ∃ f : ℝ → ℝ → ℝ, ∃ T, thermHalfspace [1, 4] [0, 10000] 0.02 1350 true 3300 1000 3e-5 1e-6 =
    .ok (T, [some (isostaticSubsidence 3300 1000 3e-5 1350 (f 1)), some (isostaticSubsidence 3300 1000 3e-5 1350 (f 4))]) := by
  obtain ⟨f, hf⟩ := C124_halfspace 1350 1e-6 (by norm_num)
  obtain ⟨T, h, _⟩ := hf 0.02 3300 1000 3e-5 [1, 4] [0, 10000] (by norm_num) (by simp) (by simp)
  exact ⟨f, T, h⟩

/-- A function as in `C125_refuted` exists. -/
example : ∃ f : ℝ → ℝ → ℝ, ∀ d, 0 < d → ∃ T W, thermPlate [1] [d] 0.02 100000 1350 true 3300 1000 3e-5 1e-6 = .ok (T, W) ∧
    T.at' 0 0 = some (f 1 d) := by
  obtain ⟨f, hf⟩ := C125_partial 100000 1350 1e-6 (by norm_num)
  refine ⟨f, fun d _ => ?_⟩
  obtain ⟨T, h, _, _, hn⟩ := hf 0.02 3300 1000 3e-5 [1] [d] (by norm_num) (by simp)
  exact ⟨T, _, h, hn 0 (by simp) 0 (by simp)⟩

end Shipgrav
