import Verif.Lemmas.CoolingTheta
import Verif.Lemmas.Isostasy
import Verif.Props.CoolingPlate
import Verif.Props.CoolingHalfspace
import Mathlib.Analysis.Complex.ExponentialBounds

/-! Property theorems C158: `therm_plate` and `therm_halfspace` against each other. -/

namespace Shipgrav
open Spec Topology Filter Set MeasureTheory

private theorem cmpMyr_pos : 0 < secondsPerMyr := by unfold secondsPerMyr; norm_num

/-- **C158, what is to be expected.** A plate that cools is hotter than a half-space that cools, at all times and depths, and by no more than what
the half-space has lost at the depth of the base of the plate. -/
theorem C158_plate_hotter (L k Tm : ℝ) (hL : 0 < L) (hk : 0 < k) (hTm : 0 ≤ Tm) (T H : ℝ → ℝ → ℝ) (hT : CoolingPlate L k Tm T)
    (hH : CoolingHalfspace k Tm H) (t z : ℝ) (ht : 0 < t) (hz : 0 ≤ z) :
    H t z ≤ plateAndMantle L Tm (T t) z ∧ plateAndMantle L Tm (T t) z ≤ H t z + (Tm - H t L) := by
  rw [CoolingHalfspace.unique hk.le hH (halfspaceTemp_cooling hk Tm) _ ht _ hz,
    CoolingHalfspace.unique hk.le hH (halfspaceTemp_cooling hk Tm) _ ht _ hL.le]
  have hkt : 0 < 2 * √(k * t) := by positivity
  unfold halfspaceTemp plateAndMantle
  split
  · rename_i h
    rw [CoolingPlate.unique hL hk.le hT (plateLimit_cooling hL hk Tm) _ ht _ ⟨hz, h⟩]
    have hm := (plate_sub_halfspace_strictMono hL hk ht).monotone
    have h1 := hm hz
    have h2 := hm h
    simp only [plateLimit_zero, plateLimit_base hL hk ht, zero_div, erf_zero, sub_self] at h1 h2
    constructor <;> nlinarith
  · rename_i h
    have h1 := erf_lt_one (z / (2 * √(k * t)))
    have h2 : erf (L / (2 * √(k * t))) ≤ erf (z / (2 * √(k * t))) := erf_strictMono.monotone (by gcongr; linarith)
    constructor <;> nlinarith

/-- **C158, temperatures.** At every age after the beginning and every depth, in the plate or below, the temperatures of `therm_plate` and
`therm_halfspace` differ by no more than the half-space has lost at the base of the plate and the terms beyond the tenth can contribute. -/
theorem C158_temperature (zL0 k Tm : ℝ) (hL : 0 < zL0) (hk : 0 < k) (hTm : 0 ≤ Tm) (x z : List ℝ) (u rhom rhow a : ℝ) (hz : z ≠ [])
    (hr : rhom ≠ rhow) (hx : ∀ t ∈ x, 0 < t) (hz0 : ∀ d ∈ z, 0 ≤ d) :
    ∃ P H WP WH, thermPlate x z u zL0 Tm true rhom rhow a k = .ok (P, WP) ∧ thermHalfspace x z u Tm true rhom rhow a k = .ok (H, WH) ∧
      ∀ i < z.length, ∀ j < x.length, ∃ p h, P.at' i j = some p ∧ H.at' i j = some h ∧
        h - Tm * (2 / (11 * Real.pi) * (plateDecay zL0 k (secondsPerMyr * x.getD j 0) ^ 121 / (1 - plateDecay zL0 k (secondsPerMyr * x.getD j 0) ^ 23))) ≤ p ∧
        p ≤ h + Tm * (2 / (11 * Real.pi) * (plateDecay zL0 k (secondsPerMyr * x.getD j 0) ^ 121 / (1 - plateDecay zL0 k (secondsPerMyr * x.getD j 0) ^ 23))) +
          Tm * (2 / zL0 * √(k * (secondsPerMyr * x.getD j 0) / Real.pi) * Real.exp (-(zL0 ^ 2 / (4 * (k * (secondsPerMyr * x.getD j 0)))))) := by
  obtain ⟨T, hT, _⟩ := C156_one_plate zL0 k Tm hL hk
  obtain ⟨H, hH, _⟩ := C157_one_halfspace k Tm hk
  obtain ⟨P, WP, hP, _, _, hPn⟩ := C77_nodes x z u zL0 Tm rhom rhow a k hz hr
  obtain ⟨P', WP', hP', _, _, hPv⟩ := C156_temperature zL0 k Tm hL hk T hT x z u rhom rhow a hz hr
  obtain ⟨M, hM, _, _, hMn⟩ := C157_exact k Tm hk H hH x z u rhom rhow a hr hz hx
  rw [hP] at hP'
  injection hP' with hP'
  injection hP' with e _
  subst e
  refine ⟨P, M, WP, _, hP, hM, fun i hi j hj => ?_⟩
  have hxj : 0 < x.getD j 0 := by
    apply hx
    rw [List.getD_eq_getElem?_getD, List.getElem?_eq_getElem hj]
    exact List.getElem_mem hj
  have hzi : 0 ≤ z.getD i 0 := by
    apply hz0
    rw [List.getD_eq_getElem?_getD, List.getElem?_eq_getElem hi]
    exact List.getElem_mem hi
  have ht : 0 < secondsPerMyr * x.getD j 0 := mul_pos cmpMyr_pos hxj
  have hcmp := C158_plate_hotter zL0 k Tm hL hk hTm T H hT hH _ _ ht hzi
  have hloss : Tm - H (secondsPerMyr * x.getD j 0) zL0 ≤
      Tm * (2 / zL0 * √(k * (secondsPerMyr * x.getD j 0) / Real.pi) * Real.exp (-(zL0 ^ 2 / (4 * (k * (secondsPerMyr * x.getD j 0)))))) := by
    rw [CoolingHalfspace.unique hk.le hH (halfspaceTemp_cooling hk Tm) _ ht _ hL.le]
    generalize secondsPerMyr * x.getD j 0 = t at ht
    have hkt : 0 < k * t := mul_pos hk ht
    have hs : 0 < √(k * t) := Real.sqrt_pos.mpr hkt
    have := erfc_le (zL0 / (2 * √(k * t))) (by positivity)
    unfold halfspaceTemp
    rw [show Tm - Tm * erf (zL0 / (2 * √(k * t))) = Tm * (1 - erf (zL0 / (2 * √(k * t)))) by ring]
    refine mul_le_mul_of_nonneg_left (this.trans (le_of_eq ?_)) hTm
    rw [Real.sqrt_div hkt.le, div_pow, mul_pow, Real.sq_sqrt hkt.le]
    have hp : √Real.pi ≠ 0 := (Real.sqrt_pos.mpr Real.pi_pos).ne'
    norm_num
    field_simp
  have q0 := plateDecay_pos zL0 k (secondsPerMyr * x.getD j 0)
  have q1 := plateDecay_lt_one hL hk ht
  have hp := Real.pi_pos
  have hB0 : 0 ≤ Tm * (2 / (11 * Real.pi) * (plateDecay zL0 k (secondsPerMyr * x.getD j 0) ^ 121 /
      (1 - plateDecay zL0 k (secondsPerMyr * x.getD j 0) ^ 23))) := by
    have : 0 ≤ 1 - plateDecay zL0 k (secondsPerMyr * x.getD j 0) ^ 23 := sub_nonneg.mpr (pow_le_one₀ q0.le q1.le)
    positivity
  by_cases hin : z.getD i 0 ≤ zL0
  · obtain ⟨p, hp, hb⟩ := hPv i hi j hj ⟨hzi, hin⟩ hxj
    refine ⟨p, _, hp, hMn i hi j hj hzi, ?_⟩
    rw [abs_of_nonneg hTm, abs_le] at hb
    unfold plateAndMantle at hcmp
    rw [if_pos hin] at hcmp
    constructor <;> linarith [hb.1, hb.2, hcmp.1, hcmp.2]
  · refine ⟨Tm, _, by rw [hPn i hi j hj, if_pos (not_le.mp hin)], hMn i hi j hj hzi, ?_⟩
    unfold plateAndMantle at hcmp
    rw [if_neg hin] at hcmp
    constructor <;> linarith [hcmp.1, hcmp.2]

/-- **C158, subsidence.** At every age after the beginning the sea floor above the plate is no deeper than `therm_halfspace` returns, and what
`therm_plate` returns is no deeper than that by more than the terms beyond the third can contribute. -/
theorem C158_subsidence (zL0 k Tm : ℝ) (hL : 0 < zL0) (hk : 0 < k) (hTm : 0 ≤ Tm) (x z : List ℝ) (u rhom rhow a : ℝ) (hz : z ≠ [])
    (hm : 0 ≤ rhom) (hr : rhow < rhom) (ha : 0 ≤ a) (hx : ∀ t ∈ x, 0 < t) :
    ∃ P H WP WH, thermPlate x z u zL0 Tm true rhom rhow a k = .ok (P, WP) ∧ thermHalfspace x z u Tm true rhom rhow a k = .ok (H, WH) ∧
      ∀ j < x.length, ∃ p h, WP.getD j none = some p ∧ WH.getD j none = some h ∧
        (∀ T, CoolingPlate zL0 k Tm T → isostaticSubsidence rhom rhow a Tm (plateAndMantle zL0 Tm (T (secondsPerMyr * x.getD j 0))) ≤ h) ∧
        p ≤ h + rhom * a * Tm * zL0 / (rhom - rhow) * (4 / (49 * Real.pi ^ 2) *
          (plateDecay zL0 k (secondsPerMyr * x.getD j 0) ^ 49 / (1 - plateDecay zL0 k (secondsPerMyr * x.getD j 0) ^ 32))) := by
  obtain ⟨T, hT, _⟩ := C156_one_plate zL0 k Tm hL hk
  obtain ⟨H, hH, _⟩ := C157_one_halfspace k Tm hk
  obtain ⟨P, WP, hP, _, hPw⟩ := C156_subsidence zL0 k Tm hL hk hTm T hT x z u rhom rhow a hz hm hr ha
  obtain ⟨M, hM, _⟩ := C157_exact k Tm hk H hH x z u rhom rhow a hr.ne' hz hx
  refine ⟨P, M, WP, _, hP, hM, fun j hj => ?_⟩
  have hxj : 0 < x.getD j 0 := by
    apply hx
    rw [List.getD_eq_getElem?_getD, List.getElem?_eq_getElem hj]
    exact List.getElem_mem hj
  have ht : 0 < secondsPerMyr * x.getD j 0 := mul_pos cmpMyr_pos hxj
  have hord : ∀ T, CoolingPlate zL0 k Tm T → isostaticSubsidence rhom rhow a Tm (plateAndMantle zL0 Tm (T (secondsPerMyr * x.getD j 0))) ≤
      isostaticSubsidence rhom rhow a Tm (H (secondsPerMyr * x.getD j 0)) := by
    intro T hT
    generalize secondsPerMyr * x.getD j 0 = t at ht
    have hkt : 0 < 2 * √(k * t) := by positivity
    unfold isostaticSubsidence
    refine mul_le_mul_of_nonneg_left ?_ (div_nonneg hm (by linarith))
    have hI : IntegrableOn (fun z => 1 - erf (z / (2 * √(k * t)))) (Ioi 0) := by
      by_contra hn
      have h := integral_erfc (2 * √(k * t)) hkt
      rw [integral_undef hn] at h
      have : 0 < 2 * √(k * t) / √Real.pi := div_pos hkt (Real.sqrt_pos.mpr Real.pi_pos)
      linarith
    have hHe : EqOn (fun z => a * (Tm - H t z)) (fun z => a * Tm * (1 - erf (z / (2 * √(k * t))))) (Ioi 0) := by
      intro z hz
      beta_reduce
      rw [CoolingHalfspace.unique hk.le hH (halfspaceTemp_cooling hk Tm) _ ht _ (le_of_lt hz)]
      unfold halfspaceTemp
      ring
    refine integral_mono_of_nonneg ?_ ((integrableOn_congr_fun hHe measurableSet_Ioi).mpr (hI.const_mul _)) ?_
    · refine (ae_restrict_mem measurableSet_Ioi).mono fun z hz => ?_
      have hz : 0 < z := hz
      refine mul_nonneg ha (sub_nonneg.mpr ?_)
      unfold plateAndMantle
      split
      · rename_i h
        rw [CoolingPlate.unique hL hk.le hT (plateLimit_cooling hL hk Tm) _ ht _ ⟨hz.le, h⟩]
        have := (plateLimit_strictMono hL hk ht).monotone h
        rw [plateLimit_base hL hk ht] at this
        exact mul_le_of_le_one_right hTm this
      · exact le_rfl
    · refine (ae_restrict_mem measurableSet_Ioi).mono fun z hz => ?_
      have := (C158_plate_hotter zL0 k Tm hL hk hTm T H hT hH t z ht (le_of_lt hz)).1
      refine mul_le_mul_of_nonneg_left ?_ ha
      linarith
  obtain ⟨p, hp, _, hb⟩ := hPw j hj hxj
  refine ⟨p, _, hp, ?_, hord, ?_⟩
  · rw [List.getD_eq_getElem?_getD, List.getElem?_map, List.getElem?_eq_getElem hj]
    simp only [Option.map_some, Option.getD_some]
    rw [List.getD_eq_getElem?_getD, List.getElem?_eq_getElem hj, Option.getD_some]
  · linarith [hord T hT]

/-- **C158, values of the documentation.** With the default values the two models differ by at most 7.5 degrees at all depths from 2 to 20
million years. -/
theorem C158_defaults (x z : List ℝ) (u : ℝ) (hz : z ≠ []) (hx : ∀ t ∈ x, 2 ≤ t ∧ t ≤ 20) (hz0 : ∀ d ∈ z, 0 ≤ d) :
    ∃ P H WP WH, thermPlate x z u 1e5 1350 true 3300 1000 3e-5 1e-6 = .ok (P, WP) ∧
      thermHalfspace x z u 1350 true 3300 1000 3e-5 1e-6 = .ok (H, WH) ∧
      ∀ i < z.length, ∀ j < x.length, ∃ p h, P.at' i j = some p ∧ H.at' i j = some h ∧ |p - h| ≤ 7.5 := by
  obtain ⟨P, H, WP, WH, hP, hH, hn⟩ := C158_temperature 1e5 1e-6 1350 (by norm_num) (by norm_num) (by norm_num) x z u 3300 1000 3e-5 hz (by norm_num)
    (fun t ht => by linarith [(hx t ht).1]) hz0
  refine ⟨P, H, WP, WH, hP, hH, fun i hi j hj => ?_⟩
  obtain ⟨p, h, hp, hh, hlo, hup⟩ := hn i hi j hj
  refine ⟨p, h, hp, hh, ?_⟩
  have hxj : 2 ≤ x.getD j 0 ∧ x.getD j 0 ≤ 20 := by
    apply hx
    rw [List.getD_eq_getElem?_getD, List.getElem?_eq_getElem hj]
    exact List.getElem_mem hj
  generalize x.getD j 0 = age at *
  have hpi := Real.pi_gt_d2
  have hpi0 := Real.pi_pos
  have b1 : 1350 * (2 / (11 * Real.pi) * (plateDecay 1e5 1e-6 (secondsPerMyr * age) ^ 121 /
      (1 - plateDecay 1e5 1e-6 (secondsPerMyr * age) ^ 23))) ≤ 0.1 := by
    have hd := decay_defaults 2 age (by exact_mod_cast hxj.1)
    have hr : (10000 / 10311 : ℝ) ^ 2 < 1 := by norm_num
    have q := decay_quot_le 121 23 (by norm_num) (plateDecay_pos _ _ _).le hd hr
    have hq1 := plateDecay_pos 1e5 1e-6 (secondsPerMyr * age)
    have hpos : 0 ≤ plateDecay 1e5 1e-6 (secondsPerMyr * age) ^ 121 / (1 - plateDecay 1e5 1e-6 (secondsPerMyr * age) ^ 23) :=
      div_nonneg (by positivity) (sub_nonneg.mpr (pow_le_one₀ hq1.le (hd.trans hr.le)))
    have c1 : 2 / (11 * Real.pi) ≤ 2 / (11 * 3.14) := by
      refine div_le_div_of_nonneg_left (by norm_num) (by norm_num) (by nlinarith)
    refine (mul_le_mul_of_nonneg_left (mul_le_mul c1 q hpos (by norm_num)) (by norm_num)).trans ?_
    norm_num
  have b2 : 1350 * (2 / 1e5 * √(1e-6 * (secondsPerMyr * age) / Real.pi) * Real.exp (-(1e5 ^ 2 / (4 * (1e-6 * (secondsPerMyr * age)))))) ≤ 7.4 := by
    have ekt : (1e-6 : ℝ) * (secondsPerMyr * age) = 31557600 * age := by unfold secondsPerMyr; ring
    rw [ekt]
    have s1 : √(31557600 * age / Real.pi) ≤ 14180 := by
      rw [Real.sqrt_le_left (by norm_num), div_le_iff₀ hpi0]
      nlinarith
    have s2 : Real.exp (-(1e5 ^ 2 / (4 * (31557600 * age)))) ≤ 1 / 52.3 := by
      have h1 : (3.96 : ℝ) ≤ 1e5 ^ 2 / (4 * (31557600 * age)) := by
        rw [le_div_iff₀ (by linarith [hxj.1])]
        nlinarith [hxj.2]
      refine (Real.exp_le_exp.mpr (neg_le_neg h1)).trans ?_
      rw [Real.exp_neg, ← one_div]
      refine one_div_le_one_div_of_le (by norm_num) ?_
      have e1 := Real.exp_one_gt_d9
      have e2 := Real.add_one_le_exp (-0.04 : ℝ)
      have e3 : Real.exp 3.96 = Real.exp 1 ^ 4 * Real.exp (-0.04) := by
        rw [← Real.exp_nat_mul, ← Real.exp_add]
        norm_num
      have e4 : (2.718 : ℝ) ^ 4 ≤ Real.exp 1 ^ 4 := pow_le_pow_left₀ (by norm_num) (by linarith) 4
      rw [e3]
      calc (52.3 : ℝ) ≤ 2.718 ^ 4 * (-0.04 + 1) := by norm_num
        _ ≤ Real.exp 1 ^ 4 * Real.exp (-0.04) := mul_le_mul e4 e2 (by norm_num) (by positivity)
    calc 1350 * (2 / 1e5 * √(31557600 * age / Real.pi) * Real.exp (-(1e5 ^ 2 / (4 * (31557600 * age)))))
        ≤ 1350 * (2 / 1e5 * 14180 * (1 / 52.3)) := by gcongr
      _ ≤ 7.4 := by norm_num
  rw [abs_le]
  constructor <;> linarith

/-! ## Non-vacuity -/

/-- A plate and a half-space of the values of the documentation, 10 million years old, at 0, 30 and 120 km. -/
example : ∃ P H WP WH p h, thermPlate [10] [0, 3e4, 1.2e5] 0.01 1e5 1350 true 3300 1000 3e-5 1e-6 = .ok (P, WP) ∧
    thermHalfspace [10] [0, 3e4, 1.2e5] 0.01 1350 true 3300 1000 3e-5 1e-6 = .ok (H, WH) ∧ P.at' 1 0 = some p ∧ H.at' 1 0 = some h ∧ |p - h| ≤ 7.5 := by
  obtain ⟨P, H, WP, WH, hP, hH, hn⟩ := C158_defaults [10] [0, 3e4, 1.2e5] 0.01 (by simp) (by intro t ht; simp at ht; subst ht; norm_num)
    (by intro t ht; simp at ht; rcases ht with rfl | rfl | rfl <;> norm_num)
  obtain ⟨p, h, hp, hh, hb⟩ := hn 1 (by simp) 0 (by simp)
  exact ⟨P, H, WP, WH, p, h, hP, hH, hp, hh, hb⟩

/-- Both kinds of cooling rock exist. -/
example : ∃ T H, CoolingPlate 1e5 1e-6 1350 T ∧ CoolingHalfspace 1e-6 1350 H ∧ H secondsPerMyr 5e4 ≤ plateAndMantle 1e5 1350 (T secondsPerMyr) 5e4 := by
  obtain ⟨T, hT, _⟩ := C156_one_plate 1e5 1e-6 1350 (by norm_num) (by norm_num)
  obtain ⟨H, hH, _⟩ := C157_one_halfspace 1e-6 1350 (by norm_num)
  exact ⟨T, H, hT, hH, (C158_plate_hotter 1e5 1e-6 1350 (by norm_num) (by norm_num) (by norm_num) T H hT hH _ _ cmpMyr_pos (by norm_num)).1⟩

end Shipgrav
