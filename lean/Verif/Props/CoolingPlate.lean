import Verif.Lemmas.CoolingTail
import Verif.Props.Plate
import Mathlib.Analysis.Real.Pi.Bounds

/-! Property theorems C156: `therm_plate` against a plate that cools. -/

namespace Shipgrav
open Spec Topology Filter Set MeasureTheory

/-- **C156.** There is a plate that cools, and no other. -/
theorem C156_one_plate (L k Tm : ℝ) (hL : 0 < L) (hk : 0 < k) :
    ∃ T, CoolingPlate L k Tm T ∧ ∀ T', CoolingPlate L k Tm T' → ∀ t > 0, ∀ z ∈ Icc 0 L, T' t z = T t z :=
  ⟨_, plateLimit_cooling hL hk Tm, fun _ h' => CoolingPlate.unique hL hk.le h' (plateLimit_cooling hL hk Tm)⟩

private theorem coolMyr_pos : 0 < secondsPerMyr := by unfold secondsPerMyr; norm_num

private theorem cool_age_eq (u x : ℝ) : ageSeconds true u x = some (secondsPerMyr * x) := by
  unfold ageSeconds secyr secondsPerMyr
  rw [if_pos rfl]
  congr 1
  norm_num
  ring

private theorem getD_mem_pos (x : List ℝ) (hx : ∀ t ∈ x, 0 < t) (j : ℕ) (hj : j < x.length) : 0 < x.getD j 0 := by
  apply hx
  rw [List.getD_eq_getElem?_getD, List.getElem?_eq_getElem hj]
  exact List.getElem_mem hj

/-- **C156, temperatures.** At every age after the beginning and every depth in the plate the temperature returned is that of the cooling
plate, up to what the terms beyond the tenth can contribute. -/
theorem C156_temperature (zL0 k Tm : ℝ) (hL : 0 < zL0) (hk : 0 < k) (T : ℝ → ℝ → ℝ) (hT : CoolingPlate zL0 k Tm T)
    (x z : List ℝ) (u rhom rhow a : ℝ) (hz : z ≠ []) (hr : rhom ≠ rhow) :
    ∃ M W, thermPlate x z u zL0 Tm true rhom rhow a k = .ok (M, W) ∧ M.rows = z.length ∧ M.cols = x.length ∧
      ∀ i < z.length, ∀ j < x.length, z.getD i 0 ∈ Icc 0 zL0 → 0 < x.getD j 0 → ∃ v, M.at' i j = some v ∧
        |v - T (secondsPerMyr * x.getD j 0) (z.getD i 0)| ≤ |Tm| * (2 / (11 * Real.pi) *
          (plateDecay zL0 k (secondsPerMyr * x.getD j 0) ^ 121 / (1 - plateDecay zL0 k (secondsPerMyr * x.getD j 0) ^ 23))) := by
  obtain ⟨M, W, h, hrows, hcols, hn⟩ := C77_nodes x z u zL0 Tm rhom rhow a k hz hr
  refine ⟨M, W, h, hrows, hcols, fun i hi j hj hzi hxj => ⟨_, hn i hi j hj, ?_⟩⟩
  have ht : 0 < secondsPerMyr * x.getD j 0 := mul_pos coolMyr_pos hxj
  rw [if_neg (not_lt.mpr hzi.2), CoolingPlate.unique hL hk.le hT (plateLimit_cooling hL hk Tm) _ ht _ hzi, ← mul_sub, abs_mul]
  exact mul_le_mul_of_nonneg_left (plate_tail hL hk ht _) (abs_nonneg _)

private theorem cool_iso {L k Tm : ℝ} (hL : 0 < L) {T : ℝ → ℝ → ℝ} (hT : CoolingPlate L k Tm T) (rhom rhow a t : ℝ) (ht : 0 < t) :
    isostaticSubsidence rhom rhow a Tm (plateAndMantle L Tm (T t)) = rhom / (rhom - rhow) * (a * ∫ z in (0 : ℝ)..L, (Tm - T t z)) := by
  unfold isostaticSubsidence
  congr 1
  rw [← intervalIntegral.integral_const_mul, intervalIntegral.integral_of_le hL.le, ← Set.Ioc_union_Ioi_eq_Ioi hL.le]
  have hc : ContinuousOn (fun z : ℝ => a * (Tm - T t z)) (Icc 0 L) := by
    have : ContinuousOn (T t) (Icc 0 L) :=
      hT.continuous.comp (f := fun z : ℝ => (t, z)) (by fun_prop) (fun z hz => ⟨ht, hz⟩)
    fun_prop
  have e1 : Set.EqOn (fun z => a * (Tm - plateAndMantle L Tm (T t) z)) (fun z => a * (Tm - T t z)) (Set.Ioc 0 L) := by
    intro z hz
    simp only [plateAndMantle, if_pos hz.2]
  have e2 : Set.EqOn (fun z => a * (Tm - plateAndMantle L Tm (T t) z)) (fun _ => (0 : ℝ)) (Set.Ioi L) := by
    intro z hz
    simp only [plateAndMantle, if_neg (not_le.mpr (show L < z from hz)), sub_self, mul_zero]
  rw [setIntegral_union (Set.Ioc_disjoint_Ioi le_rfl) measurableSet_Ioi, setIntegral_congr_fun measurableSet_Ioc e1,
    setIntegral_congr_fun measurableSet_Ioi e2, integral_zero, add_zero]
  · exact (integrableOn_congr_fun e1 measurableSet_Ioc).mpr ((hc.integrableOn_Icc).mono_set Ioc_subset_Icc_self)
  · exact (integrableOn_congr_fun e2 measurableSet_Ioi).mpr integrableOn_zero

private theorem cool_integral {L k Tm : ℝ} (hL : 0 < L) (hk : 0 < k) {T : ℝ → ℝ → ℝ} (hT : CoolingPlate L k Tm T) {t : ℝ} (ht : 0 < t) :
    ∫ z in (0 : ℝ)..L, (Tm - T t z) = Tm * (L / 2 - ∫ z in (0 : ℝ)..L, (plateLimit L k t z - z / L)) := by
  have hc : Continuous (plateLimit L k t) := continuous_iff_continuousAt.mpr fun z => (plateLimit_z hL hk ht z).continuousAt
  have h1 : ∫ z in (0 : ℝ)..L, (Tm - T t z) = ∫ z in (0 : ℝ)..L, Tm * ((1 - z / L) - (plateLimit L k t z - z / L)) := by
    apply intervalIntegral.integral_congr
    intro z hz
    rw [uIcc_of_le hL.le] at hz
    beta_reduce
    rw [CoolingPlate.unique hL hk.le hT (plateLimit_cooling hL hk Tm) _ ht _ hz]
    ring
  have i1 : IntervalIntegrable (fun z : ℝ => 1 - z / L) volume 0 L := by
    apply Continuous.intervalIntegrable
    fun_prop
  have i2 : IntervalIntegrable (fun z : ℝ => plateLimit L k t z - z / L) volume 0 L := by
    apply Continuous.intervalIntegrable
    fun_prop
  have h2 : ∫ z in (0 : ℝ)..L, (1 - z / L) = L / 2 := by
    rw [intervalIntegral.integral_sub (by simp) (by apply Continuous.intervalIntegrable; fun_prop), intervalIntegral.integral_div, integral_id]
    simp
    field_simp
    ring
  rw [h1, intervalIntegral.integral_const_mul, intervalIntegral.integral_sub i1 i2, h2]

private theorem subsidence_decay (c L k t : ℝ) : plateSubsidence c L k t =
    c * (1 / 2 - 4 / Real.pi ^ 2 * (plateDecay L k t + plateDecay L k t ^ 9 / 9 + plateDecay L k t ^ 25 / 25)) := by
  have hp := Real.pi_ne_zero
  unfold plateSubsidence plateDecay
  rw [← Real.exp_nat_mul, ← Real.exp_nat_mul]
  have e1 : -k * Real.pi ^ 2 * t / L ^ 2 = -((Real.pi / L) ^ 2 * k * t) := by ring
  have e2 : -k * 9 * Real.pi ^ 2 * t / L ^ 2 = ((9 : ℕ) : ℝ) * -((Real.pi / L) ^ 2 * k * t) := by push_cast; ring
  have e3 : -k * 25 * Real.pi ^ 2 * t / L ^ 2 = ((25 : ℕ) : ℝ) * -((Real.pi / L) ^ 2 * k * t) := by push_cast; ring
  rw [e1, e2, e3]
  field_simp
  ring

private theorem plate_W (x z : List ℝ) (u zL0 Tm rhom rhow a k : ℝ) (hz : z ≠ []) (hr : rhom ≠ rhow) :
    ∃ M, thermPlate x z u zL0 Tm true rhom rhow a k =
      .ok (M, x.map fun t => some (plateSubsidence (rhom * a * Tm * zL0 / (rhom - rhow)) zL0 k (secondsPerMyr * t))) := by
  unfold thermPlate
  simp only
  rw [if_neg hz, if_neg (sub_ne_zero.mpr hr), List.map_map]
  exact ⟨_, by simp only [Function.comp_def, cool_age_eq, Option.map_some, sub_zero]; rfl⟩

/-- **C156, subsidence.** At every age after the beginning the subsidence returned is at least that of the isostatic column above the cooling
plate, and exceeds it by no more than the terms beyond the third can contribute. -/
theorem C156_subsidence (zL0 k Tm : ℝ) (hL : 0 < zL0) (hk : 0 < k) (hTm : 0 ≤ Tm) (T : ℝ → ℝ → ℝ) (hT : CoolingPlate zL0 k Tm T)
    (x z : List ℝ) (u rhom rhow a : ℝ) (hz : z ≠ []) (hm : 0 ≤ rhom) (hr : rhow < rhom) (ha : 0 ≤ a) :
    ∃ M W, thermPlate x z u zL0 Tm true rhom rhow a k = .ok (M, W) ∧ W.length = x.length ∧
      ∀ j < x.length, 0 < x.getD j 0 → ∃ w, W.getD j none = some w ∧
        isostaticSubsidence rhom rhow a Tm (plateAndMantle zL0 Tm (T (secondsPerMyr * x.getD j 0))) ≤ w ∧
        w ≤ isostaticSubsidence rhom rhow a Tm (plateAndMantle zL0 Tm (T (secondsPerMyr * x.getD j 0))) +
          rhom * a * Tm * zL0 / (rhom - rhow) * (4 / (49 * Real.pi ^ 2) *
          (plateDecay zL0 k (secondsPerMyr * x.getD j 0) ^ 49 / (1 - plateDecay zL0 k (secondsPerMyr * x.getD j 0) ^ 32))) := by
  obtain ⟨M, h⟩ := plate_W x z u zL0 Tm rhom rhow a k hz hr.ne'
  refine ⟨M, _, h, by simp, fun j hj hxj => ⟨plateSubsidence (rhom * a * Tm * zL0 / (rhom - rhow)) zL0 k (secondsPerMyr * x.getD j 0), ?_, ?_⟩⟩
  · rw [List.getD_eq_getElem?_getD, List.getElem?_map, List.getD_eq_getElem?_getD, List.getElem?_eq_getElem hj]
    simp
  have ht : 0 < secondsPerMyr * x.getD j 0 := mul_pos coolMyr_pos hxj
  generalize secondsPerMyr * x.getD j 0 = t at ht
  obtain ⟨r, hr0, hr1, hI⟩ := plate_area_tail hL hk ht
  have hd : 0 < rhom - rhow := by linarith
  have hc : 0 ≤ rhom * a * Tm * zL0 / (rhom - rhow) := by positivity
  rw [cool_iso hL hT _ _ _ _ ht, cool_integral hL hk hT ht, hI, subsidence_decay]
  have e : ∀ S : ℝ, rhom / (rhom - rhow) * (a * (Tm * (zL0 / 2 - (zL0 * S + zL0 * r)))) =
      rhom * a * Tm * zL0 / (rhom - rhow) * (1 / 2 - S) - rhom * a * Tm * zL0 / (rhom - rhow) * r := by
    intro S
    field_simp
    ring
  rw [e]
  have h0 := mul_nonneg hc hr0
  have h1 := mul_le_mul_of_nonneg_left hr1 hc
  constructor <;> linarith

theorem decay_defaults (A : ℕ) (age : ℝ) (h : A ≤ age) : plateDecay 1e5 1e-6 (secondsPerMyr * age) ≤ (10000 / 10311) ^ A := by
  have hp := Real.pi_gt_d2
  unfold plateDecay
  have h1 : Real.exp (-0.0311) ≤ 10000 / 10311 := by
    rw [Real.exp_neg, inv_le_comm₀ (Real.exp_pos _) (by norm_num)]
    have := Real.add_one_le_exp (0.0311 : ℝ)
    norm_num at this ⊢
    linarith
  refine le_trans ?_ (pow_le_pow_left₀ (Real.exp_pos _).le h1 A)
  rw [← Real.exp_nat_mul]
  refine Real.exp_le_exp.mpr ?_
  have e : (Real.pi / 1e5) ^ 2 * 1e-6 * (secondsPerMyr * age) = Real.pi ^ 2 * 0.00315576 * age := by
    unfold secondsPerMyr
    ring
  rw [e]
  have h2 : 0.0311 ≤ Real.pi ^ 2 * 0.00315576 := by nlinarith
  have hA : (0 : ℝ) ≤ A := Nat.cast_nonneg A
  nlinarith

theorem decay_quot_le {q r : ℝ} (m n : ℕ) (hn : n ≠ 0) (h0 : 0 ≤ q) (h : q ≤ r) (h1 : r < 1) : q ^ m / (1 - q ^ n) ≤ r ^ m / (1 - r ^ n) := by
  have hr : r ^ n < 1 := pow_lt_one₀ (h0.trans h) h1 hn
  have hq : q ^ n ≤ r ^ n := pow_le_pow_left₀ h0 h n
  refine div_le_div₀ (pow_nonneg (h0.trans h) m) (pow_le_pow_left₀ h0 h m) (by linarith) (by linarith)

/-- **C156, values of the documentation.** With the default values the temperatures are right to 4 degrees from one million years on and to
0.002 degrees from three million years on; the subsidence is right to 18 m from one million years on and to 3 cm from five million years on. -/
theorem C156_defaults (T : ℝ → ℝ → ℝ) (hT : CoolingPlate 1e5 1e-6 1350 T) (x z : List ℝ) (u : ℝ) (hz : z ≠ []) :
    ∃ M W, thermPlate x z u 1e5 1350 true 3300 1000 3e-5 1e-6 = .ok (M, W) ∧
      (∀ i < z.length, ∀ j < x.length, z.getD i 0 ∈ Icc 0 1e5 → 1 ≤ x.getD j 0 → ∃ v, M.at' i j = some v ∧
        |v - T (secondsPerMyr * x.getD j 0) (z.getD i 0)| ≤ 4 ∧
        (3 ≤ x.getD j 0 → |v - T (secondsPerMyr * x.getD j 0) (z.getD i 0)| ≤ 0.002)) ∧
      (∀ j < x.length, 1 ≤ x.getD j 0 → ∃ w, W.getD j none = some w ∧
        |w - isostaticSubsidence 3300 1000 3e-5 1350 (plateAndMantle 1e5 1350 (T (secondsPerMyr * x.getD j 0)))| ≤ 18 ∧
        (5 ≤ x.getD j 0 →
          |w - isostaticSubsidence 3300 1000 3e-5 1350 (plateAndMantle 1e5 1350 (T (secondsPerMyr * x.getD j 0)))| ≤ 0.03)) := by
  have hp := Real.pi_gt_d2
  have hp0 := Real.pi_pos
  obtain ⟨M, W, h, _, _, hv⟩ := C156_temperature 1e5 1e-6 1350 (by norm_num) (by norm_num) T hT x z u 3300 1000 3e-5 hz (by norm_num)
  obtain ⟨M', W', h', _, hw⟩ := C156_subsidence 1e5 1e-6 1350 (by norm_num) (by norm_num) (by norm_num) T hT x z u 3300 1000 3e-5 hz
    (by norm_num) (by norm_num) (by norm_num)
  rw [h] at h'
  injection h' with h'
  injection h' with _ hW
  subst hW
  have c1 : 2 / (11 * Real.pi) ≤ 2 / (11 * 3.14) := by
    refine div_le_div_of_nonneg_left (by norm_num) (by norm_num) (by nlinarith)
  have c2 : 4 / (49 * Real.pi ^ 2) ≤ 4 / (49 * 3.14 ^ 2) := by
    refine div_le_div_of_nonneg_left (by norm_num) (by norm_num) (by nlinarith)
  have b1 : ∀ (A : ℕ) (B age : ℝ), A ≠ 0 → A ≤ age →
      1350 * (2 / (11 * 3.14) * (((10000 / 10311 : ℝ) ^ A) ^ 121 / (1 - ((10000 / 10311 : ℝ) ^ A) ^ 23))) ≤ B →
      |(1350 : ℝ)| * (2 / (11 * Real.pi) * (plateDecay 1e5 1e-6 (secondsPerMyr * age) ^ 121 /
        (1 - plateDecay 1e5 1e-6 (secondsPerMyr * age) ^ 23))) ≤ B := by
    intro A B age hA hage hB
    have hr : (10000 / 10311 : ℝ) ^ A < 1 := pow_lt_one₀ (by norm_num) (by norm_num) hA
    have q := decay_quot_le 121 23 (by norm_num) (plateDecay_pos _ _ _).le (decay_defaults A age hage) hr
    have hq1 := plateDecay_pos 1e5 1e-6 (secondsPerMyr * age)
    have hq2 := (decay_defaults A age hage).trans_lt hr
    have hpos : 0 ≤ plateDecay 1e5 1e-6 (secondsPerMyr * age) ^ 121 / (1 - plateDecay 1e5 1e-6 (secondsPerMyr * age) ^ 23) :=
      div_nonneg (by positivity) (sub_nonneg.mpr (pow_le_one₀ hq1.le hq2.le))
    refine le_trans ?_ hB
    rw [abs_of_pos (by norm_num)]
    exact mul_le_mul_of_nonneg_left (mul_le_mul c1 q hpos (by norm_num)) (by norm_num)
  have b2 : ∀ (A : ℕ) (B age : ℝ), A ≠ 0 → A ≤ age →
      3300 * 3e-5 * 1350 * 1e5 / (3300 - 1000) * (4 / (49 * 3.14 ^ 2) * (((10000 / 10311 : ℝ) ^ A) ^ 49 / (1 - ((10000 / 10311 : ℝ) ^ A) ^ 32))) ≤ B →
      (3300 : ℝ) * 3e-5 * 1350 * 1e5 / (3300 - 1000) * (4 / (49 * Real.pi ^ 2) * (plateDecay 1e5 1e-6 (secondsPerMyr * age) ^ 49 /
        (1 - plateDecay 1e5 1e-6 (secondsPerMyr * age) ^ 32))) ≤ B := by
    intro A B age hA hage hB
    have hr : (10000 / 10311 : ℝ) ^ A < 1 := pow_lt_one₀ (by norm_num) (by norm_num) hA
    have q := decay_quot_le 49 32 (by norm_num) (plateDecay_pos _ _ _).le (decay_defaults A age hage) hr
    have hq1 := plateDecay_pos 1e5 1e-6 (secondsPerMyr * age)
    have hq2 := (decay_defaults A age hage).trans_lt hr
    have hpos : 0 ≤ plateDecay 1e5 1e-6 (secondsPerMyr * age) ^ 49 / (1 - plateDecay 1e5 1e-6 (secondsPerMyr * age) ^ 32) :=
      div_nonneg (by positivity) (sub_nonneg.mpr (pow_le_one₀ hq1.le hq2.le))
    refine le_trans ?_ hB
    exact mul_le_mul_of_nonneg_left (mul_le_mul c2 q hpos (by norm_num)) (by norm_num)
  refine ⟨M, W, h, ?_, ?_⟩
  · intro i hi j hj hzi hx
    obtain ⟨v, e, hb⟩ := hv i hi j hj hzi (by linarith)
    refine ⟨v, e, hb.trans (b1 1 4 _ (by norm_num) (by exact_mod_cast hx) (by norm_num)), fun h3 => hb.trans (b1 3 0.002 _ (by norm_num) (by exact_mod_cast h3) (by norm_num))⟩
  · intro j hj hx
    obtain ⟨w, e, hl, hu⟩ := hw j hj (by linarith)
    have ha : ∀ B, (3300 : ℝ) * 3e-5 * 1350 * 1e5 / (3300 - 1000) * (4 / (49 * Real.pi ^ 2) * (plateDecay 1e5 1e-6 (secondsPerMyr * x.getD j 0) ^ 49 /
        (1 - plateDecay 1e5 1e-6 (secondsPerMyr * x.getD j 0) ^ 32))) ≤ B →
        |w - isostaticSubsidence 3300 1000 3e-5 1350 (plateAndMantle 1e5 1350 (T (secondsPerMyr * x.getD j 0)))| ≤ B := by
      intro B hB
      rw [abs_of_nonneg (by linarith)]
      linarith
    exact ⟨w, e, ha _ (b2 1 18 _ (by norm_num) (by exact_mod_cast hx) (by norm_num)), fun h5 => ha _ (b2 5 0.03 _ (by norm_num) (by exact_mod_cast h5) (by norm_num))⟩

/-- **C156, the ridge.** The isostatic subsidence above the cooling plate begins at nothing; `therm_plate` with the default values returns
between 190 and 200 m at age 0. -/
theorem C156_ridge (T : ℝ → ℝ → ℝ) (hT : CoolingPlate 1e5 1e-6 1350 T) (z : List ℝ) (u : ℝ) (hz : z ≠ []) :
    Tendsto (fun t => isostaticSubsidence 3300 1000 3e-5 1350 (plateAndMantle 1e5 1350 (T t))) (𝓝[>] 0) (𝓝 0) ∧
    ∃ M w, thermPlate [0] z u 1e5 1350 true 3300 1000 3e-5 1e-6 = .ok (M, [some w]) ∧ 190 < w ∧ w < 200 := by
  constructor
  · have hI : Tendsto (fun t => ∫ z in (0 : ℝ)..1e5, (1350 - T t z)) (𝓝[>] 0) (𝓝 0) := by
      have hs := (hT.start.const_mul 1e5).sqrt
      rw [mul_zero, Real.sqrt_zero] at hs
      refine squeeze_zero_norm' ?_ hs
      filter_upwards [self_mem_nhdsWithin] with t ht
      have hc : ContinuousOn (T t) (Icc 0 1e5) := hT.continuous.comp (f := fun z : ℝ => (t, z)) (by fun_prop) (fun z hz => ⟨ht, hz⟩)
      have hu : uIcc (0 : ℝ) 1e5 = Icc 0 1e5 := uIcc_of_le (by norm_num)
      have i1 : IntervalIntegrable (fun z => 1350 - T t z) volume 0 1e5 := by
        apply ContinuousOn.intervalIntegrable
        rw [hu]
        fun_prop
      have i2 : IntervalIntegrable (fun z => (T t z - 1350) ^ 2) volume 0 1e5 := by
        apply ContinuousOn.intervalIntegrable
        rw [hu]
        fun_prop
      rw [Real.norm_eq_abs]
      apply Real.abs_le_sqrt
      obtain ⟨I, hI⟩ : ∃ I, I = ∫ z in (0 : ℝ)..1e5, (1350 - T t z) := ⟨_, rfl⟩
      have h0 : 0 ≤ ∫ z in (0 : ℝ)..1e5, ((T t z - 1350) ^ 2 - 2 * (I / 1e5) * (1350 - T t z) + (I / 1e5) ^ 2) := by
        refine intervalIntegral.integral_nonneg (by norm_num) fun z _ => ?_
        have := sq_nonneg (1350 - T t z - I / 1e5)
        nlinarith
      rw [intervalIntegral.integral_add (i2.sub (i1.const_mul _)) (by simp), intervalIntegral.integral_sub i2 (i1.const_mul _),
        intervalIntegral.integral_const_mul, intervalIntegral.integral_const, ← hI] at h0
      rw [← hI]
      simp only [smul_eq_mul] at h0
      generalize ∫ z in (0 : ℝ)..1e5, (T t z - 1350) ^ 2 = E at *
      have e : E - 2 * (I / 1e5) * I + (1e5 - 0) * (I / 1e5) ^ 2 = E - I ^ 2 / 1e5 := by ring
      rw [e, sub_nonneg, div_le_iff₀ (by norm_num)] at h0
      linarith
    have h2 := hI.const_mul (3300 / (3300 - 1000) * 3e-5)
    rw [mul_zero] at h2
    refine h2.congr' ?_
    filter_upwards [self_mem_nhdsWithin] with t ht
    rw [cool_iso (by norm_num) hT _ _ _ _ ht]
    ring
  · obtain ⟨M, h⟩ := plate_W [0] z u 1e5 1350 3300 1000 3e-5 1e-6 hz (by norm_num)
    refine ⟨M, _, h, ?_⟩
    rw [subsidence_decay]
    have e : plateDecay 1e5 1e-6 (secondsPerMyr * 0) = 1 := by simp [plateDecay]
    rw [e]
    have hp1 := Real.pi_gt_d4
    have hp2 := Real.pi_lt_d4
    have hp0 := Real.pi_pos
    have l1 : 4 / Real.pi ^ 2 ≤ 4 / 3.1415 ^ 2 := div_le_div_of_nonneg_left (by norm_num) (by norm_num) (by nlinarith)
    have l2 : 4 / 3.1416 ^ 2 ≤ 4 / Real.pi ^ 2 := div_le_div_of_nonneg_left (by norm_num) (by positivity) (by nlinarith)
    norm_num at l1 l2 ⊢
    constructor <;> linarith

/-! ## Non-vacuity -/

/-- The plate of the default values, asked for at 2 and 40 million years and at three depths. -/
example : ∃ T, CoolingPlate 1e5 1e-6 1350 T ∧ ∃ M W, thermPlate [2, 40] [0, 20000, 60000] 0.02 1e5 1350 true 3300 1000 3e-5 1e-6 = .ok (M, W) ∧
    (∃ v, M.at' 1 1 = some v ∧ |v - T (secondsPerMyr * 40) 20000| ≤ 0.002) ∧ T (secondsPerMyr * 2) 0 = 0 := by
  obtain ⟨T, hT, _⟩ := C156_one_plate 1e5 1e-6 1350 (by norm_num) (by norm_num)
  obtain ⟨M, W, h, hv, _⟩ := C156_defaults T hT [2, 40] [0, 20000, 60000] 0.02 (by simp)
  refine ⟨T, hT, M, W, h, ?_, hT.top _ (mul_pos coolMyr_pos (by norm_num))⟩
  obtain ⟨v, e, _, hb⟩ := hv 1 (by simp) 1 (by simp) (by constructor <;> norm_num) (by norm_num)
  exact ⟨v, e, by simpa using hb (by norm_num)⟩

/-- The plate is not at rest: it cools. -/
example (T : ℝ → ℝ → ℝ) (hT : CoolingPlate 1e5 1e-6 1350 T) : ¬ ∀ t > 0, ∀ z ∈ Ioo (0 : ℝ) 1e5, T t z = 1350 := by
  intro h
  have hc : ContinuousOn (T 1) (Icc 0 1e5) := hT.continuous.comp (f := fun z : ℝ => ((1 : ℝ), z)) (by fun_prop) (fun z hz => ⟨show (0 : ℝ) < 1 from one_pos, hz⟩)
  have h0 : Tendsto (T 1) (𝓝[Ioo 0 1e5] 0) (𝓝 (T 1 0)) := (hc 0 (by constructor <;> norm_num)).mono_left (nhdsWithin_mono _ Ioo_subset_Icc_self)
  have h1 : Tendsto (T 1) (𝓝[Ioo 0 1e5] 0) (𝓝 1350) :=
    tendsto_const_nhds.congr' (by filter_upwards [self_mem_nhdsWithin] with z hz using (h 1 one_pos z hz).symm)
  have : (𝓝[Ioo (0 : ℝ) 1e5] 0).NeBot := by
    rw [nhdsWithin_Ioo_eq_nhdsGT (by norm_num)]
    infer_instance
  have := tendsto_nhds_unique h0 h1
  rw [hT.top 1 one_pos] at this
  norm_num at this

end Shipgrav
