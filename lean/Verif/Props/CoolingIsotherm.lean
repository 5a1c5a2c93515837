import Verif.Lemmas.CoolingTheta
import Verif.Props.CoolingPlate
import Mathlib.Analysis.Complex.ExponentialBounds

/-! Property theorems C159: `therm_Z_plate` against a plate that cools. -/

namespace Shipgrav
open Spec Topology Filter Set MeasureTheory

private theorem isoMyr_pos : 0 < secondsPerMyr := by unfold secondsPerMyr; norm_num

/-- **C159.** A plate that cools grows hotter with depth at all times, and has each temperature between that of the top and that of the base at
exactly one depth. -/
theorem C159_one_depth (L k Tm : ℝ) (hL : 0 < L) (hk : 0 < k) (hTm : 0 < Tm) (T : ℝ → ℝ → ℝ) (hT : CoolingPlate L k Tm T) (t : ℝ) (ht : 0 < t) :
    StrictMonoOn (T t) (Icc 0 L) ∧ ∀ iso, 0 < iso → iso < Tm → ∃ d ∈ Ioo 0 L, ∀ y ∈ Icc 0 L, T t y = iso ↔ y = d := by
  have hm : StrictMonoOn (T t) (Icc 0 L) := by
    intro y hy z hz hyz
    rw [CoolingPlate.unique hL hk.le hT (plateLimit_cooling hL hk Tm) _ ht _ hy, CoolingPlate.unique hL hk.le hT (plateLimit_cooling hL hk Tm) _ ht _ hz]
    exact mul_lt_mul_of_pos_left (plateLimit_strictMono hL hk ht hyz) hTm
  refine ⟨hm, fun iso h0 h1 => ?_⟩
  have hc : ContinuousOn (T t) (Icc 0 L) := hT.continuous.comp (f := fun z : ℝ => (t, z)) (by fun_prop) (fun z hz => ⟨ht, hz⟩)
  have hi := intermediate_value_Ioo hL.le hc
  rw [hT.top t ht, hT.base t ht] at hi
  obtain ⟨d, hd, he⟩ := hi ⟨h0, h1⟩
  refine ⟨d, hd, fun y hy => ⟨fun h => hm.injOn hy (Ioo_subset_Icc_self hd) (h.trans he.symm), fun h => h ▸ he⟩⟩

/-- **C159, isotherms.** The depth that `therm_Z_plate` returns is within one spacing of the grid of the depth at which the plate that cools has the
temperature asked for, at every age at which the terms beyond the tenth are small against the rise of temperature over one spacing. -/
theorem C159_isotherm (zL0 k Tm : ℝ) (hL : 0 < zL0) (hk : 0 < k) (hTm : 0 < Tm) (T : ℝ → ℝ → ℝ) (hT : CoolingPlate zL0 k Tm T)
    (x iso : List ℝ) (u minz maxz zsp rhom rhow a : ℝ) (h0 : 0 ≤ minz) (hmm : minz < maxz) (hmL : maxz ≤ zL0) (hsp : 0 < zsp) (hr : rhom ≠ rhow) :
    ∃ R, thermZPlate x iso u zL0 Tm true minz maxz zsp rhom rhow a k = .ok R ∧ R.rows = iso.length ∧ R.cols = x.length ∧
      ∀ i < iso.length, ∀ j < x.length, 0 < x.getD j 0 →
        2 * (2 / (11 * Real.pi) * (plateDecay zL0 k (secondsPerMyr * x.getD j 0) ^ 121 / (1 - plateDecay zL0 k (secondsPerMyr * x.getD j 0) ^ 23))) <
          zsp * (Real.exp (-(zL0 ^ 2 / (4 * (k * (secondsPerMyr * x.getD j 0))))) / √(Real.pi * (k * (secondsPerMyr * x.getD j 0)))) →
        ∀ d, minz ≤ d → d < maxz → T (secondsPerMyr * x.getD j 0) d = iso.getD i 0 → ∃ v, R.at' i j = some v ∧ |v - d| ≤ zsp := by
  obtain ⟨n, z, Tp, W, R, hz, hn, hTp, hR, hrows, hcols, hnear⟩ := C80_nearest_node x iso u zL0 Tm minz maxz zsp rhom rhow a k hmm hsp hr
  have hzl : z.length = n := by rw [hz]; simp
  have hzne : z ≠ [] := by
    have : 0 < n := (hn 0).mpr (by simpa using hmm)
    rw [← List.length_pos_iff, hzl]
    exact this
  have hzd : ∀ r < n, z.getD r 0 = minz + r * zsp := by
    intro r hr
    rw [hz, List.getD_eq_getElem?_getD, List.getElem?_map, List.getElem?_range hr]
    rfl
  obtain ⟨M, W', hM, _, _, hv⟩ := C156_temperature zL0 k Tm hL hk T hT x z u rhom rhow a hzne hr
  rw [hTp] at hM
  injection hM with hM
  injection hM with e _
  subst e
  refine ⟨R, hR, hrows, hcols, fun i hi j hj hxj hres d hd0 hd1 hTd => ?_⟩
  obtain ⟨r, hrn, hRv, v, hv1, hmin⟩ := hnear i hi j hj
  refine ⟨_, hRv, ?_⟩
  have ht : 0 < secondsPerMyr * x.getD j 0 := mul_pos isoMyr_pos hxj
  have hval : ∀ r < n, ∃ w, Tp.at' r j = some w ∧ |w - T (secondsPerMyr * x.getD j 0) (minz + r * zsp)| ≤ Tm * (2 / (11 * Real.pi) *
      (plateDecay zL0 k (secondsPerMyr * x.getD j 0) ^ 121 / (1 - plateDecay zL0 k (secondsPerMyr * x.getD j 0) ^ 23))) := by
    intro r hr
    have hm := (hn r).mp hr
    obtain ⟨w, hw, hb⟩ := hv r (by rw [hzl]; exact hr) j hj (by rw [hzd r hr]; exact ⟨by positivity, by linarith⟩) hxj
    rw [hzd r hr, abs_of_pos hTm] at hb
    exact ⟨w, hw, hb⟩
  generalize hB : 2 / (11 * Real.pi) *
      (plateDecay zL0 k (secondsPerMyr * x.getD j 0) ^ 121 / (1 - plateDecay zL0 k (secondsPerMyr * x.getD j 0) ^ 23)) = B at *
  generalize secondsPerMyr * x.getD j 0 = t at *
  generalize iso.getD i 0 = S at *
  change 2 * B < zsp * halfspaceGrad k t zL0 at hres
  have hnode : ∀ r < n, minz + r * zsp ∈ Icc 0 zL0 := fun r hr => ⟨by positivity, by linarith [(hn r).mp hr]⟩
  have hrise : ∀ y ∈ Icc 0 zL0, ∀ z ∈ Icc 0 zL0, y ≤ z → Tm * (halfspaceGrad k t zL0 * (z - y)) ≤ T t z - T t y := by
    intro y hy z hz hyz
    rw [CoolingPlate.unique hL hk.le hT (plateLimit_cooling hL hk Tm) _ ht _ hy, CoolingPlate.unique hL hk.le hT (plateLimit_cooling hL hk Tm) _ ht _ hz,
      ← mul_sub]
    exact mul_le_mul_of_nonneg_left (plateLimit_rise hL hk ht hy.1 hyz hz.2) hTm.le
  have hg := halfspaceGrad_pos hk ht zL0
  have hdI : d ∈ Icc 0 zL0 := ⟨by linarith, by linarith⟩
  have hstep : ∀ p q : ℕ, p < q → q < n → Tm * (2 * B) < T t (minz + q * zsp) - T t (minz + p * zsp) := by
    intro p q hpq hq
    have h1 := hrise _ (hnode p (hpq.trans hq)) _ (hnode q hq) (by gcongr)
    have h2 : (1 : ℝ) ≤ q - p := by
      have : (p : ℝ) + 1 ≤ q := by exact_mod_cast hpq
      linarith
    have h3 : zsp * halfspaceGrad k t zL0 ≤ halfspaceGrad k t zL0 * (minz + q * zsp - (minz + p * zsp)) := by
      have e : halfspaceGrad k t zL0 * (minz + q * zsp - (minz + p * zsp)) = (q - p) * (zsp * halfspaceGrad k t zL0) := by ring
      rw [e]
      exact le_mul_of_one_le_left (by positivity) h2
    have h4 := mul_lt_mul_of_pos_left (hres.trans_le h3) hTm
    linarith
  obtain ⟨b, hb⟩ : ∃ b : ℕ, b = ⌊(d - minz) / zsp⌋₊ := ⟨_, rfl⟩
  have hb1 : minz + b * zsp ≤ d := by
    have := Nat.floor_le (show 0 ≤ (d - minz) / zsp from div_nonneg (by linarith) hsp.le)
    rw [← hb, le_div_iff₀ hsp] at this
    linarith
  have hb2 : d < minz + (b + 1) * zsp := by
    have := Nat.lt_floor_add_one ((d - minz) / zsp)
    rw [← hb, div_lt_iff₀ hsp] at this
    linarith
  have hbn : b < n := (hn b).mpr (by linarith)
  obtain ⟨w, hw, hwb⟩ := hval r hrn
  rw [hv1] at hw
  injection hw with hw
  subst hw
  rw [abs_le] at hwb
  have hge : b ≤ r := by
    by_contra hlt
    push Not at hlt
    obtain ⟨v', hv', hle, _⟩ := hmin b hbn
    obtain ⟨w', hw', hwb'⟩ := hval b hbn
    rw [hv'] at hw'
    injection hw' with hw'
    subst hw'
    rw [abs_le] at hwb'
    have h1 := hstep r b hlt hbn
    have h2 := hrise _ (hnode b hbn) _ hdI hb1
    have h3 : 0 ≤ Tm * (halfspaceGrad k t zL0 * (d - (minz + b * zsp))) := mul_nonneg hTm.le (mul_nonneg hg.le (by linarith))
    rw [hTd] at h2
    have h4 : S - v ≤ |v - S| := by rw [abs_sub_comm]; exact le_abs_self _
    rcases abs_cases (v' - S) with ⟨h5, _⟩ | ⟨h5, _⟩ <;> linarith [hwb.1, hwb.2, hwb'.1, hwb'.2]
  have hle' : r ≤ b + 1 := by
    by_contra hlt
    push Not at hlt
    have hb1n : b + 1 < n := by omega
    obtain ⟨v', hv', hle, _⟩ := hmin (b + 1) hb1n
    obtain ⟨w', hw', hwb'⟩ := hval (b + 1) hb1n
    rw [hv'] at hw'
    injection hw' with hw'
    subst hw'
    rw [abs_le] at hwb'
    have h1 := hstep (b + 1) r hlt hrn
    have hcast : ((b + 1 : ℕ) : ℝ) = (b : ℝ) + 1 := by push_cast; ring
    rw [hcast] at h1 hwb'
    have h2 := hrise _ hdI (minz + (b + 1) * zsp) (by have := hnode (b + 1) hb1n; rwa [hcast] at this) hb2.le
    have h3 : 0 ≤ Tm * (halfspaceGrad k t zL0 * (minz + (b + 1) * zsp - d)) := mul_nonneg hTm.le (mul_nonneg hg.le (by linarith))
    rw [hTd] at h2
    have h4 : v - S ≤ |v - S| := le_abs_self _
    rcases abs_cases (v' - S) with ⟨h5, _⟩ | ⟨h5, _⟩ <;> linarith [hwb.1, hwb.2, hwb'.1, hwb'.2]
  have hrr : (b : ℝ) ≤ r := by exact_mod_cast hge
  have hrr' : (r : ℝ) ≤ b + 1 := by exact_mod_cast hle'
  rw [abs_le]
  constructor <;> nlinarith

private theorem resolved (age : ℝ) (h : 6 ≤ age) :
    2 * (2 / (11 * Real.pi) * (plateDecay 1e5 1e-6 (secondsPerMyr * age) ^ 121 / (1 - plateDecay 1e5 1e-6 (secondsPerMyr * age) ^ 23))) <
      100 * (Real.exp (-(1e5 ^ 2 / (4 * (1e-6 * (secondsPerMyr * age))))) / √(Real.pi * (1e-6 * (secondsPerMyr * age)))) := by
  have hpi := Real.pi_gt_d2
  have hpi' := Real.pi_lt_d2
  have hpi0 := Real.pi_pos
  have hq := decay_defaults 6 age (by exact_mod_cast h)
  have hq0 := plateDecay_pos 1e5 1e-6 (secondsPerMyr * age)
  obtain ⟨s, hs⟩ : ∃ s : ℝ, s = 0.00315576 * age := ⟨_, rfl⟩
  have hs0 : 0.0189 ≤ s := by rw [hs]; linarith
  have e1 : plateDecay 1e5 1e-6 (secondsPerMyr * age) ^ 121 = Real.exp (-(121 * Real.pi ^ 2 * s)) := by
    unfold plateDecay
    rw [← Real.exp_nat_mul, hs]
    congr 1
    unfold secondsPerMyr
    push_cast
    ring
  have e2 : (1e-6 : ℝ) * (secondsPerMyr * age) = 1e10 * s := by rw [hs]; unfold secondsPerMyr; ring
  have e3 : (1e5 : ℝ) ^ 2 / (4 * (1e10 * s)) = 1 / (4 * s) := by
    have : s ≠ 0 := by linarith
    field_simp
    norm_num
  have h23 : plateDecay 1e5 1e-6 (secondsPerMyr * age) ^ 23 ≤ 1 / 2 :=
    (pow_le_pow_left₀ hq0.le hq 23).trans (by norm_num)
  have hroot : √(Real.pi * (1e10 * s)) ≤ 1e5 * Real.exp (Real.pi * s) := by
    rw [Real.sqrt_le_left (by positivity)]
    have h1 := Real.add_one_le_exp (Real.pi * s)
    have h2 : 0 < Real.pi * s := by positivity
    nlinarith
  have hroot0 : 0 < √(Real.pi * (1e10 * s)) := Real.sqrt_pos.mpr (by positivity)
  rw [e1, e2, e3]
  generalize plateDecay 1e5 1e-6 (secondsPerMyr * age) ^ 23 = Q at h23
  have hA : 2 * (2 / (11 * Real.pi) * (Real.exp (-(121 * Real.pi ^ 2 * s)) / (1 - Q))) ≤ 8 / 34 * Real.exp (-(121 * Real.pi ^ 2 * s)) := by
    have c1 : 2 / (11 * Real.pi) ≤ 2 / 34 := div_le_div_of_nonneg_left (by norm_num) (by norm_num) (by linarith)
    have c2 : Real.exp (-(121 * Real.pi ^ 2 * s)) / (1 - Q) ≤ Real.exp (-(121 * Real.pi ^ 2 * s)) / (1 / 2) :=
      div_le_div_of_nonneg_left (Real.exp_pos _).le (by norm_num) (by linarith)
    have c3 := mul_le_mul c1 c2 (div_nonneg (Real.exp_pos _).le (by linarith)) (by norm_num)
    linarith
  have hB : Real.exp (-(1 / (4 * s))) / (1e5 * Real.exp (Real.pi * s)) ≤ Real.exp (-(1 / (4 * s))) / √(Real.pi * (1e10 * s)) :=
    div_le_div_of_nonneg_left (Real.exp_pos _).le hroot0 hroot
  have hexp : -(121 * Real.pi ^ 2 * s) ≤ -(1 / (4 * s)) - Real.pi * s - 9 := by
    have h1 : 1 / (4 * s) ≤ 13.23 := by
      rw [div_le_iff₀ (by linarith)]
      linarith
    have h2 : 9.85 * s ≤ Real.pi ^ 2 * s := mul_le_mul_of_nonneg_right (by nlinarith) (by linarith)
    have h3 : Real.pi * s ≤ 3.15 * s := mul_le_mul_of_nonneg_right hpi'.le (by linarith)
    nlinarith
  have h9 : Real.exp (-(121 * Real.pi ^ 2 * s)) ≤ Real.exp (-(1 / (4 * s))) / Real.exp (Real.pi * s) / 512 := by
    refine (Real.exp_le_exp.mpr hexp).trans ?_
    rw [Real.exp_sub, Real.exp_sub]
    refine div_le_div_of_nonneg_left (by positivity) (by norm_num) ?_
    have e : Real.exp 9 = Real.exp 1 ^ 9 := by rw [← Real.exp_nat_mul]; norm_num
    have h2 : (2 : ℝ) ≤ Real.exp 1 := by linarith [Real.add_one_le_exp (1 : ℝ)]
    rw [e]
    calc (512 : ℝ) = 2 ^ 9 := by norm_num
      _ ≤ Real.exp 1 ^ 9 := pow_le_pow_left₀ (by norm_num) h2 9
  have hpos : 0 < Real.exp (-(1 / (4 * s))) / Real.exp (Real.pi * s) := by positivity
  have e4 : Real.exp (-(1 / (4 * s))) / (1e5 * Real.exp (Real.pi * s)) = Real.exp (-(1 / (4 * s))) / Real.exp (Real.pi * s) / 1e5 := by
    rw [mul_comm (1e5 : ℝ), div_div]
  rw [e4] at hB
  generalize Real.exp (-(1 / (4 * s))) / Real.exp (Real.pi * s) = Y at *
  linarith

/-- **C159, values of the documentation.** With the default values every isotherm depth is right to one spacing of the grid, 100 m, from six million
years on. -/
theorem C159_defaults (T : ℝ → ℝ → ℝ) (hT : CoolingPlate 1e5 1e-6 1350 T) (x iso : List ℝ) (u : ℝ) :
    ∃ R, thermZPlate x iso u 1e5 1350 true 0 1e5 100 3300 1000 3e-5 1e-6 = .ok R ∧ R.rows = iso.length ∧ R.cols = x.length ∧
      ∀ i < iso.length, ∀ j < x.length, 6 ≤ x.getD j 0 → 0 < iso.getD i 0 → iso.getD i 0 < 1350 →
        ∃ v d, R.at' i j = some v ∧ d ∈ Ioo 0 1e5 ∧ T (secondsPerMyr * x.getD j 0) d = iso.getD i 0 ∧ |v - d| ≤ 100 := by
  obtain ⟨R, hR, hrows, hcols, h⟩ := C159_isotherm 1e5 1e-6 1350 (by norm_num) (by norm_num) (by norm_num) T hT x iso u 0 1e5 100 3300 1000 3e-5
    le_rfl (by norm_num) le_rfl (by norm_num) (by norm_num)
  refine ⟨R, hR, hrows, hcols, fun i hi j hj hx h0 h1 => ?_⟩
  have hxj : 0 < x.getD j 0 := by linarith
  obtain ⟨d, hd, hu⟩ := (C159_one_depth 1e5 1e-6 1350 (by norm_num) (by norm_num) (by norm_num) T hT _ (mul_pos isoMyr_pos hxj)).2 _ h0 h1
  have hTd := (hu d (Ioo_subset_Icc_self hd)).mpr rfl
  obtain ⟨v, hv, hb⟩ := h i hi j hj hxj (resolved _ hx) d hd.1.le hd.2 hTd
  exact ⟨v, d, hv, hd, hTd, hb⟩

/-! ## Non-vacuity -/

/-- Two isotherms at three ages. -/
example : ∃ T, CoolingPlate 1e5 1e-6 1350 T ∧ ∃ R v d, thermZPlate [6, 20, 80] [600, 1200] 0.01 1e5 1350 true 0 1e5 100 3300 1000 3e-5 1e-6 = .ok R ∧
    R.at' 1 2 = some v ∧ d ∈ Ioo (0 : ℝ) 1e5 ∧ T (secondsPerMyr * 80) d = 1200 ∧ |v - d| ≤ 100 := by
  obtain ⟨T, hT, _⟩ := C156_one_plate 1e5 1e-6 1350 (by norm_num) (by norm_num)
  obtain ⟨R, hR, _, _, h⟩ := C159_defaults T hT [6, 20, 80] [600, 1200] 0.01
  obtain ⟨v, d, hv, hd, hTd, hb⟩ := h 1 (by simp) 2 (by simp) (by simp; norm_num) (by simp) (by simp; norm_num)
  exact ⟨T, hT, R, v, d, hR, hv, hd, by simpa using hTd, hb⟩

end Shipgrav
