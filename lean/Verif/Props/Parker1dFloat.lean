import Verif.Props.Parker1d
import Verif.Lemmas.Parker1dFloat

/-! Property theorem C169: gravity of a profile in double precision. -/

namespace Shipgrav
open Spec Parker1

/-- **C169.** The gravity of a profile in double precision is Parker's series up to rounding.  `H` is the size of the topography, `D` the height of observation above its
mean, `r` at least one and at least `H / D`. -/
theorem C169_profile (lm : ParkerLibm) (gd : GoodParkerLib lm.fft lm.ifft lm.exp lm.sqrt lm.pow lm.sum) (xtopo : List ℚ) (n : ℕ) (hx : xtopo.length = n) (hn : 2 ≤ n)
    (h : ℕ → ℚ) (zlev rho : ℚ) (dx D H r : ℝ) (hdx : dx = ((xtopo.getLastD 0 : ℝ) - (xtopo.headD 0 : ℝ)) / (n - 1))
    (hD : D = zlev - (∑ i ∈ Finset.range n, (h i : ℝ)) / n) (hH : ∀ i < n, |(h i : ℝ)| ≤ H) (hr : 1 ≤ r) (hHD : H ≤ r * D) (hsmall : (n + 12) * r ≤ 2 ^ 40)
    (hspan : (n + 12) * r * (2 * Real.pi * D) < 2 ^ 50 * |dx|) :
    ∃ out : ℕ → ℚ, grav1dPaddedF lm xtopo (samples h n) zlev rho = .ok (samples out n) ∧ ∀ i < n,
      |(out i : ℝ) - 100 * parkerLine (5 * n) (fun k => |2 * Real.pi / ((5 * n : ℕ) * dx)| * usedCycles (5 * n) k) D
        (2 * Real.pi * (6.673 * 1e-8) * rho) (carriedOn n fun i => (h i : ℝ)) (2 * n + i)| ≤
      100 * |2 * Real.pi * (6.673 * 1e-8) * rho| * (5 * n) * H * r ^ 4 * (1 / 2 ^ 36 + (n + 12) * r / 2 ^ 49) := by
  have hn0 : 0 < n := by omega
  have hn' : (0 : ℝ) < n := by exact_mod_cast hn0
  have hH0 : 0 ≤ H := (abs_nonneg _).trans (hH 0 hn0)
  have hD0 : 0 ≤ D := by nlinarith
  have hdx0 : 0 < |dx| := by
    have : 0 ≤ (n + 12) * r * (2 * Real.pi * D) := by positivity
    linarith
  have hxne : xtopo ≠ [] := by intro h; simp [h] at hx; omega
  have htne : samples h n ≠ [] := by
    intro h0
    have := congrArg List.length h0
    rw [samples_length] at this
    simp at this; omega
  obtain ⟨p, hp1, hp2⟩ := padF_eq n hn0 h
  -- the spacing
  have hdxn : Near (2 * (1 / 2 ^ 52)) (toDouble (toDouble (xtopo.getLastD 0 - xtopo.headD 0) / ((xtopo.length : ℚ) - 1))) dx := by
    have a := near_toDouble (near_self (xtopo.getLastD 0 - xtopo.headD 0))
    have b := near_toDouble (a.div (near_self ((xtopo.length : ℚ) - 1)))
    push_cast at b
    rw [hx, ← hdx] at b
    rw [hx]
    exact b.mono (by norm_num)
  generalize hdq : toDouble (toDouble (xtopo.getLastD 0 - xtopo.headD 0) / ((xtopo.length : ℚ) - 1)) = dq at hdxn
  let κ : ℕ → ℝ := fun k => |2 * Real.pi / ((5 * n : ℕ) * dx)| * usedCycles (5 * n) k
  obtain ⟨kq, hkq⟩ : ∃ kq : ℕ → ℚ, wavenumbers1dF lm (5 * n) dq = samples kq (5 * n) ∧ ∀ k, Near (20 * (1 / 2 ^ 52)) (kq k) (κ k) :=
    ⟨_, wavenumbersF_eq lm (5 * n) dq, fun k => wave_near lm gd.sqrt gd.pow (5 * n) k hdxn⟩
  have hκ0 : ∀ k, 0 ≤ κ k := fun k => by positivity
  have hκz : κ 0 = 0 := by simp [κ, usedCycles]
  have hκm : ∀ k < 5 * n, κ k * |dx| ≤ 2 * Real.pi := by
    intro k hk
    have a := usedCycles_le (5 * n) k hk
    have a' : (usedCycles (5 * n) k : ℝ) ≤ (5 * n : ℕ) := by exact_mod_cast a
    have hN : (0 : ℝ) < (5 * n : ℕ) := by exact_mod_cast (by omega : 0 < 5 * n)
    simp only [κ]
    rw [abs_div, abs_of_pos (by positivity : 0 < 2 * Real.pi), abs_mul, abs_of_pos hN]
    rw [show 2 * Real.pi / ((5 * n : ℕ) * |dx|) * (usedCycles (5 * n) k : ℝ) * |dx| = 2 * Real.pi * ((usedCycles (5 * n) k : ℝ) / (5 * n : ℕ)) by field_simp]
    have : (usedCycles (5 * n) k : ℝ) / (5 * n : ℕ) ≤ 1 := by rw [div_le_one hN]; exact a'
    nlinarith [Real.pi_pos]
  have hc : ∀ m < 5 * n, |carriedOn n (fun i => (h i : ℝ)) m| ≤ H := by
    intro m hm
    unfold carriedOn
    split
    · exact hH 0 hn0
    · split
      · exact hH _ (by omega)
      · exact hH _ (by omega)
  obtain ⟨hsum, hμ⟩ := sum_bound lm.sum gd.sum n hn0 h H hH
  set ν : ℝ := (n + 12) * r / 2 ^ 50 with hν
  have hν0 : 0 ≤ ν := by positivity
  have hν1 : ν ≤ 1 / 2 ^ 10 := by rw [hν]; linarith
  -- every bin
  let y : ℕ → ℚ × ℚ := fun k => cmulF (cmulF (specF lm (5 * n) p kq k) (toDouble (toDouble (toDouble (2 * piF) * toDouble (toDouble 6.673 * toDouble 1e-8)) * rho)))
    (lm.exp (toDouble (-toDouble (zlev - toDouble (lm.sum (samples h n) / n)) * kq k)))
  let g : ℝ := 2 * Real.pi * (6.673 * 1e-8) * rho
  let d : ℕ → ℂ := fun k => spec5 (5 * n) κ (carriedOn n fun i => (h i : ℝ)) k * (g : ℂ) * ((Real.exp (-D * κ k) : ℝ) : ℂ)
  have hbin : ∀ k < 5 * n, ‖pairC (y k) - d k‖ ≤ ((5 * n : ℕ) : ℝ) * H * |g| * r ^ 4 * (1 / 2 ^ 37 + 2 * ν) ∧ ‖d k‖ ≤ ((5 * n : ℕ) : ℝ) * H * |g| * r ^ 4 := by
    intro k hk
    obtain ⟨s1, s2⟩ := spec_err lm gd (5 * n) p kq _ κ H hp2 hc hκz k hk (hκ0 k) (hkq.2 k)
    have hke := (hkq.2 k).err (by norm_num) (by norm_num)
    rw [abs_of_nonneg (hκ0 k)] at hke
    have hke' : |(kq k : ℝ) - κ k| ≤ 1 / 2 ^ 47 * κ k := hke.trans (mul_le_mul_of_nonneg_right (by norm_num) (hκ0 k))
    have hq := expo_err hn0 hH0 hr (hκ0 k) hHD hsmall hD hμ hsum hke'
    have h1 : ν * (D * κ k) ≤ 1 := by
      have a := hκm k hk
      have b : (n + 12) * r * (D * κ k) * |dx| ≤ 2 ^ 50 * |dx| := by
        calc (n + 12) * r * (D * κ k) * |dx| = (n + 12) * r * D * (κ k * |dx|) := by ring
          _ ≤ (n + 12) * r * D * (2 * Real.pi) := by gcongr
          _ ≤ 2 ^ 50 * |dx| := by linarith
      have c := le_of_mul_le_mul_right b hdx0
      rw [hν, div_mul_eq_mul_div, div_le_one (by positivity)]
      exact c
    exact bin_err gd.exp (by positivity) hH0 (hκ0 k) hD0 hr hHD hν0 s1 s2 (grav_near rho) hq h1
  have hdata : parkerData1dF lm xtopo (samples h n) zlev rho = lm.ifft (samples y (5 * n)) := by
    unfold parkerData1dF
    simp only
    rw [hdq, hp1, samples_length, samples_length, hkq.1, parkerSumF_eq lm gd.fftLength, zip_samples']
  have hif := list_samples (0, 0) (lm.ifft (samples y (5 * n)))
  rw [gd.ifftLength, samples_length] at hif
  refine ⟨fun i => toDouble (((lm.ifft (samples y (5 * n))).getD (2 * n + i) (0, 0)).1 * 100), ?_, ?_⟩
  · unfold grav1dPaddedF
    rw [if_neg hxne, if_neg htne]
    simp only
    rw [hdata, hx, hif, window_samples, map_samples, ← hif]
  · intro i hi
    obtain ⟨f1, f2⟩ := ifft_err gd.ifft (5 * n) y d _ (1 / 2 ^ 37 + 2 * ν) (by linarith) (fun k hk => (hbin k hk).1) (fun k hk => (hbin k hk).2) (2 * n + i) (by omega)
    have e := entry_re (5 * n) κ (carriedOn n fun i => (h i : ℝ)) D g (2 * n + i)
    have f3 := (Complex.abs_re_le_norm _).trans f1
    have f4 := (Complex.abs_re_le_norm _).trans f2
    rw [Complex.sub_re] at f3
    simp only [d] at f3 f4
    rw [e] at f3 f4
    have f5 := mgal_err (by linarith) f3 f4
    rw [mul_comm _ (100 : ℝ)] at f5
    refine f5.trans ?_
    have hQ : 0 ≤ 100 * (((5 * n : ℕ) : ℝ) * H * |g| * r ^ 4) := by positivity
    have : 100 * (((5 * n : ℕ) : ℝ) * H * |g| * r ^ 4) * (1 / 2 ^ 43 + (1 / 2 ^ 37 + 2 * ν)) ≤ 100 * (((5 * n : ℕ) : ℝ) * H * |g| * r ^ 4) * (1 / 2 ^ 36 + (n + 12) * r / 2 ^ 49) := by
      apply mul_le_mul_of_nonneg_left _ hQ
      rw [hν]
      linarith
    refine this.trans (le_of_eq ?_)
    push_cast
    ring

/-- A library that meets the specification exists. -/
theorem goodParkerLib_exists : ∃ lm : ParkerLibm, GoodParkerLib lm.fft lm.ifft lm.exp lm.sqrt lm.pow lm.sum := by
  have near : ∀ (x ε : ℝ), 0 < ε → ∃ r : ℚ, |(r : ℝ) - x| ≤ ε := by
    intro x ε hε
    obtain ⟨r, h1, h2⟩ := exists_rat_btwn (show x < x + ε by linarith)
    exact ⟨r, by rw [abs_le]; constructor <;> linarith⟩
  have nearC : ∀ (z : ℂ) (ε : ℝ), 0 < ε → ∃ p : ℚ × ℚ, ‖pairC p - z‖ ≤ ε := by
    intro z ε hε
    obtain ⟨a, ha⟩ := near z.re (ε / 2) (by positivity)
    obtain ⟨b, hb⟩ := near z.im (ε / 2) (by positivity)
    refine ⟨(a, b), ?_⟩
    refine (Complex.norm_le_abs_re_add_abs_im _).trans ?_
    simp only [pairC, Complex.sub_re, Complex.sub_im]
    linarith
  have exq : ∀ q : ℚ, ∃ r : ℚ, |(r : ℝ) - Real.exp q| ≤ Real.exp q / 2 ^ 51 := fun q => near _ _ (by positivity)
  have sqq : ∀ q : ℚ, ∃ r : ℚ, 0 ≤ q → |(r : ℝ) - √q| ≤ √q / 2 ^ 52 := by
    intro q
    by_cases h : 0 < √(q : ℝ)
    · obtain ⟨r, hr⟩ := near (√q) (√q / 2 ^ 52) (by positivity)
      exact ⟨r, fun _ => hr⟩
    · have : √(q : ℝ) = 0 := le_antisymm (not_lt.1 h) (Real.sqrt_nonneg _)
      exact ⟨0, fun _ => by simp [this]⟩
  have fq : ∀ (x : List ℚ) (k : ℕ), ∃ p : ℚ × ℚ, ∀ M : ℝ, (∀ v ∈ x, |(v : ℝ)| ≤ M) → k < x.length →
      ‖pairC p - ∑ m ∈ Finset.range x.length, ((x.getD m 0 : ℝ) : ℂ) * Complex.exp (-2 * Real.pi * Complex.I * (k * m) / x.length)‖ ≤ x.length * M / 2 ^ 45 := by
    intro x k
    by_cases h0 : ∃ v ∈ x, v ≠ 0
    · obtain ⟨v, hv, hv0⟩ := h0
      have hl : 0 < x.length := List.length_pos_of_mem hv
      have hl' : (0 : ℝ) < x.length := by exact_mod_cast hl
      have hv' : 0 < |(v : ℝ)| := abs_pos.2 (by exact_mod_cast hv0)
      obtain ⟨p, hp⟩ := nearC (∑ m ∈ Finset.range x.length, ((x.getD m 0 : ℝ) : ℂ) * Complex.exp (-2 * Real.pi * Complex.I * (k * m) / x.length))
        (x.length * |(v : ℝ)| / 2 ^ 45) (by positivity)
      refine ⟨p, fun M hM _ => hp.trans ?_⟩
      have := hM v hv
      gcongr
    · refine ⟨(0, 0), fun M hM hk => ?_⟩
      have hz : ∀ m, x.getD m 0 = 0 := by
        intro m
        by_contra hne
        by_cases hm : m < x.length
        · rw [List.getD_eq_getElem?_getD, List.getElem?_eq_getElem hm, Option.getD_some] at hne
          exact h0 ⟨_, List.getElem_mem hm, hne⟩
        · rw [List.getD_eq_getElem?_getD, List.getElem?_eq_none (by omega)] at hne
          exact hne rfl
      have hM0 : 0 ≤ M := (abs_nonneg _).trans (hM _ (List.getElem_mem hk))
      have e : pairC (0, 0) = 0 := by apply Complex.ext <;> simp [pairC]
      simp only [hz, e]
      simp only [Rat.cast_zero, Complex.ofReal_zero, zero_mul, Finset.sum_const_zero, sub_zero, norm_zero]
      positivity
  have iq : ∀ (y : List (ℚ × ℚ)) (j : ℕ), ∃ p : ℚ × ℚ, ∀ M : ℝ, (∀ v ∈ y, ‖pairC v‖ ≤ M) → j < y.length →
      ‖pairC p - 1 / y.length * ∑ m ∈ Finset.range y.length, pairC (y.getD m (0, 0)) * Complex.exp (2 * Real.pi * Complex.I * (j * m) / y.length)‖ ≤ M / 2 ^ 45 := by
    intro y j
    by_cases h0 : ∃ v ∈ y, pairC v ≠ 0
    · obtain ⟨v, hv, hv0⟩ := h0
      have hv' : 0 < ‖pairC v‖ := norm_pos_iff.2 hv0
      obtain ⟨p, hp⟩ := nearC (1 / y.length * ∑ m ∈ Finset.range y.length, pairC (y.getD m (0, 0)) * Complex.exp (2 * Real.pi * Complex.I * (j * m) / y.length))
        (‖pairC v‖ / 2 ^ 45) (by positivity)
      refine ⟨p, fun M hM _ => hp.trans ?_⟩
      have := hM v hv
      gcongr
    · refine ⟨(0, 0), fun M hM hj => ?_⟩
      have e : pairC (0, 0) = 0 := by apply Complex.ext <;> simp [pairC]
      have hz : ∀ m, pairC (y.getD m (0, 0)) = 0 := by
        intro m
        by_contra hne
        by_cases hm : m < y.length
        · rw [List.getD_eq_getElem?_getD, List.getElem?_eq_getElem hm, Option.getD_some] at hne
          exact h0 ⟨_, List.getElem_mem hm, hne⟩
        · rw [List.getD_eq_getElem?_getD, List.getElem?_eq_none (by omega)] at hne
          exact hne e
      have hM0 : 0 ≤ M := (norm_nonneg _).trans (hM _ (List.getElem_mem hj))
      simp only [hz, e, zero_mul, Finset.sum_const_zero, mul_zero, sub_zero, norm_zero]
      positivity
  choose ex hex using exq
  choose sq hsq using sqq
  choose f hf using fq
  choose g hg using iq
  refine ⟨⟨fun x => samples (f x) x.length, fun y => samples (g y) y.length, ex, sq, fun q j => q ^ j, List.sum⟩, ?_, ?_, ?_, ?_, hex, fun q hq => hsq q hq, ?_, ?_⟩
  · intro x; exact samples_length _ _
  · intro x M hM k hk
    have := hf x k M hM hk
    dsimp only
    rwa [getD_samples _ _ _ _ hk]
  · intro y; exact samples_length _ _
  · intro y M hM j hj
    have := hg y j M hM hj
    dsimp only
    rwa [getD_samples _ _ _ _ hj]
  · intro q j _ _
    dsimp only
    push_cast
    rw [sub_self, abs_zero]
    positivity
  · intro l
    dsimp only
    rw [sub_self, abs_zero]
    have : 0 ≤ (l.map fun x => |x|).sum := List.sum_nonneg (by
      intro x hx
      obtain ⟨a, -, rfl⟩ := List.mem_map.1 hx
      exact abs_nonneg a)
    positivity

/-- A profile of three points, spaced by 1000 m, seen from 3000 m above its mean. -/
example (lm : ParkerLibm) (gd : GoodParkerLib lm.fft lm.ifft lm.exp lm.sqrt lm.pow lm.sum) :
    ∃ out : ℕ → ℚ, grav1dPaddedF lm [0, 1000, 2000] [-100, 0, 100] 3000 2700 = .ok (samples out 3) ∧ ∀ i < 3,
      |(out i : ℝ) - 100 * parkerLine 15 (fun k => |2 * Real.pi / ((5 * 3 : ℕ) * (1000 : ℝ))| * usedCycles 15 k) 3000
        (2 * Real.pi * (6.673 * 1e-8) * (2700 : ℚ)) (carriedOn 3 fun i => ((100 * ((i : ℚ) - 1) : ℚ) : ℝ)) (2 * 3 + i)| ≤
      100 * |2 * Real.pi * (6.673 * 1e-8) * (2700 : ℚ)| * (5 * (3 : ℕ)) * 100 * 1 ^ 4 * (1 / 2 ^ 36 + ((3 : ℕ) + 12) * 1 / 2 ^ 49) := by
  have h := C169_profile lm gd [0, 1000, 2000] 3 rfl (by norm_num) (fun i => 100 * ((i : ℚ) - 1)) 3000 2700 1000 3000 100 1 (by norm_num) (by
    norm_num [Finset.sum_range_succ]) (by
    intro i hi
    push_cast
    rw [abs_le]
    have : (i : ℝ) ≤ 2 := by exact_mod_cast (by omega : i ≤ 2)
    have : (0 : ℝ) ≤ i := by positivity
    constructor <;> linarith) le_rfl (by norm_num) (by norm_num) (by
    rw [abs_of_pos (by norm_num)]
    have := Real.pi_lt_four
    norm_num
    linarith)
  have e : samples (fun i : ℕ => 100 * ((i : ℚ) - 1)) 3 = [-100, 0, 100] := by
    simp [samples, List.range_succ]
    norm_num
  rw [e] at h
  exact h

end Shipgrav
