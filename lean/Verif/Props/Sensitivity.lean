import Verif.Lemmas.Perturb

/-! C137: what errors of position do to the free-air anomaly. -/

namespace Shipgrav
open Spec Real

/-- A track of `n` samples without a rate above a thousandth of a degree per second and without an acceleration in latitude above a thousandth of a degree
per second squared. -/
def Spec.Gentle (lon lat : ℕ → ℝ) (samp : ℝ) (n : ℕ) : Prop :=
  ∀ k, k + 2 < n → |rate lat samp (k + 1)| ≤ 1 / 1000 ∧ |rate lon samp (k + 1)| ≤ 1 / 1000 ∧ |accel lat samp (k + 1)| ≤ 1 / 1000

/-! ### Helpers -/

private theorem deg_lt : π / 180 < 0.017454 := by
  have := Real.pi_lt_d6
  norm_num at *
  linarith

private theorem rate_deg (y : ℕ → ℝ) (samp : ℝ) (k : ℕ) : rate (fun i => y i * (π / 180)) samp k = rate y samp k * (π / 180) := by unfold rate; ring

private theorem accel_deg (y : ℕ → ℝ) (samp : ℝ) (k : ℕ) : accel (fun i => y i * (π / 180)) samp k = accel y samp k * (π / 180) := by unfold accel; ring

private theorem small_deg {x : ℝ} (h : |x| ≤ 1 / 1000) : |x * (π / 180)| ≤ 1.8e-5 := by
  have hp := deg_lt
  rw [abs_mul, abs_of_pos (by positivity : (0 : ℝ) < π / 180)]
  refine (mul_le_mul h hp.le (by positivity) (by norm_num)).trans (by norm_num)

/-- The change of the correction for the motion, on two tracks that differ by up to `ε`. -/
theorem motion_pert {lon lat lon' lat' : ℕ → ℝ} {samp ε : ℝ} (hs : 0 ≤ samp) {k : ℕ}
    (h : ∀ j, k ≤ j → j ≤ k + 2 → |lat j - lat' j| ≤ ε ∧ |lon j - lon' j| ≤ ε)
    (r1 : |rate lat samp (k + 1)| ≤ 1 / 1000) (r2 : |rate lon samp (k + 1)| ≤ 1 / 1000) (r3 : |accel lat samp (k + 1)| ≤ 1 / 1000)
    (r1' : |rate lat' samp (k + 1)| ≤ 1 / 1000) (r2' : |rate lon' samp (k + 1)| ≤ 1 / 1000) (r3' : |accel lat' samp (k + 1)| ≤ 1 / 1000) :
    |eotvos 6378137 6356752.3142 (motionAt lon lat (fun _ => 0) samp (k + 1)) - eotvos 6378137 6356752.3142 (motionAt lon' lat' (fun _ => 0) samp (k + 1))| ≤
      ε * (1.6e6 * samp ^ 2 + 2.5e6 * samp + 175) := by
  have hp := deg_lt
  have hp0 : 0 < π / 180 := by positivity
  have m : ∀ lo la : ℕ → ℝ, motionAt lo la (fun _ => 0) samp (k + 1) =
      ⟨la (k + 1) * (π / 180), rate la samp (k + 1) * (π / 180), accel la samp (k + 1) * (π / 180), rate lo samp (k + 1) * (π / 180), 0, rate (fun _ => 0) samp (k + 1), 0⟩ := by
    intro lo la
    unfold motionAt
    rw [rate_deg, accel_deg, rate_deg]
    congr 1
    unfold accel
    ring
  rw [m, m]
  obtain ⟨a0, o0⟩ := h k (by omega) (by omega)
  obtain ⟨a1, o1⟩ := h (k + 1) (by omega) (by omega)
  obtain ⟨a2, o2⟩ := h (k + 2) (by omega) (by omega)
  have e0 : 0 ≤ ε := (abs_nonneg _).trans a0
  have scale : ∀ {x y c : ℝ}, |x - y| ≤ c → |x * (π / 180) - y * (π / 180)| ≤ c * (π / 180) := by
    intro x y c hc
    rw [← sub_mul, abs_mul, abs_of_pos hp0]
    exact mul_le_mul_of_nonneg_right hc hp0.le
  have dr : ∀ {x y : ℕ → ℝ}, |x k - y k| ≤ ε → |x (k + 2) - y (k + 2)| ≤ ε → |rate x samp (k + 1) - rate y samp (k + 1)| ≤ ε * samp := by
    intro x y h0 h2
    have e : rate x samp (k + 1) - rate y samp (k + 1) = ((x (k + 2) - y (k + 2)) - (x k - y k)) / 2 * samp := by
      unfold rate
      rw [show k + 1 + 1 = k + 2 by omega, show k + 1 - 1 = k by omega]
      ring
    rw [e, abs_mul, abs_of_nonneg hs]
    refine mul_le_mul_of_nonneg_right ?_ hs
    rw [abs_le] at *
    constructor <;> linarith
  have da : |accel lat samp (k + 1) - accel lat' samp (k + 1)| ≤ 4 * ε * samp ^ 2 := by
    have e : accel lat samp (k + 1) - accel lat' samp (k + 1) = ((lat (k + 2) - lat' (k + 2)) - 2 * (lat (k + 1) - lat' (k + 1)) + (lat k - lat' k)) * samp ^ 2 := by
      unfold accel
      rw [show k + 1 + 1 = k + 2 by omega, show k + 1 - 1 = k by omega]
      ring
    rw [e, abs_mul, abs_of_nonneg (sq_nonneg samp)]
    refine mul_le_mul_of_nonneg_right ?_ (sq_nonneg _)
    rw [abs_le] at *
    constructor <;> linarith
  have key := eotvos_pert (rate (fun _ => 0) samp (k + 1)) (rate (fun _ => 0) samp (k + 1)) (scale a1) (small_deg r1) (small_deg r1') (small_deg r3) (small_deg r3')
    (small_deg r2) (small_deg r2') (scale (dr a0 a2)) (scale da) (scale (dr o0 o2))
  refine key.trans ?_
  have f1 : ε * (π / 180) ≤ ε * 0.017454 := mul_le_mul_of_nonneg_left hp.le e0
  have f2 : ε * samp * (π / 180) ≤ ε * samp * 0.017454 := mul_le_mul_of_nonneg_left hp.le (by positivity)
  have f3 : 4 * ε * samp ^ 2 * (π / 180) ≤ 4 * ε * samp ^ 2 * 0.017454 := mul_le_mul_of_nonneg_left hp.le (by positivity)
  have g1 : 0 ≤ ε * samp := by positivity
  have g2 : 0 ≤ ε * samp ^ 2 := by positivity
  norm_num at *
  linarith only [f1, f2, f3, g1, g2, e0]

/-- The change of normal gravity and of the tide. -/
theorem place_pert {lon lat lon' lat' ε : ℝ} (hl : |lat - lat'| ≤ ε) (hr : |lon - lon'| ≤ ε) :
    |normalGravity lat - normalGravity lat'| ≤ 210 * ε ∧ ∀ (a : Astro) (hour : ℝ), 0 ≤ a.e1 → a.e1 ≤ 0.018 →
      |lunarTide a lon lat 0 hour + solarTide a lon lat 0 hour - (lunarTide a lon' lat' 0 hour + solarTide a lon' lat' 0 hour)| ≤ ε := by
  have hp := deg_lt
  have hp0 : 0 < π / 180 := by positivity
  have e0 : 0 ≤ ε := (abs_nonneg _).trans hl
  have f1 : ε * (π / 180) ≤ ε * 0.017454 := mul_le_mul_of_nonneg_left hp.le e0
  have scale : ∀ {x y c : ℝ}, |x - y| ≤ c → |x * (π / 180) - y * (π / 180)| ≤ c * (π / 180) := by
    intro x y c hc
    rw [← sub_mul, abs_mul, abs_of_pos hp0]
    exact mul_le_mul_of_nonneg_right hc hp0.le
  refine ⟨(normal_pert (scale hl)).trans (by norm_num at *; linarith only [f1, e0]), fun a hour h1 h2 => ?_⟩
  have l := lunar_pert a hour (scale hl) (scale hr)
  have s := solar_pert a h1 h2 hour (scale hl) (scale hr)
  rw [show ∀ p q u v : ℝ, p + q - (u + v) = (p - u) + (q - v) by intros; ring]
  refine (abs_add_le _ _).trans ((add_le_add l s).trans ?_)
  norm_num at *
  linarith only [f1, e0]

/-! ### C137 -/

/-- **C137.** Two sets of positions that differ by at most `ε` degrees give anomalies that differ by at most `ε` times `1.6e6 s² + 2.5e6 s + 400` mGal, where `s` is
the number of samples per second. -/
theorem C137_sensitivity (n : ℕ) (hn : 3 ≤ n) (grav lon lat lon' lat' : ℕ → ℝ) (t : ℕ → ℤ) (samp ε : ℝ) (hs : 0 ≤ samp) (ht : ∀ k < n, ValidStamp (t k))
    (h : ∀ k < n, |lat k - lat' k| ≤ ε ∧ |lon k - lon' k| ≤ ε) (hg : Gentle lon lat samp n) (hg' : Gentle lon' lat' samp n) :
    ∃ faa faa' full full' : ℕ → ℝ,
      faaScript (samples grav n) (samples lon n) (samples lat n) (samples t n) samp = .ok (samples (fun k => some (faa k)) n, samples (fun k => some (full k)) n) ∧
      faaScript (samples grav n) (samples lon' n) (samples lat' n) (samples t n) samp = .ok (samples (fun k => some (faa' k)) n, samples (fun k => some (full' k)) n) ∧
      ∀ k < n, |faa k - faa' k| ≤ ε * (1.6e6 * samp ^ 2 + 2.5e6 * samp + 400) ∧ |full k - full' k| ≤ ε * (1.6e6 * samp ^ 2 + 2.5e6 * samp + 400) := by
  obtain ⟨td, h1, h2⟩ := C104_value n hn grav lon lat t samp ht
  obtain ⟨td', h1', h2'⟩ := C104_value n hn grav lon' lat' t samp ht
  refine ⟨_, _, _, _, h2, h2', ?_⟩
  intro k hk
  obtain ⟨-, gm, gs, e⟩ := h1 k hk
  obtain ⟨-, gm', gs', e'⟩ := h1' k hk
  obtain ⟨y, m, d, hh, mi, s, us, v1, v2, v3⟩ := ht k hk
  obtain ⟨a, a1, a2⟩ := C90_tide_value y m d hh mi s us v1 v2
  rw [v3, a2] at e e'
  have q1 : td k = lunarTide a (lon k) (lat k) 0 (hourOfDay hh mi s) + solarTide a (lon k) (lat k) 0 (hourOfDay hh mi s) := by
    simp only [Except.ok.injEq, List.cons.injEq, Option.some.injEq, Prod.mk.injEq, and_true] at e
    exact e.1.symm
  have q2 : td' k = lunarTide a (lon' k) (lat' k) 0 (hourOfDay hh mi s) + solarTide a (lon' k) (lat' k) 0 (hourOfDay hh mi s) := by
    simp only [Except.ok.injEq, List.cons.injEq, Option.some.injEq, Prod.mk.injEq, and_true] at e'
    exact e'.1.symm
  obtain ⟨r1, r2⟩ := centuries_range _ _ _ _ _ _ _ v1 v2
  have ee : a.e1 = tideE1 (centuries y m d hh mi s) := by rw [a1.e1]; unfold tideE1; norm_num; ring
  obtain ⟨x1, x2⟩ := e1_range _ r1 r2
  rw [← ee] at x1 x2
  obtain ⟨p1, p2⟩ := place_pert (h k hk).1 (h k hk).2
  have p3 := p2 a (hourOfDay hh mi s) x1 x2
  rw [← q1, ← q2] at p3
  obtain ⟨j, hj⟩ : ∃ j, min (max k 1) (n - 2) = j + 1 := ⟨min (max k 1) (n - 2) - 1, by omega⟩
  have jn : j + 2 < n := by omega
  obtain ⟨g1, g2, g3⟩ := hg j jn
  obtain ⟨g1', g2', g3'⟩ := hg' j jn
  have p4 := motion_pert hs (fun i _ hi => h i (by omega)) g1 g2 g3 g1' g2' g3'
  have e0 : 0 ≤ ε := (abs_nonneg _).trans (h k hk).1
  have hE : ∀ lo la : ℕ → ℝ, eotvos 6378137.0 6356752.3142 (motionAt lo la (fun _ => 0) samp (min (max k 1) (n - 2))) =
      eotvos 6378137 6356752.3142 (motionAt lo la (fun _ => 0) samp (j + 1)) := by
    intro lo la
    rw [hj]
    norm_num
  simp only [hE]
  generalize eotvos 6378137 6356752.3142 (motionAt lon lat (fun _ => 0) samp (j + 1)) = E at *
  generalize eotvos 6378137 6356752.3142 (motionAt lon' lat' (fun _ => 0) samp (j + 1)) = E' at *
  generalize normalGravity (lat k) = N at *
  generalize normalGravity (lat' k) = N' at *
  rw [abs_le] at p1 p3 p4
  obtain ⟨p1a, p1b⟩ := p1
  obtain ⟨p3a, p3b⟩ := p3
  obtain ⟨p4a, p4b⟩ := p4
  rw [abs_le, abs_le]
  refine ⟨⟨?_, ?_⟩, ?_, ?_⟩
  · norm_num at *
    linarith only [p1a, p1b, p3a, p3b, p4a, p4b, e0]
  · norm_num at *
    linarith only [p1a, p1b, p3a, p3b, p4a, p4b, e0]
  · norm_num at *
    linarith only [p3a, p3b, p4a, p4b, e0]
  · norm_num at *
    linarith only [p3a, p3b, p4a, p4b, e0]

/-- **C137.** The bound cannot be lowered by much: at one sample per second and every time, errors of `ε` degrees can change the anomaly by `1.6e6 ε` mGal. -/
theorem C137_attained (ε : ℝ) (h0 : 0 ≤ ε) (h1 : ε ≤ 1 / 1000) (grav : ℕ → ℝ) (t : ℕ → ℤ) (ht : ∀ k < 3, ValidStamp (t k)) :
    ∃ lon lat lon' lat' faa faa' full full' : ℕ → ℝ, Gentle lon lat 1 3 ∧ Gentle lon' lat' 1 3 ∧ (∀ k < 3, |lat k - lat' k| ≤ ε ∧ |lon k - lon' k| ≤ ε) ∧
      faaScript (samples grav 3) (samples lon 3) (samples lat 3) (samples t 3) 1 = .ok (samples (fun k => some (faa k)) 3, samples (fun k => some (full k)) 3) ∧
      faaScript (samples grav 3) (samples lon' 3) (samples lat' 3) (samples t 3) 1 = .ok (samples (fun k => some (faa' k)) 3, samples (fun k => some (full' k)) 3) ∧
      1.6e6 * ε ≤ faa' 1 - faa 1 := by
  obtain ⟨td, h2, h3⟩ := C104_value 3 le_rfl grav (fun _ => 0) (fun _ => 0) t 1 ht
  obtain ⟨td', h2', h3'⟩ := C104_value 3 le_rfl grav (fun k => ε * ((k : ℝ) - 1)) (fun _ => 0) t 1 ht
  refine ⟨_, _, _, _, _, _, _, _, ?_, ?_, ?_, h3, h3', ?_⟩
  · intro k hk
    unfold rate accel
    norm_num
  · intro k hk
    unfold rate accel
    obtain rfl : k = 0 := by omega
    norm_num
    rw [abs_of_nonneg h0]
    norm_num at h1
    exact h1
  · intro k hk
    refine ⟨by simpa using h0, ?_⟩
    have hk' : k = 0 ∨ k = 1 ∨ k = 2 := by omega
    rcases hk' with rfl | rfl | rfl
    · norm_num [abs_of_nonneg h0]
    · norm_num
      exact h0
    · norm_num [abs_of_nonneg h0]
  · obtain ⟨-, gm, gs, e⟩ := h2 1 (by norm_num)
    obtain ⟨-, gm', gs', e'⟩ := h2' 1 (by norm_num)
    have ez : ε * (((1 : ℕ) : ℝ) - 1) = 0 := by norm_num
    rw [ez, e] at e'
    simp only [Except.ok.injEq, List.cons.injEq, Option.some.injEq, Prod.mk.injEq, and_true] at e'
    rw [← e'.1]
    simp only [show min (max 1 1) (3 - 2) = 1 by norm_num]
    have hd0 : ∀ f : ℝ, deviation f (0 * (π / 180)) = 0 := by intro f; unfold deviation; simp
    have E1 : eotvos 6378137.0 6356752.3142 (motionAt (fun _ => 0) (fun _ => 0) (fun _ => 0) 1 1) = 0 := by
      unfold eotvos meridianTerm parallelTerm motionAt rate accel
      simp
    have E2 : eotvos 6378137.0 6356752.3142 (motionAt (fun k => ε * ((k : ℝ) - 1)) (fun _ => 0) (fun _ => 0) 1 1) =
        100000 * (((0.00007292115 + ε * (π / 180)) ^ 2 - 0.00007292115 ^ 2) * 6378137) := by
      unfold eotvos meridianTerm parallelTerm motionAt rate accel radius earthRate
      simp only [hd0]
      norm_num
    rw [E1, E2]
    have hp : 0.01745 ≤ π / 180 := by
      have := Real.pi_gt_d6
      norm_num at *
      linarith
    have k1 : ε * 0.01745 ≤ ε * (π / 180) := mul_le_mul_of_nonneg_left hp h0
    generalize ε * (π / 180) = w at *
    have k2 := sq_nonneg w
    norm_num at *
    nlinarith only [k1, k2, h0]

/-! ### Non-vacuity -/

/-- An hour to the north-east at about 11 m/s, and the same with every other fix ten centimetres off. -/
example : Gentle (fun k => 150 + k / 20000) (fun k => -33 + k / 20000) 1 3600 ∧
    Gentle (fun k => 150 + k / 20000) (fun k => -33 + k / 20000 + if k % 2 = 0 then 1 / 1000000 else 0) 1 3600 := by
  refine ⟨fun k _ => ?_, fun k _ => ?_⟩
  · unfold rate accel
    rw [show k + 1 + 1 = k + 2 by omega, show k + 1 - 1 = k by omega]
    push_cast
    refine ⟨?_, ?_, ?_⟩
    · rw [show ((-33 : ℝ) + (k + 2) / 20000 - (-33 + k / 20000)) / 2 * 1 = 1 / 20000 by ring]; norm_num
    · rw [show ((150 : ℝ) + (k + 2) / 20000 - (150 + k / 20000)) / 2 * 1 = 1 / 20000 by ring]; norm_num
    · rw [show ((-33 : ℝ) + (k + 2) / 20000 - 2 * (-33 + (k + 1) / 20000) + (-33 + k / 20000)) * 1 ^ 2 = 0 by ring]; norm_num
  · unfold rate accel
    rw [show k + 1 + 1 = k + 2 by omega, show k + 1 - 1 = k by omega]
    simp only [Nat.add_mod_right]
    push_cast
    refine ⟨?_, ?_, ?_⟩
    · rw [show ∀ c : ℝ, ((-33 : ℝ) + (k + 2) / 20000 + c - (-33 + k / 20000 + c)) / 2 * 1 = 1 / 20000 by intro; ring]; norm_num
    · rw [show ((150 : ℝ) + (k + 2) / 20000 - (150 + k / 20000)) / 2 * 1 = 1 / 20000 by ring]; norm_num
    · rcases Nat.mod_two_eq_zero_or_one k with hk | hk
      · rw [if_pos hk, if_neg (by omega),
          show ((-33 : ℝ) + (k + 2) / 20000 + 1 / 1000000 - 2 * (-33 + (k + 1) / 20000 + 0) + (-33 + k / 20000 + 1 / 1000000)) * 1 ^ 2 = 2 / 1000000 by ring]
        norm_num [abs_le]
      · rw [if_neg (by omega), if_pos (by omega),
          show ((-33 : ℝ) + (k + 2) / 20000 + 0 - 2 * (-33 + (k + 1) / 20000 + 1 / 1000000) + (-33 + k / 20000 + 0)) * 1 ^ 2 = -(2 / 1000000) by ring]
        norm_num [abs_le]

end Shipgrav
