import Verif.Model.LayerFloat
import Verif.Lemmas.Parker2dFloat
import Verif.Props.Parker2dFloat
import Verif.Props.Layer

/-! Property theorem C171: a layer of variable density in double precision. -/

namespace Shipgrav
open Spec Parker1 Parker2

private theorem kvalueF_near {lm : Parker2Libm} (gd : GoodParker2Lib lm.fft2 lm.ifft2 lm.exp lm.sqrt lm.pow lm.sum) (j n : ℕ) (d : ℚ) :
    Near (14 * (1 / 2 ^ 52)) (lm.pow (kvalueF j n (toDouble (toDouble (2 * piF) / toDouble (n * d)))) 2) ((2 * Real.pi * (layerFreq n j : ℝ) / (n * d)) ^ 2) := by
  have h1 : Near (2 * (1 / 2 ^ 52)) (toDouble (2 * piF)) (2 * Real.pi) := by
    have := near_toDouble ((near_self 2).mul near_pi)
    push_cast at this
    exact this.mono (by norm_num)
  have h2 : Near (1 * (1 / 2 ^ 52)) (toDouble (n * d)) (n * d) := by
    have := near_toDouble (near_self (n * d))
    push_cast at this
    exact this.mono (by norm_num)
  have h3 := near_toDouble (h1.div h2)
  have h4 := near_toDouble ((near_self ((layerFreq n j : ℤ) : ℚ)).mul h3)
  have e : kvalueF j n (toDouble (toDouble (2 * piF) / toDouble (n * d))) = toDouble (((layerFreq n j : ℤ) : ℚ) * toDouble (toDouble (2 * piF) / toDouble (n * d))) := by
    unfold kvalueF layerFreq
    by_cases h : j ≤ n / 2 + 1
    · rw [if_pos (by omega), if_pos h]; push_cast; rfl
    · rw [if_neg (by omega), if_neg h]; push_cast; rfl
  rw [e]
  have h5 := near_pow (fun q j h1 h2 => gd.pow q j h1 (by omega)) h4 2 (by norm_num) (by norm_num)
  have e2 : (((layerFreq n j : ℤ) : ℚ) : ℝ) * (2 * Real.pi / (n * d)) = 2 * Real.pi * (layerFreq n j : ℝ) / (n * d) := by push_cast; ring
  rw [e2] at h5
  exact h5.mono (by norm_num)

private theorem layerWave_near {lm : Parker2Libm} (gd : GoodParker2Lib lm.fft2 lm.ifft2 lm.exp lm.sqrt lm.pow lm.sum) (ny nx : ℕ) (dy dx : ℚ) (k l : ℕ) :
    Near (20 * (1 / 2 ^ 52)) (layerWavenumberF lm ny nx dy dx k l) (wavenumberOf layerFreq ny nx dy dx k l) := by
  have a := near_toDouble (near_add0 (kvalueF_near gd l nx dx) (kvalueF_near gd k ny dy) (sq_nonneg _) (sq_nonneg _))
  have b := (near_sqrt0 gd.sqrt a (by positivity) (by norm_num)).2
  unfold layerWavenumberF wavenumberOf
  exact b.mono (by norm_num)

/-- The wavenumber is at least that of one cycle over the longer side. -/
private theorem wave_ge (M N : ℕ) (dy dx L : ℝ) (hdy : dy ≠ 0) (hdx : dx ≠ 0) (hN : N * |dx| ≤ L) (hM : M * |dy| ≤ L) (k l : ℕ) (hk : k < M) (hl : l < N) (h0 : ¬(k = 0 ∧ l = 0)) :
    0 < wavenumberOf layerFreq M N dy dx k l ∧ 1 / wavenumberOf layerFreq M N dy dx k l ≤ L / (2 * Real.pi) := by
  have key : ∀ (n j : ℕ) (d : ℝ), d ≠ 0 → n * |d| ≤ L → j < n → j ≠ 0 → (2 * Real.pi / L) ≤ |2 * Real.pi * (layerFreq n j : ℝ) / (n * d)| ∧ 0 < L := by
    intro n j d hd hL hj hj0
    have hn : (0 : ℝ) < n := by exact_mod_cast (by omega : 0 < n)
    have hd' : 0 < |d| := abs_pos.2 hd
    have hL0 : 0 < L := (mul_pos hn hd').trans_le hL
    refine ⟨?_, hL0⟩
    have hf : (1 : ℝ) ≤ |(layerFreq n j : ℝ)| := by
      have : layerFreq n j ≠ 0 := fun h => hj0 ((layerFreq_zero n j hj).1 h)
      exact_mod_cast Int.one_le_abs this
    rw [abs_div, abs_mul, abs_of_pos (by positivity : 0 < 2 * Real.pi), abs_mul, Nat.abs_cast]
    apply div_le_div₀ (by positivity) _ (by positivity) hL
    have := Real.pi_pos
    nlinarith
  have hlow : 2 * Real.pi / L ≤ wavenumberOf layerFreq M N dy dx k l ∧ 0 < L := by
    unfold wavenumberOf
    by_cases hl0 : l = 0
    · have hk0 : k ≠ 0 := fun h => h0 ⟨h, hl0⟩
      obtain ⟨a, b⟩ := key M k dy hdy hM hk hk0
      refine ⟨a.trans ?_, b⟩
      rw [← Real.sqrt_sq_eq_abs]
      exact Real.sqrt_le_sqrt (by linarith [sq_nonneg (2 * Real.pi * (layerFreq N l : ℝ) / (N * dx))])
    · obtain ⟨a, b⟩ := key N l dx hdx hN hl hl0
      refine ⟨a.trans ?_, b⟩
      rw [← Real.sqrt_sq_eq_abs]
      exact Real.sqrt_le_sqrt (by linarith [sq_nonneg (2 * Real.pi * (layerFreq M k : ℝ) / (M * dy))])
  have hL := hlow.2
  have hp : 0 < 2 * Real.pi / L := by positivity
  have hpos := hp.trans_le hlow.1
  refine ⟨hpos, ?_⟩
  have := one_div_le_one_div_of_le hp hlow.1
  rwa [one_div_div] at this

/-- Exponential of a slightly wrong negative number, however large. -/
private theorem exp_abs_err {ex : ℚ → ℚ} (he : ∀ q : ℚ, |(ex q : ℝ) - Real.exp q| ≤ Real.exp q / 2 ^ 51) {q : ℚ} {x : ℝ} (hx : 0 ≤ x) (hq : |(q : ℝ) + x| ≤ 1 / 2 ^ 47 * x) :
    |(ex q : ℝ) - Real.exp (-x)| ≤ 1 / 2 ^ 46 + 1 / 2 ^ 51 := by
  obtain ⟨q1, q2⟩ := abs_le.1 hq
  have hq0 : (q : ℝ) ≤ -x / 2 := by linarith
  have h1 : Real.exp q ≤ 1 := by rw [Real.exp_le_one_iff]; linarith
  -- both exponentials are at most that of half the exponent
  have hy : x / 2 * Real.exp (-(x / 2)) ≤ 1 := by
    rw [Real.exp_neg, ← div_eq_mul_inv, div_le_one (Real.exp_pos _)]
    linarith [Real.add_one_le_exp (x / 2)]
  have key : ∀ u v : ℝ, u ≤ v → v ≤ -(x / 2) → |u - v| ≤ 1 / 2 ^ 47 * x → |Real.exp u - Real.exp v| ≤ 1 / 2 ^ 46 := by
    intro u v huv hv hd
    have a := Real.add_one_le_exp (u - v)
    have b : Real.exp u = Real.exp v * Real.exp (u - v) := by rw [← Real.exp_add]; congr 1; ring
    have c := Real.exp_pos v
    have d : Real.exp v ≤ Real.exp (-(x / 2)) := Real.exp_le_exp.2 hv
    have e : Real.exp u ≤ Real.exp v := Real.exp_le_exp.2 huv
    rw [abs_sub_comm, abs_of_nonneg (by linarith)]
    rw [abs_sub_comm, abs_of_nonneg (by linarith)] at hd
    have f : Real.exp v - Real.exp u ≤ Real.exp v * (v - u) := by
      rw [b]
      nlinarith
    have g : Real.exp v * (v - u) ≤ Real.exp (-(x / 2)) * (1 / 2 ^ 47 * x) :=
      mul_le_mul d hd (by linarith) (Real.exp_pos _).le
    linarith
  have h2 : |Real.exp q - Real.exp (-x)| ≤ 1 / 2 ^ 46 := by
    have hd : |(q : ℝ) - -x| ≤ 1 / 2 ^ 47 * x := by rwa [sub_neg_eq_add]
    rcases le_total (q : ℝ) (-x) with h | h
    · exact key q (-x) h (by linarith) hd
    · rw [abs_sub_comm]
      exact key (-x) q h (by linarith) (by rwa [abs_sub_comm])
  have h3 := he q
  have h4 := abs_add_le ((ex q : ℝ) - Real.exp q) (Real.exp q - Real.exp (-x))
  rw [sub_add_sub_cancel] at h4
  linarith

/-- The attenuation between the depths. -/
private theorem diff_err {ex : ℚ → ℚ} (he : ∀ q : ℚ, |(ex q : ℝ) - Real.exp q| ≤ Real.exp q / 2 ^ 51) {k' z1 z2 : ℚ} {κ : ℝ} (hκ : 0 ≤ κ) (hk : Near (20 * (1 / 2 ^ 52)) k' κ)
    (h1 : 0 ≤ z1) (h2 : 0 ≤ z2) :
    |((toDouble (ex (toDouble (-k' * z1)) - ex (toDouble (-k' * z2))) : ℚ) : ℝ) - (Real.exp (-κ * z1) - Real.exp (-κ * z2))| ≤ 1 / 2 ^ 44 * 1 ∧
      |Real.exp (-κ * z1) - Real.exp (-κ * z2)| ≤ 1 := by
  have one : ∀ z : ℚ, 0 ≤ z → |(ex (toDouble (-k' * z)) : ℝ) - Real.exp (-κ * z)| ≤ 1 / 2 ^ 46 + 1 / 2 ^ 51 ∧ 0 ≤ Real.exp (-κ * z) ∧ Real.exp (-κ * z) ≤ 1 := by
    intro z hz
    have hz' : (0 : ℝ) ≤ z := by exact_mod_cast hz
    have hx := mul_nonneg hκ hz'
    have a := near_toDouble ((hk.mul (near_self (-z))))
    have b := a.err (by norm_num) (by norm_num)
    have e : k' * -z = -k' * z := by ring
    have e2 : κ * ((-z : ℚ) : ℝ) = -(κ * z) := by push_cast; ring
    rw [e, e2, abs_neg, abs_of_nonneg hx, sub_neg_eq_add] at b
    rw [neg_mul κ]
    refine ⟨exp_abs_err he hx (b.trans (mul_le_mul_of_nonneg_right (by norm_num) hx)), (Real.exp_pos _).le, ?_⟩
    rw [Real.exp_le_one_iff]
    linarith
  obtain ⟨a1, a2, a3⟩ := one z1 h1
  obtain ⟨b1, b2, b3⟩ := one z2 h2
  have hE : |Real.exp (-κ * z1) - Real.exp (-κ * z2)| ≤ 1 := by rw [abs_le]; constructor <;> linarith
  refine ⟨?_, hE⟩
  have r := toDouble_err (ex (toDouble (-k' * z1)) - ex (toDouble (-k' * z2)))
  generalize ex (toDouble (-k' * z1)) = u at *
  generalize ex (toDouble (-k' * z2)) = v at *
  push_cast at r
  have d : |(u : ℝ) - v - (Real.exp (-κ * z1) - Real.exp (-κ * z2))| ≤ 2 * (1 / 2 ^ 46 + 1 / 2 ^ 51) := by
    rw [show (u : ℝ) - v - (Real.exp (-κ * z1) - Real.exp (-κ * z2)) = (u - Real.exp (-κ * z1)) - (v - Real.exp (-κ * z2)) by ring]
    refine (abs_sub _ _).trans ?_
    linarith
  have s : |(u : ℝ) - v| ≤ 2 := by
    have := abs_add_le ((u : ℝ) - v - (Real.exp (-κ * z1) - Real.exp (-κ * z2))) (Real.exp (-κ * z1) - Real.exp (-κ * z2))
    rw [sub_add_cancel] at this
    linarith
  have t := abs_add_le ((toDouble (u - v) : ℝ) - (u - v)) ((u : ℝ) - v - (Real.exp (-κ * z1) - Real.exp (-κ * z2)))
  rw [sub_add_sub_cancel] at t
  linarith

private theorem grav_near3 : |((toDouble (toDouble (2 * piF) * toDouble 6.673e-11) : ℚ) : ℝ) - 2 * Real.pi * 6.673e-11| ≤ 1 / 2 ^ 48 * (2 * Real.pi * 6.673e-11) := by
  have h1 : Near (2 * (1 / 2 ^ 52)) (toDouble (2 * piF)) (2 * Real.pi) := by
    have := near_toDouble ((near_self 2).mul near_pi)
    push_cast at this
    exact this.mono (by norm_num)
  have h2 : Near (1 / 2 ^ 52) (toDouble 6.673e-11) 6.673e-11 := by
    have a := near_toDouble (near_self (6.673e-11 : ℚ))
    have e : ((6.673e-11 : ℚ) : ℝ) = 6.673e-11 := by norm_num
    rw [e] at a
    exact a.mono (by norm_num)
  have h3 := (near_toDouble (h1.mul h2)).err (by norm_num) (by norm_num)
  have hp : (0 : ℝ) ≤ 2 * Real.pi * 6.673e-11 := by have := Real.pi_pos; positivity
  rw [abs_of_nonneg hp] at h3
  exact h3.trans (mul_le_mul_of_nonneg_right (by norm_num) hp)

/-- One bin. -/
private theorem layer_bin {ex : ℚ → ℚ} (he : ∀ q : ℚ, |(ex q : ℝ) - Real.exp q| ≤ Real.exp q / 2 ^ 51) {F' : ℚ × ℚ} {F : ℂ} {k' z1 z2 : ℚ} {κ B Λ : ℝ}
    (hF : ‖pairC F' - F‖ ≤ 1 / 2 ^ 44 * B) (hB : ‖F‖ ≤ B) (hκ : 0 < κ) (hk : Near (20 * (1 / 2 ^ 52)) k' κ) (hΛ : 1 / κ ≤ Λ) (h1 : 0 ≤ z1) (h2 : 0 ≤ z2) (g : ℝ)
    (hg : g = 2 * Real.pi * 6.673e-11) :
    ‖pairC (cdivF (cmulF (cmulF F' (toDouble (toDouble (2 * piF) * toDouble 6.673e-11))) (toDouble (ex (toDouble (-k' * z1)) - ex (toDouble (-k' * z2))))) k') -
        F * (g : ℂ) * ((Real.exp (-κ * z1) - Real.exp (-κ * z2) : ℝ) : ℂ) * ((1 / κ : ℝ) : ℂ)‖ ≤ B * g * 1 * Λ * (1 / 2 ^ 41) ∧
      ‖F * (g : ℂ) * ((Real.exp (-κ * z1) - Real.exp (-κ * z2) : ℝ) : ℂ) * ((1 / κ : ℝ) : ℂ)‖ ≤ B * g * 1 * Λ := by
  have hB0 := (norm_nonneg _).trans hB
  have hg0 : 0 ≤ g := by rw [hg]; have := Real.pi_pos; positivity
  have hκi : 0 < 1 / κ := by positivity
  have hΛ0 : 0 < Λ := hκi.trans_le hΛ
  obtain ⟨d1, d2⟩ := diff_err he hκ.le hk h1 h2
  have r := grav_near3
  rw [← hg] at r
  have hr : |((toDouble (1 / k') : ℚ) : ℝ) - 1 / κ| ≤ 1 / 2 ^ 47 * Λ := by
    have a := near_toDouble ((near_self 1).div hk)
    have b := a.err (by norm_num) (by norm_num)
    rw [Rat.cast_one, abs_of_pos hκi] at b
    refine b.trans ?_
    have : 101 / 100 * ((0 : ℝ) + 20 * (1 / 2 ^ 52) + 1 / 2 ^ 52) * (1 / κ) ≤ 1 / 2 ^ 47 * (1 / κ) := mul_le_mul_of_nonneg_right (by norm_num) hκi.le
    exact this.trans (mul_le_mul_of_nonneg_left hΛ (by norm_num))
  have a1 := cmulF_err (by norm_num) (by norm_num) hF hB r (abs_of_nonneg hg0).le
  have n1 : ‖F * (g : ℂ)‖ ≤ B * g := by
    rw [norm_mul, Complex.norm_real, Real.norm_eq_abs, abs_of_nonneg hg0]
    exact mul_le_mul_of_nonneg_right hB hg0
  have a2 := cmulF_err (by norm_num) (by norm_num) a1 n1 d1 d2
  have n2 : ‖F * (g : ℂ) * ((Real.exp (-κ * z1) - Real.exp (-κ * z2) : ℝ) : ℂ)‖ ≤ B * g * 1 := by
    rw [norm_mul, Complex.norm_real, Real.norm_eq_abs]
    exact mul_le_mul n1 d2 (abs_nonneg _) (by positivity)
  have a3 := cmulF_err (by norm_num) (by norm_num) a2 n2 hr ((abs_of_pos hκi).le.trans hΛ)
  unfold cdivF
  constructor
  · refine a3.trans ?_
    rw [mul_comm]
    exact mul_le_mul_of_nonneg_left (by norm_num) (by positivity)
  · rw [norm_mul, Complex.norm_real, Real.norm_eq_abs, abs_of_pos hκi]
    exact mul_le_mul n2 hΛ hκi.le (by positivity)

private theorem mgal_err3 {x : ℚ} {X Q : ℝ} (hx : |(x : ℝ) - X| ≤ Q * (1 / 2 ^ 44 + 1 / 2 ^ 41)) (hX : |X| ≤ Q) :
    |((toDouble (toDouble (x * 1e5) * 1e3) : ℚ) : ℝ) - X * 1e5 * 1e3| ≤ Q * 1e5 * 1e3 / 2 ^ 40 := by
  have hQ : 0 ≤ Q := (abs_nonneg _).trans hX
  have a := near_toDouble ((near_toDouble ((near_self x).mul (near_self 1e5))).mul (near_self 1e3))
  have b := a.err (by norm_num) (by norm_num)
  have e1 : ((1e5 : ℚ) : ℝ) = 1e5 := by norm_num
  have e2 : ((1e3 : ℚ) : ℝ) = 1e3 := by norm_num
  rw [e1, e2] at b
  have hxx : |(x : ℝ)| ≤ 2 * Q := by
    have := abs_add_le ((x : ℝ) - X) X
    rw [sub_add_cancel] at this
    linarith
  have c : |(x : ℝ) * 1e5 * 1e3| ≤ 2 * Q * 1e5 * 1e3 := by
    rw [abs_mul, abs_mul, abs_of_pos (by norm_num : (0 : ℝ) < 1e5), abs_of_pos (by norm_num : (0 : ℝ) < 1e3)]
    linarith
  have d : |(x : ℝ) * 1e5 * 1e3 - X * 1e5 * 1e3| ≤ Q * (1 / 2 ^ 44 + 1 / 2 ^ 41) * 1e5 * 1e3 := by
    rw [← sub_mul, ← sub_mul, abs_mul, abs_mul, abs_of_pos (by norm_num : (0 : ℝ) < 1e5), abs_of_pos (by norm_num : (0 : ℝ) < 1e3)]
    linarith
  have t := abs_add_le (((toDouble (toDouble (x * 1e5) * 1e3) : ℚ) : ℝ) - x * 1e5 * 1e3) ((x : ℝ) * 1e5 * 1e3 - X * 1e5 * 1e3)
  rw [sub_add_sub_cancel] at t
  have b' := b.trans (mul_le_mul_of_nonneg_left c (by norm_num))
  linarith

/-- **C171.** The anomaly of a layer of variable density in double precision is that of C72 up to rounding.  `R` bounds the density, `L` the sides of the grid in km. -/
theorem C171_layer (lm : Parker2Libm) (gd : GoodParker2Lib lm.fft2 lm.ifft2 lm.exp lm.sqrt lm.pow lm.sum) (ny nx : ℕ) (rho : ℕ → ℕ → ℚ) (dx dy z1 z2 : ℚ)
    (hdx : dx ≠ 0) (hdy : dy ≠ 0) (h1 : 0 ≤ z1) (h2 : 0 ≤ z2) (R L : ℝ) (hR : ∀ a < ny, ∀ b < nx, |(rho a b : ℝ)| ≤ R)
    (hLx : nx * |(dx : ℝ)| ≤ L) (hLy : ny * |(dy : ℝ)| ≤ L) :
    (grav2dLayerF lm ⟨ny, nx, rho⟩ dx dy z1 z2).rows = ny ∧ (grav2dLayerF lm ⟨ny, nx, rho⟩ dx dy z1 z2).cols = nx ∧
    ∀ i < ny, ∀ j < nx, |((grav2dLayerF lm ⟨ny, nx, rho⟩ dx dy z1 z2).at' i j : ℝ) -
      layerGrid ny nx (wavenumberOf layerFreq ny nx dy dx) z1 z2 (2 * Real.pi * 6.673e-11 * 1e5 * 1e3) (fun a b => (rho a b : ℝ)) i j| ≤
        6.673e-11 * 1e5 * 1e3 * (ny * nx) * R * L / 2 ^ 40 := by
  have hdx' : (dx : ℝ) ≠ 0 := by exact_mod_cast hdx
  have hdy' : (dy : ℝ) ≠ 0 := by exact_mod_cast hdy
  refine ⟨(gd.ifftShape _).1, (gd.ifftShape _).2, fun i hi j hj => ?_⟩
  have hR0 : 0 ≤ R := (abs_nonneg _).trans (hR i hi j hj)
  have hny : (0 : ℝ) < ny := by exact_mod_cast (by omega : 0 < ny)
  have hnx : (0 : ℝ) < nx := by exact_mod_cast (by omega : 0 < nx)
  have hL0 : 0 < L := (mul_pos hnx (abs_pos.2 hdx')).trans_le hLx
  obtain ⟨g, hg⟩ : ∃ g : ℝ, g = 2 * Real.pi * 6.673e-11 := ⟨_, rfl⟩
  have hg0 : 0 ≤ g := by rw [hg]; have := Real.pi_pos; positivity
  obtain ⟨κ, hκd⟩ : ∃ κ : ℕ → ℕ → ℝ, κ = wavenumberOf layerFreq ny nx dy dx := ⟨_, rfl⟩
  let F : ℕ → ℕ → ℂ := fun k l => ∑ a ∈ Finset.range ny, ∑ b ∈ Finset.range nx, ((rho a b : ℝ) : ℂ) *
    Complex.exp (-2 * Real.pi * Complex.I * ((k * a) / ny + (l * b) / nx))
  let d : ℕ → ℕ → ℂ := fun k l => open Classical in
    if κ k l = 0 then 0 else F k l * (g : ℂ) * ((Real.exp (-κ k l * z1) - Real.exp (-κ k l * z2) : ℝ) : ℂ) / (κ k l : ℂ)
  obtain ⟨Q, hQ⟩ : ∃ Q : ℝ, Q = ny * nx * R * g * 1 * (L / (2 * Real.pi)) := ⟨_, rfl⟩
  have hQ0 : 0 ≤ Q := by rw [hQ]; have := Real.pi_pos; positivity
  let y : ℕ → ℕ → ℚ × ℚ := fun k l => if layerWavenumberF lm ny nx dy dx k l = 0 then (0, 0) else
    cdivF (cmulF (cmulF ((lm.fft2 ⟨ny, nx, rho⟩).at' k l) (toDouble (toDouble (2 * piF) * toDouble 6.673e-11)))
      (toDouble (lm.exp (toDouble (-layerWavenumberF lm ny nx dy dx k l * z1)) - lm.exp (toDouble (-layerWavenumberF lm ny nx dy dx k l * z2)))))
      (layerWavenumberF lm ny nx dy dx k l)
  have hbin : ∀ k < ny, ∀ l < nx, ‖pairC (y k l) - d k l‖ ≤ Q * (1 / 2 ^ 41) ∧ ‖d k l‖ ≤ Q := by
    intro k hk l hl
    have hw := layerWave_near gd ny nx dy dx k l
    have hz0 := wavenumberOf_zero ny nx dy dx hdy' hdx' k l hk hl
    rw [← hκd] at hw hz0
    by_cases hz : k = 0 ∧ l = 0
    · have hκ0 := hz0.2 hz
      have hq0 : layerWavenumberF lm ny nx dy dx k l = 0 := by
        obtain ⟨t, ht, e⟩ := hw
        rw [hκ0, zero_mul] at e
        exact_mod_cast e
      have e0 : pairC (0, 0) = 0 := by apply Complex.ext <;> simp [pairC]
      simp only [y, d, if_pos hκ0, if_pos hq0, e0, sub_zero, norm_zero]
      exact ⟨by positivity, hQ0⟩
    · obtain ⟨p1, p2⟩ := wave_ge ny nx dy dx L hdy' hdx' hLx hLy k l hk hl hz
      rw [← hκd] at p1 p2
      have hq0 : layerWavenumberF lm ny nx dy dx k l ≠ 0 := by
        intro h
        obtain ⟨t, ht, e⟩ := hw
        rw [h, Rat.cast_zero] at e
        rcases mul_eq_zero.1 e.symm with h | h
        · exact p1.ne' h
        · exact ht.pos.ne' h
      obtain ⟨f1, f2⟩ := fft2_err lm gd ny nx rho (fun a b => (rho a b : ℝ)) R 0 (by norm_num) (fun a _ b _ => by simp) hR k hk l hl
      rw [add_zero] at f1
      have := layer_bin gd.exp f1 f2 p1 hw p2 h1 h2 g hg
      simp only [y, d, if_neg p1.ne', if_neg hq0]
      rw [hQ, div_eq_mul_inv]
      have e : ((1 / κ k l : ℝ) : ℂ) = (κ k l : ℂ)⁻¹ := by push_cast; rw [one_div]
      rw [e] at this
      exact this
  have hI := ifft2_err lm gd ny nx y d Q (1 / 2 ^ 41) (by norm_num) (fun k hk l hl => (hbin k hk l hl).1) (fun k hk l hl => (hbin k hk l hl).2) i hi j hj
  have hIB : ‖1 / ((ny : ℂ) * nx) * ∑ k ∈ Finset.range ny, ∑ l ∈ Finset.range nx, d k l * Complex.exp (2 * Real.pi * Complex.I * ((i * k) / ny + (j * l) / nx))‖ ≤ Q := by
    rw [norm_mul, norm_div, norm_one, norm_mul, Complex.norm_natCast, Complex.norm_natCast, one_div, inv_mul_le_iff₀ (by positivity)]
    apply sum2_le
    intro a ha b hb
    rw [norm_mul, norm_wave4, mul_one]
    exact (hbin a ha b hb).2
  have hre := (Complex.abs_re_le_norm _).trans hI
  rw [Complex.sub_re] at hre
  have hreB := (Complex.abs_re_le_norm _).trans hIB
  have e := (C72_value ny nx (fun a b => (rho a b : ℝ)) dx dy z1 z2 hdx' hdy').2.2 i j
  have e' : (grav2dLayer ⟨ny, nx, fun a b => (rho a b : ℝ)⟩ dx dy z1 z2).at' i j =
      (1 / ((ny : ℂ) * nx) * ∑ k ∈ Finset.range ny, ∑ l ∈ Finset.range nx, d k l * Complex.exp (2 * Real.pi * Complex.I * ((i * k) / ny + (j * l) / nx))).re * 1e5 * 1e3 := by
    unfold grav2dLayer ifft2 fft2
    simp only [kvalue_eq]
    have hκ : ∀ k l, √((2 * Real.pi * (layerFreq nx l : ℝ) / (nx * dx)) ^ 2 + (2 * Real.pi * (layerFreq ny k : ℝ) / (ny * dy)) ^ 2) = κ k l := fun k l => by rw [hκd]; rfl
    simp only [hκ, ← hg]
    rfl
  rw [← e, e']
  have hfin := mgal_err3 hre hreB
  refine hfin.trans (le_of_eq ?_)
  rw [hQ, hg]
  have := Real.pi_pos
  field_simp

/-- A grid of two by three points 10 km apart between 3 and 5 km. -/
example (lm : Parker2Libm) (gd : GoodParker2Lib lm.fft2 lm.ifft2 lm.exp lm.sqrt lm.pow lm.sum) (rho : ℕ → ℕ → ℚ) (hr : rho = fun a b => 3300 - 100 * (if a = b then 1 else 0)) :
    ∀ i < 2, ∀ j < 3, |((grav2dLayerF lm ⟨2, 3, rho⟩ 10 10 3 5).at' i j : ℝ) -
      layerGrid 2 3 (wavenumberOf layerFreq 2 3 (10 : ℚ) (10 : ℚ)) (3 : ℚ) (5 : ℚ) (2 * Real.pi * 6.673e-11 * 1e5 * 1e3) (fun a b => (rho a b : ℝ)) i j| ≤
        6.673e-11 * 1e5 * 1e3 * ((2 : ℕ) * (3 : ℕ)) * 3300 * 30 / 2 ^ 40 := by
  refine (C171_layer lm gd 2 3 rho 10 10 3 5 (by norm_num) (by norm_num) (by norm_num) (by norm_num) 3300 30 ?_ (by norm_num) (by norm_num)).2.2
  intro a _ b _
  rw [hr]
  simp only
  split <;> norm_num

end Shipgrav
