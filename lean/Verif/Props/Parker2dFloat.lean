import Verif.Lemmas.Parker2dFloat

/-! Property theorems C170: gravity of a surface in double precision. -/

namespace Shipgrav
open Spec Parker1 Parker2

private theorem data_shape (lm : Parker2Libm) (gd : GoodParker2Lib lm.fft2 lm.ifft2 lm.exp lm.sqrt lm.pow lm.sum) (Z kwn : Mat ℚ) (g z : ℚ) (P : ℕ) :
    (parkerData2dF lm Z kwn g z P).rows = Z.rows ∧ (parkerData2dF lm Z kwn g z P).cols = Z.cols := by
  have a := loopF_at lm Z kwn (P - 1) 2 1 ⟨(lm.fft2 Z).rows, (lm.fft2 Z).cols, fun a b => if a = 0 ∧ b = 0 then (0, 0) else (lm.fft2 Z).at' a b⟩
  unfold parkerData2dF
  simp only
  rw [(gd.ifftShape _).1, (gd.ifftShape _).2]
  simp only
  unfold parkerSum2dF
  simp only
  exact ⟨a.1.trans (gd.fftShape _).1, a.2.1.trans (gd.fftShape _).2⟩

private theorem near_scaled (d : ℚ) : Near (1 / 2 ^ 52) (toDouble (100000 * d)) (100000 * d) := by
  have := near_toDouble (near_self (100000 * d))
  push_cast at this
  exact this.mono (by norm_num)

private theorem scaled_ne {d : ℚ} {δ : ℝ} (hδ : 0 < δ) (h : δ ≤ |100000 * (d : ℝ)|) : toDouble (100000 * d) ≠ 0 := by
  intro h0
  obtain ⟨t, ht, e⟩ := near_scaled d
  rw [h0, Rat.cast_zero] at e
  rcases mul_eq_zero.1 e.symm with h1 | h1
  · rw [h1, abs_zero] at h; linarith
  · exact ht.pos.ne' h1

/-- What the call does with grids of the right shape. -/
private theorem foldingF_err (lm : Parker2Libm) (gd : GoodParker2Lib lm.fft2 lm.ifft2 lm.exp lm.sqrt lm.pow lm.sum) (nx ny : ℕ) (hnx : 0 < nx) (hny : 0 < ny) (h : ℕ → ℕ → ℚ)
    (dx dy drho dz : ℚ) (npower : ℕ) (hP : npower ≤ 20) (ifold : Bool) (hx : ifold = false → nx % 2 = 0 ∨ nx = 1) (hy : ifold = false → ny % 2 = 0 ∨ ny = 1)
    (μ H B ρ r D δ g : ℝ) (hμ : μ = gridMean ny nx fun a b => (h a b : ℝ)) (hD : D = 100 * (μ + dz)) (hg : g = 2 * Real.pi * 6.673e-8 * 1000 * drho)
    (hH : ∀ a < ny, ∀ b < nx, |(h a b : ℝ)| ≤ H) (hB : ∀ a < ny, ∀ b < nx, |100 * (μ - h a b)| ≤ B) (hρ : 1 ≤ ρ) (hHB : 100 * H ≤ ρ * B)
    (hr : 1 ≤ r) (hBD : B ≤ r * D) (hsm : ρ * r ≤ 2 ^ 20) (hδ : 0 < δ) (hdx : δ ≤ |100000 * (dx : ℝ)|) (hdy : δ ≤ |100000 * (dy : ℝ)|)
    (hspan : ρ * r * (2 * Real.pi * D) ≤ 2 ^ 42 * δ) (M N : ℕ) (hM : M = if ifold then ny * 2 else ny) (hN : N = if ifold then nx * 2 else nx) :
    ∃ R, grav2dFoldingF lm nx ny ⟨ny, nx, h⟩ dx dy drho dz ifold npower = .ok R ∧ R.rows = ny ∧ R.cols = nx ∧
      ∀ i < ny, ∀ j < nx, |(R.at' i j : ℝ) - parkerGrid M N (gridWavenumber M N (100000 * dy) (100000 * dx)) D g (max 1 npower)
        (if ifold then mirrored ny nx (fun a b => 100 * (μ - h a b)) else fun a b => 100 * (μ - h a b)) i j| ≤
      |g| * (M * N) * B * (ρ * r ^ max 1 npower) / 2 ^ 35 := by
  have hH0 : 0 ≤ H := (abs_nonneg _).trans (hH 0 hny 0 hnx)
  have hB0 : 0 ≤ B := (abs_nonneg _).trans (hB 0 hny 0 hnx)
  have hD0 : 0 ≤ D := by nlinarith
  have hMy : ny ≤ M := by rw [hM]; split <;> omega
  have hNx : nx ≤ N := by rw [hN]; split <;> omega
  obtain ⟨m1, m2⟩ := mean_err lm gd.sum ny nx hny hnx h H hH
  rw [← hμ] at m1 m2
  obtain ⟨kwn, hk, kr, kc, kv⟩ := wavenumbers2dF_ok lm gd.sqrt N M (by omega) (by omega) (scaled_ne hδ hdx) (scaled_ne hδ hdy)
    (by rw [hN]; cases ifold
        · exact hx rfl
        · left; simp)
    (by rw [hM]; cases ifold
        · exact hy rfl
        · left; simp)
    (near_scaled dx) (near_scaled dy)
  obtain ⟨s, hs⟩ : ∃ s, s = matMeanF lm ⟨ny, nx, h⟩ := ⟨_, rfl⟩
  rw [← hs] at m1
  have hdep : ∀ a < ny, ∀ b < nx, |((toDouble (100 * toDouble (s - h a b)) : ℚ) : ℝ) - 100 * (μ - h a b)| ≤ ρ / 2 ^ 44 * B :=
    fun a ha b hb => depth_err hH0 m1 (hB a ha b hb) hρ hHB (by nlinarith)
  obtain ⟨Z, hZ⟩ : ∃ Z : Mat ℚ, Z = if ifold then foldGrid ⟨ny, nx, fun i j => toDouble (100 * toDouble (s - h i j))⟩ else
      ⟨ny, nx, fun i j => toDouble (100 * toDouble (s - h i j))⟩ := ⟨_, rfl⟩
  obtain ⟨y, hyd⟩ : ∃ y : ℕ → ℕ → ℝ, y = if ifold then mirrored ny nx (fun a b => 100 * (μ - h a b)) else fun a b => 100 * (μ - h a b) := ⟨_, rfl⟩
  have hZr : Z.rows = M := by
    rw [hZ, hM]; cases ifold
    · rfl
    · simp only [if_true, foldGrid]; ring
  have hZc : Z.cols = N := by
    rw [hZ, hN]; cases ifold
    · rfl
    · simp only [if_true, foldGrid]; ring
  have hZy : ∀ a < M, ∀ b < N, |(Z.at' a b : ℝ) - y a b| ≤ ρ / 2 ^ 44 * B ∧ |y a b| ≤ B := by
    intro a ha b hb
    cases ifold
    · simp only [Bool.false_eq_true, if_false] at hM hN hZ hyd
      rw [hZ, hyd]
      exact ⟨hdep a (by omega) b (by omega), hB a (by omega) b (by omega)⟩
    · simp only [if_true] at hM hN hZ hyd
      rw [hZ, hyd]
      unfold foldGrid mirrored
      simp only
      by_cases h1 : a < ny <;> by_cases h2 : b < nx <;> simp only [h1, h2, if_true, if_false]
      · exact ⟨hdep a h1 b h2, hB a h1 b h2⟩
      · exact ⟨hdep a h1 _ (by omega), hB a h1 _ (by omega)⟩
      · exact ⟨hdep _ (by omega) b h2, hB _ (by omega) b h2⟩
      · exact ⟨hdep _ (by omega) _ (by omega), hB _ (by omega) _ (by omega)⟩
  obtain ⟨zr, zc, za⟩ := Z
  simp only at hZr hZc hZy
  subst hZr hZc
  refine ⟨?R2, ?a2, ?b2, ?c2, ?d2⟩
  case a2 =>
    unfold grav2dFoldingF
    simp only
    rw [if_neg (by omega), ← hM, ← hN, hk]
    simp only [← hs, ← hZ]
    rw [if_neg (by rw [kr, kc]; simp)]
  · simp only
    rw [(data_shape lm gd _ _ _ _ _).1]
    simp only
    omega
  · simp only
    rw [(data_shape lm gd _ _ _ _ _).2]
    simp only
    omega
  · intro i hi j hj
    simp only
    rw [← hyd]
    have hρr : 0 ≤ ρ * r / 2 ^ 42 := by positivity
    have hgn := grav_near2 drho
    rw [← hg] at hgn
    have a := data_err2 lm gd zr zc za y kwn (100000 * dy) (100000 * dx) B (ρ / 2 ^ 44) D r (ρ * r / 2 ^ 42) δ _ (toDouble (toDouble (s * 100) + toDouble (dz * 100))) g npower hP
      (by positivity) (by nlinarith) hρr (by linarith) (fun a ha b hb => (hZy a ha b hb).1) (fun a ha b hb => (hZy a ha b hb).2) hr hBD hD0 hδ hdx hdy
      (by linarith) kv hgn (fun k' κ hκ hk => expo_err2 hH0 m1 m2 hD hρ hr hHB hBD hD0 hκ hsm hk) i (by omega) j (by omega)
    refine a.trans ?_
    have hQ : 0 ≤ zr * zc * B * |g| * r ^ (max 1 npower - 1) := by positivity
    have hlast : 1 / 2 ^ 37 + 160 * (ρ / 2 ^ 44) + 2 * (ρ * r / 2 ^ 42) ≤ ρ * r / 2 ^ 35 := by
      have : ρ ≤ ρ * r := by nlinarith
      linarith
    refine (mul_le_mul_of_nonneg_left hlast hQ).trans (le_of_eq ?_)
    have e : r ^ max 1 npower = r ^ (max 1 npower - 1) * r := by rw [← pow_succ, Nat.sub_add_cancel (le_max_left _ _)]
    rw [e]
    ring

/-- **C170.** The anomaly of a grid with folding in double precision is Parker's series of the grid continued by mirror images, up to rounding.  `H` bounds the depths, `B` the
distances from their mean in cm, `ρ` is at least one and at least `100 H / B`, `r` at least one and at least `B / D`, where `D` is the distance of the observer from the mean. -/
theorem C170_folded (lm : Parker2Libm) (gd : GoodParker2Lib lm.fft2 lm.ifft2 lm.exp lm.sqrt lm.pow lm.sum) (nx ny : ℕ) (hnx : 0 < nx) (hny : 0 < ny) (h : ℕ → ℕ → ℚ)
    (dx dy drho dz : ℚ) (npower : ℕ) (hP : npower ≤ 20)
    (μ H B ρ r D δ g : ℝ) (hμ : μ = gridMean ny nx fun a b => (h a b : ℝ)) (hD : D = 100 * (μ + dz)) (hg : g = 2 * Real.pi * 6.673e-8 * 1000 * drho)
    (hH : ∀ a < ny, ∀ b < nx, |(h a b : ℝ)| ≤ H) (hB : ∀ a < ny, ∀ b < nx, |100 * (μ - h a b)| ≤ B) (hρ : 1 ≤ ρ) (hHB : 100 * H ≤ ρ * B)
    (hr : 1 ≤ r) (hBD : B ≤ r * D) (hsm : ρ * r ≤ 2 ^ 20) (hδ : 0 < δ) (hdx : δ ≤ |100000 * (dx : ℝ)|) (hdy : δ ≤ |100000 * (dy : ℝ)|)
    (hspan : ρ * r * (2 * Real.pi * D) ≤ 2 ^ 42 * δ) :
    ∃ R, grav2dFoldingF lm nx ny ⟨ny, nx, h⟩ dx dy drho dz true npower = .ok R ∧ R.rows = ny ∧ R.cols = nx ∧
      ∀ i < ny, ∀ j < nx, |(R.at' i j : ℝ) - parkerGrid (2 * ny) (2 * nx) (gridWavenumber (2 * ny) (2 * nx) (100000 * dy) (100000 * dx)) D g (max 1 npower)
        (mirrored ny nx fun a b => 100 * (μ - h a b)) i j| ≤ |g| * (4 * (ny * nx)) * B * (ρ * r ^ max 1 npower) / 2 ^ 35 := by
  obtain ⟨R, h1, h2, h3, h4⟩ := foldingF_err lm gd nx ny hnx hny h dx dy drho dz npower hP true (by simp) (by simp) μ H B ρ r D δ g hμ hD hg hH hB hρ hHB hr hBD hsm hδ hdx hdy hspan
    (2 * ny) (2 * nx) (by simp [mul_comm]) (by simp [mul_comm])
  refine ⟨R, h1, h2, h3, fun i hi j hj => ?_⟩
  have := h4 i hi j hj
  rw [if_pos rfl] at this
  refine this.trans (le_of_eq ?_)
  push_cast
  ring

/-- **C170.** The same without folding, for even dimensions (or 1): the grid itself repeats. -/
theorem C170_unfolded (lm : Parker2Libm) (gd : GoodParker2Lib lm.fft2 lm.ifft2 lm.exp lm.sqrt lm.pow lm.sum) (nx ny : ℕ) (hnx : 0 < nx) (hny : 0 < ny) (h : ℕ → ℕ → ℚ)
    (hx : Even nx ∨ nx = 1) (hy : Even ny ∨ ny = 1) (dx dy drho dz : ℚ) (npower : ℕ) (hP : npower ≤ 20)
    (μ H B ρ r D δ g : ℝ) (hμ : μ = gridMean ny nx fun a b => (h a b : ℝ)) (hD : D = 100 * (μ + dz)) (hg : g = 2 * Real.pi * 6.673e-8 * 1000 * drho)
    (hH : ∀ a < ny, ∀ b < nx, |(h a b : ℝ)| ≤ H) (hB : ∀ a < ny, ∀ b < nx, |100 * (μ - h a b)| ≤ B) (hρ : 1 ≤ ρ) (hHB : 100 * H ≤ ρ * B)
    (hr : 1 ≤ r) (hBD : B ≤ r * D) (hsm : ρ * r ≤ 2 ^ 20) (hδ : 0 < δ) (hdx : δ ≤ |100000 * (dx : ℝ)|) (hdy : δ ≤ |100000 * (dy : ℝ)|)
    (hspan : ρ * r * (2 * Real.pi * D) ≤ 2 ^ 42 * δ) :
    ∃ R, grav2dFoldingF lm nx ny ⟨ny, nx, h⟩ dx dy drho dz false npower = .ok R ∧ R.rows = ny ∧ R.cols = nx ∧
      ∀ i < ny, ∀ j < nx, |(R.at' i j : ℝ) - parkerGrid ny nx (gridWavenumber ny nx (100000 * dy) (100000 * dx)) D g (max 1 npower)
        (fun a b => 100 * (μ - h a b)) i j| ≤ |g| * (ny * nx) * B * (ρ * r ^ max 1 npower) / 2 ^ 35 := by
  obtain ⟨R, h1, h2, h3, h4⟩ := foldingF_err lm gd nx ny hnx hny h dx dy drho dz npower hP false (fun _ => hx.imp_left Nat.even_iff.mp) (fun _ => hy.imp_left Nat.even_iff.mp)
    μ H B ρ r D δ g hμ hD hg hH hB hρ hHB hr hBD hsm hδ hdx hdy hspan ny nx rfl rfl
  exact ⟨R, h1, h2, h3, h4⟩

/-- A library that meets the specification exists. -/
theorem goodParker2Lib_exists : ∃ lm : Parker2Libm, GoodParker2Lib lm.fft2 lm.ifft2 lm.exp lm.sqrt lm.pow lm.sum := by
  have near : ∀ (x ε : ℝ), 0 < ε → ∃ r : ℚ, |(r : ℝ) - x| ≤ ε := by
    intro x ε hε
    obtain ⟨r, h1, h2⟩ := exists_rat_btwn (show x < x + ε by linarith)
    exact ⟨r, by rw [abs_le]; constructor <;> linarith⟩
  have nearC : ∀ (z : ℂ) (ε : ℝ), 0 < ε → ∃ p : ℚ × ℚ, ‖pairC p - z‖ ≤ ε := by
    intro z ε hε
    obtain ⟨a, ha⟩ := near z.re (ε / 2) (by positivity)
    obtain ⟨b, hb⟩ := near z.im (ε / 2) (by positivity)
    refine ⟨(a, b), ?_⟩
    refine (Complex.norm_le_abs_re_add_abs_im _).trans ?_
    simp only [pairC, Complex.sub_re, Complex.sub_im]
    linarith
  have e0 : pairC (0, 0) = 0 := by apply Complex.ext <;> simp [pairC]
  have exq : ∀ q : ℚ, ∃ r : ℚ, |(r : ℝ) - Real.exp q| ≤ Real.exp q / 2 ^ 51 := fun q => near _ _ (by positivity)
  have sqq : ∀ q : ℚ, ∃ r : ℚ, 0 ≤ q → |(r : ℝ) - √q| ≤ √q / 2 ^ 52 := by
    intro q
    by_cases h : 0 < √(q : ℝ)
    · obtain ⟨r, hr⟩ := near (√q) (√q / 2 ^ 52) (by positivity)
      exact ⟨r, fun _ => hr⟩
    · have : √(q : ℝ) = 0 := le_antisymm (not_lt.1 h) (Real.sqrt_nonneg _)
      exact ⟨0, fun _ => by simp [this]⟩
  have fq : ∀ (x : Mat ℚ) (k l : ℕ), ∃ p : ℚ × ℚ, ∀ B : ℝ, (∀ a < x.rows, ∀ b < x.cols, |(x.at' a b : ℝ)| ≤ B) → k < x.rows → l < x.cols →
      ‖pairC p - ∑ a ∈ Finset.range x.rows, ∑ b ∈ Finset.range x.cols, ((x.at' a b : ℝ) : ℂ) *
        Complex.exp (-2 * Real.pi * Complex.I * ((k * a) / x.rows + (l * b) / x.cols))‖ ≤ x.rows * x.cols * B / 2 ^ 45 := by
    intro x k l
    by_cases h0 : ∃ a < x.rows, ∃ b < x.cols, x.at' a b ≠ 0
    · obtain ⟨a, ha, b, hb, hv⟩ := h0
      have hr : (0 : ℝ) < x.rows := by exact_mod_cast (by omega : 0 < x.rows)
      have hc : (0 : ℝ) < x.cols := by exact_mod_cast (by omega : 0 < x.cols)
      have hv' : 0 < |(x.at' a b : ℝ)| := abs_pos.2 (by exact_mod_cast hv)
      obtain ⟨p, hp⟩ := nearC (∑ a ∈ Finset.range x.rows, ∑ b ∈ Finset.range x.cols, ((x.at' a b : ℝ) : ℂ) *
        Complex.exp (-2 * Real.pi * Complex.I * ((k * a) / x.rows + (l * b) / x.cols))) (x.rows * x.cols * |(x.at' a b : ℝ)| / 2 ^ 45) (by positivity)
      refine ⟨p, fun B hB _ _ => hp.trans ?_⟩
      have := hB a ha b hb
      gcongr
    · refine ⟨(0, 0), fun B hB hk hl => ?_⟩
      have hB0 : 0 ≤ B := (abs_nonneg _).trans (hB k hk l hl)
      have hz : ∑ a ∈ Finset.range x.rows, ∑ b ∈ Finset.range x.cols, ((x.at' a b : ℝ) : ℂ) *
          Complex.exp (-2 * Real.pi * Complex.I * ((k * a) / x.rows + (l * b) / x.cols)) = 0 := by
        refine Finset.sum_eq_zero fun a ha => Finset.sum_eq_zero fun b hb => ?_
        have : x.at' a b = 0 := by
          by_contra hne
          exact h0 ⟨a, Finset.mem_range.1 ha, b, Finset.mem_range.1 hb, hne⟩
        rw [this]
        simp
      rw [hz, e0, sub_zero, norm_zero]
      positivity
  have iq : ∀ (y : Mat (ℚ × ℚ)) (i j : ℕ), ∃ p : ℚ × ℚ, ∀ B : ℝ, (∀ a < y.rows, ∀ b < y.cols, ‖pairC (y.at' a b)‖ ≤ B) → i < y.rows → j < y.cols →
      ‖pairC p - 1 / (y.rows * y.cols) * ∑ k ∈ Finset.range y.rows, ∑ l ∈ Finset.range y.cols, pairC (y.at' k l) *
        Complex.exp (2 * Real.pi * Complex.I * ((i * k) / y.rows + (j * l) / y.cols))‖ ≤ B / 2 ^ 45 := by
    intro y i j
    by_cases h0 : ∃ a < y.rows, ∃ b < y.cols, pairC (y.at' a b) ≠ 0
    · obtain ⟨a, ha, b, hb, hv⟩ := h0
      have hv' : 0 < ‖pairC (y.at' a b)‖ := norm_pos_iff.2 hv
      obtain ⟨p, hp⟩ := nearC (1 / (y.rows * y.cols) * ∑ k ∈ Finset.range y.rows, ∑ l ∈ Finset.range y.cols, pairC (y.at' k l) *
        Complex.exp (2 * Real.pi * Complex.I * ((i * k) / y.rows + (j * l) / y.cols))) (‖pairC (y.at' a b)‖ / 2 ^ 45) (by positivity)
      refine ⟨p, fun B hB _ _ => hp.trans ?_⟩
      have := hB a ha b hb
      gcongr
    · refine ⟨(0, 0), fun B hB hi hj => ?_⟩
      have hB0 : 0 ≤ B := (norm_nonneg _).trans (hB i hi j hj)
      have hz : ∑ k ∈ Finset.range y.rows, ∑ l ∈ Finset.range y.cols, pairC (y.at' k l) *
          Complex.exp (2 * Real.pi * Complex.I * ((i * k) / y.rows + (j * l) / y.cols)) = 0 := by
        refine Finset.sum_eq_zero fun a ha => Finset.sum_eq_zero fun b hb => ?_
        have : pairC (y.at' a b) = 0 := by
          by_contra hne
          exact h0 ⟨a, Finset.mem_range.1 ha, b, Finset.mem_range.1 hb, hne⟩
        rw [this, zero_mul]
      rw [hz, e0, mul_zero, sub_zero, norm_zero]
      positivity
  choose ex hex using exq
  choose sq hsq using sqq
  choose f hf using fq
  choose g hg using iq
  refine ⟨⟨fun x => ⟨x.rows, x.cols, f x⟩, fun y => ⟨y.rows, y.cols, g y⟩, ex, sq, fun q j => q ^ j, List.sum⟩, ?_, ?_, ?_, ?_, hex, fun q hq => hsq q hq, ?_, ?_⟩
  · intro x; exact ⟨rfl, rfl⟩
  · intro x B hB k hk l hl
    exact hf x k l B hB hk hl
  · intro y; exact ⟨rfl, rfl⟩
  · intro y B hB i hi j hj
    exact hg y i j B hB hi hj
  · intro q j _ _
    dsimp only
    push_cast
    rw [sub_self, abs_zero]
    positivity
  · intro l
    dsimp only
    rw [sub_self, abs_zero]
    have : 0 ≤ (l.map fun x => |x|).sum := List.sum_nonneg (by
      intro x hx
      obtain ⟨a, -, rfl⟩ := List.mem_map.1 hx
      exact abs_nonneg a)
    positivity

/-- Two by two points at depths of 2000 and 3000 m, spaced by 1 km, seen from the surface of the sea; six powers. -/
example (lm : Parker2Libm) (gd : GoodParker2Lib lm.fft2 lm.ifft2 lm.exp lm.sqrt lm.pow lm.sum) (h : ℕ → ℕ → ℚ) (hh : h = fun a b => if a = b then 2000 else 3000) :
    ∃ R, grav2dFoldingF lm 2 2 ⟨2, 2, h⟩ 1 1 1 0 true 6 = .ok R ∧ R.rows = 2 ∧ R.cols = 2 ∧
      ∀ i < 2, ∀ j < 2, |(R.at' i j : ℝ) - parkerGrid (2 * 2) (2 * 2) (gridWavenumber (2 * 2) (2 * 2) (100000 * (1 : ℚ)) (100000 * (1 : ℚ))) 250000
        (2 * Real.pi * 6.673e-8 * 1000 * (1 : ℚ)) (max 1 6) (mirrored 2 2 fun a b => 100 * (2500 - h a b)) i j| ≤
        |2 * Real.pi * 6.673e-8 * 1000 * ((1 : ℚ) : ℝ)| * (4 * ((2 : ℕ) * (2 : ℕ))) * 50000 * (6 * 1 ^ max 1 6) / 2 ^ 35 := by
  refine C170_folded lm gd 2 2 (by norm_num) (by norm_num) h 1 1 1 0 6 (by norm_num) 2500 3000 50000 6 1 250000 100000 _ ?_ (by norm_num) rfl ?_ ?_ (by norm_num) (by norm_num)
    le_rfl (by norm_num) (by norm_num) (by norm_num) (by norm_num) (by norm_num) ?_
  · rw [hh]
    norm_num [gridMean, Finset.sum_range_succ]
  · intro a _ b _
    rw [hh]
    simp only
    split <;> norm_num
  · intro a _ b _
    rw [hh]
    simp only
    split <;> norm_num
  · have := Real.pi_lt_four
    norm_num
    linarith

end Shipgrav
