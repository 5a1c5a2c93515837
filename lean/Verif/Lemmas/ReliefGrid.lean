import Mathlib.Algebra.Algebra.Operations
import Verif.Lemmas.Relief
import Verif.Lemmas.Mode

/-! Parker's series on a grid and Newton's law for a relief of waves that the grid resolves. -/

namespace Shipgrav
open Spec Real MeasureTheory

/-- A wave over a grid of `M × N` points with period `M·dy` and `N·dx`. -/
noncomputable def gridWave (M N : ℕ) (dy dx : ℝ) (p q : ℤ) (φ : ℝ) : ℝ × ℝ → ℝ :=
  fun v => cos (2 * π * (p * v.2 / (M * dy) + q * v.1 / (N * dx)) + φ)

/-- Waves with at most `B` and `C` periods over the grid. -/
def gridWaves (M N : ℕ) (dy dx : ℝ) (B C : ℕ) : Set (ℝ × ℝ → ℝ) := {f | ∃ p q : ℤ, ∃ φ : ℝ, |p| ≤ B ∧ |q| ≤ C ∧ f = gridWave M N dy dx p q φ}

/-- The same without the constant. -/
def gridRelief (M N : ℕ) (dy dx : ℝ) (B C : ℕ) : Set (ℝ × ℝ → ℝ) :=
  {f | ∃ p q : ℤ, ∃ φ : ℝ, |p| ≤ B ∧ |q| ≤ C ∧ (p ≠ 0 ∨ q ≠ 0) ∧ f = gridWave M N dy dx p q φ}

section
variable {M N : ℕ} {dy dx : ℝ}

theorem gridRelief_sub (B C : ℕ) : gridRelief M N dy dx B C ⊆ gridWaves M N dy dx B C := by
  rintro f ⟨p, q, φ, h1, h2, -, rfl⟩
  exact ⟨p, q, φ, h1, h2, rfl⟩

private theorem waves_mul (B C B' C' : ℕ) (f g : ℝ × ℝ → ℝ) (hf : f ∈ Submodule.span ℝ (gridWaves M N dy dx B C))
    (hg : g ∈ Submodule.span ℝ (gridWaves M N dy dx B' C')) : f * g ∈ Submodule.span ℝ (gridWaves M N dy dx (B + B') (C + C')) := by
  have h := Submodule.mul_mem_mul hf hg
  rw [Submodule.span_mul_span] at h
  refine Submodule.span_le.2 ?_ h
  rintro _ ⟨u, ⟨p, q, φ, hp, hq, rfl⟩, v, ⟨p', q', φ', hp', hq', rfl⟩, rfl⟩
  have e : (fun x1 x2 : ℝ × ℝ → ℝ => x1 * x2) (gridWave M N dy dx p q φ) (gridWave M N dy dx p' q' φ') =
      (1 / 2 : ℝ) • gridWave M N dy dx (p + p') (q + q') (φ + φ') + (1 / 2 : ℝ) • gridWave M N dy dx (p - p') (q - q') (φ - φ') := by
    ext v
    simp only [Pi.mul_apply, Pi.add_apply, Pi.smul_apply, smul_eq_mul, gridWave]
    have h1 : 2 * π * (((p + p' : ℤ) : ℝ) * v.2 / (M * dy) + ((q + q' : ℤ) : ℝ) * v.1 / (N * dx)) + (φ + φ') =
        (2 * π * (p * v.2 / (M * dy) + q * v.1 / (N * dx)) + φ) + (2 * π * (p' * v.2 / (M * dy) + q' * v.1 / (N * dx)) + φ') := by
      push_cast; ring
    have h2 : 2 * π * (((p - p' : ℤ) : ℝ) * v.2 / (M * dy) + ((q - q' : ℤ) : ℝ) * v.1 / (N * dx)) + (φ - φ') =
        (2 * π * (p * v.2 / (M * dy) + q * v.1 / (N * dx)) + φ) - (2 * π * (p' * v.2 / (M * dy) + q' * v.1 / (N * dx)) + φ') := by
      push_cast; ring
    rw [h1, h2]
    generalize 2 * π * (p * v.2 / (M * dy) + q * v.1 / (N * dx)) + φ = A
    generalize 2 * π * (p' * v.2 / (M * dy) + q' * v.1 / (N * dx)) + φ' = A'
    rw [cos_add, cos_sub]
    ring
  rw [e]
  have a1 := abs_add_le p p'
  have a2 := abs_sub p p'
  have a3 := abs_add_le q q'
  have a4 := abs_sub q q'
  refine Submodule.add_mem _ (Submodule.smul_mem _ _ (Submodule.subset_span ⟨p + p', q + q', φ + φ', ?_, ?_, rfl⟩))
    (Submodule.smul_mem _ _ (Submodule.subset_span ⟨p - p', q - q', φ - φ', ?_, ?_, rfl⟩)) <;> push_cast <;> omega

private theorem waves_pow (B C : ℕ) (f : ℝ × ℝ → ℝ) (hf : f ∈ Submodule.span ℝ (gridWaves M N dy dx B C)) (n : ℕ) :
    f ^ (n + 1) ∈ Submodule.span ℝ (gridWaves M N dy dx ((n + 1) * B) ((n + 1) * C)) := by
  induction n with
  | zero => simpa using hf
  | succ n ih =>
    have := waves_mul _ _ _ _ _ _ ih hf
    rw [← pow_succ, ← Nat.succ_mul, ← Nat.succ_mul] at this
    exact this

theorem gridWave_continuous (p q : ℤ) (φ : ℝ) : Continuous (gridWave M N dy dx p q φ) := by
  unfold gridWave
  fun_prop

/-- One power of Parker's series on the grid, for a function in its place. -/
noncomputable def gridPower (M N : ℕ) (dy dx c : ℝ) (n : ℕ) (f : ℝ × ℝ → ℝ) (i j : ℕ) : ℝ :=
  1 / (M * N) * ∑ k ∈ Finset.range M, ∑ l ∈ Finset.range N, (if k = 0 ∧ l = 0 then 0 else
    exp (-c * gridWavenumber M N dy dx k l) * (gridWavenumber M N dy dx k l ^ n / (n + 1).factorial)) *
      ∑ a ∈ Finset.range M, ∑ b ∈ Finset.range N, f (b * dx, a * dy) * (cos (2 * π * k * ((i : ℝ) - a) / M) * cos (2 * π * l * ((j : ℝ) - b) / N))

private theorem gridPower_add (c : ℝ) (n : ℕ) (f g : ℝ × ℝ → ℝ) (i j : ℕ) :
    gridPower M N dy dx c n (f + g) i j = gridPower M N dy dx c n f i j + gridPower M N dy dx c n g i j := by
  unfold gridPower
  rw [← mul_add, ← Finset.sum_add_distrib]
  simp only [← Finset.sum_add_distrib, ← mul_add, ← add_mul, Pi.add_apply]

private theorem gridPower_smul (c : ℝ) (n : ℕ) (r : ℝ) (f : ℝ × ℝ → ℝ) (i j : ℕ) :
    gridPower M N dy dx c n (r • f) i j = r * gridPower M N dy dx c n f i j := by
  unfold gridPower
  simp only [Pi.smul_apply, smul_eq_mul, Finset.mul_sum]
  refine Finset.sum_congr rfl fun k _ => Finset.sum_congr rfl fun l _ => Finset.sum_congr rfl fun a _ => Finset.sum_congr rfl fun b _ => ?_
  ring

private theorem cos_sign (p : ℤ) : ∃ ε : ℝ, ∀ (x γ : ℝ), cos (2 * π * p * x + γ) = cos (2 * π * p.natAbs * x + ε * γ) := by
  rcases Int.natAbs_eq p with h | h
  · refine ⟨1, fun x γ => ?_⟩
    have : (p : ℝ) = (p.natAbs : ℝ) := by
      have := congrArg (fun z : ℤ => (z : ℝ)) h
      simpa using this
    rw [this, one_mul]
  · refine ⟨-1, fun x γ => ?_⟩
    have : (p : ℝ) = -(p.natAbs : ℝ) := by
      have := congrArg (fun z : ℤ => (z : ℝ)) h
      simpa using this
    rw [this, ← cos_neg]
    congr 1
    ring

private theorem pick_wave (hM : 0 < M) (hN : 0 < N) (p q : ℤ) (hp : 2 * |p| ≤ M) (hq : 2 * |q| ≤ N) (W : ℕ → ℕ → ℝ)
    (hWM : ∀ k l, 1 ≤ k → k < M → W (M - k) l = W k l) (hWN : ∀ k l, 1 ≤ l → l < N → W k (N - l) = W k l) (φ : ℝ) (i j : ℕ) :
    ∑ k ∈ Finset.range M, ∑ l ∈ Finset.range N, W k l * ∑ a ∈ Finset.range M, ∑ b ∈ Finset.range N,
        cos (2 * π * (p * a / M + q * b / N) + φ) * (cos (2 * π * k * ((i : ℝ) - a) / M) * cos (2 * π * l * ((j : ℝ) - b) / N)) =
      M * N * W p.natAbs q.natAbs * cos (2 * π * (p * i / M + q * j / N) + φ) := by
  obtain ⟨ε, hε⟩ := cos_sign p
  obtain ⟨δ, hδ⟩ := cos_sign q
  have hP : p.natAbs < M := by rw [Int.abs_eq_natAbs] at hp; omega
  have hQ : q.natAbs < N := by rw [Int.abs_eq_natAbs] at hq; omega
  have h1 := cos_pick2 M N p.natAbs q.natAbs hP hQ W hWM hWN (ε * φ) (δ * 0) 1 i j
  have h2 := cos_pick2 M N p.natAbs q.natAbs hP hQ W hWM hWN (ε * (φ - π / 2)) (δ * (0 - π / 2)) (-1) i j
  have hsplit : ∀ a b : ℝ, cos (2 * π * (p * a / M + q * b / N) + φ) =
      1 * (cos (2 * π * p.natAbs * a / M + ε * φ) * cos (2 * π * q.natAbs * b / N + δ * 0)) +
      -1 * (cos (2 * π * p.natAbs * a / M + ε * (φ - π / 2)) * cos (2 * π * q.natAbs * b / N + δ * (0 - π / 2))) := by
    intro a b
    rw [mul_div_assoc (2 * π * (p.natAbs : ℝ)), mul_div_assoc (2 * π * (q.natAbs : ℝ)), ← hε, ← hδ, ← hε, ← hδ, add_zero,
      show 2 * π * p * (a / M) + (φ - π / 2) = (2 * π * p * (a / M) + φ) - π / 2 by ring,
      show 2 * π * q * (b / N) + (0 - π / 2) = 2 * π * q * (b / N) - π / 2 by ring, cos_sub_pi_div_two, cos_sub_pi_div_two,
      show 2 * π * (p * a / M + q * b / N) + φ = (2 * π * p * (a / M) + φ) + 2 * π * q * (b / N) by ring, cos_add]
    ring
  have hs : ∀ k ∈ Finset.range M, ∀ l ∈ Finset.range N, (W k l * ∑ a ∈ Finset.range M, ∑ b ∈ Finset.range N,
      cos (2 * π * (p * a / M + q * b / N) + φ) * (cos (2 * π * k * ((i : ℝ) - a) / M) * cos (2 * π * l * ((j : ℝ) - b) / N))) =
      (W k l * ∑ a ∈ Finset.range M, ∑ b ∈ Finset.range N,
        1 * (cos (2 * π * p.natAbs * a / M + ε * φ) * cos (2 * π * q.natAbs * b / N + δ * 0)) *
          (cos (2 * π * k * ((i : ℝ) - a) / M) * cos (2 * π * l * ((j : ℝ) - b) / N))) +
      (W k l * ∑ a ∈ Finset.range M, ∑ b ∈ Finset.range N,
        -1 * (cos (2 * π * p.natAbs * a / M + ε * (φ - π / 2)) * cos (2 * π * q.natAbs * b / N + δ * (0 - π / 2))) *
          (cos (2 * π * k * ((i : ℝ) - a) / M) * cos (2 * π * l * ((j : ℝ) - b) / N))) := by
    intro k _ l _
    rw [← mul_add, ← Finset.sum_add_distrib]
    congr 1
    refine Finset.sum_congr rfl fun a _ => ?_
    rw [← Finset.sum_add_distrib]
    refine Finset.sum_congr rfl fun b _ => ?_
    rw [hsplit, add_mul]
  rw [Finset.sum_congr rfl fun k hk => Finset.sum_congr rfl (hs k hk)]
  simp only [Finset.sum_add_distrib]
  rw [h1, h2, hsplit]
  ring

/-- One power, one wave. -/
private theorem gridPower_wave (hM : 0 < M) (hN : 0 < N) (hdy : dy ≠ 0) (hdx : dx ≠ 0) (c : ℝ) (n : ℕ) (p q : ℤ) (hp : 2 * |p| ≤ M) (hq : 2 * |q| ≤ N) (h0 : n ≠ 0 ∨ p ≠ 0 ∨ q ≠ 0)
    (φ : ℝ) (i j : ℕ) : gridPower M N dy dx c n (gridWave M N dy dx p q φ) i j =
      exp (-(c * √((2 * π * q / (N * dx)) ^ 2 + (2 * π * p / (M * dy)) ^ 2))) *
        (√((2 * π * q / (N * dx)) ^ 2 + (2 * π * p / (M * dy)) ^ 2) ^ n / (n + 1).factorial) * gridWave M N dy dx p q φ (j * dx, i * dy) := by
  have hMr : (M : ℝ) ≠ 0 := by exact_mod_cast hM.ne'
  have hNr : (N : ℝ) ≠ 0 := by exact_mod_cast hN.ne'
  have hg : ∀ a b : ℕ, gridWave M N dy dx p q φ (b * dx, a * dy) = cos (2 * π * (p * a / M + q * b / N) + φ) := by
    intro a b
    unfold gridWave
    congr 2
    field_simp
  have hk : gridWavenumber M N dy dx p.natAbs q.natAbs = √((2 * π * q / (N * dx)) ^ 2 + (2 * π * p / (M * dy)) ^ 2) := by
    have cy : ∀ (K : ℕ) (r : ℤ), 2 * |r| ≤ K → cycles K r.natAbs = r.natAbs := by
      intro K r hr
      rw [Int.abs_eq_natAbs] at hr
      unfold cycles
      omega
    have sq : ∀ r : ℤ, ((r.natAbs : ℕ) : ℝ) ^ 2 = (r : ℝ) ^ 2 := by
      intro r
      have := congrArg (fun z : ℤ => (z : ℝ)) (Int.natAbs_sq r)
      push_cast at this
      rw [← this, Nat.cast_natAbs]
      push_cast
      rfl
    unfold gridWavenumber
    rw [cy M p hp, cy N q hq, add_comm]
    simp only [div_pow, mul_pow, sq]
  unfold gridPower
  simp only [hg]
  rw [pick_wave hM hN p q hp hq]
  · rw [hk]
    have hW : (if p.natAbs = 0 ∧ q.natAbs = 0 then 0 else exp (-c * √((2 * π * q / (N * dx)) ^ 2 + (2 * π * p / (M * dy)) ^ 2)) *
          (√((2 * π * q / (N * dx)) ^ 2 + (2 * π * p / (M * dy)) ^ 2) ^ n / (n + 1).factorial)) =
        exp (-(c * √((2 * π * q / (N * dx)) ^ 2 + (2 * π * p / (M * dy)) ^ 2))) *
          (√((2 * π * q / (N * dx)) ^ 2 + (2 * π * p / (M * dy)) ^ 2) ^ n / (n + 1).factorial) := by
      split
      · rename_i h
        have e1 : p = 0 := by omega
        have e2 : q = 0 := by omega
        have hn : n ≠ 0 := by
          rcases h0 with h0 | h0 | h0
          · exact h0
          · exact absurd e1 h0
          · exact absurd e2 h0
        rw [e1, e2]
        simp [hn]
      · rw [neg_mul]
    rw [hW]
    field_simp
  · intro k l h1 h2
    have : gridWavenumber M N dy dx (M - k) l = gridWavenumber M N dy dx k l := by
      unfold gridWavenumber; rw [cycles_symm M k h2.le]
    rw [if_neg (by omega), if_neg (by omega), this]
  · intro k l h1 h2
    have : gridWavenumber M N dy dx k (N - l) = gridWavenumber M N dy dx k l := by
      unfold gridWavenumber; rw [cycles_symm N l h2.le]
    rw [if_neg (by omega), if_neg (by omega), this]

/-- One power, one wave: Newton's law and the grid agree. -/
private theorem wave_power (hM : 0 < M) (hN : 0 < N) (hdy : dy ≠ 0) (hdx : dx ≠ 0) {c : ℝ} (hc : 0 < c) (n : ℕ) (p q : ℤ) (hp : 2 * |p| ≤ M) (hq : 2 * |q| ≤ N)
    (h0 : n ≠ 0 ∨ p ≠ 0 ∨ q ≠ 0) (φ : ℝ) (i j : ℕ) :
    Integrable (fun v => gridWave M N dy dx p q φ (v + (j * dx, i * dy)) * powerPull c n v) ∧
    ∫ v, gridWave M N dy dx p q φ (v + (j * dx, i * dy)) * powerPull c n v = 2 * π * gridPower M N dy dx c n (gridWave M N dy dx p q φ) i j := by
  constructor
  · refine (powerPull_integrable hc n _ ?_ 1 fun v => abs_cos_le_one _).1
    exact (gridWave_continuous p q φ).comp (by fun_prop)
  · rw [gridPower_wave hM hN hdy hdx c n p q hp hq h0]
    have := powerPull_wave hc n (2 * π * q / (N * dx)) (2 * π * p / (M * dy)) (2 * π * (p * (i * dy) / (M * dy) + q * (j * dx) / (N * dx)) + φ)
    rw [show gridWave M N dy dx p q φ (j * dx, i * dy) = cos (2 * π * (p * (i * dy) / (M * dy) + q * (j * dx) / (N * dx)) + φ) from rfl, ← mul_assoc,
      ← this]
    congr 1
    ext v
    congr 1
    unfold gridWave
    congr 1
    simp only [Prod.fst_add, Prod.snd_add]
    ring

private theorem span_power (S : Set (ℝ × ℝ → ℝ)) (c : ℝ) (n i j : ℕ)
    (hS : ∀ f ∈ S, Integrable (fun v => f (v + (j * dx, i * dy)) * powerPull c n v) ∧
      ∫ v, f (v + (j * dx, i * dy)) * powerPull c n v = 2 * π * gridPower M N dy dx c n f i j) (f : ℝ × ℝ → ℝ) (hf : f ∈ Submodule.span ℝ S) :
    Integrable (fun v => f (v + (j * dx, i * dy)) * powerPull c n v) ∧
      ∫ v, f (v + (j * dx, i * dy)) * powerPull c n v = 2 * π * gridPower M N dy dx c n f i j := by
  induction hf using Submodule.span_induction with
  | mem f h => exact hS f h
  | zero =>
    have := gridPower_smul (M := M) (N := N) (dy := dy) (dx := dx) c n 0 0 i j
    rw [zero_smul, zero_mul] at this
    rw [this]
    simp
  | add f g _ _ hf hg =>
    have e : (fun v => (f + g) (v + (j * dx, i * dy)) * powerPull c n v) =
        fun v => f (v + (j * dx, i * dy)) * powerPull c n v + g (v + (j * dx, i * dy)) * powerPull c n v := by
      ext v
      rw [Pi.add_apply, add_mul]
    rw [e, gridPower_add, mul_add, ← hf.2, ← hg.2]
    exact ⟨hf.1.add hg.1, integral_add hf.1 hg.1⟩
  | smul r f _ hf =>
    have e : (fun v => (r • f) (v + (j * dx, i * dy)) * powerPull c n v) = fun v => r * (f (v + (j * dx, i * dy)) * powerPull c n v) := by
      ext v
      rw [Pi.smul_apply, smul_eq_mul, mul_assoc]
    rw [e, gridPower_smul, integral_const_mul, hf.2]
    exact ⟨hf.1.const_mul r, by ring⟩

private theorem span_continuous (S : Set (ℝ × ℝ → ℝ)) (hS : ∀ f ∈ S, Continuous f) (f : ℝ × ℝ → ℝ) (hf : f ∈ Submodule.span ℝ S) : Continuous f := by
  induction hf using Submodule.span_induction with
  | mem f h => exact hS f h
  | zero => exact continuous_zero
  | add f g _ _ hf hg => exact hf.add hg
  | smul r f _ hf => exact hf.const_smul r

theorem gridRelief_continuous (B C : ℕ) (t : ℝ × ℝ → ℝ) (ht : t ∈ Submodule.span ℝ (gridRelief M N dy dx B C)) : Continuous t :=
  span_continuous _ (by rintro f ⟨p, q, φ, -, -, -, rfl⟩; exact gridWave_continuous p q φ) t ht

private theorem parkerGrid_powers (c g : ℝ) (P : ℕ) (h : ℕ → ℕ → ℝ) (t : ℝ × ℝ → ℝ) (ht : ∀ a < M, ∀ b < N, h a b = t (b * dx, a * dy)) (i j : ℕ) :
    parkerGrid M N (gridWavenumber M N dy dx) c g P h i j = g * ∑ n ∈ Finset.range P, gridPower M N dy dx c n (t ^ (n + 1)) i j := by
  have e : ∀ k ∈ Finset.range M, ∀ l ∈ Finset.range N, (if k = 0 ∧ l = 0 then 0 else
      exp (-c * gridWavenumber M N dy dx k l) * ∑ p ∈ Finset.Icc 1 P, gridWavenumber M N dy dx k l ^ (p - 1) / p.factorial *
        ∑ a ∈ Finset.range M, ∑ b ∈ Finset.range N,
          h a b ^ p * (cos (2 * π * k * ((i : ℝ) - a) / M) * cos (2 * π * l * ((j : ℝ) - b) / N))) =
      ∑ n ∈ Finset.range P, (if k = 0 ∧ l = 0 then 0 else
        exp (-c * gridWavenumber M N dy dx k l) * (gridWavenumber M N dy dx k l ^ n / (n + 1).factorial)) *
          ∑ a ∈ Finset.range M, ∑ b ∈ Finset.range N, (t ^ (n + 1)) (b * dx, a * dy) *
            (cos (2 * π * k * ((i : ℝ) - a) / M) * cos (2 * π * l * ((j : ℝ) - b) / N)) := by
    intro k _ l _
    split
    · simp
    · rw [show Finset.Icc 1 P = Finset.Ico 1 (P + 1) by ext x; simp, Finset.sum_Ico_eq_sum_range, Nat.add_sub_cancel, Finset.mul_sum]
      refine Finset.sum_congr rfl fun n _ => ?_
      rw [show 1 + n - 1 = n by omega, add_comm 1 n, ← mul_assoc]
      congr 1
      refine Finset.sum_congr rfl fun a ha => Finset.sum_congr rfl fun b hb => ?_
      rw [ht a (Finset.mem_range.1 ha) b (Finset.mem_range.1 hb), Pi.pow_apply]
  unfold parkerGrid gridPower
  rw [Finset.sum_congr rfl fun k hk => Finset.sum_congr rfl (e k hk), ← Finset.mul_sum, ← mul_assoc, mul_one_div]
  congr 1
  symm
  rw [Finset.sum_comm]
  refine Finset.sum_congr rfl fun k _ => ?_
  rw [Finset.sum_comm]

/-- `P` powers of Parker's series and Newton's law. -/
theorem parker_newton (hM : 0 < M) (hN : 0 < N) (hdy : dy ≠ 0) (hdx : dx ≠ 0) {c : ℝ} (t : ℝ × ℝ → ℝ) (H : ℝ) (hH : ∀ v, |t v| ≤ H) (hHc : H < c) (B C : ℕ)
    (ht : t ∈ Submodule.span ℝ (gridRelief M N dy dx B C)) (P : ℕ) (hB : 2 * (P * B) ≤ M) (hC : 2 * (P * C) ≤ N) (h : ℕ → ℕ → ℝ)
    (hh : ∀ a < M, ∀ b < N, h a b = t (b * dx, a * dy)) (g : ℝ) (i j : ℕ) :
    |parkerGrid M N (gridWavenumber M N dy dx) c (2 * π * g) P h i j - g * bodyPull (fun x y => c - t (x, y)) (fun _ _ => c) (j * dx) (i * dy)| ≤
      2 * π * |g| * H * (H / c) ^ P / (1 - H / c) := by
  have hc : 0 < c := lt_of_le_of_lt ((abs_nonneg _).trans (hH (0, 0))) hHc
  have hb := bodyPull_powers hc t (gridRelief_continuous B C t ht) H hH hHc (j * dx) (i * dy) P
  have hpow : ∀ n ∈ Finset.range P, ∫ v, t (v + (j * dx, i * dy)) ^ (n + 1) * powerPull c n v = 2 * π * gridPower M N dy dx c n (t ^ (n + 1)) i j := by
    intro n hn
    have hn := Finset.mem_range.1 hn
    rcases Nat.eq_zero_or_pos n with rfl | hn0
    · have := (span_power (M := M) (N := N) (dy := dy) (dx := dx) (gridRelief M N dy dx B C) c 0 i j ?_ t ht).2
      · simpa using this
      · rintro f ⟨p, q, φ, hp, hq, h0, rfl⟩
        have hB' : B ≤ P * B := Nat.le_mul_of_pos_left B hn
        have hC' : C ≤ P * C := Nat.le_mul_of_pos_left C hn
        exact wave_power hM hN hdy hdx hc 0 p q (by omega) (by omega) (Or.inr h0) φ i j
    · have hw := waves_pow B C t (Submodule.span_mono (gridRelief_sub B C) ht) n
      refine (span_power (M := M) (N := N) (dy := dy) (dx := dx) (gridWaves M N dy dx ((n + 1) * B) ((n + 1) * C)) c n i j ?_ _ hw).2
      rintro f ⟨p, q, φ, hp, hq, rfl⟩
      have hB' : (n + 1) * B ≤ P * B := Nat.mul_le_mul_right B hn
      have hC' : (n + 1) * C ≤ P * C := Nat.mul_le_mul_right C hn
      exact wave_power hM hN hdy hdx hc n p q (by omega) (by omega) (Or.inl hn0.ne') φ i j
  rw [Finset.sum_congr rfl hpow, ← Finset.mul_sum] at hb
  rw [parkerGrid_powers c _ P h t hh, show 2 * π * g * ∑ n ∈ Finset.range P, gridPower M N dy dx c n (t ^ (n + 1)) i j -
    g * bodyPull (fun x y => c - t (x, y)) (fun _ _ => c) (j * dx) (i * dy) =
    g * (2 * π * ∑ n ∈ Finset.range P, gridPower M N dy dx c n (t ^ (n + 1)) i j - bodyPull (fun x y => c - t (x, y)) (fun _ _ => c) (j * dx) (i * dy)) by ring,
    abs_mul]
  refine (mul_le_mul_of_nonneg_left hb (abs_nonneg g)).trans (le_of_eq ?_)
  ring

/-- Parker's series does not depend on the unit of length. -/
theorem parkerGrid_units (r : ℝ) (hr : 0 < r) (hM : 0 < M) (hN : 0 < N) (hdy : dy ≠ 0) (hdx : dx ≠ 0) (c g : ℝ) (P : ℕ) (h : ℕ → ℕ → ℝ) (i j : ℕ) :
    parkerGrid M N (gridWavenumber M N (r * dy) (r * dx)) (r * c) g P (fun a b => r * h a b) i j =
      parkerGrid M N (gridWavenumber M N dy dx) c (r * g) P h i j := by
  have hk : ∀ k l, gridWavenumber M N (r * dy) (r * dx) k l = gridWavenumber M N dy dx k l / r := by
    intro k l
    unfold gridWavenumber
    have hMr : (M : ℝ) ≠ 0 := by exact_mod_cast hM.ne'
    have hNr : (N : ℝ) ≠ 0 := by exact_mod_cast hN.ne'
    rw [eq_div_iff hr.ne', ← sqrt_sq hr.le, ← sqrt_mul (by positivity), sqrt_sq hr.le]
    congr 1
    field_simp
  unfold parkerGrid
  simp only [hk]
  rw [show r * g / (M * N) = g / (M * N) * r by ring, mul_assoc (g / (M * N)) r]
  congr 1
  rw [Finset.mul_sum]
  refine Finset.sum_congr rfl fun k _ => ?_
  rw [Finset.mul_sum]
  refine Finset.sum_congr rfl fun l _ => ?_
  split
  · simp
  · rw [show -(r * c) * (gridWavenumber M N dy dx k l / r) = -c * gridWavenumber M N dy dx k l by field_simp, mul_left_comm]
    congr 1
    rw [Finset.mul_sum]
    refine Finset.sum_congr rfl fun p hp => ?_
    obtain ⟨m, rfl⟩ : ∃ m, p = m + 1 := ⟨p - 1, by have := (Finset.mem_Icc.1 hp).1; omega⟩
    simp only [mul_pow, Nat.add_sub_cancel, mul_assoc, ← Finset.mul_sum]
    rw [div_pow, pow_succ r]
    field_simp

end

end Shipgrav
