import Verif.Model.Coherence
import Verif.Spec.Coherence
import Verif.Lemmas.Fft
import Mathlib.Analysis.InnerProductSpace.PiL2

/-! C118: the coherence of the motion sensor with the monitors. -/

namespace Shipgrav
open Spec Finset

private theorem sum_samples {M : Type} [AddCommMonoid M] (f : ℕ → M) (n : ℕ) : (samples f n).sum = ∑ i ∈ range n, f i := by
  unfold samples
  induction n with
  | zero => rfl
  | succ n ih => rw [List.range_succ, List.map_append, List.sum_append, ih, Finset.sum_range_succ]; simp

private theorem map_samples' {α β : Type} (f : α → β) (x : ℕ → α) (n : ℕ) : (samples x n).map f = samples (fun i => f (x i)) n := by
  unfold samples; rw [List.map_map]; rfl

private theorem zipWith_samples {α β γ : Type} (f : α → β → γ) (x : ℕ → α) (y : ℕ → β) (n : ℕ) :
    List.zipWith f (samples x n) (samples y n) = samples (fun i => f (x i) (y i)) n := by
  unfold samples
  induction List.range n with
  | nil => rfl
  | cons a l ih => simp [ih]

private theorem segment_samples {α : Type} (x : ℕ → α) (n a L : ℕ) (h : a + L ≤ n) : ((samples x n).drop a).take L = samples (fun j => x (a + j)) L := by
  apply List.ext_getElem?
  intro j
  rw [List.getElem?_take]
  by_cases hj : j < L
  · rw [if_pos hj, List.getElem?_drop]
    unfold samples
    rw [List.getElem?_map, List.getElem?_map, List.getElem?_range (by omega), List.getElem?_range hj]
    rfl
  · rw [if_neg hj, List.getElem?_eq_none]
    simp [samples]; omega

/-- The segments of `n` samples. -/
private theorem segments_samples {α : Type} (x : ℕ → α) (n L : ℕ) (hL : 0 < L) (hn : L ≤ n) :
    welchSegments L (samples x n) = samples (fun s => samples (fun j => x (s * (L - L / 2) + j)) L) ((n - L / 2) / (L - L / 2)) := by
  have hl : (samples x n).length = n := by simp [samples]
  unfold welchSegments
  simp only [hl]
  unfold samples
  apply List.map_congr_left
  intro s hs
  have hs' : s < (n - L / 2) / (L - L / 2) := by simpa using hs
  have hd : 0 < L - L / 2 := by omega
  have h1 : (s + 1) * (L - L / 2) ≤ n - L / 2 := le_trans (Nat.mul_le_mul_right _ hs') (Nat.div_mul_le_self _ _)
  rw [Nat.add_mul, one_mul] at h1
  exact segment_samples x n (s * (L - L / 2)) L (by omega)

private theorem segmentFft_get (x : ℕ → ℝ) (L k : ℕ) (hL : 2 ≤ L) (hk : k ≤ L / 2) :
    (segmentFft (samples x L)).getD k 0 = windowed x L 0 k := by
  have hl : (samples x L).length = L := by simp [samples]
  unfold segmentFft detrendConstant hannWindow
  rw [hl, if_neg (by omega), map_samples', sum_samples]
  rw [show (List.range L).map (fun (j : ℕ) => (0.5 : ℝ) - 0.5 * Real.cos (2 * Real.pi * j / L)) =
    samples (fun (j : ℕ) => (0.5 : ℝ) - 0.5 * Real.cos (2 * Real.pi * j / L)) L from rfl, zipWith_samples, map_samples', fft_samples]
  rw [List.getD_eq_getElem?_getD, List.getElem?_take, if_pos (by omega)]
  unfold samples
  rw [List.getElem?_map, List.getElem?_range (by omega)]
  simp only [Option.map_some, Option.getD_some]
  unfold windowed
  apply Finset.sum_congr rfl
  intro j _
  congr 1
  rw [Complex.ofReal_inj]
  simp only [zero_add]
  congr 1
  ring

private theorem windowed_shift (x : ℕ → ℝ) (L a k : ℕ) : windowed (fun j => x (a + j)) L 0 k = windowed x L a k := by
  unfold windowed
  simp only [zero_add]

private theorem scale_pos (L : ℕ) (hL : 2 ≤ L) : 0 < ((hannWindow L).map (· ^ 2)).sum := by
  unfold hannWindow
  rw [if_neg (by omega)]
  rw [show (List.range L).map (fun (j : ℕ) => (0.5 : ℝ) - 0.5 * Real.cos (2 * Real.pi * j / L)) =
    samples (fun (j : ℕ) => (0.5 : ℝ) - 0.5 * Real.cos (2 * Real.pi * j / L)) L from rfl, map_samples', sum_samples]
  apply Finset.sum_pos'
  · intro i _; positivity
  · refine ⟨1, by simp; omega, ?_⟩
    have hLr : (2 : ℝ) ≤ L := by exact_mod_cast hL
    have hp := Real.pi_pos
    have h2 : Real.cos (2 * Real.pi * ((1 : ℕ) : ℝ) / L) < 1 := by
      have hx : 0 < 2 * Real.pi * ((1 : ℕ) : ℝ) / L := by positivity
      have hy : 2 * Real.pi * ((1 : ℕ) : ℝ) / L ≤ Real.pi := by
        rw [div_le_iff₀ (by linarith)]; push_cast; nlinarith
      have := Real.cos_lt_cos_of_nonneg_of_le_pi (le_refl 0) hy hx
      rwa [Real.cos_zero] at this
    have : 0 < (0.5 : ℝ) - 0.5 * Real.cos (2 * Real.pi * ((1 : ℕ) : ℝ) / L) := by linarith
    positivity

private theorem csd_eq (x y : ℕ → ℝ) (L d S k : ℕ) (hL : 2 ≤ L) (hk : k ≤ L / 2) (X Y : List (List ℂ))
    (hX : X = samples (fun s => segmentFft (samples (fun j => x (s * d + j)) L)) S)
    (hY : Y = samples (fun s => segmentFft (samples (fun j => y (s * d + j)) L)) S) :
    csdBin L X Y k = ((1 / ((hannWindow L).map (· ^ 2)).sum * (if k = 0 ∨ (L % 2 = 0 ∧ k = L / 2) then 1 else 2) / S : ℝ) : ℂ) * crossAt x y L d S k := by
  subst hX hY
  unfold csdBin crossAt
  simp only
  rw [zipWith_samples, sum_samples, show (samples (fun s => segmentFft (samples (fun j => x (s * d + j)) L)) S).length = S by simp [samples],
    Finset.mul_sum, Finset.sum_div]
  apply Finset.sum_congr rfl
  intro s _
  rw [segmentFft_get _ L k hL hk, segmentFft_get _ L k hL hk, windowed_shift, windowed_shift]
  push_cast
  ring

private theorem cross_self (x : ℕ → ℝ) (L d S k : ℕ) : crossAt x x L d S k = (powerAt x L d S k : ℂ) := by
  unfold crossAt powerAt
  push_cast
  apply Finset.sum_congr rfl
  intro s _
  rw [← Complex.normSq_eq_conj_mul_self, Complex.normSq_eq_norm_sq]
  push_cast; rfl

/-- C118.  For `n` samples without gaps: the coherence at the frequencies `k/L` for `k ≤ L/2`, from `S` segments of `L = 256` samples that
overlap by half (from all samples if there are fewer). -/
theorem C118_value (x y : ℕ → ℝ) (n L d S : ℕ) (hn : 2 ≤ n) (hL : L = min 256 n) (hd : d = L - L / 2) (hS : S = (n - L / 2) / d) :
    coherence (samples (fun i => some (x i)) n) (samples (fun i => some (y i)) n) = samples (coherenceAt x y L d S) (L / 2 + 1) := by
  have hl : ∀ f : ℕ → Option ℝ, (samples f n).length = n := by intro f; simp [samples]
  have hL2 : 2 ≤ L := by omega
  unfold coherence
  simp only [hl]
  rw [← hL, segments_samples _ n L (by omega) (by omega), segments_samples _ n L (by omega) (by omega), ← hd, ← hS]
  have hany : ∀ z : ℕ → ℝ, (samples (fun s => samples (fun j => some (z (s * d + j))) L) S).any (·.any Option.isNone) = false := by
    intro z
    rw [List.any_eq_false]
    intro l hl
    unfold samples at hl
    obtain ⟨s, -, rfl⟩ := List.mem_map.1 hl
    simp [samples]
  rw [hany, hany, Bool.or_self, if_neg (by simp), map_samples', map_samples']
  unfold samples at *
  apply List.map_congr_left
  intro k hk
  have hk' : k ≤ L / 2 := by
    have : k < L / 2 + 1 := by simpa using hk
    omega
  have hS0 : 0 < S := by
    rw [hS]; apply Nat.div_pos <;> omega
  have hsc : 0 < 1 / ((hannWindow L).map (· ^ 2)).sum * (if k = 0 ∨ (L % 2 = 0 ∧ k = L / 2) then 1 else 2) / (S : ℝ) := by
    have := scale_pos L hL2
    have h2 : (0 : ℝ) < if k = 0 ∨ (L % 2 = 0 ∧ k = L / 2) then 1 else 2 := by split <;> norm_num
    have h3 : (0 : ℝ) < S := by exact_mod_cast hS0
    positivity
  have hsimp : ∀ z : ℕ → ℝ, (fun s : ℕ => segmentFft (((List.range L).map fun j => some (z (s * d + j))).map (·.getD 0))) =
      fun s => segmentFft (samples (fun j => z (s * d + j)) L) := by
    intro z; funext s; rw [List.map_map]; rfl
  have hfold : ∀ z : ℕ → ℝ, List.map (fun s : ℕ => segmentFft (samples (fun j => z (s * d + j)) L)) (List.range S) =
      samples (fun s => segmentFft (samples (fun j => z (s * d + j)) L)) S := fun _ => rfl
  rw [hsimp, hsimp, hfold, hfold]
  unfold cohBin
  rw [csd_eq x y L d S k hL2 hk' _ _ rfl rfl, csd_eq x x L d S k hL2 hk' _ _ rfl rfl, csd_eq y y L d S k hL2 hk' _ _ rfl rfl, cross_self, cross_self]
  generalize 1 / ((hannWindow L).map (· ^ 2)).sum * (if k = 0 ∨ (L % 2 = 0 ∧ k = L / 2) then 1 else 2) / (S : ℝ) = c at hsc
  rw [← Complex.ofReal_mul, ← Complex.ofReal_mul, Complex.ofReal_re, Complex.ofReal_re, norm_mul, Complex.norm_real, Real.norm_of_nonneg hsc.le]
  unfold coherenceAt divR
  by_cases hx : powerAt x L d S k = 0
  · rw [if_pos (Or.inl hx), hx, mul_zero, if_pos rfl]; rfl
  · by_cases hy : powerAt y L d S k = 0
    · rw [if_pos (Or.inr hy), hy, mul_zero, if_neg (mul_ne_zero hsc.ne' hx)]
      simp
    · rw [if_neg (show ¬ (powerAt x L d S k = 0 ∨ powerAt y L d S k = 0) by simp [hx, hy]), if_neg (mul_ne_zero hsc.ne' hx)]
      simp only [Option.bind_eq_bind, Option.bind_some]
      rw [if_neg (mul_ne_zero hsc.ne' hy), Option.some.injEq]
      field_simp

private theorem power_nonneg (x : ℕ → ℝ) (L d S k : ℕ) : 0 ≤ powerAt x L d S k := Finset.sum_nonneg fun _ _ => by positivity

private theorem cauchy (x y : ℕ → ℝ) (L d S k : ℕ) : ‖crossAt x y L d S k‖ ^ 2 ≤ powerAt x L d S k * powerAt y L d S k := by
  unfold crossAt powerAt
  have h1 : ‖∑ s ∈ range S, (starRingEnd ℂ) (windowed x L (s * d) k) * windowed y L (s * d) k‖ ≤
      ∑ s ∈ range S, ‖windowed x L (s * d) k‖ * ‖windowed y L (s * d) k‖ := by
    refine le_trans (norm_sum_le _ _) (le_of_eq ?_)
    apply Finset.sum_congr rfl
    intro s _
    rw [norm_mul, Complex.norm_conj]
  refine le_trans (pow_le_pow_left₀ (norm_nonneg _) h1 2) ?_
  exact Finset.sum_mul_sq_le_sq_mul_sq _ _ _

private theorem value_get (x y : ℕ → ℝ) (n k : ℕ) (hn : 2 ≤ n) (v : Option ℝ)
    (hv : (coherence (samples (fun i => some (x i)) n) (samples (fun i => some (y i)) n))[k]? = some v) :
    v = coherenceAt x y (min 256 n) (min 256 n - min 256 n / 2) ((n - min 256 n / 2) / (min 256 n - min 256 n / 2)) k := by
  rw [C118_value x y n _ _ _ hn rfl rfl rfl] at hv
  unfold samples at hv
  rw [List.getElem?_map] at hv
  obtain ⟨k', hk', e⟩ := Option.map_eq_some_iff.1 hv
  have : k' = k := by
    rw [List.getElem?_eq_some_iff] at hk'
    obtain ⟨h, h'⟩ := hk'
    rw [List.getElem_range] at h'
    exact h'.symm
  rw [← e, this]

/-- C118.  All values are between 0 and 1. -/
theorem C118_range (x y : ℕ → ℝ) (n : ℕ) (hn : 2 ≤ n) (k : ℕ) (v : ℝ)
    (hv : (coherence (samples (fun i => some (x i)) n) (samples (fun i => some (y i)) n))[k]? = some (some v)) : 0 ≤ v ∧ v ≤ 1 := by
  have h := value_get x y n k hn _ hv
  unfold coherenceAt at h
  split at h
  · cases h
  · rename_i h0
    rw [Option.some.injEq] at h
    push Not at h0
    have hp := (power_nonneg x (min 256 n) (min 256 n - min 256 n / 2) ((n - min 256 n / 2) / (min 256 n - min 256 n / 2)) k).lt_of_ne' h0.1
    have hq := (power_nonneg y (min 256 n) (min 256 n - min 256 n / 2) ((n - min 256 n / 2) / (min 256 n - min 256 n / 2)) k).lt_of_ne' h0.2
    rw [h]
    refine ⟨by positivity, ?_⟩
    rw [div_le_one (by positivity)]
    exact cauchy _ _ _ _ _ _

/-- C118.  The order of the two series does not matter. -/
theorem C118_symmetric (x y : ℕ → ℝ) (n : ℕ) (hn : 2 ≤ n) :
    coherence (samples (fun i => some (x i)) n) (samples (fun i => some (y i)) n) =
      coherence (samples (fun i => some (y i)) n) (samples (fun i => some (x i)) n) := by
  rw [C118_value x y n _ _ _ hn rfl rfl rfl, C118_value y x n _ _ _ hn rfl rfl rfl]
  unfold samples
  apply List.map_congr_left
  intro k _
  have hc : ∀ L d S, ‖crossAt x y L d S k‖ = ‖crossAt y x L d S k‖ := by
    intro L d S
    rw [← Complex.norm_conj]
    congr 1
    unfold crossAt
    rw [map_sum]
    apply Finset.sum_congr rfl
    intro s _
    rw [map_mul, Complex.conj_conj, mul_comm]
  unfold coherenceAt
  rw [hc]
  by_cases h1 : powerAt x (min 256 n) (min 256 n - min 256 n / 2) ((n - min 256 n / 2) / (min 256 n - min 256 n / 2)) k = 0 <;>
    by_cases h2 : powerAt y (min 256 n) (min 256 n - min 256 n / 2) ((n - min 256 n / 2) / (min 256 n - min 256 n / 2)) k = 0 <;>
    simp [h1, h2, mul_comm]

private theorem windowed_affine (x : ℕ → ℝ) (a b : ℝ) (L s k : ℕ) (hL : 0 < L) : windowed (fun i => a * x i + b) L s k = a * windowed x L s k := by
  unfold windowed
  rw [Finset.mul_sum]
  apply Finset.sum_congr rfl
  intro j _
  rw [← mul_assoc (a : ℂ), ← Complex.ofReal_mul]
  congr 2
  rw [Finset.sum_add_distrib, ← Finset.mul_sum, Finset.sum_const, Finset.card_range, nsmul_eq_mul]
  have : (L : ℝ) ≠ 0 := by exact_mod_cast hL.ne'
  field_simp
  ring

private theorem power_affine (x : ℕ → ℝ) (a b : ℝ) (L d S k : ℕ) (hL : 0 < L) : powerAt (fun i => a * x i + b) L d S k = a ^ 2 * powerAt x L d S k := by
  unfold powerAt
  rw [Finset.mul_sum]
  apply Finset.sum_congr rfl
  intro s _
  rw [windowed_affine _ _ _ _ _ _ hL, norm_mul, mul_pow, Complex.norm_real, Real.norm_eq_abs, sq_abs]

private theorem cross_affine (x y : ℕ → ℝ) (a b a' b' : ℝ) (L d S k : ℕ) (hL : 0 < L) :
    crossAt (fun i => a * x i + b) (fun i => a' * y i + b') L d S k = (a * a' : ℝ) * crossAt x y L d S k := by
  unfold crossAt
  rw [Finset.mul_sum]
  apply Finset.sum_congr rfl
  intro s _
  rw [windowed_affine _ _ _ _ _ _ hL, windowed_affine _ _ _ _ _ _ hL, map_mul, Complex.conj_ofReal]
  push_cast
  ring

/-- C118.  Units and zero points of the two series do not matter, nor does the sign of either. -/
theorem C118_units (x y : ℕ → ℝ) (n : ℕ) (hn : 2 ≤ n) (a b a' b' : ℝ) (ha : a ≠ 0) (ha' : a' ≠ 0) :
    coherence (samples (fun i => some (a * x i + b)) n) (samples (fun i => some (a' * y i + b')) n) =
      coherence (samples (fun i => some (x i)) n) (samples (fun i => some (y i)) n) := by
  rw [C118_value (fun i => a * x i + b) (fun i => a' * y i + b') n _ _ _ hn rfl rfl rfl, C118_value x y n _ _ _ hn rfl rfl rfl]
  unfold samples
  apply List.map_congr_left
  intro k _
  unfold coherenceAt
  rw [power_affine _ _ _ _ _ _ _ (by omega), power_affine _ _ _ _ _ _ _ (by omega), cross_affine _ _ _ _ _ _ _ _ _ _ (by omega)]
  by_cases h1 : powerAt x (min 256 n) (min 256 n - min 256 n / 2) ((n - min 256 n / 2) / (min 256 n - min 256 n / 2)) k = 0
  · simp [h1]
  by_cases h2 : powerAt y (min 256 n) (min 256 n - min 256 n / 2) ((n - min 256 n / 2) / (min 256 n - min 256 n / 2)) k = 0
  · simp [h2]
  rw [if_neg (by simp [h1, h2, ha, ha']), if_neg (by simp [h1, h2]), Option.some.injEq, norm_mul, Complex.norm_real, Real.norm_eq_abs, mul_pow, sq_abs]
  field_simp

/-- C118.  A series that is another one in other units has coherence 1 with it wherever there is any power. -/
theorem C118_same (x : ℕ → ℝ) (n : ℕ) (hn : 2 ≤ n) (a b : ℝ) (ha : a ≠ 0) (k : ℕ) (v : ℝ)
    (hv : (coherence (samples (fun i => some (x i)) n) (samples (fun i => some (a * x i + b)) n))[k]? = some (some v)) : v = 1 := by
  have e := C118_units x x n hn 1 0 a b one_ne_zero ha
  simp only [one_mul, add_zero] at e
  rw [e] at hv
  have h := value_get x x n k hn _ hv
  unfold coherenceAt at h
  split at h
  · cases h
  · rename_i h0
    rw [Option.some.injEq] at h
    rw [h, cross_self, Complex.norm_real, Real.norm_of_nonneg (power_nonneg _ _ _ _ _)]
    rw [or_self] at h0
    field_simp

/-- C118.  Of fewer than 384 samples there is one segment only, and the coherence of any two series is 1 wherever it is defined. -/
theorem C118_short (x y : ℕ → ℝ) (n : ℕ) (hn : 2 ≤ n) (hn' : n < 384) (k : ℕ) (v : ℝ)
    (hv : (coherence (samples (fun i => some (x i)) n) (samples (fun i => some (y i)) n))[k]? = some (some v)) : v = 1 := by
  have h := value_get x y n k hn _ hv
  have hS : (n - min 256 n / 2) / (min 256 n - min 256 n / 2) = 1 := by
    apply Nat.div_eq_of_lt_le <;> omega
  rw [hS] at h
  unfold coherenceAt at h
  split at h
  · cases h
  · rename_i h0
    rw [Option.some.injEq] at h
    push Not at h0
    rw [h]
    unfold powerAt crossAt at *
    simp only [Finset.sum_range_one] at *
    rw [norm_mul, Complex.norm_conj, mul_pow]
    exact div_self (mul_ne_zero h0.1 h0.2)

/-- C118.  A missing value in either series leaves no value at all, unless it comes after the last full segment. -/
theorem C118_gap (x y : ℕ → Option ℝ) (n i : ℕ) (hn : 256 ≤ n) (hi : i < n / 128 * 128) (h : x i = none ∨ y i = none) :
    coherence (samples x n) (samples y n) = List.replicate 129 none := by
  have hl : ∀ f : ℕ → Option ℝ, (samples f n).length = n := by intro f; simp [samples]
  unfold coherence
  simp only [hl]
  rw [show min 256 n = 256 by omega, segments_samples _ n 256 (by omega) (by omega), segments_samples _ n 256 (by omega) (by omega)]
  rw [show 256 - 256 / 2 = 128 from rfl, show 256 / 2 = 128 from rfl]
  have key : ∀ f : ℕ → Option ℝ, f i = none → (samples (fun s => samples (fun j => f (s * 128 + j)) 256) ((n - 128) / 128)).any (·.any Option.isNone) = true := by
    intro f hf
    rw [List.any_eq_true]
    unfold samples
    obtain ⟨s, hs, hs1, hs2⟩ : ∃ s, s < (n - 128) / 128 ∧ s * 128 ≤ i ∧ i < s * 128 + 256 :=
      ⟨min (i / 128) ((n - 128) / 128 - 1), by omega, by omega, by omega⟩
    refine ⟨_, List.mem_map.2 ⟨s, by simpa using hs, rfl⟩, ?_⟩
    rw [List.any_eq_true]
    refine ⟨none, List.mem_map.2 ⟨i - s * 128, by simp; omega, ?_⟩, rfl⟩
    rw [show s * 128 + (i - s * 128) = i by omega, hf]
  rcases h with h | h
  · rw [key x h, Bool.true_or, if_pos rfl]
  · rw [key y h, Bool.or_true, if_pos rfl]

/-! ### The hypotheses can be met -/

private theorem exWindowed (x : ℕ → ℝ) : windowed x 2 0 0 = ((x 1 - x 0) / 2 : ℝ) := by
  unfold windowed
  have : 2 * Real.pi * 1 / 2 = Real.pi := by ring
  simp only [Finset.sum_range_succ, Finset.sum_range_zero]
  norm_num [this]
  ring

/-- There are series with power in both, so that there is a value. -/
example : (coherence (samples (fun i => some (i : ℝ)) 2) (samples (fun i => some (3 - (i : ℝ))) 2))[0]? = some (some 1) := by
  have h := C118_value (fun i => (i : ℝ)) (fun i => 3 - (i : ℝ)) 2 2 1 1 le_rfl rfl rfl rfl
  have h0 : coherenceAt (fun i => (i : ℝ)) (fun i => 3 - (i : ℝ)) 2 1 1 0 = some 1 := by
    unfold coherenceAt powerAt crossAt
    simp only [Finset.sum_range_one, zero_mul, exWindowed]
    norm_num
  rw [h, show (2 / 2 + 1 : ℕ) = 2 from rfl]
  unfold samples
  rw [List.getElem?_map, List.getElem?_range (by norm_num)]
  exact congrArg some h0

example : coherence (samples (fun i => if i = 7 then none else some 1) 300) (samples (fun _ => some 2) 300) = List.replicate 129 none :=
  C118_gap _ _ 300 7 (by norm_num) (by norm_num) (Or.inl (by simp))

end Shipgrav
