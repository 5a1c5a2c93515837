import Verif.Lemmas.Crust
import Verif.Spec.Nav

/-! Property theorems C81 to C84 and C96: crustal thickness. -/

namespace Shipgrav
open Spec

private theorem samples_sum (h : ℕ → ℝ) (n : ℕ) : (samples h n).sum = ∑ p ∈ Finset.range n, h p := by
  induction n with
  | zero => simp [samples]
  | succ n ih =>
    unfold samples at ih ⊢
    rw [List.range_succ, List.map_append, List.sum_append, ih, Finset.sum_range_succ]; simp

/-- `fft2` of a spectrum that was multiplied by `F`, over the number of points. -/
private theorem twice_eq (nx ny : ℕ) (r : ℕ → ℕ → ℝ) (F : ℕ → ℕ → ℝ) (G : ℕ → ℕ → ℂ) (hG : ∀ k < nx, ∀ l < ny, G k l =
    (fft2 ⟨nx, ny, fun i j => (r i j : ℂ)⟩).at' k l * (F k l : ℂ)) (i j : ℕ) :
    (fft2 ⟨nx, ny, G⟩).at' i j * ((1 / (nx * ny) : ℝ) : ℂ) = twiceForward nx ny F r i j := by
  unfold twiceForward fft2
  simp only
  rw [mul_comm]
  congr 1
  · push_cast; rfl
  apply Finset.sum_congr rfl
  intro k hk
  apply Finset.sum_congr rfl
  intro l hl
  rw [hG k (Finset.mem_range.mp hk) l (Finset.mem_range.mp hl)]
  unfold fft2
  simp only
  rw [mul_right_comm, mul_comm _ (F k l : ℂ), mul_assoc]
  congr 1
  rw [Finset.sum_mul]
  apply Finset.sum_congr rfl
  intro a _
  rw [Finset.sum_mul]
  apply Finset.sum_congr rfl
  intro b _
  rw [mul_assoc, ← Complex.exp_add]
  congr 2
  ring

/-- What the call does with a residual of the right length. -/
private theorem crust_eq (nx ny : ℕ) (hnx : 0 < nx) (hny : 0 < ny) (h : ℕ → ℝ) (dx dy zdown rho wlarge wsmall : ℝ) (hdx : dx ≠ 0) (hrho : rho ≠ 0)
    (hws : 0 < wsmall) (hw : wsmall < wlarge) (back : Bool) :
    let κ := crustKappa previousCycles nx ny (100000 * dx) (100000 * dy)
    let thick := samples (fun p => twiceForward nx ny (fun k l => reliefFactor zdown rho wlarge wsmall (κ k l))
      (fun a b => -(h (a * ny + b) - meanOf (nx * ny) h) / 1000) (p / ny) (p % ny) / 100000) (nx * ny)
    let grav := samples (fun p => twiceForward nx ny (fun k l => cosineTaper (2 * Real.pi / (100000 * wlarge)) (2 * Real.pi / (100000 * wsmall)) (κ k l))
      (fun a b => h (a * ny + b) - meanOf (nx * ny) h) (p / ny) (p % ny) + (meanOf (nx * ny) h : ℂ)) (nx * ny)
    crustalThickness2D (samples h (nx * ny)) nx ny dx dy zdown rho wlarge wsmall back =
      .ok (if back then (thick.reverse, some grav.reverse) else (thick, none)) := by
  intro κ thick grav
  have hlen : (samples h (nx * ny)).length = nx * ny := by simp [samples]
  have hmean : (samples h (nx * ny)).sum / ((samples h (nx * ny)).length : ℝ) = meanOf (nx * ny) h := by rw [hlen, samples_sum]; rfl
  unfold crustalThickness2D
  simp only [hmean]
  rw [if_neg (by simpa using hw), if_neg ?_, if_neg (by simp [hlen])]
  swap
  · push Not
    refine ⟨?_, ?_, hnx.ne', hny.ne', hrho, ?_⟩
    · have : 0 < wlarge * 1e5 := by norm_num; linarith
      exact this.ne'
    · have : 0 < wsmall * 1e5 := by norm_num; linarith
      exact this.ne'
    · exact mul_ne_zero hdx (by norm_num)
  have e5 : (1e5 : ℝ) = 100000 := by norm_num
  have hcut : 2 * Real.pi / (100000 * wlarge) < 2 * Real.pi / (100000 * wsmall) := by
    apply div_lt_div_of_pos_left (by positivity) (by linarith) (by linarith)
  have hdx5 : dx * 1e5 = 100000 * dx := by rw [e5]; ring
  have hdy5 : dy * 1e5 = 100000 * dy := by rw [e5]; ring
  have hz5 : zdown * 1e5 = 100000 * zdown := by rw [e5]; ring
  have hl5 : wlarge * 1e5 = 100000 * wlarge := by rw [e5]; ring
  have hs5 : wsmall * 1e5 = 100000 * wsmall := by rw [e5]; ring
  simp only [hdx5, hdy5, hz5, hl5, hs5]
  have hκ : ∀ k < nx, ∀ l < ny, crustWavenumber nx ny (2 * Real.pi / (nx * (100000 * dx)))
      (if 100000 * dy ≠ 0 then 2 * Real.pi / (ny * (100000 * dy)) else 0) k l = κ k l := fun k hk l hl =>
    crustWavenumber_eq nx ny k l hk hl _ _
  have hget : ∀ a < nx, ∀ b < ny, ((samples h (nx * ny)).map fun v => -0.001 * (v - meanOf (nx * ny) h)).getD (a * ny + b) 0 =
      -(h (a * ny + b) - meanOf (nx * ny) h) / 1000 := by
    intro a ha b hb
    have : a * ny + b < nx * ny := by nlinarith
    unfold samples
    rw [List.map_map, List.getD_eq_getElem _ _ (by simpa using this)]
    simp only [List.getElem_map, List.getElem_range, Function.comp_apply]
    norm_num
    ring
  have hft : ∀ k < nx, ∀ l < ny, (fft2 ⟨nx, ny, fun i j =>
      ((((samples h (nx * ny)).map fun v => -0.001 * (v - meanOf (nx * ny) h)).getD (i * ny + j) 0 : ℝ) : ℂ)⟩).at' k l =
      (fft2 ⟨nx, ny, fun i j => ((-(h (i * ny + j) - meanOf (nx * ny) h) / 1000 : ℝ) : ℂ)⟩).at' k l := by
    intro k _ l _
    unfold fft2
    simp only
    apply Finset.sum_congr rfl
    intro a ha
    apply Finset.sum_congr rfl
    intro b hb
    rw [hget a (Finset.mem_range.mp ha) b (Finset.mem_range.mp hb)]
  have htopo : (1 / (2 * Real.pi * 6.673e-8 * rho) : ℝ) ≠ 0 := by
    apply one_div_ne_zero
    refine mul_ne_zero (mul_ne_zero (by positivity) (by norm_num)) hrho
  -- the two lists
  have hthick : (flattenMat (fft2 ⟨nx, ny, fun i j => (fft2 ⟨nx, ny, fun i j =>
      ((((samples h (nx * ny)).map fun v => -0.001 * (v - meanOf (nx * ny) h)).getD (i * ny + j) 0 : ℝ) : ℂ)⟩).at' i j *
      ((Real.exp (crustWavenumber nx ny (2 * Real.pi / (nx * (100000 * dx))) (if 100000 * dy ≠ 0 then 2 * Real.pi / (ny * (100000 * dy)) else 0) i j *
        (100000 * zdown)) : ℝ) : ℂ) * ((1 / (2 * Real.pi * 6.673e-8 * rho) : ℝ) : ℂ) *
      ((crustWeight (2 * Real.pi / (100000 * wlarge)) (2 * Real.pi / (100000 * wsmall)) (crustWavenumber nx ny (2 * Real.pi / (nx * (100000 * dx)))
        (if 100000 * dy ≠ 0 then 2 * Real.pi / (ny * (100000 * dy)) else 0) i j) : ℝ) : ℂ)⟩)).map
      (fun (v : ℂ) => v * ((1 / (nx * ny) : ℝ) : ℂ) / ((1e5 : ℝ) : ℂ)) = thick := by
    unfold flattenMat
    rw [List.map_map]
    apply List.map_congr_left
    intro p _
    simp only [Function.comp_apply]
    have := twice_eq nx ny (fun a b => -(h (a * ny + b) - meanOf (nx * ny) h) / 1000) (fun k l => reliefFactor zdown rho wlarge wsmall (κ k l))
      (fun i j => (fft2 ⟨nx, ny, fun i j =>
      ((((samples h (nx * ny)).map fun v => -0.001 * (v - meanOf (nx * ny) h)).getD (i * ny + j) 0 : ℝ) : ℂ)⟩).at' i j *
      ((Real.exp (crustWavenumber nx ny (2 * Real.pi / (nx * (100000 * dx))) (if 100000 * dy ≠ 0 then 2 * Real.pi / (ny * (100000 * dy)) else 0) i j *
        (100000 * zdown)) : ℝ) : ℂ) * ((1 / (2 * Real.pi * 6.673e-8 * rho) : ℝ) : ℂ) *
      ((crustWeight (2 * Real.pi / (100000 * wlarge)) (2 * Real.pi / (100000 * wsmall)) (crustWavenumber nx ny (2 * Real.pi / (nx * (100000 * dx)))
        (if 100000 * dy ≠ 0 then 2 * Real.pi / (ny * (100000 * dy)) else 0) i j) : ℝ) : ℂ)) ?_ (p / ny) (p % ny)
    · rw [e5]
      have h2 := congrArg (fun z : ℂ => z / 100000) this
      rw [← h2]
      push_cast
      rfl
    · intro k hk l hl
      beta_reduce
      rw [hκ k hk l hl, hft k hk l hl, crustWeight_eq _ _ _ hcut, mul_assoc, mul_assoc]
      congr 1
      unfold reliefFactor
      push_cast
      ring
  have hgrav : (flattenMat (fft2 ⟨nx, ny, fun i j => -((fft2 ⟨nx, ny, fun i j =>
      ((((samples h (nx * ny)).map fun v => -0.001 * (v - meanOf (nx * ny) h)).getD (i * ny + j) 0 : ℝ) : ℂ)⟩).at' i j *
      ((Real.exp (crustWavenumber nx ny (2 * Real.pi / (nx * (100000 * dx))) (if 100000 * dy ≠ 0 then 2 * Real.pi / (ny * (100000 * dy)) else 0) i j *
        (100000 * zdown)) : ℝ) : ℂ) * ((1 / (2 * Real.pi * 6.673e-8 * rho) : ℝ) : ℂ) *
      ((crustWeight (2 * Real.pi / (100000 * wlarge)) (2 * Real.pi / (100000 * wsmall)) (crustWavenumber nx ny (2 * Real.pi / (nx * (100000 * dx)))
        (if 100000 * dy ≠ 0 then 2 * Real.pi / (ny * (100000 * dy)) else 0) i j) : ℝ) : ℂ)) *
      ((Real.exp (-crustWavenumber nx ny (2 * Real.pi / (nx * (100000 * dx))) (if 100000 * dy ≠ 0 then 2 * Real.pi / (ny * (100000 * dy)) else 0) i j *
        (100000 * zdown)) : ℝ) : ℂ) / ((1 / (2 * Real.pi * 6.673e-8 * rho) : ℝ) : ℂ)⟩)).map
      (fun (v : ℂ) => v * ((1 / (nx * ny) : ℝ) : ℂ) * 1000 + (meanOf (nx * ny) h : ℂ)) = grav := by
    unfold flattenMat
    rw [List.map_map]
    apply List.map_congr_left
    intro p _
    simp only [Function.comp_apply]
    congr 1
    have := twice_eq nx ny (fun a b => -(h (a * ny + b) - meanOf (nx * ny) h) / 1000)
      (fun k l => -cosineTaper (2 * Real.pi / (100000 * wlarge)) (2 * Real.pi / (100000 * wsmall)) (κ k l))
      (fun i j => -((fft2 ⟨nx, ny, fun i j =>
      ((((samples h (nx * ny)).map fun v => -0.001 * (v - meanOf (nx * ny) h)).getD (i * ny + j) 0 : ℝ) : ℂ)⟩).at' i j *
      ((Real.exp (crustWavenumber nx ny (2 * Real.pi / (nx * (100000 * dx))) (if 100000 * dy ≠ 0 then 2 * Real.pi / (ny * (100000 * dy)) else 0) i j *
        (100000 * zdown)) : ℝ) : ℂ) * ((1 / (2 * Real.pi * 6.673e-8 * rho) : ℝ) : ℂ) *
      ((crustWeight (2 * Real.pi / (100000 * wlarge)) (2 * Real.pi / (100000 * wsmall)) (crustWavenumber nx ny (2 * Real.pi / (nx * (100000 * dx)))
        (if 100000 * dy ≠ 0 then 2 * Real.pi / (ny * (100000 * dy)) else 0) i j) : ℝ) : ℂ)) *
      ((Real.exp (-crustWavenumber nx ny (2 * Real.pi / (nx * (100000 * dx))) (if 100000 * dy ≠ 0 then 2 * Real.pi / (ny * (100000 * dy)) else 0) i j *
        (100000 * zdown)) : ℝ) : ℂ) / ((1 / (2 * Real.pi * 6.673e-8 * rho) : ℝ) : ℂ)) ?_ (p / ny) (p % ny)
    · refine Eq.trans (congrArg (fun z : ℂ => z * 1000) this) ?_
      beta_reduce
      unfold twiceForward
      rw [mul_assoc, Finset.sum_mul]
      congr 1
      apply Finset.sum_congr rfl; intro k _
      rw [Finset.sum_mul]
      apply Finset.sum_congr rfl; intro l _
      rw [mul_assoc, Finset.sum_mul, Complex.ofReal_neg, neg_mul, ← mul_neg, ← Finset.sum_neg_distrib]
      congr 1
      apply Finset.sum_congr rfl; intro a _
      rw [Finset.sum_mul, ← Finset.sum_neg_distrib]
      apply Finset.sum_congr rfl; intro b _
      push_cast
      ring
    · intro k hk l hl
      beta_reduce
      rw [hκ k hk l hl, hft k hk l hl, crustWeight_eq _ _ _ hcut]
      have hx : ((Real.exp (κ k l * (100000 * zdown)) : ℝ) : ℂ) * ((Real.exp (-κ k l * (100000 * zdown)) : ℝ) : ℂ) = 1 := by
        rw [← Complex.ofReal_mul, ← Real.exp_add]; simp
      have ht : ((1 / (2 * Real.pi * 6.673e-8 * rho) : ℝ) : ℂ) ≠ 0 := by exact_mod_cast htopo
      rw [div_eq_iff ht]
      generalize ((1 / (2 * Real.pi * 6.673e-8 * rho) : ℝ) : ℂ) = T
      rw [Complex.ofReal_neg]
      linear_combination (-(fft2 ⟨nx, ny, fun i j => ((-(h (i * ny + j) - meanOf (nx * ny) h) / 1000 : ℝ) : ℂ)⟩).at' k l * T *
        ((cosineTaper (2 * Real.pi / (100000 * wlarge)) (2 * Real.pi / (100000 * wsmall)) (κ k l) : ℝ) : ℂ)) * hx
  cases back with
  | true => simp only [if_true]; rw [← hthick, ← hgrav]
  | false => simp only [Bool.false_eq_true, if_false]; rw [← hthick]

/-- **C83, C84.** The thickness (km): relief factors applied to the spectrum of the de-meaned, sign-reversed residual (gal), with the wavenumber
of the bin *before* each bin, transformed forward again. -/
theorem C84_used_wavenumbers_partial (nx ny : ℕ) (hnx : 0 < nx) (hny : 0 < ny) (h : ℕ → ℝ) (dx dy zdown rho wlarge wsmall : ℝ) (hdx : dx ≠ 0)
    (hrho : rho ≠ 0) (hws : 0 < wsmall) (hw : wsmall < wlarge) :
    crustalThickness2D (samples h (nx * ny)) nx ny dx dy zdown rho wlarge wsmall false =
      .ok (samples (fun p => twiceForward nx ny
        (fun k l => reliefFactor zdown rho wlarge wsmall (crustKappa previousCycles nx ny (100000 * dx) (100000 * dy) k l))
        (fun a b => -(h (a * ny + b) - meanOf (nx * ny) h) / 1000) (p / ny) (p % ny) / 100000) (nx * ny), none) :=
  crust_eq nx ny hnx hny h dx dy zdown rho wlarge wsmall hdx hrho hws hw false

/-- **C84.** The wavenumber of the bin before is that of the bin itself only for the bin just after the middle of an odd number. -/
theorem C84_right_iff (n i : ℕ) (hi : i < n) : previousCycles n i = cycles n i ↔ 2 * i = n + 1 := by
  unfold previousCycles cycles
  split <;> omega

/-- **C82.** The thickness with `back=True` is that with `back=False` in reversed order, for all arguments. -/
theorem C82_reversed_partial (ur : List ℝ) (nx ny : ℕ) (dx dy zdown rho wlarge wsmall : ℝ) (t : List ℂ)
    (h : crustalThickness2D ur nx ny dx dy zdown rho wlarge wsmall false = .ok (t, none)) :
    ∃ g, crustalThickness2D ur nx ny dx dy zdown rho wlarge wsmall true = .ok (t.reverse, some g) := by
  unfold crustalThickness2D at h ⊢
  simp only [Bool.false_eq_true, if_false, if_true] at h ⊢
  by_cases h1 : wlarge > wsmall
  · rw [if_neg (not_not.mpr h1)] at h ⊢
    split at h
    · cases h
    rename_i h2
    rw [if_neg h2]
    split at h
    · cases h
    rename_i h3
    rw [if_neg h3]
    rw [Except.ok.injEq, Prod.mk.injEq] at h
    rw [h.1]
    exact ⟨_, rfl⟩
  · rw [if_pos h1] at h; cases h

private theorem reverse_samples {α : Type} (f : ℕ → α) (n : ℕ) : (samples f n).reverse = samples (fun p => f (n - 1 - p)) n := by
  apply List.ext_getElem
  · simp [samples]
  · intro i h1 h2
    simp [samples] at h2
    simp [samples, List.getElem_reverse]

private theorem kappa_line (n i : ℕ) (dx : ℝ) (hdx : 0 < dx) :
    crustKappa previousCycles n 1 (100000 * dx) (100000 * 0) i 0 = 2 * Real.pi * previousCycles n i / (n * (100000 * dx)) := by
  unfold crustKappa
  rw [if_pos (by norm_num), add_zero, Real.sqrt_sq]
  positivity

private theorem pass_line (n i : ℕ) (hn : 2 ≤ n) (hi : i < n) (dx wlarge : ℝ) (hdx : 0 < dx) (hwl : 0 < wlarge) (hw : wlarge ≤ 2 * dx) :
    crustKappa previousCycles n 1 (100000 * dx) (100000 * 0) i 0 ≤ 2 * Real.pi / (100000 * wlarge) := by
  rw [kappa_line n i dx hdx]
  have hc : 2 * previousCycles n i ≤ n := by unfold previousCycles cycles; split <;> omega
  have hc' : 2 * (previousCycles n i : ℝ) ≤ n := by exact_mod_cast hc
  have hn0 : (0 : ℝ) < n := by exact_mod_cast (by omega : 0 < n)
  rw [div_le_div_iff₀ (by positivity) (by positivity)]
  have : (previousCycles n i : ℝ) * wlarge ≤ n * dx := by
    calc (previousCycles n i : ℝ) * wlarge ≤ previousCycles n i * (2 * dx) := by gcongr
      _ = (2 * previousCycles n i) * dx := by ring
      _ ≤ n * dx := by gcongr
  calc 2 * Real.pi * previousCycles n i * (100000 * wlarge) = 200000 * Real.pi * (previousCycles n i * wlarge) := by ring
    _ ≤ 200000 * Real.pi * (n * dx) := by gcongr
    _ = 2 * Real.pi * (n * (100000 * dx)) := by ring

/-- **C81.** With a taper that passes every wavenumber that is used, the recovered gravity at `[i, j]` is the input at `[i+1, j+1]`, around
the ends. -/
theorem C81_shifted_partial (nx ny : ℕ) (hnx : 0 < nx) (hny : 0 < ny) (h : ℕ → ℝ) (dx dy zdown rho wlarge wsmall : ℝ) (hdx : dx ≠ 0)
    (hrho : rho ≠ 0) (hws : 0 < wsmall) (hw : wsmall < wlarge)
    (hpass : ∀ k < nx, ∀ l < ny, crustKappa previousCycles nx ny (100000 * dx) (100000 * dy) k l ≤ 2 * Real.pi / (100000 * wlarge)) :
    ∃ t, crustalThickness2D (samples h (nx * ny)) nx ny dx dy zdown rho wlarge wsmall true =
      .ok (t, some (samples (fun p => (h ((p / ny + 1) % nx * ny + (p % ny + 1) % ny) : ℂ)) (nx * ny))) := by
  rw [crust_eq nx ny hnx hny h dx dy zdown rho wlarge wsmall hdx hrho hws hw true]
  simp only [if_true]
  rw [reverse_samples _ (nx * ny), reverse_samples _ (nx * ny)]
  refine ⟨_, congrArg Except.ok (Prod.ext rfl (congrArg some (List.map_congr_left ?_)))⟩
  intro p hp
  rw [List.mem_range] at hp
  have hpx : p / ny < nx := Nat.div_lt_of_lt_mul (by rwa [mul_comm])
  have hpy : p % ny < ny := Nat.mod_lt _ hny
  have h1 := Nat.div_add_mod p ny
  generalize p / ny = i at *
  generalize p % ny = j at *
  have hq : nx * ny - 1 - p = ny * (nx - 1 - i) + (ny - 1 - j) := by
    have h2 : ny * (nx - 1 - i) + ny * (i + 1) = nx * ny := by
      rw [← mul_add, mul_comm nx]; congr 1; omega
    rw [mul_add, mul_one] at h2
    omega
  have hqd : (nx * ny - 1 - p) / ny = nx - 1 - i := by
    rw [hq, Nat.mul_add_div hny, Nat.div_eq_of_lt (show ny - 1 - j < ny by omega), add_zero]
  have hqm : (nx * ny - 1 - p) % ny = ny - 1 - j := by
    rw [hq, Nat.mul_add_mod, Nat.mod_eq_of_lt (show ny - 1 - j < ny by omega)]
  rw [hqd, hqm, twiceForward_const nx ny hnx hny 1 _ ?_ _ _ _ (by omega) (by omega)]
  · rw [show nx - (nx - 1 - i) = i + 1 by omega, show ny - (ny - 1 - j) = j + 1 by omega]
    push_cast; ring
  · intro k hk l hl
    unfold cosineTaper
    rw [if_pos (hpass k hk l hl)]

/-- **C81.** For a line: wavelengths up to twice the spacing suffice. -/
theorem C81_line_partial (n : ℕ) (hn : 2 ≤ n) (h : ℕ → ℝ) (dx zdown rho wlarge wsmall : ℝ) (hdx : 0 < dx)
    (hrho : rho ≠ 0) (hws : 0 < wsmall) (hw : wsmall < wlarge) (hwl : wlarge ≤ 2 * dx) :
    ∃ t, crustalThickness2D (samples h n) n 1 dx 0 zdown rho wlarge wsmall true =
      .ok (t, some (samples (fun p => (h ((p + 1) % n) : ℂ)) n)) := by
  have := C81_shifted_partial n 1 (by omega) one_pos h dx 0 zdown rho wlarge wsmall hdx.ne' hrho hws hw ?_
  · simpa [Nat.mod_one] using this
  · intro k hk l hl
    rw [show l = 0 by omega]
    exact pass_line n k hn hk dx wlarge hdx (by linarith) hwl

/-- **C81 fails** for every length: a spike at the first point is recovered at the last point. -/
theorem C81_refuted (n : ℕ) (hn : 2 ≤ n) (dx zdown rho wlarge wsmall : ℝ) (hdx : 0 < dx)
    (hrho : rho ≠ 0) (hws : 0 < wsmall) (hw : wsmall < wlarge) (hwl : wlarge ≤ 2 * dx) :
    let h : ℕ → ℝ := fun p => if p = 0 then 1 else 0
    ∃ t g, crustalThickness2D (samples h n) n 1 dx 0 zdown rho wlarge wsmall true = .ok (t, some g) ∧
      g ≠ samples (fun p => (h p : ℂ)) n ∧ g[0]? = some 0 ∧ g[n - 1]? = some 1 := by
  intro h
  obtain ⟨t, ht⟩ := C81_line_partial n hn h dx zdown rho wlarge wsmall hdx hrho hws hw hwl
  have h0 : (samples (fun p => (h ((p + 1) % n) : ℂ)) n)[0]? = some 0 := by
    simp [samples, show 0 < n by omega, Nat.mod_eq_of_lt (show 1 < n by omega), h]
  refine ⟨t, _, ht, ?_, h0, ?_⟩
  · intro heq
    rw [heq] at h0
    simp [samples, show 0 < n by omega, h] at h0
  · simp [samples, show 0 < n by omega, h, Nat.sub_add_cancel (show 1 ≤ n by omega)]

/-- **C83.** A constant added to the residual changes nothing, whatever the other arguments. -/
theorem C83_mean (ur : List ℝ) (c : ℝ) (nx ny : ℕ) (dx dy zdown rho wlarge wsmall : ℝ) :
    crustalThickness2D (ur.map (· + c)) nx ny dx dy zdown rho wlarge wsmall false =
      crustalThickness2D ur nx ny dx dy zdown rho wlarge wsmall false := by
  have hmap : ((ur.map (· + c)).map fun v => -0.001 * (v - (ur.map (· + c)).sum / ((ur.map (· + c)).length : ℝ))) =
      ur.map fun v => -0.001 * (v - ur.sum / (ur.length : ℝ)) := by
    rcases Nat.eq_zero_or_pos ur.length with h0 | hpos
    · rw [List.length_eq_zero_iff] at h0; subst h0; rfl
    · have hl : (ur.length : ℝ) ≠ 0 := by exact_mod_cast hpos.ne'
      have hs : (ur.map (· + c)).sum = ur.sum + ur.length * c := by
        clear hpos hl
        induction ur with
        | nil => simp
        | cons x xs ih => simp only [List.map_cons, List.sum_cons, List.length_cons, ih]; push_cast; ring
      rw [List.map_map, hs, List.length_map]
      apply List.map_congr_left
      intro v _
      simp only [Function.comp_apply]
      field_simp
      ring
  unfold crustalThickness2D
  simp only [hmap, Bool.false_eq_true, if_false]

/-- **C83.** The thickness is linear in the residual. -/
theorem C83_linear (nx ny : ℕ) (hnx : 0 < nx) (hny : 0 < ny) (h₁ h₂ : ℕ → ℝ) (s t : ℝ) (dx dy zdown rho wlarge wsmall : ℝ) (hdx : dx ≠ 0)
    (hrho : rho ≠ 0) (hws : 0 < wsmall) (hw : wsmall < wlarge) :
    ∃ T₁ T₂ : ℕ → ℂ,
      crustalThickness2D (samples h₁ (nx * ny)) nx ny dx dy zdown rho wlarge wsmall false = .ok (samples T₁ (nx * ny), none) ∧
      crustalThickness2D (samples h₂ (nx * ny)) nx ny dx dy zdown rho wlarge wsmall false = .ok (samples T₂ (nx * ny), none) ∧
      crustalThickness2D (samples (fun p => s * h₁ p + t * h₂ p) (nx * ny)) nx ny dx dy zdown rho wlarge wsmall false =
        .ok (samples (fun p => s * T₁ p + t * T₂ p) (nx * ny), none) := by
  refine ⟨_, _, C84_used_wavenumbers_partial nx ny hnx hny h₁ dx dy zdown rho wlarge wsmall hdx hrho hws hw,
    C84_used_wavenumbers_partial nx ny hnx hny h₂ dx dy zdown rho wlarge wsmall hdx hrho hws hw, ?_⟩
  rw [C84_used_wavenumbers_partial nx ny hnx hny _ dx dy zdown rho wlarge wsmall hdx hrho hws hw]
  refine congrArg Except.ok (Prod.ext (List.map_congr_left ?_) rfl)
  intro p _
  have hm : meanOf (nx * ny) (fun p => s * h₁ p + t * h₂ p) = s * meanOf (nx * ny) h₁ + t * meanOf (nx * ny) h₂ := by
    unfold meanOf
    rw [Finset.sum_add_distrib, ← Finset.mul_sum, ← Finset.mul_sum]; ring
  rw [hm, mul_div_assoc', mul_div_assoc', ← add_div]
  congr 1
  unfold twiceForward
  rw [mul_left_comm, mul_left_comm (t : ℂ), ← mul_add]
  congr 1
  simp only [Finset.mul_sum]
  simp only [← Finset.sum_add_distrib]
  refine Finset.sum_congr rfl fun k _ => Finset.sum_congr rfl fun l _ => Finset.sum_congr rfl fun a _ => Finset.sum_congr rfl fun b _ => ?_
  push_cast
  ring

/-- **C83.** The thickness is inversely proportional to the density contrast. -/
theorem C83_density (nx ny : ℕ) (hnx : 0 < nx) (hny : 0 < ny) (h : ℕ → ℝ) (s : ℝ) (hs : s ≠ 0) (dx dy zdown rho wlarge wsmall : ℝ)
    (hdx : dx ≠ 0) (hrho : rho ≠ 0) (hws : 0 < wsmall) (hw : wsmall < wlarge) :
    ∃ T : ℕ → ℂ,
      crustalThickness2D (samples h (nx * ny)) nx ny dx dy zdown rho wlarge wsmall false = .ok (samples T (nx * ny), none) ∧
      crustalThickness2D (samples h (nx * ny)) nx ny dx dy zdown (s * rho) wlarge wsmall false =
        .ok (samples (fun p => T p / s) (nx * ny), none) := by
  refine ⟨_, C84_used_wavenumbers_partial nx ny hnx hny h dx dy zdown rho wlarge wsmall hdx hrho hws hw, ?_⟩
  rw [C84_used_wavenumbers_partial nx ny hnx hny _ dx dy zdown _ wlarge wsmall hdx (mul_ne_zero hs hrho) hws hw]
  refine congrArg Except.ok (Prod.ext (List.map_congr_left ?_) rfl)
  intro p _
  rw [div_right_comm]
  congr 1
  unfold twiceForward
  rw [mul_div_assoc]
  congr 1
  simp only [Finset.mul_sum, Finset.sum_div]
  refine Finset.sum_congr rfl fun k _ => Finset.sum_congr rfl fun l _ => Finset.sum_congr rfl fun a _ => Finset.sum_congr rfl fun b _ => ?_
  have hf : ∀ κ, reliefFactor zdown (s * rho) wlarge wsmall κ = reliefFactor zdown rho wlarge wsmall κ / s := by
    intro κ
    unfold reliefFactor
    rw [div_div]
    congr 1
    ring
  rw [hf]
  push_cast
  ring

/-- **C83.** `wlarge <= wsmall` raises, and so do a length that is not the number of points and zero sizes. -/
theorem C83_errors (ur : List ℝ) (nx ny : ℕ) (dx dy zdown rho wlarge wsmall : ℝ) (back : Bool) :
    (wlarge ≤ wsmall → crustalThickness2D ur nx ny dx dy zdown rho wlarge wsmall back = .error .assertionError) ∧
    (0 < wsmall → wsmall < wlarge → nx = 0 ∨ ny = 0 ∨ rho = 0 ∨ dx = 0 →
      crustalThickness2D ur nx ny dx dy zdown rho wlarge wsmall back = .error .zeroDivisionError) ∧
    (0 < wsmall → wsmall < wlarge → 0 < nx → 0 < ny → rho ≠ 0 → dx ≠ 0 → ur.length ≠ nx * ny →
      crustalThickness2D ur nx ny dx dy zdown rho wlarge wsmall back = .error .valueError) := by
  refine ⟨fun h => ?_, fun h1 h2 h3 => ?_, fun h1 h2 h3 h4 h5 h6 h7 => ?_⟩
  · unfold crustalThickness2D
    rw [if_pos (by simpa using h)]
  · unfold crustalThickness2D
    simp only
    rw [if_neg (by simpa using h2), if_pos]
    rcases h3 with h | h | h | h <;> simp [h]
  · unfold crustalThickness2D
    simp only
    rw [if_neg (by simpa using h2), if_neg, if_pos (by simpa using h7)]
    push Not
    refine ⟨?_, ?_, h3.ne', h4.ne', h5, mul_ne_zero h6 (by norm_num)⟩
    · have : 0 < wlarge * 1e5 := by norm_num; linarith
      exact this.ne'
    · have : 0 < wsmall * 1e5 := by norm_num; linarith
      exact this.ne'

/-- **C96.** Without continuation, and with a taper that passes every wavenumber that is used, the thickness is real: the slab formula, in
reversed order. -/
theorem C96_no_continuation_partial (nx ny : ℕ) (hnx : 0 < nx) (hny : 0 < ny) (h : ℕ → ℝ) (dx dy rho wlarge wsmall : ℝ) (hdx : dx ≠ 0)
    (hrho : rho ≠ 0) (hws : 0 < wsmall) (hw : wsmall < wlarge)
    (hpass : ∀ k < nx, ∀ l < ny, crustKappa previousCycles nx ny (100000 * dx) (100000 * dy) k l ≤ 2 * Real.pi / (100000 * wlarge)) :
    crustalThickness2D (samples h (nx * ny)) nx ny dx dy 0 rho wlarge wsmall false =
      .ok (samples (fun p => ((-(h ((nx - p / ny) % nx * ny + (ny - p % ny) % ny) - meanOf (nx * ny) h) / 1000 /
        (2 * Real.pi * 6.673e-8 * rho) / 100000 : ℝ) : ℂ)) (nx * ny), none) := by
  rw [C84_used_wavenumbers_partial nx ny hnx hny h dx dy 0 rho wlarge wsmall hdx hrho hws hw]
  refine congrArg Except.ok (Prod.ext (List.map_congr_left ?_) rfl)
  intro p hp
  rw [List.mem_range] at hp
  have hpx : p / ny < nx := Nat.div_lt_of_lt_mul (by rwa [mul_comm])
  have hpy : p % ny < ny := Nat.mod_lt _ hny
  rw [twiceForward_const nx ny hnx hny (1 / (2 * Real.pi * 6.673e-8 * rho)) _ ?_ _ _ _ hpx hpy]
  · push_cast; ring
  · intro k hk l hl
    unfold reliefFactor cosineTaper
    rw [if_pos (hpass k hk l hl)]
    simp

/-- **C82 fails** for every length: a spike at the first point stays there with `back=False` and goes to the last point with
`back=True`. -/
theorem C82_refuted (n : ℕ) (hn : 2 ≤ n) (dx rho wlarge wsmall : ℝ) (hdx : 0 < dx) (hrho : rho ≠ 0) (hws : 0 < wsmall) (hw : wsmall < wlarge)
    (hwl : wlarge ≤ 2 * dx) :
    let h : ℕ → ℝ := fun p => if p = 0 then 1 else 0
    ∃ t t' g, crustalThickness2D (samples h n) n 1 dx 0 0 rho wlarge wsmall false = .ok (t, none) ∧
      crustalThickness2D (samples h n) n 1 dx 0 0 rho wlarge wsmall true = .ok (t', some g) ∧ t ≠ t' := by
  intro h
  have h1 := C96_no_continuation_partial n 1 (by omega) one_pos h dx 0 rho wlarge wsmall hdx.ne' hrho hws hw ?_
  · rw [mul_one] at h1
    obtain ⟨g, h2⟩ := C82_reversed_partial _ _ _ _ _ _ _ _ _ _ h1
    refine ⟨_, _, g, h1, h2, ?_⟩
    intro heq
    rw [reverse_samples] at heq
    have h3 := congrArg (fun l => l[0]?) heq
    simp only [samples, List.getElem?_map, List.getElem?_range (show 0 < n by omega), Option.map_some, Option.some.injEq] at h3
    rw [Complex.ofReal_inj] at h3
    have hc : (2 * Real.pi * 6.673e-8 * rho) ≠ 0 := mul_ne_zero (mul_ne_zero (by positivity) (by norm_num)) hrho
    rw [div_left_inj' (by norm_num), div_left_inj' hc, div_left_inj' (by norm_num)] at h3
    simp [h, Nat.mod_one, show n - (n - 1) = 1 by omega, Nat.mod_eq_of_lt (show 1 < n by omega)] at h3
  · intro k hk l hl
    rw [show l = 0 by omega]
    exact pass_line n k hn hk dx wlarge hdx (by linarith) hwl

private theorem spike_mean (n : ℕ) (hn : 0 < n) : meanOf (n * 1) (fun p => if p = 0 then 1 else 0) = 1 / n := by
  unfold meanOf
  rw [mul_one, Finset.sum_ite_eq' (Finset.range n) 0, if_pos (Finset.mem_range.mpr hn)]

/-- **C96 fails** for every length from 3 on, every depth and every density contrast: the thickness of a unit spike is not real. -/
theorem C96_refuted (n : ℕ) (hn : 3 ≤ n) (dx zdown rho wlarge wsmall : ℝ) (hdx : 0 < dx) (hz : 0 < zdown) (hrho : rho ≠ 0) (hws : 0 < wsmall)
    (hw : wsmall < wlarge) (hwl : wlarge ≤ 2 * dx) :
    let h : ℕ → ℝ := fun p => if p = 0 then 1 else 0
    ∃ t z, crustalThickness2D (samples h n) n 1 dx 0 zdown rho wlarge wsmall false = .ok (t, none) ∧ t[1]? = some z ∧ z.im ≠ 0 := by
  intro h
  have hv := C84_used_wavenumbers_partial n 1 (by omega) one_pos h dx 0 zdown rho wlarge wsmall hdx.ne' hrho hws hw
  rw [mul_one] at hv
  refine ⟨?t96, ?z96, ?e96, ?v96, ?i96⟩
  case e96 => exact hv
  case v96 =>
    simp only [samples, List.getElem?_map, List.getElem?_range (show 1 < n by omega), Option.map_some]
    rfl
  have hpos : (0 : ℝ) < n := by exact_mod_cast (by omega : 0 < n)
  have hm : meanOf n h = 1 / n := by have := spike_mean n (by omega); rwa [mul_one] at this
  rw [show (100000 : ℂ) = ((100000 : ℝ) : ℂ) by norm_num, Complex.div_ofReal_im]
  apply div_ne_zero _ (by norm_num)
  rw [Nat.div_one, Nat.mod_one, spike_im n (by omega) _ (-1 / 1000) _ (fun a _ => by
    rw [hm, mul_one, add_zero]; simp only [h]; ring)]
  apply mul_ne_zero
  · exact neg_ne_zero.mpr (div_ne_zero (by norm_num) hpos.ne')
  obtain ⟨E, hE⟩ : ∃ E : ℕ → ℝ, E = fun (k : ℕ) => Real.exp (2 * Real.pi * k / (n * (100000 * dx)) * (100000 * zdown)) := ⟨_, rfl⟩
  have hmono : ∀ a b : ℕ, a < b → E a < E b := by
    intro a b hab
    have : (a : ℝ) < b := by exact_mod_cast hab
    rw [hE]
    apply Real.exp_lt_exp.mpr
    have := Real.pi_pos
    gcongr
  have hF : ∀ k ∈ Finset.Ico 1 n, reliefFactor zdown rho wlarge wsmall (crustKappa previousCycles n 1 (100000 * dx) (100000 * 0) k 0) *
      Real.sin (2 * Real.pi * k / n) = E (previousCycles n k) * Real.sin (2 * Real.pi * k / n) / (2 * Real.pi * 6.673e-8 * rho) := by
    intro k hk
    rw [Finset.mem_Ico] at hk
    unfold reliefFactor cosineTaper
    rw [if_pos (pass_line n k (by omega) hk.2 dx wlarge hdx (by linarith) hwl), kappa_line n k dx hdx, hE]
    ring
  rw [Finset.sum_congr rfl hF, ← Finset.sum_div]
  apply div_ne_zero _ (mul_ne_zero (mul_ne_zero (by positivity) (by norm_num)) hrho)
  have h2 := sine_pairs n (by omega) (fun k => E (previousCycles n k))
  have hneg : ∑ k ∈ Finset.Ico 1 n, (E (previousCycles n k) - E (previousCycles n (n - k))) * Real.sin (2 * Real.pi * k / n) < 0 := by
    have hsinpos : ∀ k : ℕ, 1 ≤ k → 2 * k < n → 0 < Real.sin (2 * Real.pi * k / n) := by
      intro k h1 h2
      have h1' : (1 : ℝ) ≤ k := by exact_mod_cast h1
      have h2' : 2 * (k : ℝ) < n := by exact_mod_cast h2
      have := Real.pi_pos
      apply Real.sin_pos_of_pos_of_lt_pi
      · positivity
      · rw [div_lt_iff₀ hpos]; nlinarith
    have hsmall : ∀ k : ℕ, 1 ≤ k → 2 * k < n → (E (previousCycles n k) - E (previousCycles n (n - k))) * Real.sin (2 * Real.pi * k / n) < 0 := by
      intro k h1 h2
      apply mul_neg_of_neg_of_pos _ (hsinpos k h1 h2)
      rw [sub_neg]
      apply hmono
      unfold previousCycles cycles
      rw [if_neg (by omega), if_neg (by omega)]
      omega
    have hall : ∀ k ∈ Finset.Ico 1 n, (E (previousCycles n k) - E (previousCycles n (n - k))) * Real.sin (2 * Real.pi * k / n) ≤ 0 := by
      intro k hk
      rw [Finset.mem_Ico] at hk
      rcases lt_trichotomy (2 * k) n with hlt | heq | hgt
      · exact (hsmall k hk.1 hlt).le
      · rw [show n - k = k by omega, sub_self, zero_mul]
      · have h3 := hsmall (n - k) (by omega) (by omega)
        rw [show n - (n - k) = k by omega, Nat.cast_sub hk.2.le,
          show 2 * Real.pi * ((n : ℝ) - k) / n = 2 * Real.pi - 2 * Real.pi * k / n by field_simp, Real.sin_two_pi_sub] at h3
        nlinarith
    exact Finset.sum_neg' hall ⟨1, by rw [Finset.mem_Ico]; omega, hsmall 1 le_rfl (by omega)⟩
  intro h0
  rw [h0, mul_zero] at h2
  linarith

/-- **C84 fails** for every length from 3 on: with the wavenumbers of the bins themselves the value for a unit spike would be another. -/
theorem C84_effect_refuted (n : ℕ) (hn : 3 ≤ n) (dx zdown rho wlarge wsmall : ℝ) (hdx : 0 < dx) (hz : 0 < zdown) (hrho : rho ≠ 0) (hws : 0 < wsmall)
    (hw : wsmall < wlarge) (hwl : wlarge ≤ 2 * dx) :
    let h : ℕ → ℝ := fun p => if p = 0 then 1 else 0
    crustalThickness2D (samples h n) n 1 dx 0 zdown rho wlarge wsmall false ≠
      .ok (samples (fun p => twiceForward n 1
        (fun k l => reliefFactor zdown rho wlarge wsmall (crustKappa cycles n 1 (100000 * dx) (100000 * 0) k l))
        (fun a b => -(h (a * 1 + b) - meanOf n h) / 1000) p 0 / 100000) n, none) := by
  intro h heq
  obtain ⟨t, z, h1, h2, h3⟩ := C96_refuted n hn dx zdown rho wlarge wsmall hdx hz hrho hws hw hwl
  rw [show (fun p => if p = 0 then 1 else 0) = h from rfl, heq, Except.ok.injEq, Prod.mk.injEq] at h1
  rw [← h1.1] at h2
  simp only [samples, List.getElem?_map, List.getElem?_range (show 1 < n by omega), Option.map_some, Option.some.injEq] at h2
  apply h3
  rw [← h2]
  have hm : meanOf n h = 1 / n := by have := spike_mean n (by omega); rwa [mul_one] at this
  rw [show (100000 : ℂ) = ((100000 : ℝ) : ℂ) by norm_num, Complex.div_ofReal_im, spike_im n (by omega) _ (-1 / 1000) _ (fun a _ => by
    rw [hm, mul_one, add_zero]; simp only [h]; ring)]
  have h4 := sine_pairs n (by omega) fun k => reliefFactor zdown rho wlarge wsmall (crustKappa cycles n 1 (100000 * dx) (100000 * 0) k 0)
  rw [Finset.sum_eq_zero (s := Finset.Ico 1 n) (f := fun k => (_ - _) * _)] at h4
  · have h5 := (mul_eq_zero.mp h4).resolve_left two_ne_zero
    rw [h5]; simp
  · intro k hk
    rw [Finset.mem_Ico] at hk
    unfold crustKappa
    rw [show cycles n (n - k) = cycles n k by unfold cycles; omega, sub_self, zero_mul]

/-! Non-vacuity: 3 points 1 km apart, depth 10 km. -/
example : ∃ t z, crustalThickness2D (samples (fun p => if p = 0 then 1 else 0) 3) 3 1 1 0 10 0.4 2 1 false = .ok (t, none) ∧ t[1]? = some z ∧ z.im ≠ 0 :=
  C96_refuted 3 le_rfl 1 10 0.4 2 1 (by norm_num) (by norm_num) (by norm_num) (by norm_num) (by norm_num) (by norm_num)
example : ∃ t, crustalThickness2D (samples (fun p => if p = 0 then 5 else 0) 4) 4 1 1 0 10 0.4 2 1 true =
    .ok (t, some (samples (fun p => (((fun p : ℕ => if p = 0 then (5 : ℝ) else 0) ((p + 1) % 4) : ℝ) : ℂ)) 4)) :=
  C81_line_partial 4 (by norm_num) _ 1 10 0.4 2 1 (by norm_num) (by norm_num) (by norm_num) (by norm_num) (by norm_num)
example : ¬ previousCycles 1000 3 = cycles 1000 3 := by rw [C84_right_iff 1000 3 (by norm_num)]; norm_num

end Shipgrav
