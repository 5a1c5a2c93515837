import Verif.Model.Parker2dFloat
import Verif.Spec.Parker2Libm
import Verif.Lemmas.Parker2d
import Verif.Lemmas.Parker1dFloat

/-! Rounding errors of `grav2d_folding`. -/

namespace Shipgrav.Parker2
open Spec Parker1

/-- The polynomial of `P` powers. -/
noncomputable def polyP (P : ℕ) (x : ℝ) : ℝ := ∑ p ∈ Finset.Icc 1 P, x ^ (p - 1) / p.factorial

theorem icc_range (P : ℕ) (f : ℕ → ℝ) : ∑ p ∈ Finset.Icc 1 P, f p = ∑ i ∈ Finset.range P, f (i + 1) := by
  rw [Finset.range_eq_Ico, Finset.sum_Ico_add' f 0 P 1]
  rfl

theorem polyP_exp (P : ℕ) {x : ℝ} (hx : 0 ≤ x) : polyP P x * Real.exp (-x) ≤ 1 ∧ x * (polyP P x * Real.exp (-x)) ≤ 1 := by
  have hp := Real.exp_pos x
  unfold polyP
  rw [Real.exp_neg, icc_range]
  constructor
  · rw [← div_eq_mul_inv, div_le_one hp]
    refine le_trans ?_ (Real.sum_le_exp_of_nonneg hx P)
    apply Finset.sum_le_sum
    intro i _
    rw [Nat.add_sub_cancel]
    gcongr
    omega
  · rw [← mul_assoc, ← div_eq_mul_inv, div_le_one hp]
    refine le_trans ?_ (Real.sum_le_exp_of_nonneg hx (P + 1))
    rw [Finset.sum_range_succ', Finset.mul_sum]
    have : ∀ i ∈ Finset.range P, x * (x ^ (i + 1 - 1) / (i + 1).factorial) = x ^ (i + 1) / (i + 1).factorial := by
      intro i _
      rw [Nat.add_sub_cancel, pow_succ]; ring
    rw [Finset.sum_congr rfl this]
    simp

theorem polyP_nonneg (P : ℕ) {x : ℝ} (hx : 0 ≤ x) : 0 ≤ polyP P x := Finset.sum_nonneg fun _ _ => by positivity

theorem polyP_scale (P : ℕ) {x r : ℝ} (hx : 0 ≤ x) (hr : 1 ≤ r) : polyP P (r * x) ≤ r ^ (P - 1) * polyP P x := by
  unfold polyP
  rw [Finset.mul_sum]
  apply Finset.sum_le_sum
  intro p hp
  have hp' := Finset.mem_Icc.1 hp
  rw [mul_pow, mul_div_assoc]
  have : r ^ (p - 1) ≤ r ^ (P - 1) := pow_le_pow_right₀ hr (by omega)
  gcongr

theorem polyP_mono (P : ℕ) {x y : ℝ} (hx : 0 ≤ x) (h : x ≤ y) : polyP P x ≤ polyP P y := by
  unfold polyP
  gcongr

/-- One power. -/
theorem term_err2 {F' : ℚ × ℚ} {q : ℚ} {F : ℂ} {B E φ : ℝ} (ip : ℕ) (hφ : 0 ≤ φ) (hφ1 : φ ≤ 1 / 4) (hF : ‖pairC F' - F‖ ≤ φ * B) (hB : ‖F‖ ≤ B) {κ : ℝ}
    (hq : |(q : ℝ) - κ| ≤ 1 / 2 ^ 43 * E) (hE : |κ| ≤ E) :
    ‖pairC (cmulF (cmulF F' q) (toDouble (1 / ip.factorial))) - F * (κ : ℂ) * ((1 / ip.factorial : ℝ) : ℂ)‖ ≤ (φ + 1 / 2 ^ 41) * (B * E * (1 / ip.factorial)) ∧
      ‖F * (κ : ℂ) * ((1 / ip.factorial : ℝ) : ℂ)‖ ≤ B * E * (1 / ip.factorial) := by
  have hB0 := (norm_nonneg _).trans hB
  have hE0 := (abs_nonneg _).trans hE
  have h1 := cmulF_err hφ (by positivity) hF hB hq hE
  have n1 : ‖F * (κ : ℂ)‖ ≤ B * E := by
    rw [norm_mul, Complex.norm_real, Real.norm_eq_abs]
    exact mul_le_mul hB hE (abs_nonneg _) hB0
  have h2 := cmulF_err (by positivity) (by positivity) h1 n1 (recip_err ip) (abs_of_nonneg (by positivity)).le
  constructor
  · refine h2.trans (mul_le_mul_of_nonneg_right ?_ (by positivity))
    linarith
  · rw [norm_mul, Complex.norm_real, Real.norm_eq_abs, abs_of_nonneg (by positivity)]
    exact mul_le_mul_of_nonneg_right n1 (by positivity)

/-- The loop at one bin. -/
def binLoop (t : ℕ → ℕ → ℚ × ℚ) : ℕ → ℕ → ℕ → ℚ × ℚ → ℚ × ℚ
  | 0, _, _, c => c
  | n + 1, i, fact, c => binLoop t n (i + 1) (fact * i) (caddF c (t i (fact * i)))

theorem loopF_at (lm : Parker2Libm) (Z kwn : Mat ℚ) (n i fact : ℕ) (csum : Mat (ℚ × ℚ)) :
    (parkerLoop2dF lm Z kwn n i fact csum).rows = csum.rows ∧ (parkerLoop2dF lm Z kwn n i fact csum).cols = csum.cols ∧
      ∀ a b, (parkerLoop2dF lm Z kwn n i fact csum).at' a b = binLoop (fun i f => (parkerTerm2dF lm Z kwn i f).at' a b) n i fact (csum.at' a b) := by
  induction n generalizing i fact csum with
  | zero => exact ⟨rfl, rfl, fun _ _ => rfl⟩
  | succ n ih =>
    have := ih (i + 1) (fact * i) ⟨csum.rows, csum.cols, fun a b => caddF (csum.at' a b) ((parkerTerm2dF lm Z kwn i (fact * i)).at' a b)⟩
    exact this

theorem binLoop_err (t : ℕ → ℕ → ℚ × ℚ) (T : ℕ → ℂ) (A : ℕ → ℝ) (α : ℝ) (hα : 0 ≤ α) (n i m : ℕ) (hi : 1 ≤ i) (hs : α + (m + n) / 2 ^ 51 ≤ 1)
    (ht : ∀ p, i ≤ p → p < i + n → ‖pairC (t p p.factorial) - T p‖ ≤ α * A p ∧ ‖T p‖ ≤ A p) (c' : ℚ × ℚ) (c : ℂ) (C : ℝ)
    (hc : ‖pairC c' - c‖ ≤ (α + m / 2 ^ 51) * C ∧ ‖c‖ ≤ C) :
    ‖pairC (binLoop t n i (i - 1).factorial c') - (c + ∑ p ∈ Finset.Ico i (i + n), T p)‖ ≤ (α + (m + n) / 2 ^ 51) * (C + ∑ p ∈ Finset.Ico i (i + n), A p) ∧
      ‖c + ∑ p ∈ Finset.Ico i (i + n), T p‖ ≤ C + ∑ p ∈ Finset.Ico i (i + n), A p := by
  induction n generalizing i m c' c C with
  | zero => simpa [binLoop] using hc
  | succ n ih =>
    have hf : (i - 1).factorial * i = i.factorial := by
      obtain ⟨j, rfl⟩ : ∃ j, i = j + 1 := ⟨i - 1, by omega⟩
      rw [Nat.add_sub_cancel, Nat.factorial_succ, mul_comm]
    obtain ⟨t1, t2⟩ := ht i le_rfl (by omega)
    have hA : 0 ≤ A i := (norm_nonneg _).trans t2
    have hC : 0 ≤ C := (norm_nonneg _).trans hc.2
    have t1' : ‖pairC (t i i.factorial) - T i‖ ≤ (α + m / 2 ^ 51) * A i :=
      t1.trans (mul_le_mul_of_nonneg_right (by linarith [show (0 : ℝ) ≤ m / 2 ^ 51 by positivity]) hA)
    obtain ⟨s1, s2⟩ := caddF_err hc.1 hc.2 t1' t2
    push_cast at hs
    have hn0 : (0 : ℝ) ≤ n := by positivity
    have s1' : ‖pairC (caddF c' (t i i.factorial)) - (c + T i)‖ ≤ (α + ((m + 1 : ℕ) : ℝ) / 2 ^ 51) * (C + A i) := by
      refine s1.trans (mul_le_mul_of_nonneg_right ?_ (by positivity))
      push_cast
      have : (α + m / 2 ^ 51) ≤ 1 := by linarith [show ((m : ℝ) + (n + 1)) / 2 ^ 51 = m / 2 ^ 51 + (n + 1) / 2 ^ 51 by ring, show (0 : ℝ) ≤ ((n : ℝ) + 1) / 2 ^ 51 by positivity]
      linarith [show ((m : ℝ) + 1) / 2 ^ 51 = m / 2 ^ 51 + 1 / 2 ^ 51 by ring]
    have r := ih (i + 1) (m + 1) (by omega) (by push_cast; linarith [show ((m : ℝ) + 1 + n) = m + (n + 1) by ring]) (fun p h1 h2 => ht p (by omega) (by omega)) _ _ _ ⟨s1', s2⟩
    rw [Nat.add_sub_cancel] at r
    rw [Finset.sum_eq_sum_Ico_succ_bot (show i < i + (n + 1) by omega), Finset.sum_eq_sum_Ico_succ_bot (show i < i + (n + 1) by omega)]
    rw [show i + 1 + n = i + (n + 1) by omega] at r
    unfold binLoop
    rw [hf]
    push_cast at r ⊢
    rw [show (m : ℝ) + 1 + n = m + (n + 1) by ring, add_assoc, add_assoc] at r
    exact r

/-- One bin before the inverse transform. -/
theorem bin_err2 {ex : ℚ → ℚ} (he : ∀ q : ℚ, |(ex q : ℝ) - Real.exp q| ≤ Real.exp q / 2 ^ 51) {S' : ℚ × ℚ} {g' q : ℚ} {S : ℂ} {g N H κ D r ν α : ℝ} (P : ℕ)
    (hN : 0 ≤ N) (hH : 0 ≤ H) (hκ : 0 ≤ κ) (hD : 0 ≤ D) (hr : 1 ≤ r) (hHD : H ≤ r * D) (hν : 0 ≤ ν) (hα : 0 ≤ α) (hα1 : α ≤ 1 / 4)
    (hS : ‖pairC S' - S‖ ≤ α * (N * H * polyP P (κ * H))) (hSB : ‖S‖ ≤ N * H * polyP P (κ * H))
    (hg : |(g' : ℝ) - g| ≤ 1 / 2 ^ 48 * |g|) (hq : |(q : ℝ) + D * κ| ≤ ν * (D * κ)) (h1 : ν * (D * κ) ≤ 1) :
    ‖pairC (cmulF (cmulF S' g') (ex q)) - S * (g : ℂ) * ((Real.exp (-D * κ) : ℝ) : ℂ)‖ ≤ N * H * |g| * r ^ (P - 1) * (4 * α + 1 / 2 ^ 43 + 2 * ν) ∧
      ‖S * (g : ℂ) * ((Real.exp (-D * κ) : ℝ) : ℂ)‖ ≤ N * H * |g| * r ^ (P - 1) := by
  have hx : 0 ≤ D * κ := mul_nonneg hD hκ
  have hP : polyP P (κ * H) ≤ r ^ (P - 1) * polyP P (D * κ) :=
    (polyP_mono P (by positivity) (by nlinarith : κ * H ≤ r * (D * κ))).trans (polyP_scale P hx hr)
  have hp := Real.exp_pos (-(D * κ))
  obtain ⟨p1, p2⟩ := polyP_exp P hx
  have hE := exp_err he (x := D * κ) hq h1
  rw [neg_mul]
  have a1 := cmulF_err hα (by positivity) hS hSB hg le_rfl
  have n1 : ‖S * (g : ℂ)‖ ≤ N * H * polyP P (κ * H) * |g| := by
    rw [norm_mul, Complex.norm_real, Real.norm_eq_abs]
    exact mul_le_mul_of_nonneg_right hSB (abs_nonneg _)
  have hB : 0 ≤ N * H * polyP P (κ * H) * |g| := (norm_nonneg _).trans n1
  have a2 : ‖pairC (cmulF S' g') - S * (g : ℂ)‖ ≤ (α + 1 / 2 ^ 46) * (N * H * polyP P (κ * H) * |g|) :=
    a1.trans (mul_le_mul_of_nonneg_right (by linarith) hB)
  have a3 := cmulF_err (by positivity) (by positivity) a2 n1 hE (abs_of_pos hp).le
  have c1 : N * H * polyP P (κ * H) * |g| * Real.exp (-(D * κ)) ≤ N * H * |g| * r ^ (P - 1) := by
    calc N * H * polyP P (κ * H) * |g| * Real.exp (-(D * κ)) ≤ N * H * (r ^ (P - 1) * polyP P (D * κ)) * |g| * Real.exp (-(D * κ)) := by gcongr
      _ = N * H * |g| * r ^ (P - 1) * (polyP P (D * κ) * Real.exp (-(D * κ))) := by ring
      _ ≤ N * H * |g| * r ^ (P - 1) * 1 := by gcongr
      _ = _ := by ring
  have c2 : ν * (D * κ) * (N * H * polyP P (κ * H) * |g| * Real.exp (-(D * κ))) ≤ ν * (N * H * |g| * r ^ (P - 1)) := by
    calc ν * (D * κ) * (N * H * polyP P (κ * H) * |g| * Real.exp (-(D * κ))) ≤
        ν * (D * κ) * (N * H * (r ^ (P - 1) * polyP P (D * κ)) * |g| * Real.exp (-(D * κ))) := by gcongr
      _ = ν * (N * H * |g| * r ^ (P - 1)) * (D * κ * (polyP P (D * κ) * Real.exp (-(D * κ)))) := by ring
      _ ≤ ν * (N * H * |g| * r ^ (P - 1)) * 1 := by gcongr
      _ = _ := by ring
  constructor
  · refine a3.trans ?_
    have hQ : 0 ≤ N * H * polyP P (κ * H) * |g| * Real.exp (-(D * κ)) := mul_nonneg hB hp.le
    have hy : 0 ≤ ν * (D * κ) := by positivity
    generalize N * H * polyP P (κ * H) * |g| * Real.exp (-(D * κ)) = Q at c1 c2 hQ ⊢
    generalize ν * (D * κ) = y at h1 c2 hy ⊢
    have hay : α * y ≤ α := by nlinarith
    have hk : (α + 1 / 2 ^ 46) * (1 + (2 * y + 3 / 2 ^ 51)) + (2 * y + 3 / 2 ^ 51) + 1 / 2 ^ 52 * ((1 + (α + 1 / 2 ^ 46)) * (1 + (2 * y + 3 / 2 ^ 51))) ≤
        4 * α + 1 / 2 ^ 43 + 2 * y := by
      nlinarith
    refine (mul_le_mul_of_nonneg_right hk hQ).trans ?_
    have : (4 * α + 1 / 2 ^ 43) * Q ≤ (4 * α + 1 / 2 ^ 43) * (N * H * |g| * r ^ (P - 1)) := by gcongr
    linarith
  · rw [norm_mul, Complex.norm_real, Real.norm_eq_abs, abs_of_pos hp]
    exact (mul_le_mul_of_nonneg_right n1 hp.le).trans c1

theorem near_add0 {c : ℝ} {u v : ℚ} {x y : ℝ} (h : Near c u x) (h' : Near c v y) (hx : 0 ≤ x) (hy : 0 ≤ y) : Near c (u + v) (x + y) := by
  rcases hx.eq_or_lt with rfl | hx
  · obtain ⟨t, ht, e⟩ := h
    rw [zero_mul] at e
    have : u = 0 := by exact_mod_cast e
    rw [this, zero_add, zero_add]; exact h'
  · rcases hy.eq_or_lt with rfl | hy
    · obtain ⟨t, ht, e⟩ := h'
      rw [zero_mul] at e
      have : v = 0 := by exact_mod_cast e
      rw [this, add_zero, add_zero]; exact h
    · exact h.add h' hx hy le_rfl

theorem squaredF_near (n i : ℕ) {d' : ℚ} {d : ℝ} (hn : n % 2 = 0 ∨ n = 1) (hi : i < n) (hd : Near (1 / 2 ^ 52) d' d) :
    Near (12 * (1 / 2 ^ 52)) ((squaredWavenumbersF n d').getD i 0) ((2 * Real.pi * cycles n i / (n * d)) ^ 2) := by
  unfold squaredWavenumbersF
  simp only
  rw [List.getD_eq_getElem?_getD, List.getElem?_map, foldIndices_get n i hn hi]
  simp only [Option.map_some, Option.getD_some]
  push_cast
  rw [add_sub_cancel_right]
  have h1 : Near (2 * (1 / 2 ^ 52)) (toDouble (2 * piF)) (2 * Real.pi) := by
    have := near_toDouble ((near_self 2).mul near_pi)
    push_cast at this
    exact this.mono (by norm_num)
  have h2 : Near (2 * (1 / 2 ^ 52)) (toDouble (n * d')) (n * d) := by
    have := near_toDouble ((near_self (n : ℚ)).mul hd)
    push_cast at this
    exact this.mono (by norm_num)
  have h3 := near_toDouble (h1.div h2)
  have h4 := near_toDouble (h3.mul h3)
  have h5 := near_toDouble ((near_self ((cycles n i : ℚ) * cycles n i)).mul h4)
  have e : (((cycles n i : ℚ) * cycles n i : ℚ) : ℝ) * (2 * Real.pi / (n * d) * (2 * Real.pi / (n * d))) = (2 * Real.pi * cycles n i / (n * d)) ^ 2 := by
    push_cast; ring
  rw [e] at h5
  exact h5.mono (by norm_num)

theorem wavenumbers2dF_ok (lm : Parker2Libm) (hs : GoodSqrt lm.sqrt) (nx ny : ℕ) {dx' dy' : ℚ} {dx dy : ℝ} (hnx : 0 < nx) (hny : 0 < ny) (hdx : dx' ≠ 0) (hdy : dy' ≠ 0)
    (hx : nx % 2 = 0 ∨ nx = 1) (hy : ny % 2 = 0 ∨ ny = 1) (ndx : Near (1 / 2 ^ 52) dx' dx) (ndy : Near (1 / 2 ^ 52) dy' dy) :
    ∃ kwn, wavenumbers2dF lm nx ny dx' dy' = .ok kwn ∧ kwn.rows = ny ∧ kwn.cols = nx ∧
      ∀ k < ny, ∀ l < nx, Near (20 * (1 / 2 ^ 52)) (kwn.at' k l) (gridWavenumber ny nx dy dx k l) := by
  have hxr : (nx : ℚ) ≠ 0 := by exact_mod_cast hnx.ne'
  have hyr : (ny : ℚ) ≠ 0 := by exact_mod_cast hny.ne'
  have lx : (squaredWavenumbersF nx dx').length = nx := by
    unfold squaredWavenumbersF
    simp only [List.length_map]
    rw [foldIndices_length nx hnx, if_pos hx]
  have ly : (squaredWavenumbersF ny dy').length = ny := by
    unfold squaredWavenumbersF
    simp only [List.length_map]
    rw [foldIndices_length ny hny, if_pos hy]
  refine ⟨⟨ny, nx, fun j i => lm.sqrt (toDouble ((squaredWavenumbersF nx dx').getD i 0 + (squaredWavenumbersF ny dy').getD j 0))⟩, ?_, rfl, rfl, ?_⟩
  · unfold wavenumbers2dF
    simp only
    rw [if_neg (by simp [toDouble_eq_zero, hxr, hyr, hdx, hdy]), if_neg (by rw [lx]; simp), if_neg (by rw [ly]; simp)]
  · intro k hk l hl
    have a := near_toDouble (near_add0 (squaredF_near nx l hx hl ndx) (squaredF_near ny k hy hk ndy) (sq_nonneg _) (sq_nonneg _))
    have b := (near_sqrt0 hs a (by positivity) (by norm_num)).2
    unfold gridWavenumber
    rw [add_comm ((2 * Real.pi * cycles ny k / (ny * dy)) ^ 2)]
    exact b.mono (by norm_num)

theorem gridWavenumber_le (M N : ℕ) (dy dx δ : ℝ) (hδ : 0 < δ) (hx : δ ≤ |dx|) (hy : δ ≤ |dy|) (k l : ℕ) : gridWavenumber M N dy dx k l * δ ≤ 2 * Real.pi := by
  have key : ∀ (n i : ℕ) (d : ℝ), δ ≤ |d| → (2 * Real.pi * cycles n i / (n * d)) ^ 2 * δ ^ 2 ≤ Real.pi ^ 2 := by
    intro n i d hd
    rcases Nat.eq_zero_or_pos n with rfl | hn
    · simp; positivity
    have hn' : (0 : ℝ) < n := by exact_mod_cast hn
    have hd0 : 0 < |d| := hδ.trans_le hd
    have h2 : 2 * cycles n i ≤ n := by unfold cycles; omega
    have h2' : 2 * (cycles n i : ℝ) ≤ n := by exact_mod_cast h2
    rw [← mul_pow, ← sq_abs]
    apply pow_le_pow_left₀ (abs_nonneg _)
    rw [abs_mul, abs_div, abs_of_pos hδ, abs_of_nonneg (by positivity : (0 : ℝ) ≤ 2 * Real.pi * cycles n i), abs_mul, Nat.abs_cast,
      div_mul_eq_mul_div, div_le_iff₀ (by positivity)]
    calc 2 * Real.pi * cycles n i * δ = Real.pi * (2 * (cycles n i : ℝ)) * δ := by ring
      _ ≤ Real.pi * n * |d| := by gcongr
      _ = _ := by ring
  unfold gridWavenumber
  have h := add_le_add (key M k dy hy) (key N l dx hx)
  have e : √((2 * Real.pi * cycles M k / (M * dy)) ^ 2 + (2 * Real.pi * cycles N l / (N * dx)) ^ 2) * δ =
      √(((2 * Real.pi * cycles M k / (M * dy)) ^ 2 + (2 * Real.pi * cycles N l / (N * dx)) ^ 2) * δ ^ 2) := by
    rw [Real.sqrt_mul (by positivity), Real.sqrt_sq hδ.le]
  rw [e]
  apply Real.sqrt_le_iff.2
  refine ⟨by positivity, ?_⟩
  rw [add_mul]
  nlinarith [sq_nonneg Real.pi]

theorem flat_sum {β : Type} [AddCommMonoid β] (f : ℚ → β) (Z : Mat ℚ) :
    ((flattenF Z).map f).sum = ∑ i ∈ Finset.range Z.rows, ∑ j ∈ Finset.range Z.cols, f (Z.at' i j) := by
  unfold flattenF
  rw [List.map_flatMap, List.flatMap_def, List.sum_flatten, List.map_map]
  have : (List.sum ∘ fun i => List.map f (List.map (fun j => Z.at' i j) (List.range Z.cols))) = fun i => ∑ j ∈ Finset.range Z.cols, f (Z.at' i j) := by
    funext i
    simp only [Function.comp, List.map_map]
    rfl
  rw [this]
  rfl

theorem mean_err (lm : Parker2Libm) (hs : ∀ l : List ℚ, |lm.sum l - l.sum| ≤ (l.map fun x => |x|).sum / 2 ^ 46) (M N : ℕ) (hM : 0 < M) (hN : 0 < N) (h : ℕ → ℕ → ℚ) (H : ℝ)
    (hh : ∀ i < M, ∀ j < N, |(h i j : ℝ)| ≤ H) :
    |(matMeanF lm ⟨M, N, h⟩ : ℝ) - gridMean M N (fun i j => (h i j : ℝ))| ≤ 1 / 2 ^ 45 * H ∧ |gridMean M N (fun i j => (h i j : ℝ))| ≤ H := by
  have hm : (0 : ℝ) < M * N := by
    have a : (0 : ℝ) < M := by exact_mod_cast hM
    have b : (0 : ℝ) < N := by exact_mod_cast hN
    positivity
  have hH : 0 ≤ H := (abs_nonneg _).trans (hh 0 hM 0 hN)
  have hb : ∑ i ∈ Finset.range M, ∑ j ∈ Finset.range N, |(h i j : ℝ)| ≤ M * N * H := by
    refine (Finset.sum_le_card_nsmul _ _ (N * H) fun i hi => ?_).trans (by simp [mul_assoc])
    exact (Finset.sum_le_card_nsmul _ _ H fun j hj => hh i (Finset.mem_range.1 hi) j (Finset.mem_range.1 hj)).trans (by simp)
  have hμ : |gridMean M N (fun i j => (h i j : ℝ))| ≤ H := by
    unfold gridMean
    rw [abs_div, abs_of_pos hm, div_le_iff₀ hm, mul_comm]
    refine (Finset.abs_sum_le_sum_abs _ _).trans ((Finset.sum_le_sum fun i _ => Finset.abs_sum_le_sum_abs _ _).trans hb)
  refine ⟨?_, hμ⟩
  have a := hs (flattenF ⟨M, N, h⟩)
  have e1 : (flattenF ⟨M, N, h⟩).sum = ∑ i ∈ Finset.range M, ∑ j ∈ Finset.range N, h i j := by
    have := flat_sum (fun x => x) ⟨M, N, h⟩
    rwa [List.map_id'] at this
  rw [e1, flat_sum] at a
  have b := (Rat.cast_le (K := ℝ)).2 a
  push_cast at b
  unfold matMeanF
  simp only
  have c : |((lm.sum (flattenF ⟨M, N, h⟩) / ((M * N : ℕ) : ℚ) : ℚ) : ℝ) - gridMean M N (fun i j => (h i j : ℝ))| ≤ 1 / 2 ^ 46 * H := by
    unfold gridMean
    push_cast
    rw [← sub_div, abs_div, abs_of_pos hm, div_le_iff₀ hm]
    refine b.trans ?_
    linarith
  have d := toDouble_err (lm.sum (flattenF ⟨M, N, h⟩) / ((M * N : ℕ) : ℚ))
  generalize toDouble (lm.sum (flattenF ⟨M, N, h⟩) / ((M * N : ℕ) : ℚ)) = s at d ⊢
  generalize ((lm.sum (flattenF ⟨M, N, h⟩) / ((M * N : ℕ) : ℚ) : ℚ) : ℝ) = s0 at c d
  generalize gridMean M N (fun i j => (h i j : ℝ)) = μ at c hμ ⊢
  rw [abs_le] at *
  have d' : |s0| ≤ 2 * H := by rw [abs_le]; constructor <;> linarith [c.1, c.2, hμ.1, hμ.2]
  constructor <;> linarith [c.1, c.2, hμ.1, hμ.2, d.1, d.2]

theorem depth_err {s z : ℚ} {μ H B ρ : ℝ} (hH : 0 ≤ H) (hs : |(s : ℝ) - μ| ≤ 1 / 2 ^ 45 * H) (hB : |100 * (μ - z)| ≤ B) (hρ : 1 ≤ ρ) (hHB : 100 * H ≤ ρ * B)
    (hsm : ρ ≤ 2 ^ 20) : |((toDouble (100 * toDouble (s - z)) : ℚ) : ℝ) - 100 * (μ - z)| ≤ ρ / 2 ^ 44 * B := by
  have hB0 : 0 ≤ B := (abs_nonneg _).trans hB
  have hρB : B ≤ ρ * B := by nlinarith
  have hρB2 : ρ * B ≤ 2 ^ 20 * B := by nlinarith
  have a1 := toDouble_err (s - z)
  generalize toDouble (s - z) = w at a1 ⊢
  push_cast at a1
  have a2 : |(s : ℝ) - z - (μ - z)| ≤ 1 / 2 ^ 45 * H := by rwa [sub_sub_sub_cancel_right]
  generalize (s : ℝ) - z = w0 at a1 a2
  generalize μ - (z : ℝ) = y at a2 hB ⊢
  have hy : 100 * |y| ≤ B := by rwa [abs_mul, abs_of_pos (by norm_num : (0 : ℝ) < 100)] at hB
  have a3 : 100 * |w0| ≤ 2 * B := by
    have := abs_add_le (w0 - y) y
    rw [sub_add_cancel] at this
    linarith
  have a4 := toDouble_err (100 * w)
  generalize toDouble (100 * w) = v at a4 ⊢
  push_cast at a4
  rw [abs_mul, abs_of_pos (by norm_num : (0 : ℝ) < 100)] at a4
  have a5 : 100 * |(w : ℝ)| ≤ 3 * B := by
    have := abs_add_le ((w : ℝ) - w0) w0
    rw [sub_add_cancel] at this
    linarith
  have e : ρ / 2 ^ 44 * B = 1 / 2 ^ 44 * (ρ * B) := by ring
  rw [e]
  have b1 := abs_add_le ((v : ℝ) - 100 * w) (100 * (w - w0) + 100 * (w0 - y))
  have b2 := abs_add_le (100 * ((w : ℝ) - w0)) (100 * (w0 - y))
  rw [abs_mul, abs_mul, abs_of_pos (by norm_num : (0 : ℝ) < 100)] at b2
  rw [show (v : ℝ) - 100 * w + (100 * (w - w0) + 100 * (w0 - y)) = v - 100 * y by ring] at b1
  linarith

/-- The exponent. -/
theorem expo_err2 {s dz k' : ℚ} {μ H B ρ r D κ : ℝ} (hH : 0 ≤ H) (hs : |(s : ℝ) - μ| ≤ 1 / 2 ^ 45 * H) (hμ : |μ| ≤ H) (hD : D = 100 * (μ + dz)) (hρ : 1 ≤ ρ) (hr : 1 ≤ r)
    (hHB : 100 * H ≤ ρ * B) (hBD : B ≤ r * D) (hD0 : 0 ≤ D) (hκ : 0 ≤ κ) (hsm : ρ * r ≤ 2 ^ 20) (hk : |(k' : ℝ) - κ| ≤ 1 / 2 ^ 47 * κ) :
    |((toDouble (-toDouble (toDouble (s * 100) + toDouble (dz * 100)) * k') : ℚ) : ℝ) + D * κ| ≤ ρ * r / 2 ^ 42 * (D * κ) := by
  have hHD : 100 * H ≤ ρ * r * D := by nlinarith
  have hρr : 1 ≤ ρ * r := by nlinarith
  have hDD : D ≤ ρ * r * D := by nlinarith
  have hDD2 : ρ * r * D ≤ 2 ^ 20 * D := by nlinarith
  have a1 := toDouble_err (s * 100)
  have a2 := toDouble_err (dz * 100)
  generalize toDouble (s * 100) = s1 at a1 ⊢
  generalize toDouble (dz * 100) = z1 at a2 ⊢
  push_cast at a1 a2
  have b1 : |(s : ℝ) * 100| ≤ 200 * H := by
    rw [abs_mul, abs_of_pos (by norm_num : (0 : ℝ) < 100)]
    have := abs_add_le ((s : ℝ) - μ) μ
    rw [sub_add_cancel] at this
    linarith
  have b2 : |(dz : ℝ) * 100| ≤ D + 100 * H := by
    have e : (dz : ℝ) * 100 = D - 100 * μ := by rw [hD]; ring
    rw [e]
    refine (abs_sub _ _).trans ?_
    rw [abs_of_nonneg hD0, abs_mul, abs_of_pos (by norm_num : (0 : ℝ) < 100)]
    linarith
  have b3 : |((s1 + z1 : ℚ) : ℝ) - D| ≤ 1 / 2 ^ 44 * (ρ * r * D) - 4 / 2 ^ 52 * D := by
    have e : ((s1 + z1 : ℚ) : ℝ) - D = ((s1 : ℝ) - s * 100) + ((z1 : ℝ) - dz * 100) + 100 * (s - μ) := by rw [hD]; push_cast; ring
    rw [e]
    have c1 := abs_add_le (((s1 : ℝ) - s * 100) + ((z1 : ℝ) - dz * 100)) (100 * (s - μ))
    have c2 := abs_add_le ((s1 : ℝ) - s * 100) ((z1 : ℝ) - dz * 100)
    rw [abs_mul, abs_of_pos (by norm_num : (0 : ℝ) < 100)] at c1
    linarith
  have b4 : |((s1 + z1 : ℚ) : ℝ)| ≤ 2 * D := by
    have := abs_add_le (((s1 + z1 : ℚ) : ℝ) - D) D
    rw [sub_add_cancel, abs_of_nonneg hD0] at this
    linarith
  have a3 := toDouble_err (s1 + z1)
  generalize toDouble (s1 + z1) = d at a3 ⊢
  generalize ((s1 + z1 : ℚ) : ℝ) = d0 at a3 b3 b4
  have a8 : |(d : ℝ) - D| ≤ 1 / 2 ^ 44 * (ρ * r * D) := by
    have := abs_add_le ((d : ℝ) - d0) (d0 - D)
    rw [sub_add_sub_cancel] at this
    linarith
  have a9 : |(d : ℝ)| ≤ 2 * D := by
    have := abs_add_le ((d : ℝ) - D) D
    rw [sub_add_cancel, abs_of_nonneg hD0] at this
    linarith
  have c1 : |(k' : ℝ)| ≤ 2 * κ := by
    have := abs_add_le ((k' : ℝ) - κ) κ
    rw [sub_add_cancel, abs_of_nonneg hκ] at this
    linarith
  have c2 : |(d : ℝ) * k' - D * κ| ≤ 1 / 2 ^ 44 * (ρ * r * D) * (2 * κ) + D * (1 / 2 ^ 47 * κ) := by
    rw [show (d : ℝ) * k' - D * κ = (d - D) * k' + D * (k' - κ) by ring]
    refine (abs_add_le _ _).trans ?_
    rw [abs_mul, abs_mul, abs_of_nonneg hD0]
    exact add_le_add (mul_le_mul a8 c1 (abs_nonneg _) (by positivity)) (mul_le_mul_of_nonneg_left hk hD0)
  have c3 : |(d : ℝ) * k'| ≤ 2 * D * (2 * κ) := by
    rw [abs_mul]; exact mul_le_mul a9 c1 (abs_nonneg _) (by positivity)
  have c4 := toDouble_err (-d * k')
  generalize toDouble (-d * k') = q at c4 ⊢
  push_cast at c4
  rw [neg_mul, abs_neg] at c4
  have c5 := abs_add_le ((q : ℝ) - -((d : ℝ) * k')) (-((d : ℝ) * k' - D * κ))
  rw [abs_neg] at c5
  rw [show (q : ℝ) + D * κ = (q : ℝ) - -((d : ℝ) * k') + -((d : ℝ) * k' - D * κ) by ring]
  have hDκ : D * κ ≤ ρ * r * (D * κ) := by nlinarith [mul_nonneg hD0 hκ]
  have e1 : ρ * r / 2 ^ 42 * (D * κ) = 1 / 2 ^ 42 * (ρ * r * (D * κ)) := by ring
  have e2 : 1 / 2 ^ 44 * (ρ * r * D) * (2 * κ) = 1 / 2 ^ 43 * (ρ * r * (D * κ)) := by ring
  rw [e1]
  rw [e2] at c2
  have hX := mul_nonneg hD0 hκ
  linarith

theorem norm_wave3 (k a M l b N : ℕ) : ‖Complex.exp (-2 * Real.pi * Complex.I * ((k * a) / M + (l * b) / N))‖ = 1 := by
  rw [show -2 * (Real.pi : ℂ) * Complex.I * ((k * a) / M + (l * b) / N) = ((-2 * Real.pi * ((k * a) / M + (l * b) / N) : ℝ) : ℂ) * Complex.I by push_cast; ring]
  exact norm_wave _

theorem norm_wave4 (k a M l b N : ℕ) : ‖Complex.exp (2 * Real.pi * Complex.I * ((k * a) / M + (l * b) / N))‖ = 1 := by
  rw [show 2 * (Real.pi : ℂ) * Complex.I * ((k * a) / M + (l * b) / N) = ((2 * Real.pi * ((k * a) / M + (l * b) / N) : ℝ) : ℂ) * Complex.I by push_cast; ring]
  exact norm_wave _

theorem sum2_le (M N : ℕ) (f : ℕ → ℕ → ℂ) (B : ℝ) (h : ∀ a < M, ∀ b < N, ‖f a b‖ ≤ B) : ‖∑ a ∈ Finset.range M, ∑ b ∈ Finset.range N, f a b‖ ≤ M * N * B := by
  refine (norm_sum_le _ _).trans ((Finset.sum_le_card_nsmul _ _ (N * B) fun a ha => ?_).trans (by simp [mul_assoc]))
  refine (norm_sum_le _ _).trans ((Finset.sum_le_card_nsmul _ _ B fun b hb => ?_).trans (by simp))
  exact h a (Finset.mem_range.1 ha) b (Finset.mem_range.1 hb)

/-- Transform of one power. -/
theorem fft2_err (lm : Parker2Libm) (gd : GoodParker2Lib lm.fft2 lm.ifft2 lm.exp lm.sqrt lm.pow lm.sum)
    (M N : ℕ) (x : ℕ → ℕ → ℚ) (y : ℕ → ℕ → ℝ) (B θ : ℝ) (hθ : θ ≤ 1) (hxy : ∀ a < M, ∀ b < N, |(x a b : ℝ) - y a b| ≤ θ * B)
    (hy : ∀ a < M, ∀ b < N, |y a b| ≤ B) (k : ℕ) (hk : k < M) (l : ℕ) (hl : l < N) :
    ‖pairC ((lm.fft2 ⟨M, N, x⟩).at' k l) - ∑ a ∈ Finset.range M, ∑ b ∈ Finset.range N, (y a b : ℂ) *
        Complex.exp (-2 * Real.pi * Complex.I * ((k * a) / M + (l * b) / N))‖ ≤ (1 / 2 ^ 44 + θ) * (M * N * B) ∧
      ‖∑ a ∈ Finset.range M, ∑ b ∈ Finset.range N, (y a b : ℂ) * Complex.exp (-2 * Real.pi * Complex.I * ((k * a) / M + (l * b) / N))‖ ≤ M * N * B := by
  have hB : 0 ≤ B := (abs_nonneg _).trans (hy k hk l hl)
  have h1 := gd.fft ⟨M, N, x⟩ (2 * B) (by
    intro a ha b hb
    have := abs_add_le ((x a b : ℝ) - y a b) (y a b)
    rw [sub_add_cancel] at this
    have h2 := hxy a ha b hb
    have h3 := hy a ha b hb
    simp only
    nlinarith) k hk l hl
  simp only at h1
  have h2 : ‖∑ a ∈ Finset.range M, ∑ b ∈ Finset.range N, ((x a b : ℝ) : ℂ) * Complex.exp (-2 * Real.pi * Complex.I * ((k * a) / M + (l * b) / N)) -
      ∑ a ∈ Finset.range M, ∑ b ∈ Finset.range N, (y a b : ℂ) * Complex.exp (-2 * Real.pi * Complex.I * ((k * a) / M + (l * b) / N))‖ ≤ M * N * (θ * B) := by
    simp only [← Finset.sum_sub_distrib]
    apply sum2_le
    intro a ha b hb
    rw [← sub_mul, norm_mul, norm_wave3, mul_one, ← Complex.ofReal_sub, Complex.norm_real, Real.norm_eq_abs]
    exact hxy a ha b hb
  constructor
  · have h3 := norm_add_le (pairC ((lm.fft2 ⟨M, N, x⟩).at' k l) - ∑ a ∈ Finset.range M, ∑ b ∈ Finset.range N, ((x a b : ℝ) : ℂ) *
        Complex.exp (-2 * Real.pi * Complex.I * ((k * a) / M + (l * b) / N)))
      (∑ a ∈ Finset.range M, ∑ b ∈ Finset.range N, ((x a b : ℝ) : ℂ) * Complex.exp (-2 * Real.pi * Complex.I * ((k * a) / M + (l * b) / N)) -
      ∑ a ∈ Finset.range M, ∑ b ∈ Finset.range N, (y a b : ℂ) * Complex.exp (-2 * Real.pi * Complex.I * ((k * a) / M + (l * b) / N)))
    rw [sub_add_sub_cancel] at h3
    linarith
  · apply sum2_le
    intro a ha b hb
    rw [norm_mul, norm_wave3, mul_one, Complex.norm_real, Real.norm_eq_abs]
    exact hy a ha b hb

/-- A power of a slightly wrong number. -/
theorem pow_err2 {pw : ℚ → ℕ → ℚ} (hp : ∀ (q : ℚ) (j : ℕ), 1 ≤ j → j ≤ 20 → |(pw q j : ℝ) - (q : ℝ) ^ j| ≤ |(q : ℝ)| ^ j / 2 ^ 51) {x : ℚ} {y B ε : ℝ} (hε : 0 ≤ ε)
    (hε1 : ε ≤ 1 / 2 ^ 24) (hxy : |(x : ℝ) - y| ≤ ε * B) (hy : |y| ≤ B) (p : ℕ) (h1 : 1 ≤ p) (h20 : p ≤ 20) :
    |(pw x p : ℝ) - y ^ p| ≤ (1 / 2 ^ 50 + 40 * ε) * B ^ p := by
  have hB : 0 ≤ B := (abs_nonneg _).trans hy
  have hx : |(x : ℝ)| ≤ (1 + ε) * B := by
    have := abs_add_le ((x : ℝ) - y) y
    rw [sub_add_cancel] at this
    linarith
  have hpw : ∀ j ≤ 20, ((1 + ε) * B) ^ j ≤ 2 * B ^ j := by
    intro j hj
    rw [mul_pow]
    apply mul_le_mul_of_nonneg_right _ (pow_nonneg hB j)
    calc (1 + ε) ^ j ≤ (1 + ε) ^ 20 := pow_le_pow_right₀ (by linarith) hj
      _ ≤ (1 + 1 / 2 ^ 24) ^ 20 := by gcongr
      _ ≤ 2 := by norm_num
  have a1 := hp x p h1 h20
  have a2 : |(x : ℝ)| ^ p ≤ 2 * B ^ p := (pow_le_pow_left₀ (abs_nonneg _) hx p).trans (hpw p h20)
  have a3 : |(x : ℝ) ^ p - y ^ p| ≤ 40 * ε * B ^ p := by
    refine (abs_pow_sub_pow_le _ _ _).trans ?_
    have hm : max |(x : ℝ)| |y| ^ (p - 1) ≤ 2 * B ^ (p - 1) :=
      (pow_le_pow_left₀ (by positivity) (max_le hx (hy.trans (by nlinarith))) _).trans (hpw (p - 1) (by omega))
    have hp20 : (p : ℝ) ≤ 20 := by exact_mod_cast h20
    calc |(x : ℝ) - y| * p * max |(x : ℝ)| |y| ^ (p - 1) ≤ ε * B * 20 * (2 * B ^ (p - 1)) := by gcongr
      _ = 40 * ε * (B ^ (p - 1) * B) := by ring
      _ = 40 * ε * B ^ p := by rw [← pow_succ, Nat.sub_add_cancel h1]
  have a4 := abs_add_le ((pw x p : ℝ) - (x : ℝ) ^ p) ((x : ℝ) ^ p - y ^ p)
  rw [sub_add_sub_cancel] at a4
  have a5 : |(x : ℝ)| ^ p / 2 ^ 51 ≤ 2 * B ^ p / 2 ^ 51 := by gcongr
  linarith

/-- The sum over the powers against that of Parker's series. -/
theorem spec_err2 (lm : Parker2Libm) (gd : GoodParker2Lib lm.fft2 lm.ifft2 lm.exp lm.sqrt lm.pow lm.sum) (M N : ℕ) (x : ℕ → ℕ → ℚ) (y : ℕ → ℕ → ℝ) (kwn : Mat ℚ)
    (κ : ℕ → ℕ → ℝ) (B ε : ℝ) (P : ℕ) (hP : P ≤ 20) (hε : 0 ≤ ε) (hε1 : ε ≤ 1 / 2 ^ 24) (hxy : ∀ a < M, ∀ b < N, |(x a b : ℝ) - y a b| ≤ ε * B)
    (hy : ∀ a < M, ∀ b < N, |y a b| ≤ B) (k : ℕ) (hk : k < M) (l : ℕ) (hl : l < N) (h0 : κ k l = 0 ↔ k = 0 ∧ l = 0) (hκ : 0 ≤ κ k l)
    (hkq : Near (20 * (1 / 2 ^ 52)) (kwn.at' k l) (κ k l)) :
    ‖pairC ((parkerSum2dF lm ⟨M, N, x⟩ kwn P).at' k l) - specP M N κ y (max 1 P) k l‖ ≤ (1 / 2 ^ 40 + 40 * ε) * (M * N * B * polyP (max 1 P) (κ k l * B)) ∧
      ‖specP M N κ y (max 1 P) k l‖ ≤ M * N * B * polyP (max 1 P) (κ k l * B) := by
  have hB : 0 ≤ B := (abs_nonneg _).trans (hy k hk l hl)
  let F : ℕ → ℂ := fun ip => ∑ a ∈ Finset.range M, ∑ b ∈ Finset.range N, ((y a b ^ ip : ℝ) : ℂ) * Complex.exp (-2 * Real.pi * Complex.I * ((k * a) / M + (l * b) / N))
  have hF1 := fft2_err lm gd M N x y B ε (by linarith) hxy hy k hk l hl
  have hFp : ∀ ip : ℕ, 1 ≤ ip → ip ≤ 20 → ‖pairC ((lm.fft2 ⟨M, N, fun a b => lm.pow (x a b) ip⟩).at' k l) - F ip‖ ≤ (1 / 2 ^ 43 + 40 * ε) * (M * N * B ^ ip) ∧
      ‖F ip‖ ≤ M * N * B ^ ip := by
    intro ip h1 h20
    have a := fft2_err lm gd M N (fun a b => lm.pow (x a b) ip) (fun a b => y a b ^ ip) (B ^ ip) (1 / 2 ^ 50 + 40 * ε) (by linarith)
      (fun a ha b hb => pow_err2 gd.pow hε hε1 (hxy a ha b hb) (hy a ha b hb) ip h1 h20)
      (fun a ha b hb => by rw [abs_pow]; exact pow_le_pow_left₀ (abs_nonneg _) (hy a ha b hb) _) k hk l hl
    exact ⟨a.1.trans (mul_le_mul_of_nonneg_right (by linarith) (by positivity)), a.2⟩
  have hkp : ∀ j : ℕ, 1 ≤ j → j ≤ 19 → |(lm.pow (kwn.at' k l) j : ℝ) - κ k l ^ j| ≤ 1 / 2 ^ 43 * κ k l ^ j := by
    intro j h1 h4
    have a : Near (j * (20 * (1 / 2 ^ 52)) + 2 * (1 / 2 ^ 51)) (lm.pow (kwn.at' k l) j) (κ k l ^ j) := by
      refine near_trans (near_rel0 (by positivity) (by norm_num) ?_) (near_powr hkq j)
      have := gd.pow (kwn.at' k l) j h1 (by omega)
      push_cast
      rw [abs_pow]
      linarith
    have hj : (j : ℝ) ≤ 19 := by exact_mod_cast h4
    have b := (a.mono (d := 400 * (1 / 2 ^ 52)) (by linarith)).err (by norm_num) (by norm_num)
    rw [abs_of_nonneg (pow_nonneg hκ j)] at b
    exact b.trans (mul_le_mul_of_nonneg_right (by norm_num) (pow_nonneg hκ j))
  have e0 : pairC (0, 0) = 0 := by apply Complex.ext <;> simp [pairC]
  have hT : ∀ ip : ℕ, 2 ≤ ip → ip < 2 + (P - 1) → ‖pairC ((parkerTerm2dF lm ⟨M, N, x⟩ kwn ip ip.factorial).at' k l) - F ip * ((κ k l ^ (ip - 1) : ℝ) : ℂ) * ((1 / ip.factorial : ℝ) : ℂ)‖ ≤
      (1 / 2 ^ 43 + 40 * ε + 1 / 2 ^ 41) * (M * N * B ^ ip * κ k l ^ (ip - 1) * (1 / ip.factorial)) ∧
      ‖F ip * ((κ k l ^ (ip - 1) : ℝ) : ℂ) * ((1 / ip.factorial : ℝ) : ℂ)‖ ≤ M * N * B ^ ip * κ k l ^ (ip - 1) * (1 / ip.factorial) := by
    intro ip h2 h5
    have t := term_err2 ip (by positivity) (by linarith) (hFp ip (by omega) (by omega)).1 (hFp ip (by omega) (by omega)).2 (hkp (ip - 1) (by omega) (by omega))
      (abs_of_nonneg (pow_nonneg hκ (ip - 1))).le
    refine ⟨?_, t.2⟩
    unfold parkerTerm2dF
    simp only
    by_cases hz : kwn.at' k l = 0
    · rw [if_pos hz, e0]
      have hκz : κ k l = 0 := by
        obtain ⟨t, ht, e⟩ := hkq
        rw [hz, Rat.cast_zero] at e
        rcases mul_eq_zero.1 e.symm with h | h
        · exact h
        · exact absurd h ht.pos.ne'
      rw [hκz, zero_pow (by omega : ip - 1 ≠ 0)]
      simp
    · rw [if_neg hz]
      exact t.1
  have hS1 : ‖pairC (if k = 0 ∧ l = 0 then (0, 0) else (lm.fft2 ⟨M, N, x⟩).at' k l) - (if k = 0 ∧ l = 0 then 0 else F 1)‖ ≤
      (1 / 2 ^ 43 + 40 * ε + 1 / 2 ^ 41 + (0 : ℕ) / 2 ^ 51) * (M * N * B) ∧ ‖(if k = 0 ∧ l = 0 then 0 else F 1)‖ ≤ M * N * B := by
    by_cases hz : k = 0 ∧ l = 0
    · simp only [if_pos hz]
      rw [e0, sub_zero, norm_zero]
      constructor <;> positivity
    · simp only [if_neg hz]
      have e : F 1 = ∑ a ∈ Finset.range M, ∑ b ∈ Finset.range N, (y a b : ℂ) * Complex.exp (-2 * Real.pi * Complex.I * ((k * a) / M + (l * b) / N)) := by simp [F]
      rw [e]
      refine ⟨hF1.1.trans (mul_le_mul_of_nonneg_right ?_ (by positivity)), hF1.2⟩
      push_cast
      linarith
  have hP' : ((P - 1 : ℕ) : ℝ) ≤ 20 := by exact_mod_cast (by omega : P - 1 ≤ 20)
  have L := binLoop_err (fun i f => (parkerTerm2dF lm ⟨M, N, x⟩ kwn i f).at' k l) (fun ip => F ip * ((κ k l ^ (ip - 1) : ℝ) : ℂ) * ((1 / ip.factorial : ℝ) : ℂ))
    (fun ip => M * N * B ^ ip * κ k l ^ (ip - 1) * (1 / ip.factorial)) (1 / 2 ^ 43 + 40 * ε + 1 / 2 ^ 41) (by positivity) (P - 1) 2 0 (by norm_num)
    (by push_cast; linarith) hT _ _ _ hS1
  have eS : (parkerSum2dF lm ⟨M, N, x⟩ kwn P).at' k l = binLoop (fun i f => (parkerTerm2dF lm ⟨M, N, x⟩ kwn i f).at' k l) (P - 1) 2 (2 - 1).factorial
      (if k = 0 ∧ l = 0 then (0, 0) else (lm.fft2 ⟨M, N, x⟩).at' k l) := by
    unfold parkerSum2dF
    simp only
    rw [(loopF_at lm _ kwn (P - 1) 2 1 _).2.2 k l]
    rfl
  have hIcc : Finset.Icc 1 (max 1 P) = Finset.Ico 1 (2 + (P - 1)) := by
    ext p; simp only [Finset.mem_Icc, Finset.mem_Ico]; omega
  have e1 : (if k = 0 ∧ l = 0 then 0 else F 1) + ∑ ip ∈ Finset.Ico 2 (2 + (P - 1)), F ip * ((κ k l ^ (ip - 1) : ℝ) : ℂ) * ((1 / ip.factorial : ℝ) : ℂ) =
      specP M N κ y (max 1 P) k l := by
    unfold specP
    by_cases hz : k = 0 ∧ l = 0
    · rw [if_pos hz, if_pos hz, zero_add]
      apply Finset.sum_eq_zero
      intro p hp
      have := (Finset.mem_Ico.1 hp).1
      rw [h0.2 hz, zero_pow (by omega : p - 1 ≠ 0)]
      simp
    · rw [if_neg hz, if_neg hz, hIcc, Finset.sum_eq_sum_Ico_succ_bot (show 1 < 2 + (P - 1) by omega)]
      congr 1
      · simp [F]
      · apply Finset.sum_congr rfl
        intro p _
        simp only [F]
        push_cast
        ring
  have e2 : (M : ℝ) * N * B + ∑ ip ∈ Finset.Ico 2 (2 + (P - 1)), (M : ℝ) * N * B ^ ip * κ k l ^ (ip - 1) * (1 / ip.factorial) = M * N * B * polyP (max 1 P) (κ k l * B) := by
    unfold polyP
    rw [hIcc, Finset.sum_eq_sum_Ico_succ_bot (show 1 < 2 + (P - 1) by omega), mul_add, Finset.mul_sum]
    congr 1
    · simp
    · apply Finset.sum_congr rfl
      intro p hp
      have := (Finset.mem_Ico.1 hp).1
      obtain ⟨q, rfl⟩ : ∃ q, p = q + 1 := ⟨p - 1, by omega⟩
      rw [Nat.add_sub_cancel, mul_pow, pow_succ]
      ring
  rw [e1, e2, ← eS] at L
  refine ⟨L.1.trans (mul_le_mul_of_nonneg_right ?_ ((norm_nonneg _).trans L.2)), L.2⟩
  push_cast
  linarith

/-- The inverse transform of slightly wrong numbers. -/
theorem ifft2_err (lm : Parker2Libm) (gd : GoodParker2Lib lm.fft2 lm.ifft2 lm.exp lm.sqrt lm.pow lm.sum)
    (M N : ℕ) (y : ℕ → ℕ → ℚ × ℚ) (d : ℕ → ℕ → ℂ) (Q ε : ℝ) (hε : ε ≤ 1) (hy : ∀ k < M, ∀ l < N, ‖pairC (y k l) - d k l‖ ≤ Q * ε) (hd : ∀ k < M, ∀ l < N, ‖d k l‖ ≤ Q)
    (i : ℕ) (hi : i < M) (j : ℕ) (hj : j < N) :
    ‖pairC ((lm.ifft2 ⟨M, N, y⟩).at' i j) - 1 / ((M : ℂ) * N) * ∑ k ∈ Finset.range M, ∑ l ∈ Finset.range N, d k l *
      Complex.exp (2 * Real.pi * Complex.I * ((i * k) / M + (j * l) / N))‖ ≤ Q * (1 / 2 ^ 44 + ε) := by
  have hM : (0 : ℝ) < M := by exact_mod_cast (by omega : 0 < M)
  have hN : (0 : ℝ) < N := by exact_mod_cast (by omega : 0 < N)
  have hQ : 0 ≤ Q := (norm_nonneg _).trans (hd i hi j hj)
  have hε' : Q * ε ≤ Q := by nlinarith
  have h1 := gd.ifft ⟨M, N, y⟩ (2 * Q) (by
    intro a ha b hb
    have := norm_add_le (pairC (y a b) - d a b) (d a b)
    rw [sub_add_cancel] at this
    have h2 := hy a ha b hb
    have h3 := hd a ha b hb
    simp only
    linarith) i hi j hj
  simp only at h1
  have h2 : ‖1 / ((M : ℂ) * N) * ∑ k ∈ Finset.range M, ∑ l ∈ Finset.range N, pairC (y k l) * Complex.exp (2 * Real.pi * Complex.I * ((i * k) / M + (j * l) / N)) -
      1 / ((M : ℂ) * N) * ∑ k ∈ Finset.range M, ∑ l ∈ Finset.range N, d k l * Complex.exp (2 * Real.pi * Complex.I * ((i * k) / M + (j * l) / N))‖ ≤ Q * ε := by
    rw [← mul_sub]
    simp only [← Finset.sum_sub_distrib]
    rw [norm_mul, norm_div, norm_one, norm_mul, Complex.norm_natCast, Complex.norm_natCast, one_div, inv_mul_le_iff₀ (by positivity)]
    apply sum2_le
    intro a ha b hb
    rw [← sub_mul, norm_mul, norm_wave4, mul_one]
    exact hy a ha b hb
  have h3 := norm_add_le (pairC ((lm.ifft2 ⟨M, N, y⟩).at' i j) - 1 / ((M : ℂ) * N) * ∑ k ∈ Finset.range M, ∑ l ∈ Finset.range N, pairC (y k l) *
      Complex.exp (2 * Real.pi * Complex.I * ((i * k) / M + (j * l) / N)))
    (1 / ((M : ℂ) * N) * ∑ k ∈ Finset.range M, ∑ l ∈ Finset.range N, pairC (y k l) * Complex.exp (2 * Real.pi * Complex.I * ((i * k) / M + (j * l) / N)) -
      1 / ((M : ℂ) * N) * ∑ k ∈ Finset.range M, ∑ l ∈ Finset.range N, d k l * Complex.exp (2 * Real.pi * Complex.I * ((i * k) / M + (j * l) / N)))
  rw [sub_add_sub_cancel] at h3
  linarith

theorem grav_near2 (drho : ℚ) : |((toDouble (toDouble (toDouble (toDouble (2 * piF) * toDouble 6.673e-8) * 1000) * drho) : ℚ) : ℝ) - 2 * Real.pi * 6.673e-8 * 1000 * drho| ≤
    1 / 2 ^ 48 * |2 * Real.pi * 6.673e-8 * 1000 * drho| := by
  have h1 : Near (2 * (1 / 2 ^ 52)) (toDouble (2 * piF)) (2 * Real.pi) := by
    have := near_toDouble ((near_self 2).mul near_pi)
    push_cast at this
    exact this.mono (by norm_num)
  have h2 : Near (1 / 2 ^ 52) (toDouble 6.673e-8) 6.673e-8 := by
    have a := near_toDouble (near_self (6.673e-8 : ℚ))
    have e : ((6.673e-8 : ℚ) : ℝ) = 6.673e-8 := by norm_num
    rw [e] at a
    exact a.mono (by norm_num)
  have h3 := near_toDouble ((near_toDouble (h1.mul h2)).mul (near_self 1000))
  have h4 := near_toDouble (h3.mul (near_self drho))
  push_cast at h4
  exact (h4.err (by norm_num) (by norm_num)).trans (mul_le_mul_of_nonneg_right (by norm_num) (abs_nonneg _))

/-- The data in double precision against Parker's series. -/
theorem data_err2 (lm : Parker2Libm) (gd : GoodParker2Lib lm.fft2 lm.ifft2 lm.exp lm.sqrt lm.pow lm.sum) (M N : ℕ) (x : ℕ → ℕ → ℚ) (y : ℕ → ℕ → ℝ) (kwn : Mat ℚ)
    (dy dx B ε D r ν δ : ℝ) (g' zq : ℚ) (g : ℝ) (P : ℕ) (hP : P ≤ 20) (hε : 0 ≤ ε) (hε1 : ε ≤ 1 / 2 ^ 24) (hν : 0 ≤ ν) (hν1 : ν ≤ 1 / 2 ^ 10)
    (hxy : ∀ a < M, ∀ b < N, |(x a b : ℝ) - y a b| ≤ ε * B) (hy : ∀ a < M, ∀ b < N, |y a b| ≤ B) (hr : 1 ≤ r) (hBD : B ≤ r * D) (hD : 0 ≤ D)
    (hδ : 0 < δ) (hdx : δ ≤ |dx|) (hdy : δ ≤ |dy|) (hspan : ν * (2 * Real.pi * D) ≤ δ)
    (hkq : ∀ k < M, ∀ l < N, Near (20 * (1 / 2 ^ 52)) (kwn.at' k l) (gridWavenumber M N dy dx k l))
    (hg : |(g' : ℝ) - g| ≤ 1 / 2 ^ 48 * |g|)
    (hz : ∀ (k' : ℚ) (κ : ℝ), 0 ≤ κ → |(k' : ℝ) - κ| ≤ 1 / 2 ^ 47 * κ → |((toDouble (-zq * k') : ℚ) : ℝ) + D * κ| ≤ ν * (D * κ))
    (i : ℕ) (hi : i < M) (j : ℕ) (hj : j < N) :
    |(((parkerData2dF lm ⟨M, N, x⟩ kwn g' zq P).at' i j).1 : ℝ) - parkerGrid M N (gridWavenumber M N dy dx) D g (max 1 P) y i j| ≤
      M * N * B * |g| * r ^ (max 1 P - 1) * (1 / 2 ^ 37 + 160 * ε + 2 * ν) := by
  have hB : 0 ≤ B := (abs_nonneg _).trans (hy i hi j hj)
  have hdx0 : dx ≠ 0 := by intro h; rw [h, abs_zero] at hdx; linarith
  have hdy0 : dy ≠ 0 := by intro h; rw [h, abs_zero] at hdy; linarith
  set κ := gridWavenumber M N dy dx with hκd
  have hκ0 : ∀ k l, 0 ≤ κ k l := fun k l => Real.sqrt_nonneg _
  have hκz : ∀ k < M, ∀ l < N, κ k l = 0 ↔ k = 0 ∧ l = 0 := fun k hk l hl => gridWavenumber_zero M N dy dx hdx0 hdy0 k l hk hl
  let d : ℕ → ℕ → ℂ := fun k l => specP M N κ y (max 1 P) k l * (g : ℂ) * ((Real.exp (-D * κ k l) : ℝ) : ℂ)
  have hbin : ∀ k < M, ∀ l < N, ‖pairC (cmulF (cmulF ((parkerSum2dF lm ⟨M, N, x⟩ kwn P).at' k l) g') (lm.exp (toDouble (-zq * kwn.at' k l)))) - d k l‖ ≤
      (M * N * B * |g| * r ^ (max 1 P - 1)) * (4 * (1 / 2 ^ 40 + 40 * ε) + 1 / 2 ^ 43 + 2 * ν) ∧ ‖d k l‖ ≤ M * N * B * |g| * r ^ (max 1 P - 1) := by
    intro k hk l hl
    obtain ⟨s1, s2⟩ := spec_err2 lm gd M N x y kwn κ B ε P hP hε hε1 hxy hy k hk l hl (hκz k hk l hl) (hκ0 k l) (hkq k hk l hl)
    have hke := (hkq k hk l hl).err (by norm_num) (by norm_num)
    rw [abs_of_nonneg (hκ0 k l)] at hke
    have hq := hz (kwn.at' k l) (κ k l) (hκ0 k l) (hke.trans (mul_le_mul_of_nonneg_right (by norm_num) (hκ0 k l)))
    have h1 : ν * (D * κ k l) ≤ 1 := by
      have a := gridWavenumber_le M N dy dx δ hδ hdx hdy k l
      have b : ν * (D * κ k l) * δ ≤ 1 * δ := by
        calc ν * (D * κ k l) * δ = ν * D * (κ k l * δ) := by ring
          _ ≤ ν * D * (2 * Real.pi) := by gcongr
          _ ≤ 1 * δ := by linarith
      exact le_of_mul_le_mul_right b hδ
    exact bin_err2 gd.exp (max 1 P) (by positivity) hB (hκ0 k l) hD hr hBD hν (by positivity) (by linarith) s1 s2 hg hq h1
  have hF := ifft2_err lm gd M N _ d _ _ (by linarith) (fun k hk l hl => (hbin k hk l hl).1) (fun k hk l hl => (hbin k hk l hl).2) i hi j hj
  have hsh : (parkerSum2dF lm ⟨M, N, x⟩ kwn P).rows = M ∧ (parkerSum2dF lm ⟨M, N, x⟩ kwn P).cols = N := by
    unfold parkerSum2dF
    simp only
    have a := loopF_at lm ⟨M, N, x⟩ kwn (P - 1) 2 1 ⟨(lm.fft2 ⟨M, N, x⟩).rows, (lm.fft2 ⟨M, N, x⟩).cols,
      fun a b => if a = 0 ∧ b = 0 then (0, 0) else (lm.fft2 ⟨M, N, x⟩).at' a b⟩
    exact ⟨a.1.trans (gd.fftShape _).1, a.2.1.trans (gd.fftShape _).2⟩
  have eE : (1 / ((M : ℂ) * N) * ∑ k ∈ Finset.range M, ∑ l ∈ Finset.range N, d k l * Complex.exp (2 * Real.pi * Complex.I * ((i * k) / M + (j * l) / N))) =
      ((parkerGrid M N κ D g (max 1 P) y i j : ℝ) : ℂ) := by
    have a := parkerData2d_eq ⟨M, N, y⟩ ⟨M, N, κ⟩ κ g D P (fun _ _ _ _ => rfl) hκz (fun k l h1 h2 => (gridWavenumber_symm M N dy dx k l).1 h1 h2)
      (fun k l h1 h2 => (gridWavenumber_symm M N dy dx k l).2 h1 h2) i j
    obtain ⟨b1, b2, b3⟩ := parkerSum2d_eq ⟨M, N, y⟩ ⟨M, N, κ⟩ κ P (fun _ _ _ _ => rfl) hκz
    rw [← a]
    unfold parkerData2d ifft2
    simp only
    rw [b1, b2]
    congr 1
    apply Finset.sum_congr rfl
    intro k hk
    apply Finset.sum_congr rfl
    intro l hl
    rw [b3 k (Finset.mem_range.1 hk) l (Finset.mem_range.1 hl)]
  rw [eE] at hF
  have hre := (Complex.abs_re_le_norm _).trans hF
  rw [Complex.sub_re, Complex.ofReal_re] at hre
  unfold parkerData2dF
  simp only
  rw [hsh.1, hsh.2]
  refine hre.trans (mul_le_mul_of_nonneg_left ?_ (by positivity))
  linarith

end Shipgrav.Parker2
