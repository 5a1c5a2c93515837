import Verif.Props.CrossCoupling
import Verif.Lemmas.Smooth
import Verif.Spec.Regression
import Mathlib.Analysis.Normed.Module.FiniteDimension

/-! C163: cross coupling when the anomaly has a signal of its own, and on smooth signals (grav.py 340–450). -/

namespace Shipgrav
open Spec Real

/-! ### Rows -/

private theorem stretch_end (s : ℕ) (gs : List ℕ) (p : ℕ × ℕ) (hp : p ∈ stretchesTo s gs) : p.2 ∈ gs := by
  induction gs generalizing s with
  | nil => simp [stretchesTo] at hp
  | cons g gs ih =>
    rcases List.mem_cons.mp hp with rfl | h
    · simp
    · exact List.mem_cons_of_mem _ (ih _ h)

private theorem used_end (times : Option (ℕ → ℝ)) (rate : ℝ) (n : ℕ) (gaps : List ℕ) (hg : GapList times rate n gaps) (p : ℕ × ℕ)
    (hp : p ∈ usedStretches n gaps) : p.2 ≤ n := by
  unfold usedStretches at hp
  have h1 := (List.mem_filter.mp hp).1
  by_cases h : gaps = []
  · rw [if_pos h] at h1
    rw [List.mem_singleton.mp h1]
  · rw [if_neg h] at h1
    obtain ⟨t, _, h2, _⟩ := (hg.2 _).mp (stretch_end 0 gaps p h1)
    omega

/-- Each row belongs to one sample, the same in all columns. -/
private theorem row_at (l : List (ℕ × ℕ)) (n : ℕ) (hl : ∀ p ∈ l, p.2 ≤ n) (i : ℕ) (hi : i < (l.map fun p => p.2 - p.1 - 420).sum) :
    ∃ t, t + 420 < n ∧ ∀ x, (l.flatMap (stretchRows x))[i]? = some (smoothCurvature x t) := by
  induction l generalizing i with
  | nil => simp at hi
  | cons p l ih =>
    have hlen : ∀ x, (stretchRows x p).length = p.2 - p.1 - 420 := fun x => by simp [stretchRows]
    by_cases hlt : i < p.2 - p.1 - 420
    · have := hl p (by simp)
      refine ⟨p.1 + i, by omega, fun x => ?_⟩
      rw [List.flatMap_cons, List.getElem?_append_left (by rw [hlen]; exact hlt)]
      unfold stretchRows samples
      rw [List.getElem?_map, List.getElem?_range hlt]; rfl
    · rw [List.map_cons, List.sum_cons] at hi
      obtain ⟨t, h1, h2⟩ := ih (fun q hq => hl q (by simp [hq])) (i - (p.2 - p.1 - 420)) (by omega)
      refine ⟨t, h1, fun x => ?_⟩
      rw [List.flatMap_cons, List.getElem?_append_right (by rw [hlen]; omega), hlen]
      exact h2 x

private theorem gaps_exist (times : Option (ℕ → ℝ)) (rate : ℝ) (n : ℕ) : ∃ gaps, GapList times rate n gaps := by
  classical
  refine ⟨(List.range n).filter (fun k => ∃ t, times = some t ∧ GapAfter t rate n k),
    List.Pairwise.filter _ List.pairwise_lt_range, fun k => ?_⟩
  simp only [List.mem_filter, List.mem_range, decide_eq_true_eq]
  exact ⟨fun h => h.2, fun h => ⟨by obtain ⟨t, _, h, _⟩ := h; omega, h⟩⟩

/-- The table row by row. -/
private theorem table_rows (n : ℕ) (faa vcc ve al ax lev : ℕ → ℝ) (times : Option (ℕ → ℝ)) (rate : ℝ) (T : CCTable)
    (hT : calcCC (samples faa n) (samples vcc n) (samples ve n) (samples al n) (samples ax n) (samples lev n)
        (times.map (samples · n)) rate = .ok T) (i : ℕ) (hi : i < T.g.length) :
    ∃ t, t + 420 < n ∧ T.g[i]? = some (-smoothCurvature faa t) ∧ T.ve[i]? = some (smoothCurvature ve t) ∧ T.vcc[i]? = some (smoothCurvature vcc t) ∧
      T.al[i]? = some (smoothCurvature al t) ∧ T.ax[i]? = some (smoothCurvature ax t) ∧ T.lev[i]? = some (smoothCurvature lev t) := by
  obtain ⟨gaps, hg⟩ := gaps_exist times rate n
  rw [(C60_sizes n faa vcc ve al ax lev times rate gaps T hg hT).1] at hi
  obtain ⟨t, h1, h2⟩ := row_at _ n (used_end times rate n gaps hg) i hi
  rw [C60_table _ _ _ _ _ _ _ _ _ gaps hg] at hT
  by_cases hu : usedStretches n gaps = []
  · simp [hu] at hT
  · rw [if_neg hu] at hT
    injection hT with hT
    subst hT
    refine ⟨t, h1, ?_, h2 _, h2 _, h2 _, h2 _, h2 _⟩
    rw [List.getElem?_map, h2]; rfl

private theorem smooth_near (x : ℕ → ℝ) (f : ℕ → ℝ) (e : ℝ) (n t : ℕ) (ht : t + 420 < n) (h : ∀ i, 10 ≤ i → i + 10 < n → |curvature x i - f i| ≤ e) :
    |smoothCurvature x t - ∑ j ∈ Finset.range 200, lowpass j * f (t + 210 - j)| ≤ e := by
  unfold smoothCurvature
  rw [← Finset.sum_sub_distrib]
  calc |∑ j ∈ Finset.range 200, (lowpass j * curvature x (t + 210 - j) - lowpass j * f (t + 210 - j))|
      ≤ ∑ j ∈ Finset.range 200, |lowpass j * curvature x (t + 210 - j) - lowpass j * f (t + 210 - j)| := Finset.abs_sum_le_sum_abs _ _
    _ ≤ ∑ j ∈ Finset.range 200, lowpass j * e := Finset.sum_le_sum fun j hj => by
        have hj := Finset.mem_range.mp hj
        rw [← mul_sub, abs_mul, abs_of_nonneg (lowpass_nonneg j hj)]
        exact mul_le_mul_of_nonneg_left (h _ (by omega) (by omega)) (lowpass_nonneg j hj)
    _ = e := by rw [← Finset.sum_mul, lowpass_sum, one_mul]

/-! ### Smooth signals -/

private theorem diff10_lip (f g : ℕ → ℝ) (e : ℝ) (i : ℕ) (hi : 5 ≤ i) (h : ∀ j, i ≤ j + 5 → j ≤ i + 5 → |f j - g j| ≤ e) :
    |centralDiff10 f i - centralDiff10 g i| ≤ 2.284 * e := by
  have h0 : 0 ≤ e := (abs_nonneg _).trans (h i (by omega) (by omega))
  have a1 := abs_le.1 (h (i + 1) (by omega) (by omega))
  have a2 := abs_le.1 (h (i + 2) (by omega) (by omega))
  have a3 := abs_le.1 (h (i + 3) (by omega) (by omega))
  have a4 := abs_le.1 (h (i + 4) (by omega) (by omega))
  have a5 := abs_le.1 (h (i + 5) (by omega) (by omega))
  have b1 := abs_le.1 (h (i - 1) (by omega) (by omega))
  have b2 := abs_le.1 (h (i - 2) (by omega) (by omega))
  have b3 := abs_le.1 (h (i - 3) (by omega) (by omega))
  have b4 := abs_le.1 (h (i - 4) (by omega) (by omega))
  have b5 := abs_le.1 (h (i - 5) (by omega) (by omega))
  unfold centralDiff10
  rw [abs_le]
  constructor <;> norm_num <;> linarith

/-- The curvature of a smooth function, sampled `freq` times a second. -/
private theorem curvature_close (f : ℝ → ℝ) (hf : ContDiff ℝ 12 f) (freq K L : ℝ) (hq : 0 < freq) (i : ℕ) (hi : 10 ≤ i)
    (hK : ∀ s, |s - i / freq| ≤ 10 / freq → |iteratedDeriv 11 f s| ≤ K) (hL : ∀ s, |s - i / freq| ≤ 5 / freq → |iteratedDeriv 12 f s| ≤ L) :
    |freq ^ 2 * curvature (fun k => f (k / freq)) i - deriv (deriv f) (i / freq)| ≤ 0.0106 * K / freq ^ 9 + 0.0046 * L / freq ^ 10 := by
  have hK0 : 0 ≤ K := (abs_nonneg _).trans (hK (i / freq) (by simpa using by positivity))
  have h1 := diff10_close (deriv f) ((contDiff_succ_iff_deriv.1 (by exact_mod_cast hf : ContDiff ℝ (11 + 1) f)).2.2) freq L hq i (by omega)
    (by intro s hs; rw [← iteratedDeriv_succ']; exact hL s hs)
  have h2 := diff10_lip (fun j => freq * centralDiff10 (fun k => f (k / freq)) j) (fun j => deriv f (j / freq)) (0.0046 * K / freq ^ 10) i (by omega)
    (by
      intro j h1 h2
      refine diff10_close f (hf.of_le (by norm_num)) freq K hq j (by omega) (fun s hs => hK s ?_)
      have : |(j : ℝ) / freq - i / freq| ≤ 5 / freq := by
        rw [← sub_div, abs_div, abs_of_pos hq]
        gcongr
        rw [abs_le]
        have h1' : (i : ℝ) ≤ j + 5 := by exact_mod_cast h1
        have h2' : (j : ℝ) ≤ i + 5 := by exact_mod_cast h2
        constructor <;> linarith
      calc |s - i / freq| = |(s - j / freq) + (j / freq - i / freq)| := by congr 1; ring
        _ ≤ 5 / freq + 5 / freq := (abs_add_le _ _).trans (add_le_add hs this)
        _ = 10 / freq := by ring)
  rw [centralDiff10_smul] at h2
  have e : freq ^ 2 * curvature (fun k => f (k / freq)) i = freq * (freq * centralDiff10 (centralDiff10 fun k => f (k / freq)) i) := by
    unfold curvature; ring
  rw [e]
  have h3 : |freq * (freq * centralDiff10 (centralDiff10 fun k => f (k / freq)) i) - freq * centralDiff10 (fun j => deriv f (j / freq)) i| ≤
      freq * (2.284 * (0.0046 * K / freq ^ 10)) := by
    rw [← mul_sub, abs_mul, abs_of_pos hq]
    exact mul_le_mul_of_nonneg_left h2 hq.le
  have h4 : freq * (2.284 * (0.0046 * K / freq ^ 10)) ≤ 0.0106 * K / freq ^ 9 := by
    rw [show freq * (2.284 * (0.0046 * K / freq ^ 10)) = 2.284 * 0.0046 * K / freq ^ 9 by field_simp]
    gcongr
    norm_num
  calc _ ≤ _ := abs_sub_le _ (freq * centralDiff10 (fun j => deriv f (j / freq)) i) _
    _ ≤ _ := add_le_add (h3.trans h4) h1

private theorem curvature_near (f : ℝ → ℝ) (hf : ContDiff ℝ 12 f) (freq K L : ℝ) (hq : 0 < freq) (n : ℕ)
    (hK : ∀ s, 0 ≤ s → s ≤ n / freq → |iteratedDeriv 11 f s| ≤ K) (hL : ∀ s, 0 ≤ s → s ≤ n / freq → |iteratedDeriv 12 f s| ≤ L)
    (i : ℕ) (h1 : 10 ≤ i) (h2 : i + 10 < n) :
    |freq ^ 2 * curvature (fun k => f (k / freq)) i - deriv (deriv f) (i / freq)| ≤ 0.0106 * K / freq ^ 9 + 0.0046 * L / freq ^ 10 := by
  have a1 : (10 : ℝ) ≤ i := by exact_mod_cast h1
  have a2 : (i : ℝ) + 10 ≤ n := by exact_mod_cast h2.le
  have b1 : 10 / freq ≤ i / freq := by gcongr
  have b2 : i / freq + 10 / freq ≤ n / freq := by rw [← add_div]; gcongr
  have b3 : 5 / freq ≤ 10 / freq := by gcongr; norm_num
  refine curvature_close f hf freq K L hq i h1 (fun s hs => ?_) (fun s hs => ?_)
  · rw [abs_le] at hs; exact hK s (by linarith) (by linarith)
  · rw [abs_le] at hs; exact hL s (by linarith) (by linarith)

/-! ### Least squares -/

/-- What the regression adds to a known model is no larger than what the model leaves. -/
private theorem ls_added (n : ℕ) (g : ℕ → ℝ) (x : Fin 5 → ℕ → ℝ) (c₀ c : ℝ) (β₀ β : Fin 5 → ℝ) (h : LeastSquares n g x c β) :
    ∑ i ∈ Finset.range n, ((c - c₀) + ∑ k, (β k - β₀ k) * x k i) ^ 2 ≤ ∑ i ∈ Finset.range n, (g i - (c₀ + ∑ k, β₀ k * x k i)) ^ 2 := by
  obtain ⟨u, hu⟩ : ∃ u : ℕ → ℝ, u = fun i => (c - c₀) + ∑ k, (β k - β₀ k) * x k i := ⟨_, rfl⟩
  obtain ⟨r, hr⟩ : ∃ r : ℕ → ℝ, r = fun i => g i - (c₀ + ∑ k, β₀ k * x k i) := ⟨_, rfl⟩
  have hs : ∀ s : ℝ, ssr n g x (c₀ + s * (c - c₀)) (fun k => β₀ k + s * (β k - β₀ k)) =
      ∑ i ∈ Finset.range n, r i ^ 2 - 2 * s * ∑ i ∈ Finset.range n, r i * u i + s ^ 2 * ∑ i ∈ Finset.range n, u i ^ 2 := by
    intro s
    unfold ssr
    rw [Finset.mul_sum, Finset.mul_sum, ← Finset.sum_sub_distrib, ← Finset.sum_add_distrib]
    refine Finset.sum_congr rfl fun i _ => ?_
    have : ∑ k, (β₀ k + s * (β k - β₀ k)) * x k i = ∑ k, β₀ k * x k i + s * ∑ k, (β k - β₀ k) * x k i := by
      rw [Finset.mul_sum, ← Finset.sum_add_distrib]
      exact Finset.sum_congr rfl fun k _ => by ring
    rw [this, hr, hu]
    ring
  have h1 : ssr n g x c β = ∑ i ∈ Finset.range n, r i ^ 2 - 2 * ∑ i ∈ Finset.range n, r i * u i + ∑ i ∈ Finset.range n, u i ^ 2 := by
    have := hs 1
    simp only [one_mul, add_sub_cancel, one_pow, mul_one] at this
    exact this
  have hmin : ∀ s : ℝ, 0 ≤ (s - 1) * ((s + 1) * ∑ i ∈ Finset.range n, u i ^ 2 - 2 * ∑ i ∈ Finset.range n, r i * u i) := by
    intro s
    have := h (c₀ + s * (c - c₀)) (fun k => β₀ k + s * (β k - β₀ k))
    rw [hs, h1] at this
    linarith
  have hU : 0 ≤ ∑ i ∈ Finset.range n, u i ^ 2 := Finset.sum_nonneg fun i _ => sq_nonneg _
  have hR0 : 0 ≤ ∑ i ∈ Finset.range n, r i ^ 2 := Finset.sum_nonneg fun i _ => sq_nonneg _
  have hR : 0 ≤ ssr n g x c β := Finset.sum_nonneg fun i _ => sq_nonneg _
  rw [h1] at hR
  show ∑ i ∈ Finset.range n, (fun i => (c - c₀) + ∑ k, (β k - β₀ k) * x k i) i ^ 2 ≤ ∑ i ∈ Finset.range n, (fun i => g i - (c₀ + ∑ k, β₀ k * x k i)) i ^ 2
  rw [← hu, ← hr]
  generalize ∑ i ∈ Finset.range n, u i ^ 2 = U at *
  generalize ∑ i ∈ Finset.range n, r i * u i = B at *
  generalize ∑ i ∈ Finset.range n, r i ^ 2 = R at *
  rcases hU.eq_or_lt with h0 | hU
  · rw [← h0]; exact hR0
  · have hB : B = U := by
      have := hmin (B / U)
      have e : (B / U - 1) * ((B / U + 1) * U - 2 * B) = -((B - U) ^ 2 / U) := by field_simp; ring
      rw [e] at this
      have h2 : (B - U) ^ 2 / U ≤ 0 := by linarith
      have h3 : (B - U) ^ 2 ≤ 0 := by
        by_contra hc
        exact absurd h2 (not_le.2 (div_pos (not_le.1 hc) hU))
      have := pow_eq_zero_iff (two_ne_zero) |>.1 (le_antisymm h3 (sq_nonneg _))
      linarith
    rw [hB] at hR
    linarith

/-- **C163.** If the anomaly is a signal `geo` minus a combination of the monitors, and the curvature of that signal is everywhere within `ε` of
some constant, then the coefficients found by least squares differ from those of the combination, root sum square, by at most `ε` over how far
the processed monitors are apart. -/
theorem C163_geology (n : ℕ) (ve vcc al ax lev faa geo : ℕ → ℝ) (κ : Fin 5 → ℝ) (q ε l : ℝ) (times : Option (ℕ → ℝ)) (rate : ℝ) (T : CCTable)
    (hfaa : ∀ i, faa i = geo i - (κ 0 * ve i + κ 1 * vcc i + κ 2 * al i + κ 3 * ax i + κ 4 * lev i))
    (hgeo : ∀ i, 10 ≤ i → i + 10 < n → |curvature geo i - q| ≤ ε)
    (hT : calcCC (samples faa n) (samples vcc n) (samples ve n) (samples al n) (samples ax n) (samples lev n)
        (times.map (samples · n)) rate = .ok T)
    (hl : 0 < l) (hap : Apart T.g.length T.regressors l) (c : ℝ) (β : Fin 5 → ℝ)
    (hls : LeastSquares T.g.length (fun i => T.g.getD i 0) T.regressors c β) :
    √(∑ k, (β k - κ k) ^ 2) ≤ ε / l := by
  have hrow : ∀ i < T.g.length, (T.g.getD i 0 - (-q + ∑ k, κ k * T.regressors k i)) ^ 2 ≤ ε ^ 2 := by
    intro i hi
    obtain ⟨t, ht, e0, e1, e2, e3, e4, e5⟩ := table_rows n faa vcc ve al ax lev times rate T hT i hi
    have hs := smooth_near geo (fun _ => q) ε n t ht hgeo
    rw [← Finset.sum_mul, lowpass_sum, one_mul] at hs
    have e : faa = fun (i : ℕ) => geo i + ((-κ 0) * ve i + ((-κ 1) * vcc i + ((-κ 2) * al i + ((-κ 3) * ax i + (-κ 4) * lev i)))) := by
      funext i; rw [hfaa]; ring
    rw [e, smoothCurvature_add, smoothCurvature_add, smoothCurvature_add, smoothCurvature_add, smoothCurvature_add,
      smoothCurvature_smul, smoothCurvature_smul, smoothCurvature_smul, smoothCurvature_smul, smoothCurvature_smul] at e0
    simp only [CCTable.regressors, Fin.sum_univ_five, List.getD_eq_getElem?_getD, e0, Option.getD_some]
    rw [← sq_abs]
    refine pow_le_pow_left₀ (abs_nonneg _) (le_of_eq_of_le ?_ hs) 2
    rw [← abs_neg (smoothCurvature geo t - q)]
    congr 1
    simp only [Matrix.cons_val, e1, e2, e3, e4, e5, Option.getD_some]
    ring
  have h1 := hap (c - -q) (fun k => β k - κ k)
  have h2 := ls_added T.g.length _ T.regressors (-q) c κ β hls
  have h3 : ∑ i ∈ Finset.range T.g.length, (T.g.getD i 0 - (-q + ∑ k, κ k * T.regressors k i)) ^ 2 ≤ T.g.length * ε ^ 2 := by
    refine (Finset.sum_le_sum fun i hi => hrow i (Finset.mem_range.mp hi)).trans (le_of_eq ?_)
    rw [Finset.sum_const, Finset.card_range, nsmul_eq_mul]
  have hpos : 0 < T.g.length := by
    obtain ⟨gaps, hg⟩ := gaps_exist times rate n
    have h4 := (C60_sizes n faa vcc ve al ax lev times rate gaps T hg hT).1
    rw [C60_table _ _ _ _ _ _ _ _ _ gaps hg] at hT
    by_cases hu : usedStretches n gaps = []
    · simp [hu] at hT
    · rw [h4]
      obtain ⟨p, hp⟩ := List.exists_mem_of_ne_nil _ hu
      have h5 := List.le_sum_of_mem (List.mem_map_of_mem (f := fun p : ℕ × ℕ => p.2 - p.1 - 420) hp)
      have h6 := (List.mem_filter.mp hp).2
      simp at h6
      omega
  have hN : (0 : ℝ) < T.g.length := by exact_mod_cast hpos
  have h4 : l ^ 2 * ∑ k, (β k - κ k) ^ 2 ≤ ε ^ 2 := by
    have := h1.trans (h2.trans h3)
    rw [mul_right_comm, mul_comm _ (ε ^ 2)] at this
    exact le_of_mul_le_mul_right this hN
  have hε : 0 ≤ ε := by
    obtain ⟨t, ht, _⟩ := table_rows n faa vcc ve al ax lev times rate T hT 0 hpos
    exact (abs_nonneg _).trans (hgeo 10 le_rfl (by omega))
  rw [Real.sqrt_le_left (by positivity), div_pow, le_div_iff₀ (by positivity)]
  linarith

/-- **C163.** The processed values of a smooth signal, sampled `freq` times a second, are the averages of its second derivative with the weights of
the low-pass filter, times the square of the sampling interval, up to the truncation of the differences. -/
theorem C163_smooth_signal (f : ℝ → ℝ) (hf : ContDiff ℝ 12 f) (freq K L : ℝ) (hq : 0 < freq) (n : ℕ)
    (hK : ∀ s, 0 ≤ s → s ≤ n / freq → |iteratedDeriv 11 f s| ≤ K) (hL : ∀ s, 0 ≤ s → s ≤ n / freq → |iteratedDeriv 12 f s| ≤ L) :
    (ccProcess (samples (fun k => f (k / freq)) n)).length = n - 420 ∧
      ∀ t < n - 420, ∃ v, (ccProcess (samples (fun k => f (k / freq)) n))[t]? = some v ∧
        |freq ^ 2 * v - ∑ j ∈ Finset.range 200, lowpass j * deriv (deriv f) (((t + 210 - j : ℕ) : ℝ) / freq)| ≤ 0.0106 * K / freq ^ 9 + 0.0046 * L / freq ^ 10 := by
  rw [ccProcess_samples]
  refine ⟨samples_length _ _, fun t ht => ⟨smoothCurvature (fun k => f (k / freq)) t, ?_, ?_⟩⟩
  · unfold samples; rw [List.getElem?_map, List.getElem?_range ht]; rfl
  · have h := smooth_near (fun k => f (k / freq)) (fun i => deriv (deriv f) (i / freq) / freq ^ 2) ((0.0106 * K / freq ^ 9 + 0.0046 * L / freq ^ 10) / freq ^ 2) n t (by omega)
      (by
        intro i h1 h2
        have hc := curvature_near f hf freq K L hq n hK hL i h1 h2
        rw [le_div_iff₀ (by positivity), ← abs_of_pos (show 0 < freq ^ 2 by positivity), ← abs_mul, abs_of_pos (show 0 < freq ^ 2 by positivity)]
        refine le_of_eq_of_le ?_ hc
        congr 1
        field_simp)
    rw [le_div_iff₀ (by positivity), ← abs_of_pos (show 0 < freq ^ 2 by positivity), ← abs_mul, abs_of_pos (show 0 < freq ^ 2 by positivity)] at h
    refine le_of_eq_of_le ?_ h
    congr 1
    rw [sub_mul, Finset.sum_mul, mul_comm]
    congr 1
    refine Finset.sum_congr rfl fun j _ => ?_
    field_simp

/-- **C163.** A smooth signal of the anomaly itself, sampled `freq` times a second, with a second derivative of at most `M`: the coefficients are
right to `M` and the truncation of the differences, over the square of the sampling frequency and over how far the monitors are apart. -/
theorem C163_smooth_geology (f : ℝ → ℝ) (hf : ContDiff ℝ 12 f) (freq M K L : ℝ) (hq : 0 < freq) (n : ℕ) (hM : ∀ s, 0 ≤ s → s ≤ n / freq → |deriv (deriv f) s| ≤ M)
    (hK : ∀ s, 0 ≤ s → s ≤ n / freq → |iteratedDeriv 11 f s| ≤ K) (hL : ∀ s, 0 ≤ s → s ≤ n / freq → |iteratedDeriv 12 f s| ≤ L)
    (ve vcc al ax lev faa : ℕ → ℝ) (κ : Fin 5 → ℝ) (l : ℝ) (times : Option (ℕ → ℝ)) (rate : ℝ) (T : CCTable)
    (hfaa : ∀ i, faa i = f (i / freq) - (κ 0 * ve i + κ 1 * vcc i + κ 2 * al i + κ 3 * ax i + κ 4 * lev i))
    (hT : calcCC (samples faa n) (samples vcc n) (samples ve n) (samples al n) (samples ax n) (samples lev n)
        (times.map (samples · n)) rate = .ok T)
    (hl : 0 < l) (hap : Apart T.g.length T.regressors l) (c : ℝ) (β : Fin 5 → ℝ)
    (hls : LeastSquares T.g.length (fun i => T.g.getD i 0) T.regressors c β) :
    √(∑ k, (β k - κ k) ^ 2) ≤ (M + 0.0106 * K / freq ^ 9 + 0.0046 * L / freq ^ 10) / freq ^ 2 / l := by
  refine C163_geology n ve vcc al ax lev faa (fun k => f (k / freq)) κ 0 _ l times rate T hfaa ?_ hT hl hap c β hls
  intro i h1 h2
  have hc := curvature_near f hf freq K L hq n hK hL i h1 h2
  have hi : (i : ℝ) ≤ n := by exact_mod_cast (by omega : i ≤ n)
  have hm := hM (i / freq) (by positivity) (by gcongr)
  rw [sub_zero, le_div_iff₀ (by positivity), ← abs_of_pos (show 0 < freq ^ 2 by positivity), ← abs_mul, mul_comm]
  rw [abs_le] at hc hm ⊢
  constructor <;> linarith

private theorem wave_deriv (A ω φ : ℝ) (n : ℕ) :
    iteratedDeriv n (fun t => A * cos (ω * t + φ)) = fun t => A * ω ^ n * cos (ω * t + φ + n * (π / 2)) := by
  induction n with
  | zero => simp
  | succ n ih =>
    rw [iteratedDeriv_succ, ih]
    funext t
    have h : HasDerivAt (fun t => A * ω ^ n * cos (ω * t + φ + n * (π / 2))) (A * ω ^ n * (-sin (ω * t + φ + n * (π / 2)) * (ω * 1))) t :=
      (((((hasDerivAt_id' t).const_mul ω).add_const φ).add_const (n * (π / 2))).cos).const_mul _
    rw [h.deriv, show ω * t + φ + ((n + 1 : ℕ) : ℝ) * (π / 2) = ω * t + φ + n * (π / 2) + π / 2 by push_cast; ring, cos_add_pi_div_two]
    ring

/-- **C163.** A wave in the anomaly, of any amplitude and phase and of up to one radian per sample: the coefficients are right to 1.02 times the
amplitude times the square of its frequency, over how far the monitors are apart. -/
theorem C163_wave (A ω φ : ℝ) (h0 : 0 ≤ ω) (h1 : ω ≤ 1) (n : ℕ) (ve vcc al ax lev faa : ℕ → ℝ) (κ : Fin 5 → ℝ) (l : ℝ) (times : Option (ℕ → ℝ))
    (rate : ℝ) (T : CCTable)
    (hfaa : ∀ i : ℕ, faa i = A * cos (ω * i + φ) - (κ 0 * ve i + κ 1 * vcc i + κ 2 * al i + κ 3 * ax i + κ 4 * lev i))
    (hT : calcCC (samples faa n) (samples vcc n) (samples ve n) (samples al n) (samples ax n) (samples lev n)
        (times.map (samples · n)) rate = .ok T)
    (hl : 0 < l) (hap : Apart T.g.length T.regressors l) (c : ℝ) (β : Fin 5 → ℝ)
    (hls : LeastSquares T.g.length (fun i => T.g.getD i 0) T.regressors c β) :
    √(∑ k, (β k - κ k) ^ 2) ≤ 1.02 * |A| * ω ^ 2 / l := by
  have hb : ∀ (m : ℕ) (s : ℝ), |iteratedDeriv m (fun t => A * cos (ω * t + φ)) s| ≤ |A| * ω ^ m := by
    intro m s
    rw [wave_deriv]
    simp only [abs_mul, abs_pow, abs_of_nonneg h0]
    exact mul_le_of_le_one_right (by positivity) (abs_cos_le_one _)
  have h := C163_smooth_geology (fun t => A * cos (ω * t + φ)) (by fun_prop) 1 (|A| * ω ^ 2) (|A| * ω ^ 11) (|A| * ω ^ 12) one_pos n
    (fun s _ _ => by
      have := hb 2 s
      rwa [iteratedDeriv_succ, iteratedDeriv_one] at this) (fun s _ _ => hb 11 s) (fun s _ _ => hb 12 s)
    ve vcc al ax lev faa κ l times rate T (fun i => by rw [hfaa]; simp) hT hl hap c β hls
  refine h.trans ?_
  have e1 : ω ^ 11 ≤ ω ^ 2 := pow_le_pow_of_le_one h0 h1 (by norm_num)
  have e2 : ω ^ 12 ≤ ω ^ 2 := pow_le_pow_of_le_one h0 h1 (by norm_num)
  have e3 := mul_le_mul_of_nonneg_left e1 (abs_nonneg A)
  have e4 := mul_le_mul_of_nonneg_left e2 (abs_nonneg A)
  simp only [one_pow, div_one]
  gcongr
  have : 0 ≤ |A| * ω ^ 2 := by positivity
  linarith

/-- **C163.** Monitors that are independent are apart. -/
theorem C163_apart (n : ℕ) (x : Fin 5 → ℕ → ℝ) (h : Independent n x) : ∃ l > 0, Apart n x l := by
  obtain ⟨F, hF⟩ : ∃ F : (ℝ × (Fin 5 → ℝ)) →ₗ[ℝ] (Fin n → ℝ), ∀ v i, F v i = v.1 + ∑ k, v.2 k * x k i :=
    ⟨{ toFun := fun v i => v.1 + ∑ k, v.2 k * x k i
       map_add' := fun v w => by
         funext i
         simp only [Prod.fst_add, Prod.snd_add, Pi.add_apply, add_mul, Finset.sum_add_distrib]; ring
       map_smul' := fun a v => by
         funext i
         simp only [Prod.smul_fst, Prod.smul_snd, Pi.smul_apply, smul_eq_mul, RingHom.id_apply, mul_add, Finset.mul_sum, mul_assoc] }, fun _ _ => rfl⟩
  have hker : F.ker = ⊥ := by
    rw [LinearMap.ker_eq_bot']
    intro v hv
    have := h v.1 v.2 (fun i hi => by rw [← hF v ⟨i, hi⟩, hv]; rfl)
    exact Prod.ext this.1 this.2
  obtain ⟨K, hK, hA⟩ := F.exists_antilipschitzWith hker
  have hKp : (0 : ℝ) < K := by exact_mod_cast hK
  obtain ⟨l, hl, hl2⟩ : ∃ l : ℝ, 0 < l ∧ l ^ 2 * n * (5 * K ^ 2) ≤ 1 := by
    refine ⟨1 / √((n + 1) * (5 * K ^ 2)), by positivity, ?_⟩
    rw [div_pow, one_pow, Real.sq_sqrt (by positivity), mul_assoc, one_div, inv_mul_le_one₀ (by positivity)]
    have : (n : ℝ) ≤ n + 1 := by linarith
    gcongr
  refine ⟨l, hl, fun c β => ?_⟩
  have h1 : ‖((c, β) : ℝ × (Fin 5 → ℝ))‖ ≤ K * ‖F (c, β)‖ := by
    have := hA.le_mul_dist (c, β) 0
    simpa using this
  have h2 : ∀ k, β k ^ 2 ≤ K ^ 2 * ∑ i ∈ Finset.range n, (c + ∑ k, β k * x k i) ^ 2 := by
    intro k
    have e1 : |β k| ≤ K * ‖F (c, β)‖ := ((norm_le_pi_norm β k).trans (norm_snd_le (c, β))).trans h1
    have e2 : ‖F (c, β)‖ ^ 2 ≤ ∑ i ∈ Finset.range n, (c + ∑ k, β k * x k i) ^ 2 := by
      have e3 : ‖F (c, β)‖ ≤ √(∑ i ∈ Finset.range n, (c + ∑ k, β k * x k i) ^ 2) := by
        refine (pi_norm_le_iff_of_nonneg (Real.sqrt_nonneg _)).2 fun i => ?_
        rw [hF, Real.norm_eq_abs, ← Real.sqrt_sq_eq_abs]
        exact Real.sqrt_le_sqrt (Finset.single_le_sum (f := fun i => (c + ∑ k, β k * x k i) ^ 2) (fun i _ => sq_nonneg _) (Finset.mem_range.2 i.2))
      calc _ ≤ _ := pow_le_pow_left₀ (norm_nonneg _) e3 2
        _ = _ := Real.sq_sqrt (Finset.sum_nonneg fun i _ => sq_nonneg _)
    calc β k ^ 2 = |β k| ^ 2 := (sq_abs _).symm
      _ ≤ (K * ‖F (c, β)‖) ^ 2 := pow_le_pow_left₀ (abs_nonneg _) e1 2
      _ = K ^ 2 * ‖F (c, β)‖ ^ 2 := mul_pow _ _ _
      _ ≤ _ := by gcongr
  have hS : 0 ≤ ∑ i ∈ Finset.range n, (c + ∑ k, β k * x k i) ^ 2 := Finset.sum_nonneg fun i _ => sq_nonneg _
  calc l ^ 2 * n * ∑ k, β k ^ 2 ≤ l ^ 2 * n * ∑ _k : Fin 5, K ^ 2 * ∑ i ∈ Finset.range n, (c + ∑ k, β k * x k i) ^ 2 := by
        gcongr with k; exact h2 k
    _ = l ^ 2 * n * (5 * K ^ 2) * ∑ i ∈ Finset.range n, (c + ∑ k, β k * x k i) ^ 2 := by
        rw [Finset.sum_const, Finset.card_univ, Fintype.card_fin, nsmul_eq_mul]; push_cast; ring
    _ ≤ 1 * _ := mul_le_mul_of_nonneg_right hl2 hS
    _ = _ := one_mul _

/-! ## Non-vacuity -/

/-- Monitors `2^i, …, 6^i` are apart. -/
example (faa : ℕ → ℝ) : ∃ T, calcCC (samples faa 1000) (samples (fun i => 3 ^ i) 1000) (samples (fun i => 2 ^ i) 1000) (samples (fun i => 4 ^ i) 1000)
    (samples (fun i => 5 ^ i) 1000) (samples (fun i => 6 ^ i) 1000) none 1 = .ok T ∧ ∃ l > 0, Apart T.g.length T.regressors l := by
  obtain ⟨T, h1, h2⟩ := geometric_independent faa
  exact ⟨T, h1, C163_apart _ _ h2⟩

end Shipgrav
