import Verif.Lemmas.LowpassFloat
import Verif.Lemmas.FloatSum
import Verif.Props.Lowpass

/-! C167: the smoothing of the example scripts in double precision. -/

namespace Shipgrav
open Spec Real

private theorem getD_le {x : List ℚ} {M : ℝ} (h0 : 0 ≤ M) (hM : ∀ q ∈ x, |(q : ℝ)| ≤ M) (i : ℕ) : |(x.getD i 0 : ℝ)| ≤ M := by
  rcases Nat.lt_or_ge i x.length with h | h
  · rw [List.getD_eq_getElem _ _ h]; exact hM _ (List.getElem_mem h)
  · rw [List.getD_eq_default _ _ h]; simpa using h0

private theorem list_eq_samples (x : List ℝ) : x = samples (fun i => x.getD i 0) x.length := by
  apply ext_of_getD
  · rw [Lowpass.samples_length]
  · intro i hi
    rw [Lowpass.samples_getD _ _ _ _ hi]

/-- **C167.** A record of doubles of at most `M`, one sample each second, is smoothed in double precision.  If it has no more than 1440 samples, this raises the
`ValueError` that it raises in exact arithmetic; if it has more, the result has as many samples and each of them, up to both ends, is within `1.2e-11 M` of that of exact
arithmetic. -/
theorem C167_lowpass (lm : FilterLibm) (hg : GoodFilterLib lm.sin lm.cos lm.sum lm.dot) (x : List ℚ) (M : ℝ) (hM : ∀ q ∈ x, |(q : ℝ)| ≤ M) :
    (x.length ≤ 1440 → lowpassScriptF lm 1 x = .error .valueError ∧ lowpassScript 1 (x.map fun (q : ℚ) => (q : ℝ)) = .error .valueError) ∧
      (1440 < x.length → ∃ (y : ℕ → ℚ) (Y : ℕ → ℝ), lowpassScriptF lm 1 x = .ok (samples y x.length) ∧
        lowpassScript 1 (x.map fun (q : ℚ) => (q : ℝ)) = .ok (samples Y x.length) ∧ ∀ i < x.length, |(y i : ℝ) - Y i| ≤ 1.2e-11 * M) := by
  have hl : (x.map fun (q : ℚ) => (q : ℝ)).length = x.length := List.length_map _
  constructor
  · intro h
    constructor
    · have hfl := LowpassF.firwinF_length lm
      refine LowpassF.filtfiltF_short lm (firwinF lm 480 LowpassF.cut) x ?_ (by rw [hfl]; omega)
      intro e; rw [e] at hfl; cases hfl
    · unfold lowpassScript
      simp only [Lowpass.firwin_eq]
      exact filtfilt_short _ _ Lowpass.weights_ne (by rw [Lowpass.weights_length, hl]; omega)
  · intro h
    have h0 : 0 ≤ M := by
      cases x with
      | nil => simp at h
      | cons a _ => exact (abs_nonneg _).trans (hM a (by simp))
    obtain ⟨y, h1, h2, h3⟩ := LowpassF.lowpass_err lm hg x M (getD_le h0 hM) h
    refine ⟨fun i => y.getD i 0, _, ?_, ?_, fun i hi => (h3 i hi).trans (le_of_eq (by norm_num))⟩
    · rw [h1]
      congr 1
      apply List.ext_getElem
      · rw [Lowpass.samples_length, h2]
      · intro i a b
        have := Lowpass.samples_getD (fun i => y.getD i 0) x.length i 0 (by omega)
        rw [List.getD_eq_getElem _ _ b, List.getD_eq_getElem _ _ a] at this
        exact this.symm
    · rw [Lowpass.lowpass_eq _ (by rw [hl]; exact h), hl]

/-- **C167.** `C166_filter` in double precision: a record of doubles of at most `M` that is the sum of a smooth signal, an error of at most `ε` and waves.  The doubles that
the smoothing returns are the signal, within `14300 K`, `1.7 ε`, what is left of each wave, and `1.2e-11 M`. -/
theorem C167_filter (lm : FilterLibm) (hg : GoodFilterLib lm.sin lm.cos lm.sum lm.dot) (n : ℕ) (hn : 1440 < n) (x : ℕ → ℚ) (f err : ℕ → ℝ) (ws : List Ripple)
    (ε K M : ℝ) (hx : ∀ k < n, (x k : ℝ) = f k + err k + (ws.map fun w => w.value k).sum) (hM : ∀ k < n, |(x k : ℝ)| ≤ M)
    (hf : ∀ k, k + 2 < n → |f (k + 2) - 2 * f (k + 1) + f k| ≤ K) (he : ∀ k, 1 ≤ k → k + 1 < n → |err k| ≤ ε) (hw : ∀ w ∈ ws, 2 ≤ w.period) :
    ∃ y : ℕ → ℚ, lowpassScriptF lm 1 (samples x n) = .ok (samples y n) ∧
      ∀ i, 480 ≤ i → i + 480 < n → |(y i : ℝ) - f i| ≤ 1.7 * ε + 14300 * K + (ws.map fun w => |w.amp| * (w.period / 94) ^ 6).sum + 1.2e-11 * M := by
  have hl : (samples x n).length = n := Lowpass.samples_length x n
  obtain ⟨y, Y, h1, h2, h3⟩ := (C167_lowpass lm hg (samples x n) M (fun q hq => by
    obtain ⟨k, hk, rfl⟩ := List.mem_map.1 hq
    exact hM k (List.mem_range.1 hk))).2 (by rw [hl]; exact hn)
  obtain ⟨F, hF, hb⟩ := C166_filter n hn f err ws ε K hf he hw
  have e : ((samples x n).map fun (q : ℚ) => (q : ℝ)) = samples (fun k => f k + err k + (ws.map fun w => w.value k).sum) n := by
    unfold samples
    rw [List.map_map]
    exact List.map_congr_left fun k hk => hx k (List.mem_range.1 hk)
  rw [e, hF, hl] at h2
  rw [hl] at h1 h3
  refine ⟨y, h1, fun i a b => ?_⟩
  have hYF : Y i = F i := by
    have := Except.ok.inj h2
    have h' := congrArg (fun l => l.getD i 0) this
    rw [Lowpass.samples_getD _ _ _ _ (by omega), Lowpass.samples_getD _ _ _ _ (by omega)] at h'
    exact h'.symm
  have h4 := h3 i (by omega)
  rw [hYF] at h4
  have h5 := abs_add_le ((y i : ℝ) - F i) (F i - f i)
  rw [sub_add_sub_cancel] at h5
  have := hb i a b
  linarith

/-! ### Non-vacuity -/

/-- Adding one after the other, rounding each time, is good enough. -/
theorem goodSum_sequential (l : List ℚ) (hn : l.length ≤ 1000) : |fsum l - l.sum| ≤ (l.length + 1) / 2 ^ 51 * (l.map fun x => |x|).sum := by
  obtain ⟨s, t, -, h2, h3, h4⟩ := foldl_factor toDouble_rounds l 0
  have hn' : (l.length : ℝ) ≤ 1000 := by exact_mod_cast hn
  obtain ⟨d, hd⟩ : ∃ d : ℝ, d = (l.length : ℝ) * (1 / 2 ^ 52) := ⟨_, rfl⟩
  have hE : Real.exp d - 1 ≤ ((l.length : ℝ) + 1) / 2 ^ 51 := by
    have h0 : 0 ≤ (l.length : ℝ) := Nat.cast_nonneg _
    refine (exp_small (by rw [hd]; positivity) (by rw [hd]; nlinarith)).trans ?_
    rw [hd]
    nlinarith
  have key : |(fsum l : ℝ) - (l.map fun (q : ℚ) => (q : ℝ)).sum| ≤ (Real.exp d - 1) * (l.map fun (q : ℚ) => |(q : ℝ)|).sum := by
    unfold fsum
    rw [h4, Rat.cast_zero, zero_mul, zero_add]
    rw [← hd] at h3
    clear h4 hE hd hn hn'
    induction l generalizing t with
    | nil => simp
    | cons x a ih =>
      cases t with
      | nil => simp at h2
      | cons p t =>
        have ih' := ih t (by simpa using h2) (fun x hx => h3 x (by simp [hx]))
        simp only [List.zipWith_cons_cons, List.sum_cons, List.map_cons]
        have hone := (h3 p (by simp)).abs_sub_one
        have hterm : |(x : ℝ) * p - x| ≤ (Real.exp d - 1) * |(x : ℝ)| := by
          have e2 : (x : ℝ) * p - x = x * (p - 1) := by ring
          rw [e2, abs_mul, mul_comm]
          exact mul_le_mul_of_nonneg_right hone (abs_nonneg _)
        rw [mul_add]
        refine le_trans ?_ (add_le_add hterm ih')
        refine le_trans (le_of_eq ?_) (abs_add_le _ _)
        congr 1
        ring
  have nn : 0 ≤ (l.map fun (q : ℚ) => |(q : ℝ)|).sum := by
    apply List.sum_nonneg
    intro z hz
    obtain ⟨q, -, rfl⟩ := List.mem_map.1 hz
    positivity
  have fin := key.trans (mul_le_mul_of_nonneg_right hE nn)
  rw [← Rat.cast_le (K := ℝ)]
  push_cast
  rw [List.map_map]
  simpa only [Function.comp_def, Rat.cast_abs] using fin

/-- And so is rounding the products and adding them one after the other. -/
theorem goodDot_thousand (a b : List ℚ) (hl : a.length = b.length) (hn : a.length ≤ 1000) :
    |fsum (List.zipWith (fun x y => toDouble (x * y)) a b) - (List.zipWith (· * ·) a b).sum| ≤ (a.length + 1) / 2 ^ 51 * (List.zipWith (fun x y => |x * y|) a b).sum := by
  obtain ⟨s, t, -, h2, h3, h4⟩ := foldl_factor toDouble_rounds (List.zipWith (fun x y => toDouble (x * y)) a b) 0
  have hzl : (List.zipWith (fun x y => toDouble (x * y)) a b).length = a.length := by simp [hl]
  rw [hzl] at h2 h3
  have hn' : (a.length : ℝ) ≤ 1000 := by exact_mod_cast hn
  obtain ⟨d, hd⟩ : ∃ d : ℝ, d = (a.length : ℝ) * (1 / 2 ^ 52) := ⟨_, rfl⟩
  have hE : Real.exp (1 / 2 ^ 52 + d) - 1 ≤ ((a.length : ℝ) + 1) / 2 ^ 51 := by
    have h0 : 0 ≤ (a.length : ℝ) := Nat.cast_nonneg _
    refine (exp_small (by rw [hd]; positivity) (by rw [hd]; nlinarith)).trans ?_
    rw [hd]
    nlinarith
  have key : |(fsum (List.zipWith (fun x y => toDouble (x * y)) a b) : ℝ) - (List.zipWith (fun x y : ℚ => (x : ℝ) * y) a b).sum| ≤
      (Real.exp (1 / 2 ^ 52 + d) - 1) * (List.zipWith (fun x y : ℚ => |(x : ℝ) * y|) a b).sum := by
    unfold fsum
    rw [h4, Rat.cast_zero, zero_mul, zero_add]
    rw [← hd] at h3
    clear h4 hE hd hzl hn hn'
    induction a generalizing b t with
    | nil => simp
    | cons x a ih =>
      cases b with
      | nil => simp at hl
      | cons y b =>
        cases t with
        | nil => simp at h2
        | cons p t =>
          have ih' := ih b (by simpa using hl) t (by simpa using h2) (fun x hx => h3 x (by simp [hx]))
          simp only [List.zipWith_cons_cons, List.sum_cons]
          obtain ⟨q, hq, e⟩ := near_toDouble ((near_self x).mul (near_self y))
          rw [zero_add, zero_add] at hq
          have hone := (hq.mul (h3 p (by simp))).abs_sub_one
          rw [e]
          have hterm : |(x : ℝ) * y * q * p - x * y| ≤ (Real.exp (1 / 2 ^ 52 + d) - 1) * |(x : ℝ) * y| := by
            have e2 : (x : ℝ) * y * q * p - x * y = x * y * (q * p - 1) := by ring
            rw [e2, abs_mul, mul_comm]
            exact mul_le_mul_of_nonneg_right hone (abs_nonneg _)
          rw [mul_add]
          refine le_trans ?_ (add_le_add hterm ih')
          refine le_trans (le_of_eq ?_) (abs_add_le _ _)
          congr 1
          ring
  have c1 : (((List.zipWith (· * ·) a b).sum : ℚ) : ℝ) = (List.zipWith (fun x y : ℚ => (x : ℝ) * y) a b).sum := by
    rw [Rat.cast_list_sum, List.map_zipWith]
    simp
  have c2 : (((List.zipWith (fun x y => |x * y|) a b).sum : ℚ) : ℝ) = (List.zipWith (fun x y : ℚ => |(x : ℝ) * y|) a b).sum := by
    rw [Rat.cast_list_sum, List.map_zipWith]
    simp
  have nn : 0 ≤ (List.zipWith (fun x y : ℚ => |(x : ℝ) * y|) a b).sum := by
    apply List.sum_nonneg
    intro z hz
    rw [List.zipWith_eq_zipWith_take_min] at hz
    obtain ⟨i, hi, rfl⟩ := List.mem_iff_getElem.1 hz
    simp only [List.getElem_zipWith]
    positivity
  have fin := key.trans (mul_le_mul_of_nonneg_right hE nn)
  rw [← c1, ← c2] at fin
  clear c1 c2 nn key
  generalize (List.zipWith (fun x y => |x * y|) a b).sum = S at *
  generalize (List.zipWith (· * ·) a b).sum = T at *
  rw [← Rat.cast_le (K := ℝ)]
  push_cast
  exact fin

/-- The hypotheses on the library can be met, with sums and inner products computed from left to right. -/
theorem goodFilterLib_exists : ∃ lm : FilterLibm, GoodFilterLib lm.sin lm.cos lm.sum lm.dot := by
  have key : ∀ x : ℝ, ∃ r : ℚ, |(r : ℝ) - x| ≤ 1 / 2 ^ 51 := by
    intro x
    obtain ⟨r, h1, h2⟩ := exists_rat_btwn (show x < x + 1 / 2 ^ 51 by linarith [show (0 : ℝ) < 1 / 2 ^ 51 by positivity])
    exact ⟨r, by rw [abs_le]; constructor <;> linarith⟩
  choose sn hsn using fun q : ℚ => key (sin (q : ℝ))
  choose cs hcs using fun q : ℚ => key (cos (q : ℝ))
  exact ⟨⟨sn, cs, fsum, fun a b => fsum (List.zipWith (fun x y => toDouble (x * y)) a b)⟩, fun q _ => hsn q, fun q _ => hcs q, goodSum_sequential, goodDot_thousand⟩

private theorem example_le (n : ℕ) (hn : n = 7200) (q : ℚ) (hq : q ∈ samples (fun k : ℕ => if k = 3000 then 300 else (k : ℚ) / 8) n) : |(q : ℝ)| ≤ 1000 := by
  obtain ⟨k, hk, rfl⟩ := List.mem_map.1 hq
  have hk : (k : ℝ) ≤ 7200 := by rw [hn] at hk; exact_mod_cast (List.mem_range.1 hk).le
  have h0 : (0 : ℝ) ≤ k := Nat.cast_nonneg k
  split
  · norm_num
  · push_cast; rw [abs_of_nonneg (by positivity)]; linarith

/-- Anomalies of up to 1000 mGal for two hours, with an outlier of 300 mGal: the smoothing is right to 2e-8 mGal. -/
example (lm : FilterLibm) (hg : GoodFilterLib lm.sin lm.cos lm.sum lm.dot) :
    ∃ (y : ℕ → ℚ) (Y : ℕ → ℝ), lowpassScriptF lm 1 (samples (fun k => if k = 3000 then 300 else (k : ℚ) / 8) 7200) = .ok (samples y 7200) ∧
      lowpassScript 1 ((samples (fun k => if k = 3000 then 300 else (k : ℚ) / 8) 7200).map fun (q : ℚ) => (q : ℝ)) = .ok (samples Y 7200) ∧
      ∀ i < 7200, |(y i : ℝ) - Y i| ≤ 2e-8 := by
  obtain ⟨n, hn⟩ : ∃ n : ℕ, n = 7200 := ⟨_, rfl⟩
  rw [← hn]
  have hl := Lowpass.samples_length (fun k : ℕ => if k = 3000 then 300 else (k : ℚ) / 8) n
  obtain ⟨y, Y, h1, h2, h3⟩ := (C167_lowpass lm hg _ 1000 (example_le n hn)).2 (by rw [hl]; omega)
  rw [hl] at h1 h2 h3
  exact ⟨y, Y, h1, h2, fun i hi => (h3 i hi).trans (by norm_num)⟩

end Shipgrav
