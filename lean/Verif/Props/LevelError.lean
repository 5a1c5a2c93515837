import Verif.Model.Scripts
import Verif.Props.Tilt
import Verif.Props.CrossCoupling

/-! Property theorems C101 and C105: level error and cross-coupling correction in `dgs_ccp_calc.py`. -/

namespace Shipgrav
open Spec Real

/-- What a levelled meter reads more than one with this upward direction (cross, long, up), under gravity `g` and accelerations `c` and `l`;
`s` is the sign that is given to the cross acceleration. -/
noncomputable def Spec.properLevelError (s g c l : ℝ) (up : ℝ × ℝ × ℝ) : ℝ := g - g * up.2.2 - l * up.2.1 + s * (c * up.1)

private theorem zip_samples {α β : Type} (x : ℕ → α) (y : ℕ → β) (n : ℕ) : (samples x n).zip (samples y n) = samples (fun i => (x i, y i)) n := by
  unfold samples
  rw [List.zip_map']

private theorem map_samples {α β : Type} (f : α → β) (x : ℕ → α) (n : ℕ) : (samples x n).map f = samples (fun i => f (x i)) n := by
  unfold samples
  rw [List.map_map]; rfl

private theorem zipWith_replicate {α β γ : Type} (f : α → β → γ) (a : α) (l : List β) : List.zipWith f (List.replicate l.length a) l = l.map (f a) := by
  induction l with
  | nil => rfl
  | cons b l ih => rw [List.length_cons, List.replicate_succ, List.zipWith_cons_cons, ih, List.map_cons]

/-- **C101.** `up_vecs` with a number for `on_off` does the same as with an array filled with that number. -/
theorem C101_scalar_flag (dt : ℝ) (g cacc lacc : List (Option ℝ)) (h : cacc.length = lacc.length) (v cper cdamp lper ldamp : ℝ) :
    upVecsScalar dt g cacc lacc v cper cdamp lper ldamp = upVecs dt g cacc lacc (List.replicate cacc.length v) cper cdamp lper ldamp := by
  unfold upVecsScalar upVecs
  have hl : ∀ acc : List (Option ℝ), (nanToZero acc).length = acc.length := by intro acc; simp [nanToZero]
  have hz : ∀ acc : List (Option ℝ), zeroWhere (List.replicate acc.length v) (nanToZero acc) =
      if v > 0 then (nanToZero acc).map fun _ => some 0 else nanToZero acc := by
    intro acc
    unfold zeroWhere
    rw [← hl acc, zipWith_replicate]
    by_cases hv : v > 0
    · simp only [if_pos hv]
    · simp only [if_neg hv, List.map_id']
  rw [if_neg (by simp [hl]), if_neg (by simp [hl, h]), hz]
  rw [h, hz]

/-- **C101, part.** What is computed: the long acceleration goes with the cross component of the upward direction and the other way round.
Missing accelerations, as there are at both ends of the positions, count as zero. -/
theorem C101_value_partial (g : ℕ → ℝ) (cross long : ℕ → Option ℝ) (n : ℕ) (hg : ∀ i < n, g i ≠ 0) :
    ∃ f yc yl, tiltFilter 240 1 0.7071 = .ok (some f) ∧
      Answers f.b0 f.b1 f.b2 f.a1 f.a2 (fun i => (cross i).getD 0 / g i) yc ∧ Answers f.b0 f.b1 f.b2 f.a1 f.a2 (fun i => (long i).getD 0 / g i) yl ∧
      levelErrorScript 1 (samples g n) (samples cross n) (samples long n) =
        .ok (some (samples (fun i =>
          let up := upDirection i (yc i) (yl i)
          g i - g i * up.2.2 - (long i).getD 0 * up.1 + (cross i).getD 0 * up.2.1) n)) := by
  obtain ⟨f, hf, -⟩ := tiltFilter_ok 240 1 0.7071 (by norm_num) (by norm_num) (by norm_num) (by norm_num)
  obtain ⟨yc, yl, h1, h2, h3⟩ := C92_up_vectors 1 (fun i => some (g i)) cross long (fun _ => 0) 240 0.7071 240 0.7071 n
    f f hf hf (fun i hi h => hg i hi (Option.some.inj h))
  have hd : ∀ (a : ℕ → Option ℝ), (fun i => driveOf 0 (a i) (some (g i))) = fun i => (a i).getD 0 / g i := by
    intro a; funext i; simp [driveOf, usedAcc]
  rw [hd] at h1 h2
  refine ⟨f, yc, yl, hf, h1, h2, ?_⟩
  unfold levelErrorScript
  have hs := C101_scalar_flag 1 (samples (fun i => some (g i)) n) (samples cross n) (samples long n)
    (by simp) 0 240 0.7071 240 0.7071
  have hr : List.replicate (samples cross n).length (0 : ℝ) = samples (fun _ => 0) n := by
    rw [samples_length]; unfold samples; rw [List.map_const', List.length_range]
  rw [hr] at hs
  have hfst : (upVecsScalar 1 (samples (fun i => some (g i)) n) (samples cross n) (samples long n) 0 240 0.7071 240
      0.7071).1 = (samples (fun i => some ((cross i).getD 0)) n, samples (fun i => some ((long i).getD 0)) n) := by
    unfold upVecsScalar nanToZero
    simp [map_samples]
  rw [map_samples, show (1 : ℝ) / 1 = 1 by norm_num]
  rw [← hs] at h3
  generalize upVecsScalar 1 (samples (fun i => some (g i)) n) (samples cross n) (samples long n) 0 240 0.7071 240
      0.7071 = r at h3 hfst
  obtain ⟨⟨c, l⟩, u⟩ := r
  simp only [Prod.mk.injEq] at h3 hfst
  obtain ⟨rfl, rfl⟩ := hfst
  subst h3
  simp only [zip_samples, map_samples, Option.getD_some, levelErrorAt]

/-- **C101, part.** Without accelerations there is no level error. -/
theorem C101_calm_partial (g : ℕ → ℝ) (cross long : ℕ → Option ℝ) (n : ℕ) (hg : ∀ i < n, g i ≠ 0)
    (hc : ∀ i, cross i = none ∨ cross i = some 0) (hl : ∀ i, long i = none ∨ long i = some 0) :
    levelErrorScript 1 (samples g n) (samples cross n) (samples long n) = .ok (some (samples (fun _ => 0) n)) := by
  obtain ⟨f, yc, yl, -, h1, h2, h3⟩ := C101_value_partial g cross long n hg
  rw [h3]
  have h0 : ∀ a : ℕ → Option ℝ, (∀ i, a i = none ∨ a i = some 0) → ∀ i, (a i).getD 0 = 0 := by
    intro a ha i
    rcases ha i with h | h <;> rw [h] <;> rfl
  simp only [h0 _ hc, h0 _ hl] at h1 h2
  have hz : ∀ y, Answers f.b0 f.b1 f.b2 f.a1 f.a2 (fun i => 0 / g i) y → ∀ i, y i = 0 ∧ y (i + 1) = 0 := by
    intro y hy i
    obtain ⟨a0, a1, a2⟩ := hy
    simp only [zero_div, mul_zero, add_zero, zero_add, zero_sub] at a0 a1 a2
    induction i with
    | zero => exact ⟨a0, by rw [a1, a0]; simp⟩
    | succ i ih => exact ⟨ih.2, by rw [a2 i, ih.1, ih.2]; simp⟩
  congr 2
  apply samples_congr
  intro i _
  simp only [(hz yc h1 i).1, (hz yl h2 i).1, upDirection, h0 _ hc, h0 _ hl]
  split <;> simp

/-- **C101, refuted.** The claim: the level error is what a levelled meter reads more than the tilted one, each acceleration being projected
with its own component of the upward direction.  With a cross acceleration only, the first sample already differs, whatever sign is given to
the cross acceleration: its projection is missing. -/
theorem C101_refuted (g cross : ℕ → ℝ) (n : ℕ) (hn : 0 < n) (hg : ∀ i < n, 0 < g i) (hc : cross 0 ≠ 0) :
    ∃ (up : List (ℝ × ℝ × ℝ)) (lev : List ℝ) (u : ℝ × ℝ × ℝ) (e : ℝ),
      (upVecs 1 (samples (fun i => some (g i)) n) (samples (fun i => some (cross i)) n) (samples (fun _ => some 0) n) (samples (fun _ => 0) n)
        240 0.7071 240 0.7071).2 = .vecs up ∧
      levelErrorScript 1 (samples g n) (samples (fun i => some (cross i)) n) (samples (fun _ => some 0) n) = .ok (some lev) ∧
      up[0]? = some u ∧ lev[0]? = some e ∧ u.1 ≠ 0 ∧ ∀ s, s ≠ 0 → e ≠ properLevelError s (g 0) (cross 0) 0 u := by
  obtain ⟨f, hf, w0, wS, ζ, d0, hw0, hwS, hζ, hd0, ew0, ewS, eζ, ed0, e0, e1, e2, e3, e4⟩ :=
    tiltFilter_ok 240 1 0.7071 (by norm_num) (by norm_num) (by norm_num) (by norm_num)
  have hb : f.b0 ≠ 0 := by
    intro h0
    rw [h0, zero_mul] at e0
    have hlt : wS < w0 := by
      rw [ew0, ewS]
      apply mul_lt_mul_of_pos_left _ (by norm_num)
      have hr : (800 : ℝ) ≤ √(6371100 / 9.8) := by
        apply Real.le_sqrt_of_sq_le; norm_num
      have h1 : (1 : ℝ) / (2 * √(6371100 / 9.8)) ≤ 1 / 1600 := by
        apply one_div_le_one_div_of_le (by norm_num); linarith
      have h2 : (0 : ℝ) < 1 / (2 * √(6371100 / 9.8)) := by positivity
      apply Real.tan_lt_tan_of_lt_of_lt_pi_div_two <;> nlinarith [pi_gt_three]
    nlinarith [mul_pos hζ hw0]
  obtain ⟨f', yc, yl, hf', h1, h2, h3⟩ := C101_value_partial g (fun i => some (cross i)) (fun _ => some 0) n fun i hi => (hg i hi).ne'
  simp only [Option.getD_some] at h1 h2 h3
  obtain rfl : f' = f := by rw [hf] at hf'; injection hf' with h; injection h with h; exact h.symm
  obtain ⟨yc', yl', k1, k2, k3⟩ := C92_up_vectors 1 (fun i => some (g i)) (fun i => some (cross i)) (fun _ => some 0) (fun _ => 0) 240 0.7071 240 0.7071 n
    f' f' hf hf (fun i hi h => (hg i hi).ne' (Option.some.inj h))
  refine ⟨_, _, upDirection 0 (yc' 0) (yl' 0),
    g 0 - g 0 * (upDirection 0 (yc 0) (yl 0)).2.2 - 0 * (upDirection 0 (yc 0) (yl 0)).1 + cross 0 * (upDirection 0 (yc 0) (yl 0)).2.1,
    k3, h3, ?_, ?_, ?_, ?_⟩
  · unfold samples; rw [List.getElem?_map, List.getElem?_range hn]; rfl
  · unfold samples; rw [List.getElem?_map, List.getElem?_range hn]; rfl
  all_goals
    have hyc : yc 0 = f'.b0 * (cross 0 / g 0) := h1.1
    have hyl : yl 0 = 0 := by rw [h2.1]; simp
    have hyc' : yc' 0 = f'.b0 * (cross 0 / g 0) := by rw [k1.1]; simp [driveOf, usedAcc]
    have hyl' : yl' 0 = 0 := by rw [k2.1]; simp [driveOf, usedAcc]
    have hg0 := hg 0 hn
    have hne : f'.b0 * (cross 0 / g 0) ≠ 0 := mul_ne_zero hb (div_ne_zero hc hg0.ne')
  · rw [hyc', hyl']
    unfold upDirection
    rw [if_pos (by decide)]
    have : (0 : ℝ) < √(1 + (f'.b0 * (cross 0 / g 0)) ^ 2) := by positivity
    have : (0 : ℝ) < √(1 + 0 ^ 2) := by positivity
    simp only
    exact mul_ne_zero (neg_ne_zero.mpr hne) (by positivity)
  · intro s hs heq
    rw [hyc, hyl, hyc', hyl'] at heq
    have h1' : (0 : ℝ) < √(1 + (f'.b0 * (cross 0 / g 0)) ^ 2) := by positivity
    have h2' : (0 : ℝ) < √(1 + 0 ^ 2) := by positivity
    unfold properLevelError upDirection at heq
    simp only [if_pos (by decide : Even 0), neg_zero, zero_mul, mul_zero, sub_zero, add_zero] at heq
    have : s * (cross 0 * (-(f'.b0 * (cross 0 / g 0)) * (1 / (√(1 + (f'.b0 * (cross 0 / g 0)) ^ 2) * √(1 + 0 ^ 2))))) ≠ 0 :=
      mul_ne_zero hs (mul_ne_zero hc (mul_ne_zero (neg_ne_zero.mpr hne) (by positivity)))
    apply this
    simp only [zero_pow two_ne_zero, add_zero] at heq ⊢
    linarith

/-! ### Cross-coupling correction -/

private theorem drop_samples {α : Type} (x : ℕ → α) (n : ℕ) : (samples x (n + 2)).drop 2 = samples (fun i => x (i + 2)) n := by
  unfold samples
  apply List.ext_getElem
  · simp
  · intro i h1 h2
    simp [Nat.add_comm]

/-- The table in the script: the level error stays two rows behind. -/
private theorem fit_eq (n : ℕ) (faa vcc ve al ax lev : ℕ → ℝ) :
    ccpFitScript (samples faa (n + 2)) (samples vcc (n + 2)) (samples ve (n + 2)) (samples al (n + 2)) (samples ax (n + 2)) (samples lev (n + 2)) =
      calcCC (samples (fun i => faa (i + 2)) n) (samples (fun i => vcc (i + 2)) n) (samples (fun i => ve (i + 2)) n) (samples (fun i => al (i + 2)) n)
        (samples (fun i => ax (i + 2)) n) (samples lev n) none 1 := by
  unfold ccpFitScript
  rw [drop_samples, drop_samples, drop_samples, drop_samples, drop_samples]
  unfold calcCC
  simp only [endInds, samples_length]
  have hs : ccSeries (samples (fun i => faa (i + 2)) n) (samples lev (n + 2)) [n] = ccSeries (samples (fun i => faa (i + 2)) n) (samples lev n) [n] := by
    unfold ccSeries spans
    simp only [List.map_cons, List.map_nil, List.zip_cons_cons, List.zip_nil_right]
    rw [show ∀ (l : List (ℕ × ℕ)) (f g : ℕ × ℕ → List ℝ), (∀ s ∈ l, f s = g s) → l.flatMap f = l.flatMap g from fun l f g h => List.flatMap_congr h]
    intro s hs
    obtain rfl := List.mem_singleton.mp (List.mem_filter.mp hs).1
    rw [slice_samples _ _ _ _ (by omega), slice_samples _ _ _ _ (le_refl n)]
  rw [hs]

/-- **C105, part.** If the anomaly is a quadratic trend less a combination `κ` of the five monitors — the level error counted two samples
back, as the script has it — and the columns of the regression are independent, then the only least-squares fit is `κ`, and the corrected
anomaly is the trend less what the level error contributes, for which the script does not correct. -/
theorem C105_corrected_partial (n : ℕ) (faa ve vcc al ax lev : ℕ → ℝ) (κ : Fin 5 → ℝ) (a b q : ℝ) (T : CCTable)
    (hfaa : ∀ i, faa (i + 2) = (a + b * i + q * (i : ℝ) ^ 2)
      - (κ 0 * ve (i + 2) + κ 1 * vcc (i + 2) + κ 2 * al (i + 2) + κ 3 * ax (i + 2) + κ 4 * lev i))
    (hT : ccpFitScript (samples faa (n + 2)) (samples vcc (n + 2)) (samples ve (n + 2)) (samples al (n + 2)) (samples ax (n + 2)) (samples lev (n + 2)) = .ok T)
    (hind : Independent T.g.length T.regressors) (c : ℝ) (β : Fin 5 → ℝ) :
    (LeastSquares T.g.length (fun i => T.g.getD i 0) T.regressors c β ↔ c = -(2 * q) ∧ β = κ) ∧
      ∀ i, ccpApply κ (faa (i + 2)) (ve (i + 2)) (vcc (i + 2)) (al (i + 2)) (ax (i + 2)) = (a + b * i + q * (i : ℝ) ^ 2) - κ 4 * lev i := by
  rw [fit_eq] at hT
  refine ⟨C62_coefficients_recovered n (fun i => ve (i + 2)) (fun i => vcc (i + 2)) (fun i => al (i + 2)) (fun i => ax (i + 2)) lev (fun i => faa (i + 2))
    κ a b q none 1 T hfaa hT hind c β, fun i => ?_⟩
  unfold ccpApply
  rw [hfaa]
  ring

/-- **C105, refuted.** The claim: if the anomaly is a trend less a combination `κ` of the monitors at the same time, the fit recovers `κ`.  The
level error enters two samples late: where it changes by a factor `s` in two samples, the fit gives `s` times the coefficient (with `s = -1`,
a period of four samples, the wrong sign), and no least-squares fit gives `κ`. -/
theorem C105_level_coefficient_refuted (n : ℕ) (faa ve vcc al ax lev : ℕ → ℝ) (κ : Fin 5 → ℝ) (a b q s : ℝ) (hs : s ≠ 1) (hκ : κ 4 ≠ 0) (T : CCTable)
    (hlev : ∀ i, lev (i + 2) = s * lev i)
    (hfaa : ∀ i, faa (i + 2) = (a + b * i + q * (i : ℝ) ^ 2)
      - (κ 0 * ve (i + 2) + κ 1 * vcc (i + 2) + κ 2 * al (i + 2) + κ 3 * ax (i + 2) + κ 4 * lev (i + 2)))
    (hT : ccpFitScript (samples faa (n + 2)) (samples vcc (n + 2)) (samples ve (n + 2)) (samples al (n + 2)) (samples ax (n + 2)) (samples lev (n + 2)) = .ok T)
    (hind : Independent T.g.length T.regressors) (c : ℝ) (β : Fin 5 → ℝ)
    (hβ : LeastSquares T.g.length (fun i => T.g.getD i 0) T.regressors c β) : β 4 = s * κ 4 ∧ β ≠ κ := by
  have h := (C105_corrected_partial n faa ve vcc al ax lev ![κ 0, κ 1, κ 2, κ 3, s * κ 4] a b q T
    (fun i => by rw [hfaa, hlev]; simp; ring) hT hind c β).1.mp hβ
  have h4 : β 4 = s * κ 4 := by rw [h.2]; rfl
  refine ⟨h4, fun hk => hs ?_⟩
  rw [hk] at h4
  exact (mul_eq_right₀ hκ).mp h4.symm

/-! ### Non-vacuity -/

/-- Gravity 980000 mGal and one push of 1 mGal across. -/
example : (∀ i < 5, (0 : ℝ) < (fun _ : ℕ => 980000) i) ∧ (fun i : ℕ => if i = 0 then (1 : ℝ) else 0) 0 ≠ 0 := by norm_num

/-- Monitors for which the hypotheses of C105 hold, with `s = 36`. -/
example : ∃ T, ccpFitScript (samples (fun _ => 0) 1002) (samples (fun i => 3 ^ i / 9) 1002) (samples (fun i => 2 ^ i / 4) 1002)
    (samples (fun i => 4 ^ i / 16) 1002) (samples (fun i => 5 ^ i / 25) 1002) (samples (fun i => 6 ^ i) 1002) = .ok T ∧
      Independent T.g.length T.regressors := by
  have h := fit_eq 1000 (fun _ => 0) (fun i => 3 ^ i / 9) (fun i => 2 ^ i / 4) (fun i => 4 ^ i / 16) (fun i => 5 ^ i / 25) (fun i => 6 ^ i)
  obtain ⟨T, h1, h2⟩ := geometric_independent fun _ => 0
  have e : ∀ r : ℝ, r ≠ 0 → (fun i : ℕ => r ^ (i + 2) / r ^ 2) = fun i => r ^ i := by
    intro r hr; funext i; rw [pow_add, mul_div_cancel_right₀ _ (pow_ne_zero 2 hr)]
  have e2 := e 2 (by norm_num); have e3 := e 3 (by norm_num); have e4 := e 4 (by norm_num); have e5 := e 5 (by norm_num)
  norm_num at e2 e3 e4 e5
  simp only [e2, e3, e4, e5] at h
  exact ⟨T, h.trans h1, h2⟩

example (i : ℕ) : (6 : ℝ) ^ (i + 2) = 36 * 6 ^ i := by ring

end Shipgrav
