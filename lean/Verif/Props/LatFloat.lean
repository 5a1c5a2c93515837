import Verif.Lemmas.LatCorrFloat

/-! C132: normal gravity and the free-air correction in double precision. -/

namespace Shipgrav
open Spec Real

private theorem sin_sq_bounds (x : ℝ) : 0 ≤ sin x ^ 2 ∧ sin x ^ 2 ≤ 1 := ⟨sq_nonneg _, sin_sq_le_one x⟩

private theorem near_const (c : ℚ) : Near (1 / 2 ^ 52) (toDouble c) c := by
  have := near_toDouble (near_self c)
  rwa [zero_add] at this

/-- C132.  Normal gravity at every latitude, computed in double precision with a library that is right up to about two units in the last place, is off by less
than a hundred millionth of a milligal. -/
theorem C132_normal_gravity (lm : LatLibm) (hsin : GoodSin lm.sin) (hsqrt : GoodSqrt lm.sqrt) (hsqr : GoodSqr lm.sqr) (lat : ℚ) (h : |lat| ≤ 90) :
    ∃ g, wgsGrav lat = some g ∧ |(wgsGravF lm lat : ℝ) - g| ≤ 1 / 10 ^ 8 := by
  obtain ⟨v, hv⟩ : ∃ v : ℝ, v = 1 / 2 ^ 52 := ⟨_, rfl⟩
  have hv0 : 0 < v := by rw [hv]; positivity
  have hv1 : v ≤ 1 / 10 ^ 6 := by rw [hv]; norm_num
  have e0 := sinSqF_err lm hsin hsqr lat h
  obtain ⟨s0, s1⟩ := sin_sq_bounds (radians (lat : ℝ))
  unfold wgsGrav wgsGravF
  generalize sin (radians (lat : ℝ)) ^ 2 = σ at *
  generalize sinSqF lm lat = s at *
  have p1 := constMul_err (C := 2 / 1000) e0 s0 s1 0.00193185265241 (by norm_num) (by norm_num)
  have p2 := constMul_err (C := 7 / 1000) e0 s0 s1 0.00669437999014 (by norm_num) (by norm_num)
  have c1 : (((0.00193185265241 : ℚ)) : ℝ) = 0.00193185265241 := by norm_num
  have c2 : (((0.00669437999014 : ℚ)) : ℝ) = 0.00669437999014 := by norm_num
  have c3 : (((978032.53359 : ℚ)) : ℝ) = 978032.53359 := by norm_num
  rw [c1] at p1
  rw [c2] at p2
  obtain ⟨N, hN⟩ : ∃ N : ℝ, N = 1 + 0.00193185265241 * σ := ⟨_, rfl⟩
  obtain ⟨D, hD⟩ : ∃ D : ℝ, D = 1 - 0.00669437999014 * σ := ⟨_, rfl⟩
  have N0 : 1 ≤ N := by rw [hN]; norm_num; linarith
  have N1 : N ≤ 1.002 := by rw [hN]; norm_num; linarith
  have D0 : 99 / 100 ≤ D := by rw [hD]; norm_num; linarith
  have D1 : D ≤ 1 := by rw [hD]; norm_num; linarith
  have n1 : Near (21 / 10 * (2 * v)) (toDouble (1 + toDouble (toDouble 0.00193185265241 * s))) N := by
    apply near_of_abs (by linarith) (by linarith)
    refine (rnd_err (δ := v) hv.ge (W := 1.002) (e := v / 10) _ _ ?_ ?_).trans ?_
    · rw [hN]
      push_cast
      rw [add_sub_add_left_eq_sub]
      refine p1.trans ?_
      rw [← hv]
      linarith
    · rw [abs_of_pos (by linarith)]; exact N1
    · norm_num; nlinarith
  have n2 : Near (21 / 10 * (2 * v)) (toDouble (1 - toDouble (toDouble 0.00669437999014 * s))) D := by
    apply near_of_abs (by linarith) (by linarith)
    refine (rnd_err (δ := v) hv.ge (W := 1) (e := v / 5) _ _ ?_ ?_).trans ?_
    · rw [hD]
      push_cast
      rw [sub_sub_sub_cancel_left, abs_sub_comm]
      refine p2.trans ?_
      rw [← hv]
      linarith
    · rw [abs_of_pos (by linarith)]; exact D1
    · nlinarith
  have n3 := near_sqrt hsqrt n2 (by linarith) (by positivity)
  have n4 := near_toDouble (n1.div n3)
  have n5 := near_toDouble ((near_const 978032.53359).mul n4)
  have hsD : √D ≠ 0 := (Real.sqrt_pos.2 (by linarith)).ne'
  refine ⟨978032.53359 * (N / √D), ?_, ?_⟩
  · unfold sqrtR divR
    simp only []
    rw [← hD, if_pos (by linarith : (0 : ℝ) ≤ D)]
    simp only [Option.bind_eq_bind, Option.bind_some, if_neg hsD, ← hN]
    rfl
  · rw [c3, ← hv] at n5
    have e := n5.err (by positivity) (by linarith)
    refine e.trans ?_
    have hq : N / √D ≤ 1.02 := by
      have : (0.99 : ℝ) ≤ √D := by
        apply Real.le_sqrt_of_sq_le
        norm_num at D0 ⊢
        linarith
      rw [div_le_iff₀ (by positivity)]
      norm_num at N1 this ⊢
      linarith
    have hq0 : 0 ≤ N / √D := by positivity
    rw [abs_of_nonneg (by positivity)]
    have hv2 : v ≤ 2.3 / 10 ^ 16 := by rw [hv]; norm_num
    calc _ ≤ 101 / 100 * (16 * v) * (978032.53359 * 1.02 : ℝ) := by
          apply mul_le_mul _ _ (by positivity) (by positivity)
          · linarith
          · exact mul_le_mul_of_nonneg_left hq (by norm_num)
      _ ≤ 101 / 100 * (16 * (2.3 / 10 ^ 16)) * (978032.53359 * 1.02 : ℝ) := by
          apply mul_le_mul_of_nonneg_right _ (by norm_num)
          linarith
      _ ≤ 1 / 10 ^ 8 := by norm_num

/-- C132.  The free-air correction in double precision: for heights up to ten kilometres the error is below a ten thousand millionth of a milligal. -/
theorem C132_free_air (lm : LatLibm) (hsin : GoodSin lm.sin) (hsqr : GoodSqr lm.sqr) (lat ht : ℚ) (h : |lat| ≤ 90) (hh : |ht| ≤ 10000)
    (water : Bool) : |(freeAirF lm lat ht water : ℝ) - freeAir lat ht water| ≤ 1 / 10 ^ 11 := by
  obtain ⟨v, hv⟩ : ∃ v : ℝ, v = 1 / 2 ^ 52 := ⟨_, rfl⟩
  have hv0 : 0 < v := by rw [hv]; positivity
  have hv1 : v ≤ 1 / 10 ^ 6 := by rw [hv]; norm_num
  have hv2 : v ≤ 2.3 / 10 ^ 16 := by rw [hv]; norm_num
  have e0 := sinSqF_err lm hsin hsqr lat h
  obtain ⟨s0, s1⟩ := sin_sq_bounds (radians (lat : ℝ))
  have hH : |(ht : ℝ)| ≤ 10000 := by exact_mod_cast hh
  -- both cases at once
  have key : ∀ c : ℚ, 0 ≤ c → (c : ℝ) ≤ 0.31 → ∀ σ : ℝ, ∀ s : ℚ, |(s : ℝ) - σ| ≤ 17 * (1 / 2 ^ 52) → 0 ≤ σ → σ ≤ 1 →
      |(toDouble (-toDouble (toDouble (toDouble c - toDouble (toDouble 0.0004398 * s)) * ht) + toDouble (toDouble 7.2125e-8 * lm.sqr ht)) : ℝ) -
        (-((c - 0.0004398 * σ) * ht) + 7.2125e-8 * (ht : ℝ) ^ 2)| ≤ 1 / 10 ^ 11 := by
    intro c c0 c1 σ s e0 s0 s1
    have c0' : (0 : ℝ) ≤ c := by exact_mod_cast c0
    have p1 := constMul_err (C := 44 / 100000) e0 s0 s1 0.0004398 (by norm_num) (by norm_num)
    have q1 : (((0.0004398 : ℚ)) : ℝ) = 0.0004398 := by norm_num
    rw [q1, ← hv] at p1
    have p2 := toDouble_err c
    rw [← hv, abs_of_nonneg c0'] at p2
    have p2' : |(toDouble c : ℝ) - c| ≤ 31 / 100 * v := p2.trans (by norm_num at c1 ⊢; nlinarith)
    have w1 : |(c : ℝ) - 0.0004398 * σ| ≤ 32 / 100 := by
      rw [abs_le]
      norm_num at c1 ⊢
      constructor <;> linarith
    have p3 : |(toDouble (toDouble c - toDouble (toDouble 0.0004398 * s)) : ℝ) - (c - 0.0004398 * σ)| ≤ v := by
      refine (rnd_err (δ := v) hv.ge (e := 33 / 100 * v) _ _ ?_ w1).trans ?_
      · push_cast
        rw [abs_le] at p1 p2' ⊢
        constructor <;> linarith
      · nlinarith
    generalize toDouble (toDouble c - toDouble (toDouble 0.0004398 * s)) = u at p3
    generalize (c : ℝ) - 0.0004398 * σ = w at w1 p3
    have p4 : |(toDouble (u * ht) : ℝ) - w * ht| ≤ 14000 * v := by
      refine (rnd_err (δ := v) hv.ge (e := 10000 * v) (W := 3200) _ _ ?_ ?_).trans ?_
      · push_cast
        rw [← sub_mul, abs_mul, mul_comm]
        exact mul_le_mul hH p3 (abs_nonneg _) (by norm_num)
      · rw [abs_mul]
        calc |w| * |(ht : ℝ)| ≤ 32 / 100 * 10000 := mul_le_mul w1 hH (abs_nonneg _) (by norm_num)
          _ ≤ 3200 := by norm_num
      · nlinarith
    have w2 : |w * ht| ≤ 3200 := by
      rw [abs_mul]
      calc |w| * |(ht : ℝ)| ≤ 32 / 100 * 10000 := mul_le_mul w1 hH (abs_nonneg _) (by norm_num)
        _ ≤ 3200 := by norm_num
    have hsq : (ht : ℝ) ^ 2 ≤ 10 ^ 8 := by
      rw [← sq_abs]
      nlinarith [abs_nonneg (ht : ℝ)]
    have hsq0 := sq_nonneg (ht : ℝ)
    have p5 : |(toDouble (toDouble 7.2125e-8 * lm.sqr ht) : ℝ) - 7.2125e-8 * (ht : ℝ) ^ 2| ≤ 100 * v := by
      have f1 := toDouble_err 7.2125e-8
      have q2 : (((7.2125e-8 : ℚ)) : ℝ) = 7.2125e-8 := by norm_num
      rw [q2, ← hv, abs_of_pos (by norm_num : (0 : ℝ) < 7.2125e-8)] at f1
      have f2 := hsqr ht
      rw [div_eq_mul_one_div, ← hv] at f2
      generalize lm.sqr ht = z at f2
      generalize (ht : ℝ) ^ 2 = y at f2 hsq hsq0
      generalize toDouble 7.2125e-8 = k at f1
      have f3 : |(z : ℝ) - y| ≤ 10 ^ 8 * v := f2.trans (mul_le_mul_of_nonneg_right hsq hv0.le)
      have f4 : |(z : ℝ)| ≤ 2 * 10 ^ 8 := by
        have hb : (10 : ℝ) ^ 8 * v ≤ 100 := by linarith
        rw [abs_le] at f3 ⊢
        constructor <;> linarith
      refine (rnd_err (δ := v) hv.ge (e := 30 * v) (W := 8) _ _ ?_ ?_).trans ?_
      · have : ((k * z : ℚ) : ℝ) - 7.2125e-8 * y = (k - 7.2125e-8) * z + 7.2125e-8 * (z - y) := by push_cast; ring
        rw [this]
        refine (abs_add_le _ _).trans ?_
        rw [abs_mul, abs_mul, abs_of_pos (by norm_num : (0 : ℝ) < 7.2125e-8)]
        have g1 := mul_le_mul f1 f4 (abs_nonneg _) (by positivity)
        have g2 := mul_le_mul_of_nonneg_left f3 (by norm_num : (0 : ℝ) ≤ 7.2125e-8)
        have g3 : v * 7.2125e-8 * (2 * 10 ^ 8) = 57.7 / 4 * v := by ring
        have g4 : (7.2125e-8 : ℝ) * (10 ^ 8 * v) = 28.85 / 4 * v := by ring
        rw [g3] at g1
        rw [g4] at g2
        refine (add_le_add g1 g2).trans ?_
        rw [← add_mul]
        exact mul_le_mul_of_nonneg_right (by norm_num) hv0.le
      · rw [abs_of_nonneg (by positivity)]
        exact (mul_le_mul_of_nonneg_left hsq (by norm_num)).trans (by norm_num)
      · nlinarith
    have w3 : |7.2125e-8 * (ht : ℝ) ^ 2| ≤ 8 := by
      rw [abs_of_nonneg (by positivity)]
      exact (mul_le_mul_of_nonneg_left hsq (by norm_num)).trans (by norm_num)
    generalize toDouble (toDouble 7.2125e-8 * lm.sqr ht) = b at p5
    generalize toDouble (u * ht) = a at p4
    generalize 7.2125e-8 * (ht : ℝ) ^ 2 = B at p5 w3
    generalize w * (ht : ℝ) = A at p4 w2
    refine (rnd_err (δ := v) hv.ge (e := 14100 * v) (W := 3208) _ _ ?_ ?_).trans ?_
    · push_cast
      rw [abs_le] at p4 p5 ⊢
      constructor <;> linarith
    · rw [abs_le] at w2 w3 ⊢
      constructor <;> linarith
    · have : v * v ≤ 1 / 10 ^ 6 * v := mul_le_mul_of_nonneg_right hv1 hv0.le
      norm_num at hv2 this ⊢
      linarith
  unfold freeAirF freeAir
  cases water
  · have := key 0.3087691 (by norm_num) (by norm_num) _ _ e0 s0 s1
    simpa using this
  · have := key 0.22242 (by norm_num) (by norm_num) _ _ e0 s0 s1
    simpa using this

/-- C132.  The latitude correction of the scripts, `wgs_grav(lat) + free_air_second_order(lat, ht)`, for heights up to ten kilometres: within two hundred
millionths of a milligal. -/
theorem C132_latitude_correction (lm : LatLibm) (hsin : GoodSin lm.sin) (hsqrt : GoodSqrt lm.sqrt) (hsqr : GoodSqr lm.sqr) (lat ht : ℚ) (h : |lat| ≤ 90)
    (hh : |ht| ≤ 10000) : ∃ g, wgsGrav lat = some g ∧
      |(toDouble (wgsGravF lm lat + freeAirF lm lat ht false) : ℝ) - (g + freeAir lat ht false)| ≤ 2 / 10 ^ 8 := by
  obtain ⟨g, hg, e1⟩ := C132_normal_gravity lm hsin hsqrt hsqr lat h
  refine ⟨g, hg, ?_⟩
  have e2 := C132_free_air lm hsin hsqr lat ht h hh false
  have hv2 : (1 : ℝ) / 2 ^ 52 ≤ 2.3 / 10 ^ 16 := by norm_num
  obtain ⟨s0, s1⟩ := sin_sq_bounds (radians (lat : ℝ))
  have hH : |(ht : ℝ)| ≤ 10000 := by exact_mod_cast hh
  have w1 : |g| ≤ 10 ^ 6 := by
    unfold wgsGrav sqrtR divR at hg
    simp only [] at hg
    have hD : (99 / 100 : ℝ) ≤ 1 - 0.00669437999014 * sin (radians (lat : ℝ)) ^ 2 := by norm_num; linarith
    have hs : (99 / 100 : ℝ) ≤ √(1 - 0.00669437999014 * sin (radians (lat : ℝ)) ^ 2) := by
      apply Real.le_sqrt_of_sq_le
      norm_num at hD ⊢
      linarith
    rw [if_pos (by linarith : (0 : ℝ) ≤ 1 - 0.00669437999014 * sin (radians (lat : ℝ)) ^ 2)] at hg
    simp only [Option.bind_eq_bind, Option.bind_some, if_neg (by linarith : ¬√(1 - 0.00669437999014 * sin (radians (lat : ℝ)) ^ 2) = 0)] at hg
    have hg' := (Option.some.inj hg).symm
    rw [hg']
    have : (1 + 0.00193185265241 * sin (radians (lat : ℝ)) ^ 2) / √(1 - 0.00669437999014 * sin (radians (lat : ℝ)) ^ 2) ≤ 102 / 100 := by
      rw [div_le_iff₀ (by linarith)]
      norm_num at s1 hs ⊢
      linarith
    rw [abs_of_nonneg (by positivity)]
    exact (mul_le_mul_of_nonneg_left this (by norm_num)).trans (by norm_num)
  have w2 : |freeAir (lat : ℝ) ht false| ≤ 4000 := by
    unfold freeAir
    simp only [Bool.not_false, if_true]
    have hsq : (ht : ℝ) ^ 2 ≤ 10 ^ 8 := by
      rw [← sq_abs]
      nlinarith [abs_nonneg (ht : ℝ)]
    refine (abs_add_le _ _).trans ?_
    rw [abs_neg, abs_mul, abs_of_nonneg (by positivity : 0 ≤ 7.2125e-8 * (ht : ℝ) ^ 2)]
    have a1 : |(0.3087691 : ℝ) - 0.0004398 * sin (radians (lat : ℝ)) ^ 2| ≤ 32 / 100 := by
      rw [abs_le]
      norm_num
      constructor <;> linarith
    have a2 := mul_le_mul a1 hH (abs_nonneg _) (by norm_num)
    have a3 : 7.2125e-8 * (ht : ℝ) ^ 2 ≤ 8 := (mul_le_mul_of_nonneg_left hsq (by norm_num)).trans (by norm_num)
    linarith
  refine (rnd_err (δ := 1 / 2 ^ 52) le_rfl (e := 11 / 10 ^ 9) (W := 2 * 10 ^ 6) _ _ ?_ ?_).trans ?_
  · push_cast
    rw [abs_le] at e1 e2 ⊢
    constructor <;> linarith
  · refine (abs_add_le _ _).trans ?_
    linarith
  · norm_num

/-- The hypotheses can be met. -/
theorem goodLatLibm_exists : ∃ lm : LatLibm, GoodSin lm.sin ∧ GoodSqrt lm.sqrt ∧ GoodSqr lm.sqr := by
  have key : ∀ (x : ℝ) (e : ℝ), 0 < e → ∃ r : ℚ, |(r : ℝ) - x| ≤ |x| / e := by
    intro x e he
    by_cases hx : x = 0
    · exact ⟨0, by simp [hx]⟩
    · have hp : 0 < |x| / e := by have := abs_pos.2 hx; positivity
      obtain ⟨r, h1, h2⟩ := exists_rat_btwn (show x < x + |x| / e by linarith)
      exact ⟨r, by rw [abs_le]; constructor <;> linarith⟩
  choose sn hsn using fun q : ℚ => key (sin (q : ℝ)) (2 ^ 51) (by positivity)
  choose sq hsq using fun q : ℚ => key (√(q : ℝ)) (2 ^ 52) (by positivity)
  refine ⟨⟨sn, sq, fun q => q ^ 2⟩, fun q _ => hsn q, fun q _ => ?_, fun q => ?_⟩
  · have := hsq q
    rwa [abs_of_nonneg (Real.sqrt_nonneg _)] at this
  · push_cast
    rw [sub_self, abs_zero]
    positivity

example : ∃ lm g, wgsGrav (((-33) : ℚ) : ℝ) = some g ∧ |(wgsGravF lm (-33) : ℝ) - g| ≤ 1 / 10 ^ 8 := by
  obtain ⟨lm, h1, h2, h3⟩ := goodLatLibm_exists
  obtain ⟨g, hg, e⟩ := C132_normal_gravity lm h1 h2 h3 (-33) (by norm_num)
  exact ⟨lm, g, hg, e⟩

end Shipgrav
