import Verif.Model.UpVecsFloat
import Verif.Spec.UpLibm
import Verif.Props.TiltFloat
import Verif.Lemmas.ThermalFloat

/-! Property C172: the up vectors in double precision. -/

namespace Shipgrav
open Spec Real

/-- How much a change of the drive changes the answer of a filter. -/
private theorem filter_gain (f : Biquad) (p q : ℂ) (s : ℝ) (hpq : p + q = -f.a1) (hpq' : p * q = f.a2) (hp : ‖p‖ ≤ 1 - s) (hqn : ‖q‖ ≤ 1 - s)
    (hslo : 1 / 98 ≤ s) (hb : |f.b0| + |f.b1| + |f.b2| ≤ 6 * s) (x y : ℕ → ℝ) (e : ℝ) (hxy : ∀ i, |x i - y i| ≤ e) (n : ℕ) :
    |answer f x n - answer f y n| ≤ 600 * e := by
  have he0 : 0 ≤ e := (abs_nonneg _).trans (hxy 0)
  have hs0 : 0 < s := by linarith
  obtain ⟨x0, x1, x2⟩ := answer_answers f x
  obtain ⟨y0, y1, y2⟩ := answer_answers f y
  have hb' : ∀ (c : ℝ) n, |c * (x n - y n)| ≤ |c| * e := fun c n => by
    rw [abs_mul]; exact mul_le_mul_of_nonneg_left (hxy n) (abs_nonneg _)
  have n0 := abs_nonneg f.b0
  have n1 := abs_nonneg f.b1
  have n2 := abs_nonneg f.b2
  have hs' : (|f.b0| + |f.b1| + |f.b2|) * e ≤ 6 * s * e := mul_le_mul_of_nonneg_right hb he0
  have key := second_order_bound f.a1 f.a2 p q hpq hpq' (by linarith) (by linarith)
      (fun n => f.b0 * (x n - y n) + (if 1 ≤ n then f.b1 * (x (n - 1) - y (n - 1)) else 0) + (if 2 ≤ n then f.b2 * (x (n - 2) - y (n - 2)) else 0))
      (fun n => answer f x n - answer f y n) (6 * s * e) ?_ ?_ ?_ ?_ n
  · refine key.trans ?_
    rw [div_div]
    have h1 : s * s ≤ (1 - ‖q‖) * (1 - ‖p‖) := mul_le_mul (by linarith) (by linarith) hs0.le (by linarith)
    have hs1 : 0 < s * s := by positivity
    rw [div_le_iff₀ (by linarith)]
    have h2 : 600 * e * (s * s) ≤ 600 * e * ((1 - ‖q‖) * (1 - ‖p‖)) := mul_le_mul_of_nonneg_left h1 (by positivity)
    refine le_trans ?_ h2
    have h3 : 0 ≤ s * e := by positivity
    have h4 : s * e * (1 / 98) ≤ s * e * s := mul_le_mul_of_nonneg_left hslo h3
    linarith
  · intro n
    refine (abs_add_le _ _).trans ((add_le_add ((abs_add_le _ _).trans (add_le_add (hb' f.b0 n) ?_)) ?_).trans
      ((le_of_eq (show |f.b0| * e + |f.b1| * e + |f.b2| * e = (|f.b0| + |f.b1| + |f.b2|) * e by ring)).trans hs'))
    · split
      · exact hb' _ _
      · simp; positivity
    · split
      · exact hb' _ _
      · simp; positivity
  · simp only [x0, y0]; norm_num; ring
  · simp only [x1, y1]; norm_num; ring
  · intro n
    simp only [show 1 ≤ n + 2 by omega, show 2 ≤ n + 2 by omega, if_true, Nat.add_sub_cancel, show n + 2 - 1 = n + 1 by omega]
    rw [x2, y2]; ring

/-- How much a change of the drive changes the tilt. -/
private theorem tilt_gain (lm : Libm) (ht : GoodTan lm.tan) (hs : GoodSqrt lm.sqrt) (hq : GoodSqr lm.sqr) (per dt damp : ℚ) (hdt : 0 < dt)
    (hper : 4 * dt ≤ per) (hper1 : per ≤ 300 * dt) (hper2 : per ≤ 5000) (hdamp : damp = 0 ∨ 1 / 2 ≤ damp) (hdamp1 : damp ≤ 1) (f : Biquad)
    (hf : tiltFilter per dt damp = .ok (some f)) (x y : ℕ → ℝ) (e : ℝ) (hxy : ∀ i, |x i - y i| ≤ e) (n : ℕ) :
    |answer f x n - answer f y n| ≤ 600 * e := by
  have hdtR : (0 : ℝ) < dt := by exact_mod_cast hdt
  have hperR : 4 * (dt : ℝ) ≤ per := by exact_mod_cast hper
  have hper1R : (per : ℝ) ≤ 300 * dt := by exact_mod_cast hper1
  have hper0R : (0 : ℝ) < per := by linarith
  have hπ := Real.pi_pos
  have hπ3 := Real.pi_gt_d2
  have he0 : 0 ≤ e := (abs_nonneg _).trans (hxy 0)
  obtain ⟨t, et⟩ : ∃ t, t = tan (π * dt / per) := ⟨_, rfl⟩
  obtain ⟨ζ, eζ⟩ : ∃ ζ, ζ = if damp = 0 then √2 / 2 else (damp : ℝ) := ⟨_, rfl⟩
  have hθ0 : 0 < π * dt / per := by positivity
  have hθ1 : π * dt / per ≤ π / 4 := by
    rw [div_le_div_iff₀ hper0R (by norm_num)]
    nlinarith
  have hθ2 : 104 / 10000 ≤ π * dt / per := by
    rw [le_div_iff₀ hper0R]
    nlinarith
  have htlo : 104 / 10000 ≤ t := by
    rw [et]
    exact hθ2.trans (Real.lt_tan hθ0 (by linarith)).le
  have hthi : t ≤ 1 := by
    rw [et, ← Real.tan_pi_div_four]
    rcases hθ1.lt_or_eq with h | h
    · exact (Real.tan_lt_tan_of_lt_of_lt_pi_div_two (by linarith) (by linarith) h).le
    · rw [h]
  have hζlo : 1 / 2 ≤ ζ := by
    rw [eζ]
    split
    · have : 1 ≤ √2 := by rw [Real.one_le_sqrt]; norm_num
      linarith
    · rcases hdamp with h | h
      · contradiction
      · have : ((1 / 2 : ℚ) : ℝ) ≤ damp := by exact_mod_cast h
        push_cast at this
        linarith
  have hζ1 : ζ ≤ 1 := by
    rw [eζ]
    split
    · have : √2 ≤ 2 := by rw [Real.sqrt_le_left (by norm_num)]; norm_num
      linarith
    · exact_mod_cast hdamp1
  obtain ⟨g, f', -, hf', ht0, hζ0, hcl, k1, k2⟩ := filter_close lm ht hs hq per dt damp hdt hper hper2
    (by rcases hdamp with h | h <;> linarith) t ζ et eζ
  rw [hf] at hf'
  injection hf' with hf'
  injection hf' with hf'
  subst hf'
  obtain ⟨s, es⟩ : ∃ s, s = 2 * ζ * t / (1 + 2 * ζ * t + t ^ 2) := ⟨_, rfl⟩
  have hD0' : 0 < 1 + 2 * ζ * t + t ^ 2 := by positivity
  have hζt' : 1 / 2 * t ≤ ζ * t := mul_le_mul_of_nonneg_right hζlo ht0.le
  have hslo : 1 / 98 ≤ s := by
    rw [es, div_le_div_iff₀ (by norm_num) hD0']
    nlinarith
  have hB : 4 * (t ^ 2 + ζ * t) / (1 + 2 * ζ * t + t ^ 2) ≤ 6 * s := by
    rw [es, mul_div_assoc']
    refine div_le_div_of_nonneg_right ?_ hD0'.le
    nlinarith
  have hb := hcl.b.trans hB
  obtain ⟨D, hD⟩ : ∃ D, D = 1 + 2 * ζ * t + t ^ 2 := ⟨_, rfl⟩
  rw [← hD] at k1 k2 es
  have hζt : 0 < ζ * t := by positivity
  have hD0 : 0 < D := by rw [hD]; positivity
  have ca1 : f.a1 = 2 * (t ^ 2 - 1) / D := by rw [← k1]; field_simp
  have ca2 : f.a2 = (1 + t ^ 2 - 2 * ζ * t) / D := by rw [← k2]; field_simp
  have hs0 : 0 < s := by linarith
  have hs2 : f.a2 = 1 - 2 * s := by
    rw [ca2, es]
    field_simp
    rw [hD]; ring
  have hdisc : f.a1 ^ 2 ≤ 4 * f.a2 := by
    rw [ca1, ca2, div_pow, mul_div_assoc', div_le_div_iff₀ (by positivity) hD0]
    have hζ2 : ζ ^ 2 ≤ 1 := by nlinarith
    have hq4 : (2 * (t ^ 2 - 1)) ^ 2 ≤ 4 * (1 + t ^ 2 - 2 * ζ * t) * D := by
      rw [hD]
      have : t ^ 2 * ζ ^ 2 ≤ t ^ 2 := by nlinarith [sq_nonneg t]
      nlinarith
    calc _ ≤ 4 * (1 + t ^ 2 - 2 * ζ * t) * D * D := mul_le_mul_of_nonneg_right hq4 hD0.le
      _ = _ := by ring
  have ha2 : 0 ≤ f.a2 := by nlinarith [sq_nonneg f.a1]
  obtain ⟨p, q, hpq, hpq', hp, hqn⟩ := complex_roots f.a1 f.a2 hdisc
  have hs1 : s ≤ 1 / 2 := by linarith
  have hr : √f.a2 ≤ 1 - s := by
    rw [Real.sqrt_le_left (by linarith), hs2]
    exact le_of_sub_nonneg (le_of_le_of_eq (sq_nonneg s) (by ring))
  exact filter_gain f p q s hpq hpq' (by rw [hp]; exact hr) (by rw [hqn]; exact hr) hslo hb x y e hxy n

private theorem forall₂_get {α β : Type} {R : α → β → Prop} (x : ℕ → α) (y : ℕ → β) (n : ℕ) (h : List.Forall₂ R (samples x n) (samples y n)) (i : ℕ)
    (hi : i < n) : R (x i) (y i) := by
  have := (List.forall₂_iff_get.1 h).2 i (by simpa [samples] using hi) (by simpa [samples] using hi)
  simpa [samples] using this

/-- The tilt of one axis, next to the exact one. -/
private theorem axis_close (lm : Libm) (ht : GoodTan lm.tan) (hs : GoodSqrt lm.sqrt) (hq : GoodSqr lm.sqr) (per dt damp : ℚ) (hdt : 0 < dt)
    (hper : 4 * dt ≤ per) (hper1 : per ≤ 300 * dt) (hper2 : per ≤ 5000) (hdamp : damp = 0 ∨ 1 / 2 ≤ damp) (hdamp1 : damp ≤ 1)
    (d : ℕ → ℝ) (d' : ℕ → ℚ) (M : ℝ) (hM : ∀ i, |d i| ≤ M) (hd : ∀ i, |(d' i : ℝ) - d i| ≤ 1 / 2 ^ 52 * |d i|) :
    ∃ g f, tiltFilterF lm per dt damp = .ok (some g) ∧ tiltFilter per dt damp = .ok (some f) ∧
      ∀ n, |(outF g d' n : ℝ) - answer f d n| ≤ M / 19999 := by
  have hM0 : 0 ≤ M := (abs_nonneg _).trans (hM 0)
  obtain ⟨g, f, hg, hf, -⟩ := C131_small_error lm ht hs hq per dt damp hdt hper hper1 hper2 hdamp hdamp1 [] 0 (by simp)
  refine ⟨g, f, hg, hf, fun n => ?_⟩
  have hd1 : ∀ i, |(d' i : ℝ) - d i| ≤ 1 / 2 ^ 52 * M := fun i => (hd i).trans (mul_le_mul_of_nonneg_left (hM i) (by positivity))
  have hd2 : ∀ i, |(d' i : ℝ)| ≤ (1 + 1 / 2 ^ 52) * M := by
    intro i
    have h1 := abs_add_le ((d' i : ℝ) - d i) (d i)
    rw [sub_add_cancel] at h1
    have := hd1 i
    have := hM i
    linarith
  obtain ⟨g', f', hg', hf', h⟩ := C131_small_error lm ht hs hq per dt damp hdt hper hper1 hper2 hdamp hdamp1 (samples d' (n + 1)) ((1 + 1 / 2 ^ 52) * M)
    (by
      intro q hq
      obtain ⟨i, _, rfl⟩ := List.mem_map.mp hq
      exact hd2 i)
  rw [hg] at hg'
  rw [hf] at hf'
  injection hg' with hg'
  injection hg' with hg'
  injection hf' with hf'
  injection hf' with hf'
  subst hg' hf'
  have e2 : (samples d' (n + 1)).map (fun q : ℚ => (q : ℝ)) = samples (fun i => (d' i : ℝ)) (n + 1) := by
    unfold samples; rw [List.map_map]; rfl
  rw [e2, lfilter2F_samples, lfilter2_samples f _ _ (answer_answers f _)] at h
  have a := forall₂_get _ _ _ h n (by omega)
  have b := tilt_gain lm ht hs hq per dt damp hdt hper hper1 hper2 hdamp hdamp1 f hf (fun i => (d' i : ℝ)) d _ hd1 n
  have c := abs_add_le ((outF g d' n : ℝ) - answer f (fun i => (d' i : ℝ)) n) (answer f (fun i => (d' i : ℝ)) n - answer f d n)
  rw [sub_add_sub_cancel] at c
  refine c.trans ((add_le_add a b).trans ?_)
  have : M / 19999 - ((1 + 1 / 2 ^ 52) * M / 20000 + 600 * (1 / 2 ^ 52 * M)) = (1 / 19999 - ((1 + 1 / 2 ^ 52) / 20000 + 600 / 2 ^ 52)) * M := by ring
  have h2 : (0 : ℝ) ≤ (1 / 19999 - ((1 + 1 / 2 ^ 52) / 20000 + 600 / 2 ^ 52)) := by norm_num
  have := mul_nonneg h2 hM0
  linarith

private theorem td0 : toDouble 0 = 0 := toDouble_eq_zero.2 rfl

private theorem abs_arctan_sub (x y : ℝ) : |arctan x - arctan y| ≤ |x - y| := by
  have h := Convex.norm_image_sub_le_of_norm_deriv_le (f := arctan) (C := 1) (s := Set.univ) (x := y) (y := x)
    (fun z _ => Real.differentiableAt_arctan z) (fun z _ => by
      rw [Real.deriv_arctan, Real.norm_eq_abs, abs_of_pos (by positivity), div_le_one (by positivity)]
      nlinarith [sq_nonneg z]) convex_univ trivial trivial
  simpa [Real.norm_eq_abs] using h

private theorem td_td (x : ℚ) : toDouble (toDouble x) = toDouble x := toDouble_rounds.exact (toDouble_rounds.double x)

/-- The sine and the cosine of the library, of the arcus tangens of the library. -/
private theorem trig_close (lib : UpLib) (hl : GoodUpLib lib.arctan lib.sin lib.cos) (q : ℚ) (y e : ℝ) (h : |(q : ℝ) - y| ≤ e) :
    |(lib.sin (lib.arctan q) : ℝ) - sin (arctan y)| ≤ e + 1 / 2 ^ 50 ∧ |(lib.cos (lib.arctan q) : ℝ) - cos (arctan y)| ≤ e + 1 / 2 ^ 50 ∧
      |(lib.sin (lib.arctan q) : ℝ)| ≤ 1 + 1 / 2 ^ 51 ∧ |(lib.cos (lib.arctan q) : ℝ)| ≤ 1 + 1 / 2 ^ 51 := by
  have a := hl.arctan q
  have b := (abs_arctan_sub q y).trans h
  have c := abs_add_le ((lib.arctan q : ℝ) - arctan q) (arctan q - arctan y)
  rw [sub_add_sub_cancel] at c
  have c' : |(lib.arctan q : ℝ) - arctan y| ≤ e + 1 / 2 ^ 51 := by linarith
  have h2 : |(lib.arctan q : ℝ)| ≤ 2 := by
    have l := Real.neg_pi_div_two_lt_arctan (q : ℝ)
    have u := Real.arctan_lt_pi_div_two (q : ℝ)
    have := Real.pi_lt_d2
    rw [abs_le] at a ⊢
    norm_num at a this ⊢
    constructor <;> linarith
  have s := hl.sin _ h2
  have k := hl.cos _ h2
  have s1 := abs_sin_sub_sin_le (lib.arctan q : ℝ) (arctan y)
  have k1 := abs_cos_sub_cos_le (lib.arctan q : ℝ) (arctan y)
  have s2 := abs_add_le ((lib.sin (lib.arctan q) : ℝ) - sin (lib.arctan q)) (sin (lib.arctan q) - sin (arctan y))
  have k2 := abs_add_le ((lib.cos (lib.arctan q) : ℝ) - cos (lib.arctan q)) (cos (lib.arctan q) - cos (arctan y))
  rw [sub_add_sub_cancel] at s2 k2
  have s3 := abs_add_le ((lib.sin (lib.arctan q) : ℝ) - sin (lib.arctan q)) (sin (lib.arctan q))
  have k3 := abs_add_le ((lib.cos (lib.arctan q) : ℝ) - cos (lib.arctan q)) (cos (lib.arctan q))
  rw [sub_add_cancel] at s3 k3
  have s4 := abs_sin_le_one (lib.arctan q : ℝ)
  have k4 := abs_cos_le_one (lib.arctan q : ℝ)
  have e5 : (1 : ℝ) / 2 ^ 50 = 1 / 2 ^ 51 + 1 / 2 ^ 51 := by norm_num
  rw [e5]
  refine ⟨?_, ?_, ?_, ?_⟩ <;> linarith

private theorem single_close {b : ℚ} {β eb : ℝ} (hb : |(b : ℝ)| ≤ 1 + 1 / 2 ^ 51) (h : |(b : ℝ) - β| ≤ eb) : |(toDouble b : ℝ) - β| ≤ eb + 1 / 2 ^ 51 := by
  have a := toDouble_err b
  have c := abs_add_le ((toDouble b : ℝ) - b) (b - β)
  rw [sub_add_sub_cancel] at c
  have d : 1 / 2 ^ 52 * |(b : ℝ)| ≤ 1 / 2 ^ 52 * (1 + 1 / 2 ^ 51) := mul_le_mul_of_nonneg_left hb (by positivity)
  have e : (1 : ℝ) / 2 ^ 52 * (1 + 1 / 2 ^ 51) ≤ 1 / 2 ^ 51 := by norm_num
  linarith

private theorem prod_close {a b : ℚ} {α β ea eb : ℝ} (ha : |(a : ℝ)| ≤ 1 + 1 / 2 ^ 51) (hb : |(b : ℝ)| ≤ 1 + 1 / 2 ^ 51) (hβ : |β| ≤ 1)
    (h1 : |(a : ℝ) - α| ≤ ea) (h2 : |(b : ℝ) - β| ≤ eb) : |(toDouble (a * toDouble b) : ℝ) - α * β| ≤ ea + (1 + 1 / 2 ^ 51) * eb + 1 / 2 ^ 49 := by
  have k2 := single_close hb h2
  have kb : |(toDouble b : ℝ)| ≤ 1 + 1 / 2 ^ 50 := by
    have := single_close hb (show |(b : ℝ) - b| ≤ 0 by simp)
    have c := abs_add_le ((toDouble b : ℝ) - b) b
    rw [sub_add_cancel] at c
    have e5 : (1 : ℝ) / 2 ^ 50 = 1 / 2 ^ 51 + 1 / 2 ^ 51 := by norm_num
    linarith
  have r := toDouble_err (a * toDouble b)
  push_cast at r
  have m : |(a : ℝ) * toDouble b| ≤ (1 + 1 / 2 ^ 51) * (1 + 1 / 2 ^ 50) := by
    rw [abs_mul]; exact mul_le_mul ha kb (abs_nonneg _) (by positivity)
  have m' : 1 / 2 ^ 52 * |(a : ℝ) * toDouble b| ≤ 1 / 2 ^ 52 * ((1 + 1 / 2 ^ 51) * (1 + 1 / 2 ^ 50)) := mul_le_mul_of_nonneg_left m (by positivity)
  have p1 : |(a : ℝ) * (toDouble b - β)| ≤ (1 + 1 / 2 ^ 51) * (eb + 1 / 2 ^ 51) := by
    rw [abs_mul]; exact mul_le_mul ha k2 (abs_nonneg _) (by positivity)
  have p2 : |((a : ℝ) - α) * β| ≤ ea := by
    rw [abs_mul]
    calc _ ≤ |(a : ℝ) - α| * 1 := mul_le_mul_of_nonneg_left hβ (abs_nonneg _)
      _ ≤ ea := by rw [mul_one]; exact h1
  have e : (toDouble (a * toDouble b) : ℝ) - α * β = (toDouble (a * toDouble b) - a * toDouble b) + (a * (toDouble b - β) + (a - α) * β) := by ring
  rw [e]
  have c1 := abs_add_le ((toDouble (a * toDouble b) : ℝ) - a * toDouble b) (a * (toDouble b - β) + (a - α) * β)
  have c2 := abs_add_le ((a : ℝ) * (toDouble b - β)) ((a - α) * β)
  have n : (1 : ℝ) / 2 ^ 52 * ((1 + 1 / 2 ^ 51) * (1 + 1 / 2 ^ 50)) + (1 + 1 / 2 ^ 51) * (1 / 2 ^ 51) ≤ 1 / 2 ^ 49 := by norm_num
  rw [mul_add] at p1
  linarith

/-- The columns as products of sines and cosines. -/
private theorem upVecF_eq (lib : UpLib) (i : ℕ) (c l : ℚ) : upVecF lib i c l =
    if i % 2 = 0 then
      (toDouble (-lib.sin c * toDouble (lib.cos l)), toDouble (-lib.sin l), toDouble (lib.cos c * toDouble (lib.cos l)))
    else (toDouble (-lib.sin c), toDouble (-lib.sin l * toDouble (lib.cos c)), toDouble (lib.cos l * toDouble (lib.cos c))) := by
  unfold upVecF matVecF dot3F
  simp only [td0, zero_mul, mul_zero, zero_add, add_zero, mul_one, one_mul, td_td]

private theorem upVec_eq (i : ℕ) (c l : ℝ) : upVec i c l =
    if i % 2 = 0 then (-sin c * cos l, -sin l, cos c * cos l) else (-sin c, -sin l * cos c, cos l * cos c) := by
  unfold upVec matVec
  simp

private theorem column_close (lib : UpLib) (hl : GoodUpLib lib.arctan lib.sin lib.cos) (i : ℕ) (c l : ℚ) (c' l' Mc Ml : ℝ)
    (hc : |(c : ℝ) - c'| ≤ Mc / 19999) (hl' : |(l : ℝ) - l'| ≤ Ml / 19999) :
    ColumnsWithin ((Mc + Ml) / 19998 + 1 / 2 ^ 47) (upVecF lib i (lib.arctan c) (lib.arctan l)) (upDirection i c' l') := by
  have hMc : 0 ≤ Mc := by have := (abs_nonneg _).trans hc; linarith
  have hMl : 0 ≤ Ml := by have := (abs_nonneg _).trans hl'; linarith
  obtain ⟨a1, a2, a3, a4⟩ := trig_close lib hl c c' _ hc
  obtain ⟨b1, b2, b3, b4⟩ := trig_close lib hl l l' _ hl'
  rw [← upVec_arctan, upVecF_eq, upVec_eq]
  generalize lib.sin (lib.arctan c) = sc at *
  generalize lib.cos (lib.arctan c) = cc at *
  generalize lib.sin (lib.arctan l) = sl at *
  generalize lib.cos (lib.arctan l) = cl at *
  have a1' : |((-sc : ℚ) : ℝ) - -sin (arctan c')| ≤ Mc / 19999 + 1 / 2 ^ 50 := by push_cast; rw [neg_sub_neg, abs_sub_comm]; exact a1
  have a3' : |((-sc : ℚ) : ℝ)| ≤ 1 + 1 / 2 ^ 51 := by push_cast; rw [abs_neg]; exact a3
  have b1' : |((-sl : ℚ) : ℝ) - -sin (arctan l')| ≤ Ml / 19999 + 1 / 2 ^ 50 := by push_cast; rw [neg_sub_neg, abs_sub_comm]; exact b1
  have b3' : |((-sl : ℚ) : ℝ)| ≤ 1 + 1 / 2 ^ 51 := by push_cast; rw [abs_neg]; exact b3
  have n1 := abs_cos_le_one (arctan c')
  have n2 := abs_cos_le_one (arctan l')
  have fin : ∀ {X Y Z : ℝ}, 0 ≤ X → 0 ≤ Y → Z ≤ X / 19999 + 1 / 2 ^ 50 + (1 + 1 / 2 ^ 51) * (Y / 19999 + 1 / 2 ^ 50) + 1 / 2 ^ 49 →
      Z ≤ (X + Y) / 19998 + 1 / 2 ^ 47 := by
    intro X Y Z hX hY hZ
    norm_num at hZ ⊢
    linarith
  have fin1 : ∀ {X Y Z : ℝ}, 0 ≤ X → 0 ≤ Y → Z ≤ X / 19999 + 1 / 2 ^ 50 + 1 / 2 ^ 51 → Z ≤ (X + Y) / 19998 + 1 / 2 ^ 47 := by
    intro X Y Z hX hY hZ
    norm_num at hZ ⊢
    linarith
  split
  · refine ⟨fin hMc hMl (prod_close a3' b4 n2 a1' b2), ?_, fin hMc hMl (prod_close a4 b4 n2 a2 b2)⟩
    rw [add_comm Mc]
    exact fin1 hMl hMc (single_close b3' b1')
  · refine ⟨fin1 hMc hMl (single_close a3' a1'), ?_, ?_⟩
    · rw [add_comm Mc]; exact fin hMl hMc (prod_close b3' a4 n1 b1' a2)
    · rw [add_comm Mc]; exact fin hMl hMc (prod_close b4 a4 n1 b2 a2)

private theorem allFiniteF_some (l : List ℚ) : allFiniteF (l.map some) = some l := by
  induction l with
  | nil => rfl
  | cons a l ih => simp [allFiniteF, ih]

private theorem zip_samples {α β γ : Type} (f : α → β → γ) (x : ℕ → α) (y : ℕ → β) (n : ℕ) :
    List.zipWith f (samples x n) (samples y n) = samples (fun i => f (x i) (y i)) n := by
  unfold samples
  rw [List.zipWith_map, List.zipWith_self]

private theorem calcUpVecsF_samples (lib : UpLib) (yc yl : ℕ → ℚ) (n : ℕ) :
    calcUpVecsF lib ((samples yc n).map lib.arctan) ((samples yl n).map lib.arctan) =
      .ok (samples (fun i => upVecF lib i (lib.arctan (yc i)) (lib.arctan (yl i))) n) := by
  unfold calcUpVecsF
  simp only [List.length_map, samples_length, lt_irrefl, if_false]
  congr 1
  apply List.ext_getElem
  · simp
  · intro i h1 h2
    simp [samples]

/-- The drive in double precision. -/
private def driveF (flag : ℚ) (acc g : Option ℚ) : ℚ := toDouble ((if 0 < flag then 0 else acc.getD 0) / g.getD 0)

private theorem upVecsF_samples (lib : UpLib) (dt : ℚ) (g cacc lacc : ℕ → Option ℚ) (flag : ℕ → ℚ) (cper cdamp lper ldamp : ℚ) (n : ℕ) (fc fl : BiquadF)
    (hfc : tiltFilterF lib.base cper dt cdamp = .ok (some fc)) (hfl : tiltFilterF lib.base lper dt ldamp = .ok (some fl))
    (hg : ∀ i < n, g i ≠ some 0) :
    (upVecsF lib dt (samples g n) (samples cacc n) (samples lacc n) (samples flag n) cper cdamp lper ldamp).2 =
      .vecs (samples (fun i => upVecF lib i (lib.arctan (outF fc (fun i => driveF (flag i) (cacc i) (g i)) i))
        (lib.arctan (outF fl (fun i => driveF (flag i) (lacc i) (g i)) i))) n) := by
  have hz : ∀ acc : ℕ → Option ℚ, zeroWhereF (samples flag n) (nanToZeroF (samples acc n)) =
      samples (fun i => some (if 0 < flag i then 0 else (acc i).getD 0)) n := by
    intro acc
    have : nanToZeroF (samples acc n) = samples (fun i => some ((acc i).getD 0)) n := by
      unfold nanToZeroF samples; rw [List.map_map]; rfl
    rw [this]
    unfold zeroWhereF
    rw [zip_samples]
    apply samples_congr
    intro i _
    simp only [gt_iff_lt]
    split <;> rfl
  have n1 : ∀ acc : ℕ → Option ℚ, (nanToZeroF (samples acc n)).length = n := by intro acc; simp [nanToZeroF]
  unfold upVecsF
  simp only [n1, samples_length, ne_eq, not_true, if_false, hz]
  have hd : ∀ acc : ℕ → Option ℚ,
      allFiniteF (List.zipWith driveAtF (samples (fun i => some (if 0 < flag i then 0 else (acc i).getD 0)) n) (samples g n)) =
        some (samples (fun i => driveF (flag i) (acc i) (g i)) n) := by
    intro acc
    rw [zip_samples, samples_congr _ (fun i => some (driveF (flag i) (acc i) (g i)))]
    · have : samples (fun i => some (driveF (flag i) (acc i) (g i))) n = (samples (fun i => driveF (flag i) (acc i) (g i)) n).map some := by
        unfold samples; rw [List.map_map]; rfl
      rw [this, allFiniteF_some]
    · intro i hi
      have h0 := hg i hi
      unfold driveAtF driveF
      cases hgi : g i with
      | none => simp [td0]
      | some a =>
        have ha : a ≠ 0 := fun h => h0 (by rw [hgi, h])
        simp only [Option.getD_some, if_neg ha]
  unfold upResultF axisTiltF
  simp only [hfc, hfl, samples_length, not_true, ne_eq, if_false, bind, Option.bind, hd, lfilter2F_samples, calcUpVecsF_samples]

private theorem driveF_close (flag : ℚ) (acc g : Option ℚ) :
    |(driveF flag acc g : ℝ) - driveOf (flag : ℝ) (acc.map fun q : ℚ => (q : ℝ)) (g.map fun q : ℚ => (q : ℝ))| ≤
      1 / 2 ^ 52 * |driveOf (flag : ℝ) (acc.map fun q : ℚ => (q : ℝ)) (g.map fun q : ℚ => (q : ℝ))| := by
  have e : driveOf (flag : ℝ) (acc.map fun q : ℚ => (q : ℝ)) (g.map fun q : ℚ => (q : ℝ)) =
      (((if 0 < flag then 0 else acc.getD 0) / g.getD 0 : ℚ) : ℝ) := by
    unfold driveOf usedAcc
    have hg : (g.map fun q : ℚ => (q : ℝ)).getD 0 = ((g.getD 0 : ℚ) : ℝ) := by cases g <;> simp
    have ha : (acc.map fun q : ℚ => (q : ℝ)).getD 0 = ((acc.getD 0 : ℚ) : ℝ) := by cases acc <;> simp
    rw [hg, ha]
    push_cast
    congr 1
    by_cases h : 0 < flag
    · rw [if_pos h, if_pos (by exact_mod_cast h)]; simp
    · rw [if_neg h, if_neg (by exact_mod_cast h)]
  rw [e]
  exact toDouble_err _

/-- **C172.** The up vectors in double precision.  For platforms of between 4 and 300 samples a period that are damped at least half
critically, every component of every column differs from that of the exact computation (C92) by at most one part in 19998 of the largest
drives, and `2⁻⁴⁷`, however long the record.  The drives are accelerations in units of gravity. -/
theorem C172_up_vectors (lib : UpLib) (ht : GoodTan lib.base.tan) (hs : GoodSqrt lib.base.sqrt) (hq : GoodSqr lib.base.sqr)
    (hl : GoodUpLib lib.arctan lib.sin lib.cos) (dt cper cdamp lper ldamp : ℚ) (hdt : 0 < dt)
    (hc : 4 * dt ≤ cper ∧ cper ≤ 300 * dt ∧ cper ≤ 5000) (hlp : 4 * dt ≤ lper ∧ lper ≤ 300 * dt ∧ lper ≤ 5000)
    (hcd : (cdamp = 0 ∨ 1 / 2 ≤ cdamp) ∧ cdamp ≤ 1) (hld : (ldamp = 0 ∨ 1 / 2 ≤ ldamp) ∧ ldamp ≤ 1)
    (g cacc lacc : ℕ → Option ℚ) (flag : ℕ → ℚ) (n : ℕ) (hg : ∀ i < n, g i ≠ some 0) (Mc Ml : ℝ)
    (hMc : ∀ i, |driveOf (flag i : ℝ) ((cacc i).map fun q : ℚ => (q : ℝ)) ((g i).map fun q : ℚ => (q : ℝ))| ≤ Mc)
    (hMl : ∀ i, |driveOf (flag i : ℝ) ((lacc i).map fun q : ℚ => (q : ℝ)) ((g i).map fun q : ℚ => (q : ℝ))| ≤ Ml) :
    ∃ us vs, (upVecsF lib dt (samples g n) (samples cacc n) (samples lacc n) (samples flag n) cper cdamp lper ldamp).2 = .vecs us ∧
      (upVecs dt (samples (fun i => (g i).map fun q : ℚ => (q : ℝ)) n) (samples (fun i => (cacc i).map fun q : ℚ => (q : ℝ)) n)
        (samples (fun i => (lacc i).map fun q : ℚ => (q : ℝ)) n) (samples (fun i => (flag i : ℝ)) n) cper cdamp lper ldamp).2 = .vecs vs ∧
      us.length = n ∧ List.Forall₂ (ColumnsWithin ((Mc + Ml) / 19998 + 1 / 2 ^ 47)) us vs := by
  obtain ⟨gc, fc, hgc, hfc, kc⟩ := axis_close lib.base ht hs hq cper dt cdamp hdt hc.1 hc.2.1 hc.2.2 hcd.1 hcd.2 _
    (fun i => driveF (flag i) (cacc i) (g i)) Mc hMc (fun i => driveF_close _ _ _)
  obtain ⟨gl, fl, hgl, hfl, kl⟩ := axis_close lib.base ht hs hq lper dt ldamp hdt hlp.1 hlp.2.1 hlp.2.2 hld.1 hld.2 _
    (fun i => driveF (flag i) (lacc i) (g i)) Ml hMl (fun i => driveF_close _ _ _)
  refine ⟨_, _, upVecsF_samples lib dt g cacc lacc flag cper cdamp lper ldamp n gc gl hgc hgl hg,
    upVecs_samples dt _ _ _ _ cper cdamp lper ldamp n fc fl hfc hfl ?_ _ _ (answer_answers fc _) (answer_answers fl _), samples_length _ _, ?_⟩
  · intro i hi h
    refine absurd ?_ (hg i hi)
    obtain ⟨q, hq1, hq2⟩ := Option.map_eq_some_iff.1 h
    rw [hq1]
    have : q = 0 := by exact_mod_cast hq2
    rw [this]
  · unfold samples
    rw [List.forall₂_map_left_iff, List.forall₂_map_right_iff, List.forall₂_same]
    intro i _
    exact column_close lib hl i _ _ _ _ _ _ (kc i) (kl i)

/-- **C172.** The caller's arrays are changed as in the exact computation (C92): missing and flagged accelerations become zero. -/
theorem C172_in_place (lib : UpLib) (dt : ℚ) (g cacc lacc : List (Option ℚ)) (onOff : List ℚ) (cper cdamp lper ldamp : ℚ) :
    ((upVecsF lib dt g cacc lacc onOff cper cdamp lper ldamp).1.1.map (Option.map fun q : ℚ => (q : ℝ)),
      (upVecsF lib dt g cacc lacc onOff cper cdamp lper ldamp).1.2.map (Option.map fun q : ℚ => (q : ℝ))) =
    (upVecs dt (g.map (Option.map fun q : ℚ => (q : ℝ))) (cacc.map (Option.map fun q : ℚ => (q : ℝ))) (lacc.map (Option.map fun q : ℚ => (q : ℝ)))
      (onOff.map fun q : ℚ => (q : ℝ)) cper cdamp lper ldamp).1 := by
  have hn : ∀ acc : List (Option ℚ), nanToZero (acc.map (Option.map fun q : ℚ => (q : ℝ))) = (nanToZeroF acc).map (Option.map fun q : ℚ => (q : ℝ)) := by
    intro acc
    unfold nanToZero nanToZeroF
    rw [List.map_map, List.map_map]
    apply List.map_congr_left
    intro v _
    cases v <;> simp
  have hz : ∀ acc : List (Option ℚ), zeroWhere (onOff.map fun q : ℚ => (q : ℝ)) (acc.map (Option.map fun q : ℚ => (q : ℝ))) =
      (zeroWhereF onOff acc).map (Option.map fun q : ℚ => (q : ℝ)) := by
    intro acc
    unfold zeroWhere zeroWhereF
    rw [List.zipWith_map, List.map_zipWith]
    congr 1
    funext o v
    by_cases h : o > 0
    · rw [if_pos h, if_pos (by exact_mod_cast h)]; simp
    · rw [if_neg h, if_neg (by exact_mod_cast h)]
  have hlen : ∀ acc : List (Option ℚ), (nanToZeroF acc).length = acc.length := by intro acc; simp [nanToZeroF]
  unfold upVecsF upVecs
  simp only [hn, hz, List.length_map]
  split
  · rfl
  · split <;> rfl

/-! ### Hypotheses met -/

/-- There are such libraries. -/
theorem goodUpLib_exists : ∃ lib : UpLib, GoodTan lib.base.tan ∧ GoodSqrt lib.base.sqrt ∧ GoodSqr lib.base.sqr ∧ GoodUpLib lib.arctan lib.sin lib.cos := by
  obtain ⟨lm, h1, h2, h3⟩ := goodLibm_exists
  have key : ∀ x : ℝ, ∃ r : ℚ, |(r : ℝ) - x| ≤ 1 / 2 ^ 51 := by
    intro x
    obtain ⟨r, a, b⟩ := exists_rat_btwn (show x < x + 1 / 2 ^ 51 by norm_num)
    exact ⟨r, by rw [abs_le]; constructor <;> linarith⟩
  choose at' hat using fun q : ℚ => key (arctan (q : ℝ))
  choose sn hsn using fun q : ℚ => key (sin (q : ℝ))
  choose cs hcs using fun q : ℚ => key (cos (q : ℝ))
  exact ⟨⟨lm, at', sn, cs⟩, h1, h2, h3, ⟨hat, fun q _ => hsn q, fun q _ => hcs q⟩⟩

/-- A day at one sample a second on platforms of four minutes, with accelerations of up to 9800 mGal: the columns are right up to one part
in 900000. -/
example : ∃ lib us vs, (upVecsF lib 1 (samples (fun _ => some 980000) 86400) (samples (fun i => if i % 7 = 0 then none else some (if i % 2 = 0 then 9800 else -9800)) 86400)
      (samples (fun _ => some 9800) 86400) (samples (fun _ => 0) 86400) 240 (7071 / 10000) 240 0).2 = .vecs us ∧ us.length = 86400 ∧
    List.Forall₂ (ColumnsWithin (1 / 900000)) us vs := by
  obtain ⟨lib, h1, h2, h3, h4⟩ := goodUpLib_exists
  obtain ⟨us, vs, hu, -, hn, h⟩ := C172_up_vectors lib h1 h2 h3 h4 1 240 (7071 / 10000) 240 0 (by norm_num) (by norm_num) (by norm_num) (by norm_num) (by norm_num)
    (fun _ => some 980000) (fun i => if i % 7 = 0 then none else some (if i % 2 = 0 then 9800 else -9800)) (fun _ => some 9800) (fun _ => 0) 86400
    (by intro i _; simp) (1 / 100) (1 / 100)
    (by
      intro i
      unfold driveOf usedAcc
      rw [if_neg (by simp)]
      split
      · simp
      · split <;> simp <;> norm_num [abs_div])
    (by intro i; unfold driveOf usedAcc; rw [if_neg (by simp)]; simp; norm_num [abs_div])
  refine ⟨lib, us, vs, hu, hn, h.imp ?_⟩
  intro u v huv
  have e : ((1 / 100 + 1 / 100) / 19998 + 1 / 2 ^ 47 : ℝ) ≤ 1 / 900000 := by norm_num
  exact ⟨huv.1.trans e, huv.2.1.trans e, huv.2.2.trans e⟩

end Shipgrav
