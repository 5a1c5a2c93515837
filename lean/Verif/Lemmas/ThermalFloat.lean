import Verif.Lemmas.Interval
import Verif.Lemmas.Erf
import Verif.Spec.ThermLibm
import Verif.Model.ThermalFloat
import Mathlib.Analysis.Calculus.MeanValue

/-! Exponential, error function and its inverse of arguments with a relative error. -/

namespace Shipgrav
open Spec Real Filter Topology

private theorem mul_exp_neg_le (x : ℝ) : x * exp (-x) ≤ 1 := by
  have h := add_one_le_exp x
  have hp := exp_pos (-x)
  have : exp x * exp (-x) = 1 := by rw [← exp_add, add_neg_cancel, exp_zero]
  nlinarith

theorem exp_near {ex : ℚ → ℚ} (g : GoodExp ex) {q : ℚ} {E : ℝ} (hE : 0 ≤ E) (h : Near (12 * (1 / 2 ^ 52)) q (-E)) :
    |(ex q : ℝ) - exp (-E)| ≤ 15 / 2 ^ 52 := by
  obtain ⟨t, ht, e⟩ := h
  have tp := ht.pos
  have b1 := ht.abs_sub_one.trans (exp_small (c := 12 * (1 / 2 ^ 52)) (by positivity) (by norm_num))
  have b2 := ht.inv.abs_sub_one.trans (exp_small (c := 12 * (1 / 2 ^ 52)) (by positivity) (by norm_num))
  have hq : exp (q : ℝ) ≤ 1 := by
    rw [exp_le_one_iff, e]
    nlinarith [mul_nonneg hE tp.le]
  have g1 := g q
  have k : |exp (q : ℝ) - exp (-E)| ≤ 101 / 100 * (12 * (1 / 2 ^ 52)) := by
    rcases le_total t 1 with h1 | h1
    · have a1 : exp (-E) = exp (q : ℝ) * exp (-(E * (1 - t))) := by rw [← exp_add]; congr 1; rw [e]; ring
      have a2 := add_one_le_exp (-(E * (1 - t)))
      have a3 : (E * t) * exp (q : ℝ) ≤ 1 := by
        have := mul_exp_neg_le (E * t)
        rw [e]; rwa [show -E * t = -(E * t) by ring]
      have a4 : exp (-(E * (1 - t))) ≤ 1 := exp_le_one_iff.2 (by nlinarith [mul_nonneg hE (sub_nonneg.2 h1)])
      have p := exp_pos (q : ℝ)
      rw [abs_of_nonneg (by rw [a1]; nlinarith)]
      refine le_trans ?_ ((le_abs_self _).trans b2)
      rw [a1, le_sub_iff_add_le, ← one_div, le_div_iff₀ tp]
      have : exp (q : ℝ) - exp (q : ℝ) * exp (-(E * (1 - t))) ≤ exp (q : ℝ) * (E * (1 - t)) := by nlinarith
      nlinarith [mul_nonneg (sub_nonneg.2 h1) (sub_nonneg.2 a3)]
    · have a1 : exp (q : ℝ) = exp (-E) * exp (-(E * (t - 1))) := by rw [← exp_add]; congr 1; rw [e]; ring
      have a2 := add_one_le_exp (-(E * (t - 1)))
      have a3 := mul_exp_neg_le E
      have a4 : exp (-(E * (t - 1))) ≤ 1 := exp_le_one_iff.2 (by nlinarith [mul_nonneg hE (sub_nonneg.2 h1)])
      have p := exp_pos (-E)
      rw [abs_sub_comm, abs_of_nonneg (by rw [a1]; nlinarith)]
      refine le_trans ?_ ((le_abs_self _).trans b1)
      rw [a1]
      have : exp (-E) - exp (-E) * exp (-(E * (t - 1))) ≤ exp (-E) * (E * (t - 1)) := by nlinarith
      nlinarith [mul_nonneg (sub_nonneg.2 h1) (sub_nonneg.2 a3)]
  have := (abs_sub_le (ex q : ℝ) (exp (q : ℝ)) (exp (-E))).trans (add_le_add g1 k)
  refine this.trans ?_
  have : exp (q : ℝ) / 2 ^ 51 ≤ 1 / 2 ^ 51 := by gcongr
  refine (add_le_add_left this _).trans ?_
  norm_num

theorem erf_sub_le {a b : ℝ} (ha : 0 ≤ a) (hab : a ≤ b) : erf b - erf a ≤ 2 / √π * exp (-a ^ 2) * (b - a) := by
  apply Convex.image_sub_le_mul_sub_of_deriv_le (convex_Icc a b) erf_continuous.continuousOn
    (fun x _ => (erf_hasDerivAt x).differentiableAt.differentiableWithinAt) _ a (Set.left_mem_Icc.2 hab) b (Set.right_mem_Icc.2 hab) hab
  intro x hx
  rw [interior_Icc] at hx
  rw [(erf_hasDerivAt x).deriv]
  apply mul_le_mul_of_nonneg_left _ (by positivity)
  apply exp_le_exp.2
  have := hx.1
  nlinarith

theorem le_erf_sub {a b : ℝ} (ha : 0 ≤ a) (hab : a ≤ b) : 2 / √π * exp (-b ^ 2) * (b - a) ≤ erf b - erf a := by
  apply Convex.mul_sub_le_image_sub_of_le_deriv (convex_Icc a b) erf_continuous.continuousOn
    (fun x _ => (erf_hasDerivAt x).differentiableAt.differentiableWithinAt) _ a (Set.left_mem_Icc.2 hab) b (Set.right_mem_Icc.2 hab) hab
  intro x hx
  rw [interior_Icc] at hx
  rw [(erf_hasDerivAt x).deriv]
  apply mul_le_mul_of_nonneg_left _ (by positivity)
  apply exp_le_exp.2
  have := hx.1
  have := hx.2
  nlinarith

theorem erfc_le_exp {b : ℝ} (hb : 0 ≤ b) : 1 - erf b ≤ exp (-b ^ 2) := by
  have key : ∀ s, 0 ≤ s → erf (b + s) - exp (-b ^ 2) * erf s ≤ erf b := by
    intro s hs
    have hd : ∀ x, HasDerivAt (fun s => erf (b + s) - exp (-b ^ 2) * erf s)
        (2 / √π * exp (-(b + x) ^ 2) - exp (-b ^ 2) * (2 / √π * exp (-x ^ 2))) x := by
      intro x
      have h1 : HasDerivAt (fun s => b + s) 1 x := (hasDerivAt_id x).const_add b
      have h2 := (erf_hasDerivAt (b + x)).comp x h1
      rw [mul_one] at h2
      exact h2.sub ((erf_hasDerivAt x).const_mul _)
    have := antitoneOn_of_deriv_nonpos (convex_Ici (0 : ℝ)) (f := fun s => erf (b + s) - exp (-b ^ 2) * erf s)
      (fun x _ => (hd x).continuousAt.continuousWithinAt) (fun x _ => (hd x).differentiableAt.differentiableWithinAt) (by
        intro x hx
        rw [interior_Ici] at hx
        have hx' : 0 < x := hx
        rw [(hd x).deriv]
        have e : exp (-b ^ 2) * (2 / √π * exp (-x ^ 2)) = 2 / √π * exp (-b ^ 2 + -x ^ 2) := by rw [exp_add]; ring
        rw [e, ← mul_sub]
        apply mul_nonpos_of_nonneg_of_nonpos (by positivity)
        rw [sub_nonpos]
        apply exp_le_exp.2
        nlinarith [mul_nonneg hb hx'.le]) (Set.mem_Ici.2 le_rfl) (Set.mem_Ici.2 hs) hs
    simpa [erf_zero] using this
  have t1 : Tendsto (fun s => erf (b + s) - exp (-b ^ 2) * erf s) atTop (𝓝 (1 - exp (-b ^ 2) * 1)) :=
    (erf_tendsto.comp (tendsto_atTop_add_const_left _ b tendsto_id)).sub (erf_tendsto.const_mul _)
  have := le_of_tendsto t1 (eventually_atTop.2 ⟨0, key⟩)
  linarith

private theorem sqrt_pi_bounds : 5 / 3 ≤ √π ∧ √π ≤ 9 / 5 := by
  have h1 := pi_gt_d2
  have h2 := pi_lt_d2
  constructor
  · apply Real.le_sqrt_of_sq_le; norm_num; linarith
  · rw [Real.sqrt_le_left (by norm_num)]; norm_num; linarith

theorem erf_near {er : ℚ → ℚ} (g : ∀ q : ℚ, |(er q : ℝ) - erf q| ≤ 1 / 2 ^ 51) {q : ℚ} {x : ℝ} (hx : 0 ≤ x) (h : Near (7 * (1 / 2 ^ 52)) q x) :
    |(er q : ℝ) - erf x| ≤ 7 / 2 ^ 52 := by
  obtain ⟨t, ht, e⟩ := h
  have tp := ht.pos
  have b1 := ht.abs_sub_one.trans (exp_small (c := 7 * (1 / 2 ^ 52)) (by positivity) (by norm_num))
  have b2 := ht.inv.abs_sub_one.trans (exp_small (c := 7 * (1 / 2 ^ 52)) (by positivity) (by norm_num))
  have sp : 2 / √π ≤ 6 / 5 := by
    rw [div_le_iff₀ (by positivity)]
    linarith [sqrt_pi_bounds.1]
  have key : ∀ a s : ℝ, 0 ≤ a → 1 ≤ s → |s - 1| ≤ 101 / 100 * (7 * (1 / 2 ^ 52)) → |erf (a * s) - erf a| ≤ 5 / 2 ^ 52 := by
    intro a s ha hs hb
    have has : a ≤ a * s := le_mul_of_one_le_right ha hs
    rw [abs_of_nonneg (sub_nonneg.2 (erf_strictMono.monotone has))]
    refine (erf_sub_le ha has).trans ?_
    have h1 : a * exp (-a ^ 2) ≤ 1 / 2 := by
      have h := add_one_le_exp (a ^ 2)
      have hp := exp_pos (-a ^ 2)
      have : exp (a ^ 2) * exp (-a ^ 2) = 1 := by rw [← exp_add, add_neg_cancel, exp_zero]
      nlinarith [sq_nonneg (a - 1)]
    have h2 : s - 1 ≤ 101 / 100 * (7 * (1 / 2 ^ 52)) := (le_abs_self _).trans hb
    have e1 : 2 / √π * exp (-a ^ 2) * (a * s - a) = (2 / √π) * (a * exp (-a ^ 2)) * (s - 1) := by ring
    rw [e1]
    have h3 : (2 / √π) * (a * exp (-a ^ 2)) ≤ 6 / 5 * (1 / 2) := mul_le_mul sp h1 (by positivity) (by norm_num)
    have := mul_le_mul h3 h2 (by linarith) (by norm_num)
    refine this.trans (by norm_num)
  have k : |erf (q : ℝ) - erf x| ≤ 5 / 2 ^ 52 := by
    rcases le_total 1 t with h1 | h1
    · rw [e]
      exact key x t hx h1 b1
    · have h2 : 1 ≤ t⁻¹ := (one_le_inv₀ tp).2 h1
      have := key (x * t) t⁻¹ (by positivity) h2 b2
      rw [mul_assoc, mul_inv_cancel₀ tp.ne', mul_one, ← e, abs_sub_comm] at this
      exact this
  have := (abs_sub_le (er q : ℝ) (erf q) (erf x)).trans (add_le_add (g q) k)
  exact this.trans (by norm_num)

/-- Arguments of the complementary error function whose values have a small relative difference. -/
theorem erfc_inverse_near {x x' t : ℝ} (hx : 0 ≤ x) (hx' : 0 ≤ x') (ht : Within (3 * (1 / 2 ^ 52)) t) (h : 1 - erf x' = (1 - erf x) * t) :
    |x' - x| ≤ 3 / 2 ^ 52 := by
  have tp := ht.pos
  have b1 := ht.abs_sub_one.trans (exp_small (c := 3 * (1 / 2 ^ 52)) (by positivity) (by norm_num))
  have b2 := ht.inv.abs_sub_one.trans (exp_small (c := 3 * (1 / 2 ^ 52)) (by positivity) (by norm_num))
  have key : ∀ a b s : ℝ, 0 ≤ a → a ≤ b → 1 - erf a = (1 - erf b) * s → |s - 1| ≤ 101 / 100 * (3 * (1 / 2 ^ 52)) → b - a ≤ 3 / 2 ^ 52 := by
    intro a b s ha hab he hs
    have h1 := le_erf_sub ha hab
    have h2 := erfc_le_exp (ha.trans hab)
    have h3 : erf b - erf a = (1 - erf b) * (s - 1) := by linarith
    have hb : 0 < 1 - erf b := by linarith [erf_lt_one b]
    have h4 : erf b - erf a ≤ exp (-b ^ 2) * (101 / 100 * (3 * (1 / 2 ^ 52))) := by
      rw [h3]
      calc _ ≤ (1 - erf b) * (101 / 100 * (3 * (1 / 2 ^ 52))) := mul_le_mul_of_nonneg_left ((le_abs_self _).trans hs) hb.le
        _ ≤ _ := mul_le_mul_of_nonneg_right h2 (by positivity)
    have h5 : 2 / √π * (b - a) ≤ 101 / 100 * (3 * (1 / 2 ^ 52)) := by
      have p := exp_pos (-b ^ 2)
      have : exp (-b ^ 2) * (2 / √π * (b - a)) ≤ exp (-b ^ 2) * (101 / 100 * (3 * (1 / 2 ^ 52))) := by linarith
      exact le_of_mul_le_mul_left this p
    have h6 : 10 / 9 ≤ 2 / √π := by
      rw [le_div_iff₀ (by positivity)]
      linarith [sqrt_pi_bounds.2]
    have : 10 / 9 * (b - a) ≤ 2 / √π * (b - a) := mul_le_mul_of_nonneg_right h6 (by linarith)
    norm_num at *
    linarith
  rcases le_total x x' with h1 | h1
  · rw [abs_of_nonneg (by linarith)]
    refine key x x' t⁻¹ hx h1 ?_ b2
    rw [h, mul_assoc, mul_inv_cancel₀ tp.ne', mul_one]
  · rw [abs_sub_comm, abs_of_nonneg (by linarith)]
    exact key x' x t hx' h1 h b1

theorem near_sqrt0 {sq : ℚ → ℚ} (hs : GoodSqrt sq) {c : ℝ} {u : ℚ} {x : ℝ} (h : Near c u x) (hx : 0 ≤ x) (hc : 0 ≤ c) :
    0 ≤ u ∧ Near (c + 2 * (1 / 2 ^ 52)) (sq u) (√x) := by
  rcases hx.eq_or_lt with rfl | hx
  · obtain ⟨t, ht, e⟩ := h
    have hu : u = 0 := by
      rw [zero_mul] at e
      exact_mod_cast e
    subst hu
    have := hs 0 le_rfl
    simp only [Rat.cast_zero, sqrt_zero, zero_div, sub_zero] at this
    have h0 : (sq 0 : ℝ) = 0 := by simpa using le_antisymm this (abs_nonneg _)
    exact ⟨le_rfl, 1, within_zero.mono (by positivity), by rw [h0, sqrt_zero, zero_mul]⟩
  · exact ⟨(h.pos hx).le, near_sqrt hs h hx hc⟩

theorem toDouble_eq_zero {q : ℚ} : toDouble q = 0 ↔ q = 0 := by
  obtain ⟨t, ht, e⟩ := near_toDouble (near_self q)
  have := ht.pos.ne'
  constructor
  · intro h
    rw [h, Rat.cast_zero] at e
    rcases mul_eq_zero.1 e.symm with h' | h'
    · exact_mod_cast h'
    · exact absurd h' this
  · rintro rfl
    rw [Rat.cast_zero, zero_mul] at e
    exact_mod_cast e

/-- A product of a relatively and an absolutely inaccurate number. -/
theorem scaled_err {n : ℝ} {r : ℚ} {C e E d t : ℝ} (h : (r : ℝ) = C * e * t) (ht : Within (n * (1 / 2 ^ 52)) t) (hn : 0 ≤ n) (hn' : n ≤ 100) (he : |e - E| ≤ d) :
    |(r : ℝ) - C * E| ≤ |C| * ((|E| + d) * (101 / 100 * (n * (1 / 2 ^ 52))) + d) := by
  have b := ht.abs_sub_one.trans (exp_small (c := n * (1 / 2 ^ 52)) (by positivity) (by norm_num; linarith))
  have e1 : (r : ℝ) - C * E = C * (e * (t - 1) + (e - E)) := by rw [h]; ring
  rw [e1, abs_mul]
  apply mul_le_mul_of_nonneg_left _ (abs_nonneg _)
  refine (abs_add_le _ _).trans (add_le_add ?_ he)
  rw [abs_mul]
  refine mul_le_mul ?_ b (abs_nonneg _) (add_nonneg (abs_nonneg _) ((abs_nonneg _).trans he))
  have : e = E + (e - E) := by ring
  rw [this]
  exact (abs_add_le _ _).trans (by linarith)

/-- Ages. -/
theorem secyrF_eq : secyrF = 31557600 := by decide +kernel

theorem secyr_eq : secyr = 31557600 := by unfold secyr; norm_num

theorem ageSeconds_eq {time : Bool} {u x : ℚ} (h : (time = true ∧ 0 ≤ x) ∨ (time = false ∧ 0 < u)) :
    ageSeconds time u x = some (seconds time u x) ∧ 0 ≤ seconds time (u : ℝ) (x : ℝ) ∧
      ∃ t, ageSecondsF time u x = some t ∧ Near (2 * (1 / 2 ^ 52)) t (seconds time u x) := by
  unfold ageSeconds ageSecondsF seconds
  rw [secyr_eq, secyrF_eq]
  rcases h with ⟨rfl, hx⟩ | ⟨rfl, hu⟩
  · have hx' : (0 : ℝ) ≤ x := by exact_mod_cast hx
    refine ⟨by simp only [if_true]; congr 1; norm_num; ring, by simp only [if_true]; positivity, _, rfl, ?_⟩
    have n1 := near_toDouble ((near_toDouble ((near_self x).mul (near_self 1e6))).mul (near_self 31557600))
    simp only [if_true]
    convert n1.mono (d := 2 * (1 / 2 ^ 52)) (by norm_num) using 1
    push_cast
    norm_num
    ring
  · have hu' : (0 : ℝ) < u := by exact_mod_cast hu
    have n0 := near_toDouble ((near_self u).div (near_self 31557600))
    push_cast at n0
    have p0 := n0.pos (by positivity)
    refine ⟨?_, by simp only [Bool.false_eq_true, if_false]; positivity, ?_⟩
    · simp only [Bool.false_eq_true, if_false, divR]
      rw [if_neg (by positivity)]
    · simp only [Bool.false_eq_true, if_false]
      rw [if_neg p0.ne']
      refine ⟨_, rfl, ?_⟩
      have n1 := near_toDouble ((near_self |x|).div n0)
      push_cast at n1
      exact n1.mono (by norm_num)

section
variable {lm : ThermLibm} (g : GoodThermLib lm.exp lm.sin lm.erf lm.erfcinv lm.sqrt lm.sqr)
include g

theorem near_root {k t : ℚ} {X : ℝ} (hk : 0 < k) (hX : 0 ≤ X) (h : Near (2 * (1 / 2 ^ 52)) t X) :
    ∃ s, sqrtF lm (toDouble (k * t)) = some s ∧ sqrtR (k * X) = some √(k * X) ∧ Near (6 * (1 / 2 ^ 52)) (toDouble (2 * s)) (2 * √(k * X)) := by
  have hk' : (0 : ℝ) < k := by exact_mod_cast hk
  have h0 : 0 ≤ (k : ℝ) * X := by positivity
  have n1 := near_toDouble ((near_self k).mul h)
  obtain ⟨p, n2⟩ := near_sqrt0 g.sqrt n1 h0 (by positivity)
  have n3 := near_toDouble ((near_self 2).mul n2)
  refine ⟨_, if_pos p, if_pos h0, ?_⟩
  push_cast at n3
  exact n3.mono (by norm_num)

/-- A node of the half-space. -/
theorem node_agree {k t Tm z : ℚ} {X : ℝ} (hk : 0 < k) (hX : 0 ≤ X) (h : Near (2 * (1 / 2 ^ 52)) t X) (hz : 0 ≤ z) :
    Agree (fun _ => |(Tm : ℝ)| * (12 / 2 ^ 52)) (halfspaceNodeF lm Tm k (some t) z) (halfspaceNode Tm k (some X) z) := by
  obtain ⟨s, e1, e2, n⟩ := near_root g hk hX h
  have hk' : (0 : ℝ) < k := by exact_mod_cast hk
  have hz' : (0 : ℝ) ≤ z := by exact_mod_cast hz
  have fin : ∀ (e : ℚ) (E : ℝ), |E| ≤ 1 → |(e : ℝ) - E| ≤ 7 / 2 ^ 52 →
      |(toDouble (0 + toDouble (toDouble (Tm - 0) * e)) : ℝ) - (0 + (Tm - 0) * E)| ≤ |(Tm : ℝ)| * (12 / 2 ^ 52) := by
    intro e E hE he
    rw [zero_add, zero_add, sub_zero, sub_zero]
    obtain ⟨t, ht, e1⟩ := near_toDouble (near_toDouble ((near_toDouble (near_self Tm)).mul (near_self e)))
    refine (scaled_err (n := 3) e1 (ht.mono (by norm_num)) (by norm_num) (by norm_num) he).trans ?_
    apply mul_le_mul_of_nonneg_left _ (abs_nonneg _)
    have : (|E| + 7 / 2 ^ 52) * (101 / 100 * (3 * (1 / 2 ^ 52))) ≤ (1 + 7 / 2 ^ 52) * (101 / 100 * (3 * (1 / 2 ^ 52))) := by gcongr
    refine (add_le_add_left this _).trans (by norm_num)
  unfold halfspaceNodeF halfspaceNode
  simp only [Option.bind_eq_bind, Option.bind_some, e1, e2]
  unfold erfQuotF erfQuot
  rcases hX.eq_or_lt with rfl | hX
  · have hd : toDouble (2 * s) = 0 := by
      obtain ⟨t, ht, e⟩ := n
      rw [mul_zero, sqrt_zero, mul_zero, zero_mul] at e
      exact_mod_cast e
    have hr : 2 * √((k : ℝ) * 0) = 0 := by simp
    rw [if_pos hd, if_pos hr]
    rcases hz.eq_or_lt with rfl | hz0
    · left
      simp
    · right
      have : (0 : ℝ) < z := by exact_mod_cast hz0
      rw [if_neg hz0.ne', if_pos hz0, if_neg this.ne', if_pos this]
      exact ⟨_, _, rfl, rfl, fin 1 1 (by simp) (by simp; positivity)⟩
  · have hs : 0 < 2 * √((k : ℝ) * X) := by positivity
    have hd := n.pos hs
    rw [if_neg hd.ne', if_neg hs.ne']
    right
    refine ⟨_, _, rfl, rfl, fin _ _ ?_ ?_⟩
    · rw [abs_le]
      exact ⟨(neg_one_lt_erf _).le, (erf_lt_one _).le⟩
    · exact erf_near g.erf (by positivity) ((near_toDouble ((near_self z).div n)).mono (by norm_num))

/-- Subsidence of the half-space. -/
theorem halfspaceW_agree {k t Tm rhom rhow a : ℚ} {X : ℝ} (hk : 0 < k) (hX : 0 ≤ X) (h : Near (2 * (1 / 2 ^ 52)) t X) :
    Agree (fun y => |y| * (15 / 2 ^ 52)) (halfspaceSubsidenceF lm (halfspaceFactorF Tm rhom rhow a) k (some t))
      (halfspaceSubsidence (2 * rhom * a * (Tm - 0) / (rhom - rhow)) k (some X)) := by
  have hk' : (0 : ℝ) < k := by exact_mod_cast hk
  have h0 : 0 ≤ (k : ℝ) * X / π := by positivity
  have c1 := near_toDouble ((near_toDouble ((near_toDouble ((near_toDouble ((near_self 2).mul (near_self rhom))).mul (near_self a))).mul
    (near_toDouble (near_self (Tm - 0))))).div (near_toDouble (near_self (rhom - rhow))))
  have n1 := near_toDouble ((near_toDouble ((near_self k).mul h)).div near_pi)
  obtain ⟨p, n2⟩ := near_sqrt0 g.sqrt n1 h0 (by positivity)
  have n3 := near_toDouble (c1.mul n2)
  have e := (n3.mono (d := 14 * (1 / 2 ^ 52)) (by norm_num)).err (by positivity) (by norm_num)
  unfold halfspaceSubsidenceF halfspaceSubsidence sqrtF sqrtR
  simp only [Option.bind_eq_bind, Option.bind_some]
  rw [if_pos p, if_pos h0]
  right
  refine ⟨_, _, rfl, rfl, ?_⟩
  push_cast at e
  refine e.trans ?_
  rw [mul_comm]
  apply mul_le_mul_of_nonneg_left _ (abs_nonneg _)
  norm_num

/-- The inverse of the complementary error function at the scaled temperature. -/
theorem isotherm_arg {T Tm : ℚ} (h0 : 0 ≤ T) (h1 : T < Tm) :
    ∃ (q : ℚ) (x : ℝ), 0 ≤ x ∧ (0 < toDouble (toDouble (T - Tm) / toDouble (0 - Tm)) ∧ toDouble (toDouble (T - Tm) / toDouble (0 - Tm)) < 2) ∧
      lm.erfcinv (toDouble (toDouble (T - Tm) / toDouble (0 - Tm))) = q ∧ erfcinv (((T : ℝ) - Tm) / (0 - Tm)) = some x ∧ |(q : ℝ) - x| ≤ 8 / 2 ^ 52 * (1 + x) := by
  have hTm : 0 < Tm := h0.trans_lt h1
  have hTm' : (0 : ℝ) < Tm := by exact_mod_cast hTm
  have h0' : (0 : ℝ) ≤ T := by exact_mod_cast h0
  have h1' : (T : ℝ) < Tm := by exact_mod_cast h1
  have ey : ((T : ℝ) - Tm) / (0 - Tm) = (Tm - T) / Tm := by
    rw [← neg_div_neg_eq]; congr 1 <;> ring
  have y0 : 0 < ((T : ℝ) - Tm) / (0 - Tm) := by rw [ey]; apply div_pos <;> linarith
  have y1 : ((T : ℝ) - Tm) / (0 - Tm) ≤ 1 := by rw [ey, div_le_one hTm']; linarith
  have n := near_toDouble ((near_toDouble (near_self (T - Tm))).div (near_toDouble (near_self (0 - Tm))))
  push_cast at n
  have q0 := n.pos y0
  have q1 : toDouble (toDouble (T - Tm) / toDouble (0 - Tm)) ≤ 1 := by
    have hm : toDouble (0 - Tm) ≤ toDouble (T - Tm) := Spec.Rounds.mono toDouble_rounds (by linarith)
    have hn : toDouble (0 - Tm) < 0 := by
      have h2 : toDouble (0 - Tm) ≤ toDouble 0 := Spec.Rounds.mono toDouble_rounds (by linarith)
      have h3 : toDouble (0 - Tm) ≠ 0 := by rw [Ne, toDouble_eq_zero]; linarith
      rw [toDouble_eq_zero.2 rfl] at h2
      exact lt_of_le_of_ne h2 h3
    have h4 : toDouble (T - Tm) / toDouble (0 - Tm) ≤ 1 := by rw [div_le_one_of_neg hn]; exact hm
    have h5 : toDouble 1 = 1 := by decide +kernel
    rw [← h5]
    exact Spec.Rounds.mono toDouble_rounds h4
  obtain ⟨y', hy'⟩ : ∃ y', y' = toDouble (toDouble (T - Tm) / toDouble (0 - Tm)) := ⟨_, rfl⟩
  rw [← hy'] at n q0 q1 ⊢
  have q0' : (0 : ℝ) < y' := by exact_mod_cast q0
  have q1' : (y' : ℝ) ≤ 1 := by exact_mod_cast q1
  obtain ⟨x, ex, hx⟩ := erfcinv_spec _ y0 (by linarith)
  obtain ⟨x', -, hx'⟩ := erfcinv_spec (y' : ℝ) q0' (by linarith)
  have x0 : 0 ≤ x := erf_strictMono.le_iff_le.1 (by rw [erf_zero, hx]; linarith)
  have x0' : 0 ≤ x' := erf_strictMono.le_iff_le.1 (by rw [erf_zero, hx']; linarith)
  obtain ⟨t, ht, e⟩ := n
  have d := erfc_inverse_near x0 x0' (ht.mono (by norm_num)) (by rw [hx, hx', sub_sub_cancel, sub_sub_cancel]; exact e)
  have l := g.erfcinv y' q0 q1 x' (by rw [hx']; ring)
  refine ⟨_, x, x0, ⟨q0, by linarith⟩, rfl, ex, ?_⟩
  rw [abs_of_nonneg x0'] at l
  have d2 := (abs_le.1 d).2
  have := (abs_sub_le (lm.erfcinv y' : ℝ) x' x).trans (add_le_add l d)
  refine this.trans ?_
  norm_num at d2 ⊢
  linarith

/-- Depth of an isotherm of the half-space. -/
theorem isotherm_agree {k t T Tm : ℚ} {X : ℝ} (hk : 0 < k) (hX : 0 ≤ X) (h : Near (2 * (1 / 2 ^ 52)) t X) (h0 : 0 ≤ T) (h1 : T < Tm) {inv : Option ℚ}
    (hi : inv = if 0 < toDouble (toDouble (T - Tm) / toDouble (0 - Tm)) ∧ toDouble (toDouble (T - Tm) / toDouble (0 - Tm)) < 2
      then some (lm.erfcinv (toDouble (toDouble (T - Tm) / toDouble (0 - Tm)))) else none) :
    Agree (fun y => 16 / 2 ^ 52 * (2 * √(k * X) + y))
      (do let s ← sqrtF lm (toDouble (k * t))
          pure (toDouble (toDouble (2 * s) * (← inv))))
      (do let s ← sqrtR (k * X)
          pure (2 * s * (← erfcinv (((T : ℝ) - Tm) / (0 - Tm))))) := by
  obtain ⟨s, e1, e2, n⟩ := near_root g hk hX h
  obtain ⟨q, x, x0, c, eq, ex, b⟩ := isotherm_arg g h0 h1
  rw [if_pos c, eq] at hi
  subst hi
  simp only [Option.bind_eq_bind, Option.bind_some, e1, e2, ex]
  right
  refine ⟨_, _, rfl, rfl, ?_⟩
  obtain ⟨t, ht, e⟩ := near_toDouble (n.mul (near_self q))
  have S0 : 0 ≤ 2 * √((k : ℝ) * X) := by positivity
  refine (scaled_err (n := 7) e (ht.mono (by norm_num)) (by norm_num) (by norm_num) b).trans ?_
  rw [abs_of_nonneg S0, abs_of_nonneg x0]
  have e3 : 16 / 2 ^ 52 * (2 * √((k : ℝ) * X) + 2 * √((k : ℝ) * X) * x) = 2 * √((k : ℝ) * X) * (16 / 2 ^ 52 * (1 + x)) := by ring
  beta_reduce
  rw [e3]
  apply mul_le_mul_of_nonneg_left _ S0
  norm_num
  linarith

/-- The exponential in the cooling of a plate. -/
theorem plate_exp {zL0 t mk : ℚ} {X M : ℝ} (hz : 0 < zL0) (hX : 0 ≤ X) (h : Near (2 * (1 / 2 ^ 52)) t X) (hM : 0 ≤ M) (hm : Near (1 / 2 ^ 52) mk (-M)) :
    |(lm.exp (toDouble (toDouble (toDouble (mk * lm.sqr piF) * t) / lm.sqr zL0)) : ℝ) - exp (-M * π ^ 2 * X / zL0 ^ 2)| ≤ 15 / 2 ^ 52 ∧
      0 ≤ exp (-M * π ^ 2 * X / (zL0 : ℝ) ^ 2) ∧ exp (-M * π ^ 2 * X / (zL0 : ℝ) ^ 2) ≤ 1 := by
  have hz' : (0 : ℝ) < zL0 := by exact_mod_cast hz
  have n1 := near_sqr g.sqr near_pi pi_ne_zero
  have n2 := near_sqr g.sqr (near_self zL0) hz'.ne'
  have n3 := near_toDouble ((near_toDouble ((near_toDouble (hm.mul n1)).mul h)).div n2)
  have e : -M * π ^ 2 * X / (zL0 : ℝ) ^ 2 = -(M * π ^ 2 * X / (zL0 : ℝ) ^ 2) := by ring
  rw [e] at n3 ⊢
  have p : 0 ≤ M * π ^ 2 * X / (zL0 : ℝ) ^ 2 := by positivity
  refine ⟨exp_near g.exp p (n3.mono (by norm_num)), (exp_pos _).le, exp_le_one_iff.2 (by linarith)⟩

/-- One of the ten terms. -/
theorem plateTerm_err {zL0 t z coef mk p : ℚ} {X M c n : ℝ} (hz : 0 < zL0) (hX : 0 ≤ X) (h : Near (2 * (1 / 2 ^ 52)) t X) (hM : 0 ≤ M)
    (hm : Near (1 / 2 ^ 52) mk (-M)) (hc : Near (3 * (1 / 2 ^ 52)) coef c) (hp : Near (2 * (1 / 2 ^ 52)) p (n * π)) (c0 : 0 ≤ c) (n1 : 1 ≤ n)
    (n10 : n ≤ 10) (cn : c * n ≤ 64 / 100) (z0 : 0 ≤ z) (z1 : z ≤ zL0) :
    |(plateTermF lm zL0 t z coef mk p : ℝ) - c * exp (-M * π ^ 2 * X / zL0 ^ 2) * sin (n * π * z / zL0)| ≤ 24 / 2 ^ 52 ∧
      |c * exp (-M * π ^ 2 * X / (zL0 : ℝ) ^ 2) * sin (n * π * z / zL0)| ≤ 64 / 100 := by
  obtain ⟨b1, E0, E1⟩ := plate_exp g hz hX h hM hm
  have hz' : (0 : ℝ) < zL0 := by exact_mod_cast hz
  have z0' : (0 : ℝ) ≤ z := by exact_mod_cast z0
  have z1' : (z : ℝ) ≤ zL0 := by exact_mod_cast z1
  have hpi := pi_lt_d2
  have hpi0 := pi_pos
  have c1 : c ≤ 64 / 100 := by nlinarith
  have nθ := (near_toDouble ((near_toDouble (hp.mul (near_self z))).div (near_self zL0))).mono (d := 4 * (1 / 2 ^ 52)) (by norm_num)
  have eθ := nθ.err (by positivity) (by norm_num)
  have θ0 : 0 ≤ n * π * z / zL0 := by positivity
  have θ1 : n * π * z / zL0 ≤ 315 / 100 * n := by
    rw [div_le_iff₀ hz']
    have : n * π * z ≤ n * (315 / 100) * zL0 := by gcongr; linarith
    linarith
  rw [abs_of_nonneg θ0] at eθ
  have eθ' : |(toDouble (toDouble (p * z) / zL0) : ℝ) - n * π * z / zL0| ≤ 1273 / 100 / 2 ^ 52 * n := by
    refine eθ.trans ?_
    norm_num
    linarith
  have hq : |(toDouble (toDouble (p * z) / zL0) : ℝ)| ≤ 100000 := by
    have := (abs_le.1 eθ')
    norm_num at this
    rw [abs_le]
    constructor <;> linarith
  have bs : |(lm.sin (toDouble (toDouble (p * z) / zL0)) : ℝ) - sin (n * π * z / zL0)| ≤ 2 / 2 ^ 52 + 1273 / 100 / 2 ^ 52 * n := by
    refine (abs_sub_le _ (sin (toDouble (toDouble (p * z) / zL0) : ℝ)) _).trans (add_le_add ((g.sin _ hq).trans (by norm_num)) ((sin_sub_le' _ _).trans eθ'))
  unfold plateTermF
  obtain ⟨E, hE⟩ : ∃ E, E = exp (-M * π ^ 2 * X / (zL0 : ℝ) ^ 2) := ⟨_, rfl⟩
  rw [← hE] at b1 E0 E1 ⊢
  generalize lm.exp (toDouble (toDouble (toDouble (mk * lm.sqr piF) * t) / lm.sqr zL0)) = e at *
  generalize lm.sin (toDouble (toDouble (p * z) / zL0)) = s at *
  have S1 := abs_sin_le_one (n * π * z / zL0)
  generalize sin (n * π * z / zL0) = S at *
  have bes : |(e : ℝ) * s - E * S| ≤ 18 / 2 ^ 52 + 13 / 2 ^ 52 * n := by
    have e1 : (e : ℝ) * s - E * S = (e - E) * S + e * (s - S) := by ring
    have he : |(e : ℝ)| ≤ 1 + 15 / 2 ^ 52 := by
      have := abs_le.1 b1
      rw [abs_le]
      constructor <;> linarith
    rw [e1]
    refine (abs_add_le _ _).trans ?_
    rw [abs_mul, abs_mul]
    have p1 := mul_le_mul b1 S1 (abs_nonneg _) (by positivity)
    have p2 := mul_le_mul he bs (abs_nonneg _) (by positivity)
    norm_num at p1 p2 ⊢
    linarith
  have ES : |E * S| ≤ 1 := by
    rw [abs_mul, abs_of_nonneg E0]
    exact mul_le_one₀ E1 (abs_nonneg _) S1
  constructor
  · obtain ⟨t', ht', e'⟩ := near_toDouble ((near_toDouble (hc.mul (near_self e))).mul (near_self s))
    have e'' : (toDouble (toDouble (coef * e) * s) : ℝ) = c * ((e : ℝ) * s) * t' := by rw [e']; ring
    have := scaled_err (n := 5) e'' (ht'.mono (by norm_num)) (by norm_num) (by norm_num) bes
    rw [mul_assoc]
    refine this.trans ?_
    rw [abs_of_nonneg c0]
    have k1 : (|E * S| + (18 / 2 ^ 52 + 13 / 2 ^ 52 * n)) * (101 / 100 * (5 * (1 / 2 ^ 52))) + (18 / 2 ^ 52 + 13 / 2 ^ 52 * n) ≤ 234 / 10 / 2 ^ 52 + 126 / 10 / 2 ^ 52 * n + 1 / 2 ^ 52 * n := by
      have := mul_le_mul_of_nonneg_right ES (show (0 : ℝ) ≤ 101 / 100 * (5 * (1 / 2 ^ 52)) by positivity)
      norm_num at this ⊢
      linarith
    refine (mul_le_mul_of_nonneg_left k1 c0).trans ?_
    norm_num
    nlinarith
  · rw [mul_assoc, abs_mul, abs_of_nonneg c0]
    exact (mul_le_mul c1 ES (abs_nonneg _) (by norm_num)).trans (by norm_num)

end

/-- A sum of terms from the left. -/
theorem fold_err (l : List ℚ) (w : List ℝ) (h : List.Forall₂ (fun (a : ℚ) (b : ℝ) => |(a : ℝ) - b| ≤ 24 / 2 ^ 52 ∧ |b| ≤ 64 / 100) l w) :
    ∀ (s : ℚ) (S e B : ℝ), |(s : ℝ) - S| ≤ e → |S| ≤ B → B + 64 / 100 * w.length ≤ 8 → e + 33 / 2 ^ 52 * w.length ≤ 1 / 2 →
      |((l.foldl (fun a b => toDouble (a + b)) s : ℚ) : ℝ) - w.foldl (· + ·) S| ≤ e + 33 / 2 ^ 52 * w.length ∧ |w.foldl (· + ·) S| ≤ B + 64 / 100 * w.length := by
  induction h with
  | nil => intro s S e B h1 h2 _ _; simpa using ⟨h1, h2⟩
  | @cons a b l w hab _ ih =>
    intro s S e B h1 h2 h3 h4
    simp only [List.length_cons, Nat.cast_add, Nat.cast_one, List.foldl_cons] at *
    have hl : (0 : ℝ) ≤ w.length := Nat.cast_nonneg _
    have he : 0 ≤ e := (abs_nonneg _).trans h1
    have k1 : |((s + a : ℚ) : ℝ) - (S + b)| ≤ e + 24 / 2 ^ 52 := by
      push_cast
      rw [show (s : ℝ) + a - (S + b) = (s - S) + (a - b) by ring]
      exact (abs_add_le _ _).trans (add_le_add h1 hab.1)
    have k2 : |S + b| ≤ B + 64 / 100 := (abs_add_le _ _).trans (add_le_add h2 hab.2)
    have k3 := rnd_err (δ := 1 / 2 ^ 52) le_rfl (s + a) (S + b) k1 k2
    have := ih (toDouble (s + a)) (S + b) (e + 33 / 2 ^ 52) (B + 64 / 100) (k3.trans (by
      norm_num at h3 h4 ⊢
      linarith)) k2 (by linarith) (by linarith)
    refine ⟨this.1.trans (by linarith), this.2.trans (by linarith)⟩

section
variable {lm : ThermLibm} (g : GoodThermLib lm.exp lm.sin lm.erf lm.erfcinv lm.sqrt lm.sqr)
include g

theorem plateTerms_err {zL0 k t z : ℚ} {X : ℝ} (hz : 0 < zL0) (hk : 0 ≤ k) (hX : 0 ≤ X) (h : Near (2 * (1 / 2 ^ 52)) t X) (z0 : 0 ≤ z) (z1 : z ≤ zL0) :
    List.Forall₂ (fun (a : ℚ) (b : ℝ) => |(a : ℝ) - b| ≤ 24 / 2 ^ 52 ∧ |b| ≤ 64 / 100) (plateTermsF lm zL0 k t z) (plateTerms zL0 k X z) := by
  have hk' : (0 : ℝ) ≤ k := by exact_mod_cast hk
  have hpi := pi_gt_d2
  have hpi0 := pi_pos
  have c2 := near_toDouble ((near_self 2).div near_pi)
  have hc2 : 2 / π ≤ 64 / 100 := by rw [div_le_iff₀ hpi0]; linarith
  have gen : ∀ n : ℚ, 1 ≤ n → n ≤ 10 → |(plateTermF lm zL0 t z (toDouble (toDouble (2 / piF) / n)) (toDouble (-(n * n) * k)) (toDouble (n * piF)) : ℝ) -
        2 / π / n * exp (-(n * n) * k * π ^ 2 * X / zL0 ^ 2) * sin (n * π * z / zL0)| ≤ 24 / 2 ^ 52 ∧
      |2 / π / n * exp (-(n * n) * k * π ^ 2 * X / (zL0 : ℝ) ^ 2) * sin (n * π * z / zL0)| ≤ 64 / 100 := by
    intro n n1 n10
    have n1' : (1 : ℝ) ≤ n := by exact_mod_cast n1
    have n10' : (n : ℝ) ≤ 10 := by exact_mod_cast n10
    have m := near_toDouble (near_self (-(n * n) * k))
    have c := near_toDouble (c2.div (near_self n))
    have p := near_toDouble ((near_self n).mul near_pi)
    push_cast at m c p
    have := plateTerm_err g (c := 2 / π / n) (n := n) (M := n * n * k) (z := z) hz hX h (by positivity) (by convert m.mono (d := 1 / 2 ^ 52) (by norm_num) using 1; ring)
      (c.mono (by norm_num)) (p.mono (by norm_num)) (by positivity) n1' n10' (by rw [div_mul_cancel₀ _ (by positivity)]; exact hc2) z0 z1
    rw [show -((n : ℝ) * n * k) = -(n * n) * k by ring] at this
    exact ⟨this.1.trans (by norm_num), this.2⟩
  have first : |(plateTermF lm zL0 t z (toDouble (2 / piF)) (-k) piF : ℝ) - 2 / π * exp (-k * π ^ 2 * X / zL0 ^ 2) * sin (π * z / zL0)| ≤ 24 / 2 ^ 52 ∧
      |2 / π * exp (-k * π ^ 2 * X / (zL0 : ℝ) ^ 2) * sin (π * z / zL0)| ≤ 64 / 100 := by
    have m := near_self (-k)
    push_cast at m c2
    have := plateTerm_err g (c := 2 / π) (n := 1) (M := k) (z := z) hz hX h hk' (m.mono (by norm_num))
      (c2.mono (by norm_num)) (by rw [one_mul]; exact near_pi.mono (by norm_num)) (by positivity) le_rfl (by norm_num) (by linarith) z0 z1
    rw [one_mul] at this
    exact ⟨this.1.trans (by norm_num), this.2⟩
  have second : |(plateTermF lm zL0 t z (toDouble (1 / piF)) (toDouble (-4 * k)) (toDouble (2 * piF)) : ℝ) -
        1 / π * exp (-4 * k * π ^ 2 * X / zL0 ^ 2) * sin (2 * π * z / zL0)| ≤ 24 / 2 ^ 52 ∧
      |1 / π * exp (-4 * k * π ^ 2 * X / (zL0 : ℝ) ^ 2) * sin (2 * π * z / zL0)| ≤ 64 / 100 := by
    have m := near_toDouble (near_self (-4 * k))
    have c := near_toDouble ((near_self 1).div near_pi)
    have p := near_toDouble ((near_self 2).mul near_pi)
    push_cast at m c p
    have := plateTerm_err g (c := 1 / π) (n := 2) (M := 4 * k) (z := z) hz hX h (by positivity) (by convert m.mono (d := 1 / 2 ^ 52) (by norm_num) using 1; ring)
      (c.mono (by norm_num)) (p.mono (by norm_num)) (by positivity) (by norm_num) (by norm_num) (by rw [div_mul_eq_mul_div, one_mul]; exact hc2) z0 z1
    rw [show -(4 * (k : ℝ)) = -4 * k by ring] at this
    exact ⟨this.1.trans (by norm_num), this.2⟩
  unfold plateTermsF plateTerms
  refine .cons first (.cons second (.cons ?_ (.cons ?_ (.cons ?_ (.cons ?_ (.cons ?_ (.cons ?_ (.cons ?_ (.cons ?_ .nil)))))))))
  · have := gen 3 (by norm_num) (by norm_num); norm_num at this ⊢; exact this
  · have := gen 4 (by norm_num) (by norm_num); norm_num at this ⊢; exact this
  · have := gen 5 (by norm_num) (by norm_num); norm_num at this ⊢; exact this
  · have := gen 6 (by norm_num) (by norm_num); norm_num at this ⊢; exact this
  · have := gen 7 (by norm_num) (by norm_num); norm_num at this ⊢; exact this
  · have := gen 8 (by norm_num) (by norm_num); norm_num at this ⊢; exact this
  · have := gen 9 (by norm_num) (by norm_num); norm_num at this ⊢; exact this
  · have := gen 10 (by norm_num) (by norm_num); norm_num at this ⊢; exact this

/-- A node of the plate. -/
theorem plateNode_err {zL0 Tm k t z : ℚ} {X : ℝ} (hz : 0 < zL0) (hk : 0 ≤ k) (hX : 0 ≤ X) (h : Near (2 * (1 / 2 ^ 52)) t X) (z0 : 0 ≤ z) :
    |(plateNodeF lm zL0 Tm k t z : ℝ) - plateNode zL0 Tm k X z| ≤ |(Tm : ℝ)| / 2 ^ 43 := by
  unfold plateNodeF plateNode
  rcases lt_or_ge zL0 z with hlt | hle
  · rw [if_pos hlt, if_pos (by exact_mod_cast hlt), sub_self, abs_zero]
    positivity
  · rw [if_neg (not_lt.2 hle), if_neg (not_lt.2 (by exact_mod_cast hle))]
    have hz' : (0 : ℝ) < zL0 := by exact_mod_cast hz
    have z0' : (0 : ℝ) ≤ z := by exact_mod_cast z0
    have hle' : (z : ℝ) ≤ zL0 := by exact_mod_cast hle
    have n := (near_toDouble ((near_self z).div (near_self zL0))).mono (d := 1 * (1 / 2 ^ 52)) (by norm_num)
    have e := n.err (by positivity) (by norm_num)
    have b : |(z : ℝ) / zL0| ≤ 1 := by
      rw [abs_of_nonneg (by positivity), div_le_one hz']
      exact hle'
    have e' : |(toDouble (z / zL0) : ℝ) - z / zL0| ≤ 2 / 2 ^ 52 := by
      refine e.trans ?_
      norm_num
      linarith
    have hl : ((plateTerms zL0 k X z).length : ℝ) = 10 := by simp [plateTerms]
    obtain ⟨f1, f2⟩ := fold_err _ _ (plateTerms_err g hz hk hX h z0 hle) _ _ _ _ e' b (by rw [hl]; norm_num) (by rw [hl]; norm_num)
    rw [hl] at f1 f2
    rw [zero_add, zero_add, sub_zero, sub_zero]
    generalize List.foldl (fun a b => toDouble (a + b)) (toDouble (z / zL0)) (plateTermsF lm zL0 k t z) = s at *
    generalize List.foldl (· + ·) ((z : ℝ) / zL0) (plateTerms zL0 k X z) = S at *
    obtain ⟨t, ht, e1⟩ := near_toDouble (near_toDouble ((near_toDouble (near_self Tm)).mul (near_self s)))
    refine (scaled_err (n := 3) e1 (ht.mono (by norm_num)) (by norm_num) (by norm_num) f1).trans ?_
    rw [div_eq_mul_inv]
    apply mul_le_mul_of_nonneg_left _ (abs_nonneg _)
    norm_num at f2 ⊢
    linarith

/-- Subsidence of the plate. -/
theorem plateW_err {zL0 Tm k t rhom rhow a : ℚ} {X : ℝ} (hz : 0 < zL0) (hk : 0 ≤ k) (hX : 0 ≤ X) (h : Near (2 * (1 / 2 ^ 52)) t X) :
    |(plateSubsidenceF lm (plateFactorF zL0 Tm rhom rhow a) zL0 k t : ℝ) - plateSubsidence (rhom * a * (Tm - 0) * zL0 / (rhom - rhow)) zL0 k X| ≤
      |plateSubsidence ((rhom : ℝ) * a * (Tm - 0) * zL0 / (rhom - rhow)) zL0 k X| / 2 ^ 42 := by
  have hk' : (0 : ℝ) ≤ k := by exact_mod_cast hk
  have hpi := pi_gt_d2
  have hpi0 := pi_pos
  have c1 := near_toDouble ((near_toDouble ((near_toDouble ((near_toDouble ((near_self rhom).mul (near_self a))).mul (near_toDouble (near_self (Tm - 0))))).mul
    (near_self zL0))).div (near_toDouble (near_self (rhom - rhow))))
  push_cast at c1
  have n1 := near_sqr g.sqr near_pi pi_ne_zero
  have p2 : (9859 / 1000 : ℝ) ≤ π ^ 2 := by nlinarith
  have W : ∀ {coef mk : ℚ} {c M B : ℝ}, Near (7 * (1 / 2 ^ 52)) coef c → Near (1 / 2 ^ 52) mk (-M) → 0 ≤ M → 0 ≤ c → c ≤ B →
      |(plateWTermF lm zL0 t coef mk : ℝ) - c * exp (-M * π ^ 2 * X / zL0 ^ 2)| ≤ B * (25 / 2 ^ 52) ∧ 0 ≤ c * exp (-M * π ^ 2 * X / (zL0 : ℝ) ^ 2) ∧
        c * exp (-M * π ^ 2 * X / (zL0 : ℝ) ^ 2) ≤ B := by
    intro coef mk c M B hc hm hM c0 cB
    obtain ⟨b1, E0, E1⟩ := plate_exp g hz hX h hM hm
    unfold plateWTermF
    generalize exp (-M * π ^ 2 * X / (zL0 : ℝ) ^ 2) = E at *
    generalize lm.exp (toDouble (toDouble (toDouble (mk * lm.sqr piF) * t) / lm.sqr zL0)) = e at *
    obtain ⟨t', ht', e'⟩ := near_toDouble (hc.mul (near_self e))
    refine ⟨?_, by positivity, ?_⟩
    · refine (scaled_err (n := 8) e' (ht'.mono (by norm_num)) (by norm_num) (by norm_num) b1).trans ?_
      rw [abs_of_nonneg c0, abs_of_nonneg E0]
      refine mul_le_mul cB ?_ (by positivity) (c0.trans cB)
      norm_num
      linarith
    · exact (mul_le_of_le_one_right c0 E1).trans cB
  have a2 := W (c := 4 / π ^ 2) (M := k) (B := 4058 / 10000) (by have m := near_toDouble ((near_self 4).div n1); push_cast at m; exact m.mono (by norm_num))
    (by have m := near_self (-k); push_cast at m; exact m.mono (by norm_num)) hk' (by positivity) (by rw [div_le_iff₀ (by positivity)]; linarith)
  have a3 := W (c := 4 / (9 * π ^ 2)) (M := k * 9) (B := 4509 / 100000)
    (by have m := near_toDouble ((near_self 4).div (near_toDouble ((near_self 9).mul n1))); push_cast at m; exact m.mono (by norm_num))
    (by have m := near_toDouble (near_self (-k * 9)); push_cast at m; convert m.mono (d := 1 / 2 ^ 52) (by norm_num) using 1; ring) (by positivity) (by positivity)
    (by rw [div_le_iff₀ (by positivity)]; linarith)
  have a4 := W (c := 4 / (25 * π ^ 2)) (M := k * 25) (B := 1624 / 100000)
    (by have m := near_toDouble ((near_self 4).div (near_toDouble ((near_self 25).mul n1))); push_cast at m; exact m.mono (by norm_num))
    (by have m := near_toDouble (near_self (-k * 25)); push_cast at m; convert m.mono (d := 1 / 2 ^ 52) (by norm_num) using 1; ring) (by positivity) (by positivity)
    (by rw [div_le_iff₀ (by positivity)]; linarith)
  unfold plateSubsidenceF plateSubsidence
  simp only
  rw [show -((k : ℝ) * 9) = -k * 9 by ring] at a3
  rw [show -((k : ℝ) * 25) = -k * 25 by ring] at a4
  generalize plateWTermF lm zL0 t (toDouble (4 / lm.sqr piF)) (-k) = w2 at *
  generalize plateWTermF lm zL0 t (toDouble (4 / toDouble (9 * lm.sqr piF))) (toDouble (-k * 9)) = w3 at *
  generalize plateWTermF lm zL0 t (toDouble (4 / toDouble (25 * lm.sqr piF))) (toDouble (-k * 25)) = w4 at *
  generalize 4 / π ^ 2 * exp (-k * π ^ 2 * X / (zL0 : ℝ) ^ 2) = W2 at *
  generalize 4 / (9 * π ^ 2) * exp (-k * 9 * π ^ 2 * X / (zL0 : ℝ) ^ 2) = W3 at *
  generalize 4 / (25 * π ^ 2) * exp (-k * 25 * π ^ 2 * X / (zL0 : ℝ) ^ 2) = W4 at *
  have r1 := rnd_err (δ := 1 / 2 ^ 52) (e := 12 / 2 ^ 52) (W := 1) le_rfl (1 / 2 - w2) (1 / 2 - W2)
    (by push_cast; rw [show (1 : ℝ) / 2 - w2 - (1 / 2 - W2) = -(w2 - W2) by ring, abs_neg]; exact a2.1.trans (by norm_num))
    (by rw [abs_le]; constructor <;> linarith [a2.2.1, a2.2.2])
  have r2 := rnd_err (δ := 1 / 2 ^ 52) (e := 16 / 2 ^ 52) (W := 1) le_rfl (toDouble (1 / 2 - w2) - w3) (1 / 2 - W2 - W3)
    (by push_cast
        rw [show (toDouble (1 / 2 - w2) : ℝ) - w3 - (1 / 2 - W2 - W3) = (toDouble (1 / 2 - w2) - (1 / 2 - W2)) - (w3 - W3) by ring]
        exact (abs_sub _ _).trans ((add_le_add r1 a3.1).trans (by norm_num)))
    (by rw [abs_le]; constructor <;> linarith [a2.2.1, a2.2.2, a3.2.1, a3.2.2])
  have r3 := rnd_err (δ := 1 / 2 ^ 52) (e := 18 / 2 ^ 52) (W := 1) le_rfl (toDouble (toDouble (1 / 2 - w2) - w3) - w4) (1 / 2 - W2 - W3 - W4)
    (by push_cast
        rw [show (toDouble (toDouble (1 / 2 - w2) - w3) : ℝ) - w4 - (1 / 2 - W2 - W3 - W4) = (toDouble (toDouble (1 / 2 - w2) - w3) - (1 / 2 - W2 - W3)) - (w4 - W4) by ring]
        exact (abs_sub _ _).trans ((add_le_add r2 a4.1).trans (by norm_num)))
    (by rw [abs_le]; constructor <;> linarith [a2.2.1, a2.2.2, a3.2.1, a3.2.2, a4.2.1, a4.2.2])
  have I0 : 1 / 31 ≤ 1 / 2 - W2 - W3 - W4 := by linarith [a2.2.2, a3.2.2, a4.2.2]
  have I1 : 1 / 2 - W2 - W3 - W4 ≤ 1 / 2 := by linarith [a2.2.1, a3.2.1, a4.2.1]
  generalize toDouble (toDouble (toDouble (1 / 2 - w2) - w3) - w4) = v at *
  generalize 1 / 2 - W2 - W3 - W4 = I at *
  obtain ⟨t', ht', e'⟩ := near_toDouble (c1.mul (near_self v))
  unfold plateFactorF
  refine (scaled_err (n := 8) e' (ht'.mono (by norm_num)) (by norm_num) (by norm_num) r3).trans ?_
  rw [abs_mul _ I, mul_div_assoc (|_|) (|I|)]
  apply mul_le_mul_of_nonneg_left _ (abs_nonneg _)
  rw [abs_of_nonneg (by linarith : 0 ≤ I)]
  norm_num
  linarith

end

end Shipgrav
