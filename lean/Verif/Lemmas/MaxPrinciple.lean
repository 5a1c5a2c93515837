import Verif.Spec.LevelEllipsoid
import Mathlib.Analysis.Calculus.DerivativeTest
import Mathlib.Analysis.Calculus.ContDiff.Comp
import Mathlib.Analysis.Calculus.ContDiff.Operations
import Mathlib.Analysis.Calculus.Deriv.Pow
import Mathlib.Topology.Algebra.Order.LiminfLimsup

/-! Maximum principle for harmonic functions outside a bounded set. -/

namespace Shipgrav
open Spec Filter Topology

/-- At a maximum the second derivative is not positive. -/
theorem second_nonpos {f : ℝ → ℝ} {x : ℝ} (hf : ContinuousAt f x) (hm : IsLocalMax f x) : deriv (deriv f) x ≤ 0 := by
  by_contra h
  push Not at h
  have h1 := hm.deriv_eq_zero
  have h2 := isLocalMin_of_deriv_deriv_pos h h1 hf
  have h3 : f =ᶠ[𝓝 x] fun _ => f x := by
    filter_upwards [hm, h2] with s a b
    exact le_antisymm a b
  have h4 : deriv f =ᶠ[𝓝 x] fun _ => 0 := by
    refine h3.eventuallyEq_nhds.mono fun s hs => ?_
    rw [hs.deriv_eq, deriv_const]
  rw [h4.deriv_eq, deriv_const] at h
  exact lt_irrefl _ h

/-- The same for a sum with a parabola. -/
theorem second_le {f : ℝ → ℝ} {x ε : ℝ} (hf : ContDiffAt ℝ 2 f x) (hm : IsLocalMax (fun s => f s + ε * s ^ 2) x) :
    deriv (deriv f) x ≤ -(2 * ε) := by
  have hq : ∀ s : ℝ, HasDerivAt (fun s : ℝ => ε * s ^ 2) (2 * ε * s) s := fun s => by
    refine HasDerivAt.congr_deriv ((hasDerivAt_pow 2 s).const_mul ε) (by norm_num; ring)
  have hc : ContinuousAt (fun s => f s + ε * s ^ 2) x := hf.continuousAt.add (hq x).continuousAt
  have h := second_nonpos hc hm
  have hd : ∀ᶠ s in 𝓝 x, DifferentiableAt ℝ f s := by
    refine (hf.eventually (by norm_num)).mono fun s hs => hs.differentiableAt (by norm_num)
  have he : deriv (fun s => f s + ε * s ^ 2) =ᶠ[𝓝 x] fun s => deriv f s + 2 * ε * s := hd.mono fun s hs =>
    ((hs.hasDerivAt).add (hq s)).deriv
  have hd2 : DifferentiableAt ℝ (deriv f) x := by
    have h1 : ContDiffAt ℝ 1 (fderiv ℝ f) x := hf.fderiv_right (by norm_num)
    have h2 : DifferentiableAt ℝ (fun s => fderiv ℝ f s 1) x := (h1.differentiableAt (by norm_num)).clm_apply (differentiableAt_const 1)
    exact h2
  have hl : HasDerivAt (fun s => deriv f s + 2 * ε * s) (deriv (deriv f) x + 2 * ε * 1) x :=
    hd2.hasDerivAt.add ((hasDerivAt_id x).const_mul (2 * ε))
  rw [he.deriv_eq, hl.deriv] at h
  linarith

theorem continuous_form (a b : ℝ) : Continuous (ellipsoidForm a b) := by
  unfold ellipsoidForm
  fun_prop

/-- Maximum principle outside the ellipsoid. -/
theorem max_principle (a b : ℝ) (d : Space → ℝ) (hcont : ContinuousOn d {p | 1 ≤ ellipsoidForm a b p})
    (hsm : ∀ p, 1 < ellipsoidForm a b p → ContDiffAt ℝ 2 d p) (hlap : ∀ p, 1 < ellipsoidForm a b p → laplacian d p = 0)
    (hb : ∀ p, ellipsoidForm a b p = 1 → d p ≤ 0) (hinf : Tendsto d (cocompact Space) (𝓝 0)) (p : Space) (hp : 1 ≤ ellipsoidForm a b p) :
    d p ≤ 0 := by
  by_contra hpos
  push Not at hpos
  have hev : ∀ᶠ q in cocompact Space, d q < d p / 2 := hinf.eventually (gt_mem_nhds (by linarith))
  obtain ⟨C, hC, hCd⟩ := mem_cocompact.1 hev
  obtain ⟨R, hR⟩ := hC.isBounded.subset_closedBall 0
  obtain ⟨B, hB⟩ : ∃ B, B = max (max R ‖p‖) 0 + 1 := ⟨_, rfl⟩
  have hB0 : 0 < B := by have := le_max_right (max R ‖p‖) 0; linarith
  have hBR : R < B := by have := le_max_left R ‖p‖; have := le_max_left (max R ‖p‖) 0; linarith
  have hBp : ‖p‖ < B := by have := le_max_right R ‖p‖; have := le_max_left (max R ‖p‖) 0; linarith
  have hclosed : IsClosed {p | 1 ≤ ellipsoidForm a b p} := isClosed_le continuous_const (continuous_form a b)
  have hK : IsCompact ({p | 1 ≤ ellipsoidForm a b p} ∩ Metric.closedBall (0 : Space) B) := (isCompact_closedBall 0 B).inter_left hclosed
  obtain ⟨ε, hε⟩ : ∃ ε, ε = d p / (12 * B ^ 2) := ⟨_, rfl⟩
  have hε0 : 0 < ε := by rw [hε]; positivity
  have hg : ContinuousOn (fun q : Space => d q + ε * (q.1 ^ 2 + q.2.1 ^ 2 + q.2.2 ^ 2))
      ({p | 1 ≤ ellipsoidForm a b p} ∩ Metric.closedBall (0 : Space) B) :=
    (hcont.mono Set.inter_subset_left).add (Continuous.continuousOn (by fun_prop))
  obtain ⟨m, ⟨hm1, hm2⟩, hmax⟩ := hK.exists_isMaxOn ⟨p, hp, by simpa using hBp.le⟩ hg
  have hmp : d p + ε * (p.1 ^ 2 + p.2.1 ^ 2 + p.2.2 ^ 2) ≤ d m + ε * (m.1 ^ 2 + m.2.1 ^ 2 + m.2.2 ^ 2) :=
    hmax ⟨hp, by simpa using hBp.le⟩
  have hp0 : 0 ≤ ε * (p.1 ^ 2 + p.2.1 ^ 2 + p.2.2 ^ 2) := by positivity
  have hge : d p ≤ d m + ε * (m.1 ^ 2 + m.2.1 ^ 2 + m.2.2 ^ 2) := by linarith
  have hmB : ‖m‖ ≤ B := by simpa using hm2
  have hn1 : |m.1| ≤ B := (norm_fst_le m).trans hmB
  have hn2 : |m.2.1| ≤ B := ((norm_fst_le m.2).trans (norm_snd_le m)).trans hmB
  have hn3 : |m.2.2| ≤ B := ((norm_snd_le m.2).trans (norm_snd_le m)).trans hmB
  have hr : ε * (m.1 ^ 2 + m.2.1 ^ 2 + m.2.2 ^ 2) ≤ d p / 4 := by
    have h1 := sq_le_sq' (neg_le_of_abs_le hn1) (le_of_abs_le hn1)
    have h2 := sq_le_sq' (neg_le_of_abs_le hn2) (le_of_abs_le hn2)
    have h3 := sq_le_sq' (neg_le_of_abs_le hn3) (le_of_abs_le hn3)
    calc ε * (m.1 ^ 2 + m.2.1 ^ 2 + m.2.2 ^ 2) ≤ ε * (3 * B ^ 2) := by gcongr; linarith
      _ = d p / 4 := by rw [hε]; field_simp; norm_num
  rcases eq_or_lt_of_le (show 1 ≤ ellipsoidForm a b m from hm1) with h1 | h1
  · have := hb m h1.symm
    linarith
  rcases eq_or_lt_of_le hmB with h2 | h2
  · have : m ∉ C := fun hmem => by
      have := hR hmem
      rw [mem_closedBall_zero_iff] at this
      linarith
    have : d m < d p / 2 := hCd this
    linarith
  have hloc : IsLocalMax (fun q : Space => d q + ε * (q.1 ^ 2 + q.2.1 ^ 2 + q.2.2 ^ 2)) m := by
    have e1 : ∀ᶠ q in 𝓝 m, 1 < ellipsoidForm a b q := (continuous_form a b).continuousAt.eventually (lt_mem_nhds h1)
    have e2 : ∀ᶠ q in 𝓝 m, ‖q‖ < B := continuous_norm.continuousAt.eventually (gt_mem_nhds h2)
    filter_upwards [e1, e2] with q a1 a2
    exact hmax ⟨a1.le, by simpa using a2.le⟩
  obtain ⟨x, y, z⟩ := m
  have hd := hsm _ h1
  have cx : ContDiff ℝ 2 fun s : ℝ => ((s, y, z) : Space) := by fun_prop
  have cy : ContDiff ℝ 2 fun s : ℝ => ((x, s, z) : Space) := by fun_prop
  have cz : ContDiff ℝ 2 fun s : ℝ => ((x, y, s) : Space) := by fun_prop
  have lx := second_le (f := fun s => d (s, y, z)) (x := x) (ε := ε) (hd.comp (f := fun s : ℝ => ((s, y, z) : Space)) x cx.contDiffAt) (by
    have := IsLocalMax.comp_continuous (g := fun s : ℝ => ((s, y, z) : Space)) (b := x) hloc cx.continuous.continuousAt
    refine this.mono fun s hs => ?_
    simp only [Function.comp_apply] at hs
    linarith)
  have ly := second_le (f := fun s => d (x, s, z)) (x := y) (ε := ε) (hd.comp (f := fun s : ℝ => ((x, s, z) : Space)) y cy.contDiffAt) (by
    have := IsLocalMax.comp_continuous (g := fun s : ℝ => ((x, s, z) : Space)) (b := y) hloc cy.continuous.continuousAt
    refine this.mono fun s hs => ?_
    simp only [Function.comp_apply] at hs
    linarith)
  have lz := second_le (f := fun s => d (x, y, s)) (x := z) (ε := ε) (hd.comp (f := fun s : ℝ => ((x, y, s) : Space)) z cz.contDiffAt) (by
    have := IsLocalMax.comp_continuous (g := fun s : ℝ => ((x, y, s) : Space)) (b := z) hloc cz.continuous.continuousAt
    refine this.mono fun s hs => ?_
    simp only [Function.comp_apply] at hs
    linarith)
  have h0 := hlap _ h1
  unfold laplacian at h0
  simp only at h0
  linarith

end Shipgrav
