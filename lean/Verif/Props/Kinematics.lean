import Verif.Model.Kinematics
import Verif.Props.Nav
import Verif.Props.LevelError

/-! C117: accelerations of the ship from its positions, as in the example script for the cross-coupling correction. -/

namespace Shipgrav
open Spec

/-! ### What should come out -/

/-- Northward velocity at sample `i` in m/s: latitudes in degrees, `s` samples per second. -/
noncomputable def Spec.northVel (lat : ℕ → ℝ) (s : ℝ) (i : ℕ) : ℝ := s * (meridianRadius (rad (lat i)) * rad (centralDiff10 lat i))

/-- Eastward velocity. -/
noncomputable def Spec.eastVel (lat lon : ℕ → ℝ) (s : ℝ) (i : ℕ) : ℝ := s * (parallelRadius (rad (lat i)) * rad (centralDiff10 lon i))

/-- The component of `(e, n)` to the right of the direction `(ve, vn)`; of no direction: east. -/
noncomputable def Spec.acrossOf (ve vn e n : ℝ) : ℝ := if ve = 0 ∧ vn = 0 then e else (e * vn - n * ve) / Real.sqrt (ve ^ 2 + vn ^ 2)

/-- The component of `(e, n)` in the direction `(ve, vn)`; of no direction: north. -/
noncomputable def Spec.alongOf (ve vn e n : ℝ) : ℝ := if ve = 0 ∧ vn = 0 then n else (e * ve + n * vn) / Real.sqrt (ve ^ 2 + vn ^ 2)

/-! ### Proofs -/

private theorem rotate_course (ve vn e n : ℝ) : rotateENtoCL (enVelToCourseHeading ve vn).1 e n = (acrossOf ve vn e n, alongOf ve vn e n) := by
  obtain ⟨⟨h, v⟩, hh⟩ : ∃ p, enVelToCourseHeading ve vn = p := ⟨_, rfl⟩
  obtain ⟨h1, h2, -⟩ := C20_polar ve vn h v hh
  have hv : v = Real.sqrt (ve ^ 2 + vn ^ 2) := by
    have := congrArg Prod.snd hh
    exact this.symm
  unfold acrossOf alongOf
  by_cases h0 : ve = 0 ∧ vn = 0
  · rw [if_pos h0, if_pos h0]
    obtain ⟨rfl, rfl⟩ := h0
    have : (enVelToCourseHeading 0 0).1 = 0 := by
      unfold enVelToCourseHeading arctan2 rad2deg
      rw [show (⟨0, 0⟩ : ℂ) = 0 from rfl, Complex.arg_zero, zero_mul]
    rw [this]
    exact (C21_orientation e n).1
  · rw [if_neg h0, if_neg h0, ← hv]
    have hv0 : v ≠ 0 := by
      intro hz
      have := (C20_zero_speed ve vn).1 (by rw [hh]; exact hz)
      exact h0 this
    rw [hh]
    unfold rotateENtoCL
    have hd : deg2rad h = rad h := rfl
    simp only [hd]
    refine Prod.ext ?_ ?_
    · simp only
      rw [eq_div_iff hv0]
      linear_combination e * h2 - n * h1
    · simp only
      rw [eq_div_iff hv0]
      linear_combination e * h1 + n * h2

private theorem zipWith_same {α β γ δ : Type} (f : β → γ → δ) (g : α → β) (h : α → γ) (l : List α) :
    List.zipWith f (l.map g) (l.map h) = l.map fun x => f (g x) (h x) := by
  induction l with
  | nil => rfl
  | cons a l ih => simp [ih]

private theorem window_none (f : ℕ → Option ℝ) (n i : ℕ) (hi : i < n) :
    (((samples f n).take (i + 5 + 1)).drop (i + 5 + 1 - 11)).any Option.isNone = true ↔ ∃ k < n, i ≤ k + 5 ∧ k ≤ i + 5 ∧ f k = none := by
  rw [List.any_eq_true]
  constructor
  · rintro ⟨x, hx, hn⟩
    obtain ⟨j, hj⟩ := List.mem_iff_getElem?.1 hx
    rw [List.getElem?_drop, List.getElem?_take] at hj
    split at hj
    · rename_i hlt
      by_cases hk : i + 5 + 1 - 11 + j < n
      · unfold samples at hj
        rw [List.getElem?_map, List.getElem?_range hk] at hj
        simp only [Option.map_some, Option.some.injEq] at hj
        exact ⟨_, hk, by omega, by omega, by rw [hj]; simpa using hn⟩
      · rw [List.getElem?_eq_none (by simp [samples]; omega)] at hj
        cases hj
    · cases hj
  · rintro ⟨k, hk, h1, h2, hf⟩
    refine ⟨none, ?_, rfl⟩
    rw [List.mem_iff_getElem?]
    refine ⟨k - (i + 5 + 1 - 11), ?_⟩
    rw [List.getElem?_drop, List.getElem?_take, if_pos (by omega), show i + 5 + 1 - 11 + (k - (i + 5 + 1 - 11)) = k by omega]
    unfold samples
    rw [List.getElem?_map, List.getElem?_range hk, ← hf]
    rfl

private theorem conv_masked (f : ℕ → ℝ) (n : ℕ) (hn : 10 < n) :
    convolveSameNan (samples (fun i => if i < 5 ∨ n ≤ i + 5 then none else some (f i)) n) tay10 =
      samples (fun i => if i < 10 ∨ n ≤ i + 10 then none else some (centralDiff10 f i)) n := by
  have ht : (tay10.length - 1) / 2 = 5 := rfl
  have hl : tay10.length = 11 := rfl
  unfold convolveSameNan
  rw [show (samples (fun i => if i < 5 ∨ n ≤ i + 5 then none else some (f i)) n).length = n by simp [samples]]
  conv_rhs => unfold samples
  apply List.map_congr_left
  intro i hi
  rw [List.mem_range] at hi
  simp only [ht, hl]
  by_cases hc : i < 10 ∨ n ≤ i + 10
  · rw [if_pos hc, if_pos]
    rw [window_none _ n i hi]
    rcases hc with hc | hc
    · exact ⟨i - 5, by omega, by omega, by omega, if_pos (by omega)⟩
    · exact ⟨min (i + 5) (n - 1), by omega, by omega, by omega, if_pos (by omega)⟩
  · rw [if_neg hc, if_neg]
    · have e : (samples (fun i => if i < 5 ∨ n ≤ i + 5 then none else some (f i)) n).map (·.getD 0) =
          samples (fun i => (if i < 5 ∨ n ≤ i + 5 then none else some (f i)).getD 0) n := by
        unfold samples; rw [List.map_map]; rfl
      rw [e, conv_interior _ n i (by omega) (by omega)]
      unfold centralDiff10
      simp only [show ∀ k, i ≤ k + 5 → k ≤ i + 5 → ((if k < 5 ∨ n ≤ k + 5 then none else some (f k)).getD 0) = f k from fun k h1 h2 => by
        rw [if_neg (by omega)]; rfl]
      rw [if_neg (by omega), if_neg (by omega), if_neg (by omega), if_neg (by omega), if_neg (by omega), if_neg (by omega), if_neg (by omega),
        if_neg (by omega), if_neg (by omega), if_neg (by omega)]
      rfl
    · intro h
      rw [window_none _ n i hi] at h
      obtain ⟨k, hk, h1, h2, hf⟩ := h
      rw [if_neg (by omega)] at hf
      cases hf

/-- C117.  The accelerations across and along the track, for any positions: NaN at the first ten and at the last ten samples and nowhere else;
elsewhere the tenth-order differences of the velocities, in mGal, resolved into the components to the right of the velocity and along it. -/
theorem C117_values (lat lon : ℕ → ℝ) (n : ℕ) (hn : 10 < n) (s : ℝ) :
    kinematics (samples lon n) (samples lat n) s = .ok
      (samples (fun i => if i < 10 ∨ n ≤ i + 10 then none else
        some (acrossOf (eastVel lat lon s i) (northVel lat s i) (100000 * s * centralDiff10 (eastVel lat lon s) i)
          (100000 * s * centralDiff10 (northVel lat s) i))) n,
       samples (fun i => if i < 10 ∨ n ≤ i + 10 then none else
        some (alongOf (eastVel lat lon s i) (northVel lat s i) (100000 * s * centralDiff10 (eastVel lat lon s) i)
          (100000 * s * centralDiff10 (northVel lat s) i))) n) := by
  have hvel : ∀ f : ℕ → ℝ, (samples (fun i => if i < 5 ∨ n ≤ i + 5 then none else some (1 * f i)) n).map (Option.map (s * ·)) =
      samples (fun i => if i < 5 ∨ n ≤ i + 5 then none else some (s * f i)) n := by
    intro f
    unfold samples
    rw [List.map_map]
    apply List.map_congr_left
    intro i _
    simp only [Function.comp_apply]
    split
    · rfl
    · simp
  unfold kinematics
  rw [latlon_closed lat lon n hn 1]
  simp only
  rw [hvel (fun i => meridianRadius (rad (lat i)) * rad (centralDiff10 lat i)), hvel (fun i => parallelRadius (rad (lat i)) * rad (centralDiff10 lon i)),
    conv_masked (fun i => s * (parallelRadius (rad (lat i)) * rad (centralDiff10 lon i))) n hn,
    conv_masked (fun i => s * (meridianRadius (rad (lat i)) * rad (centralDiff10 lat i))) n hn]
  change Except.ok _ = Except.ok _
  have hacc : List.zipWith (fun c (p : Option ℝ × Option ℝ) => rotateNan c p.1 p.2)
      ((List.zipWith courseOf (samples (fun i => if i < 5 ∨ n ≤ i + 5 then none else some (eastVel lat lon s i)) n)
        (samples (fun i => if i < 5 ∨ n ≤ i + 5 then none else some (northVel lat s i)) n)).map (·.getD 0))
      (((samples (fun i => if i < 10 ∨ n ≤ i + 10 then none else some (centralDiff10 (eastVel lat lon s) i)) n).map
        (Option.map (100000 * s * ·))).zip ((samples (fun i => if i < 10 ∨ n ≤ i + 10 then none else
          some (centralDiff10 (northVel lat s) i)) n).map (Option.map (100000 * s * ·)))) =
      samples (fun i => if i < 10 ∨ n ≤ i + 10 then none else
        some (acrossOf (eastVel lat lon s i) (northVel lat s i) (100000 * s * centralDiff10 (eastVel lat lon s) i)
          (100000 * s * centralDiff10 (northVel lat s) i),
          alongOf (eastVel lat lon s i) (northVel lat s i) (100000 * s * centralDiff10 (eastVel lat lon s) i)
          (100000 * s * centralDiff10 (northVel lat s) i))) n := by
    unfold samples
    rw [zipWith_same, List.map_map, List.map_map, List.map_map, List.zip_map', zipWith_same]
    apply List.map_congr_left
    intro i _
    simp only [Function.comp_apply]
    by_cases hc : i < 10 ∨ n ≤ i + 10
    · simp only [if_pos hc]
      rfl
    · simp only [if_neg hc, if_neg (show ¬ (i < 5 ∨ n ≤ i + 5) by omega)]
      show some (rotateENtoCL (enVelToCourseHeading _ _).1 _ _) = _
      rw [rotate_course]
  have hacc' := hacc
  unfold eastVel northVel at hacc'
  rw [hacc']
  unfold samples
  rw [List.map_map, List.map_map]
  refine congrArg Except.ok (Prod.ext ?_ ?_)
  · apply List.map_congr_left
    intro i _
    simp only [Function.comp_apply]
    split <;> rfl
  · apply List.map_congr_left
    intro i _
    simp only [Function.comp_apply]
    split <;> rfl

private theorem diff_const (c : ℝ) (i : ℕ) : centralDiff10 (fun _ => c) i = 0 := by unfold centralDiff10; ring

/-- C117.  A ship at rest has no acceleration. -/
theorem C117_at_rest (lat0 lon0 s : ℝ) (n : ℕ) (hn : 10 < n) :
    ∃ ac al, kinematics (List.replicate n lon0) (List.replicate n lat0) s = .ok (ac, al) ∧
      ∀ i, 10 ≤ i → i + 10 < n → ac[i]? = some (some 0) ∧ al[i]? = some (some 0) := by
  have hr : ∀ c : ℝ, List.replicate n c = samples (fun _ => c) n := by intro c; simp [samples]
  refine ⟨_, _, by rw [hr, hr]; exact C117_values (fun _ => lat0) (fun _ => lon0) n hn s, ?_⟩
  intro i h1 h2
  have he : eastVel (fun _ => lat0) (fun _ => lon0) s = fun _ => 0 := by funext k; simp [eastVel, diff_const, rad]
  have hnn : northVel (fun _ => lat0) s = fun _ => 0 := by funext k; simp [northVel, diff_const, rad]
  simp only [samples, List.getElem?_map, List.getElem?_range (show i < n by omega), Option.map_some, Option.some.injEq,
    if_neg (show ¬ (i < 10 ∨ n ≤ i + 10) by omega), he, hnn, diff_const, mul_zero]
  simp [acrossOf, alongOf]

/-- C117.  … and therefore no level error, at any sample; the missing accelerations at both ends do no harm. -/
theorem C117_no_level_error (lat0 lon0 : ℝ) (g : ℕ → ℝ) (n : ℕ) (hn : 10 < n) (hg : ∀ i < n, g i ≠ 0) :
    ∃ ac al, kinematics (List.replicate n lon0) (List.replicate n lat0) 1 = .ok (ac, al) ∧
      levelErrorScript 1 (samples g n) ac al = .ok (some (List.replicate n 0)) := by
  have hr : ∀ c : ℝ, List.replicate n c = samples (fun _ => c) n := by intro c; simp [samples]
  refine ⟨_, _, by rw [hr, hr]; exact C117_values (fun _ => lat0) (fun _ => lon0) n hn 1, ?_⟩
  have he : eastVel (fun _ => lat0) (fun _ => lon0) 1 = fun _ => 0 := by funext k; simp [eastVel, diff_const, rad]
  have hnn : northVel (fun _ => lat0) 1 = fun _ => 0 := by funext k; simp [northVel, diff_const, rad]
  rw [hr 0, he, hnn]
  apply C101_calm_partial g _ _ n hg
  · intro i
    simp only [diff_const, mul_zero]
    split
    · exact Or.inl rfl
    · right; simp [acrossOf]
  · intro i
    simp only [diff_const, mul_zero]
    split
    · exact Or.inl rfl
    · right; simp [alongOf]

/-- C117.  A ship on a parallel whose longitude is a polynomial of degree at most ten in time, going east: no acceleration across, and along the
track exactly the second derivative of the distance, in mGal (`k` counts samples, `s` per second). -/
theorem C117_parallel (lat0 : ℝ) (p : Polynomial ℝ) (hp : p.natDegree ≤ 10) (n : ℕ) (hn : 10 < n) (s : ℝ) (hs : 0 < s)
    (hlat : 0 < Real.cos (rad lat0)) :
    ∃ ac al, kinematics (samples (fun k => p.eval (k : ℝ)) n) (List.replicate n lat0) s = .ok (ac, al) ∧
      ∀ i : ℕ, 10 ≤ i → i + 10 < n → 0 < p.derivative.eval (i : ℝ) → ac[i]? = some (some 0) ∧
        al[i]? = some (some (10 ^ 5 * (parallelRadius (rad lat0) * rad (s ^ 2 * p.derivative.derivative.eval (i : ℝ))))) := by
  have hr : ∀ c : ℝ, List.replicate n c = samples (fun _ => c) n := by intro c; simp [samples]
  refine ⟨_, _, by rw [hr]; exact C117_values (fun _ => lat0) (fun k => p.eval (k : ℝ)) n hn s, ?_⟩
  intro i h1 h2 hpos
  have hnn : northVel (fun _ => lat0) s = fun _ => 0 := by funext k; simp [northVel, diff_const, rad]
  have he : ∀ k, 5 ≤ k → eastVel (fun _ => lat0) (fun k => p.eval (k : ℝ)) s k = s * (parallelRadius (rad lat0) * rad (p.derivative.eval (k : ℝ))) := by
    intro k hk
    unfold eastVel
    rw [C18_stencil_exact p hp k hk]
  have hd : centralDiff10 (eastVel (fun _ => lat0) (fun k => p.eval (k : ℝ)) s) i =
      s * (parallelRadius (rad lat0) * rad (p.derivative.derivative.eval (i : ℝ))) := by
    rw [← C18_stencil_exact p.derivative (le_trans (Polynomial.natDegree_derivative_le p) (by omega)) i (by omega)]
    unfold centralDiff10
    rw [he _ (by omega), he _ (by omega), he _ (by omega), he _ (by omega), he _ (by omega), he _ (by omega), he _ (by omega), he _ (by omega),
      he _ (by omega), he _ (by omega)]
    unfold rad
    ring
  have hR := (C18_radii_positive (rad lat0) hlat).2
  have hv : 0 < s * (parallelRadius (rad lat0) * rad (p.derivative.eval (i : ℝ))) := by
    have : 0 < rad (p.derivative.eval (i : ℝ)) := mul_pos hpos (by positivity)
    positivity
  simp only [samples, List.getElem?_map, List.getElem?_range (show i < n by omega), Option.map_some, Option.some.injEq,
    if_neg (show ¬ (i < 10 ∨ n ≤ i + 10) by omega), he i (by omega), hnn, diff_const, mul_zero, hd]
  unfold acrossOf alongOf
  rw [if_neg (by rintro ⟨h, -⟩; exact hv.ne' h), if_neg (by rintro ⟨h, -⟩; exact hv.ne' h)]
  rw [show (0 : ℝ) ^ 2 = 0 by norm_num, add_zero, Real.sqrt_sq hv.le]
  refine ⟨by simp, ?_⟩
  rw [zero_mul, add_zero, mul_div_assoc, div_self hv.ne']
  unfold rad
  ring

/-! ### The hypotheses can be met -/

example : ∃ ac al, kinematics (samples (fun k => (Polynomial.X ^ 2 : Polynomial ℝ).eval (k : ℝ)) 21) (List.replicate 21 0) 1 = .ok (ac, al) ∧
    ac[10]? = some (some 0) := by
  obtain ⟨ac, al, h, hv⟩ := C117_parallel 0 (Polynomial.X ^ 2) (by simp) 21 (by norm_num) 1 one_pos (by simp [rad])
  exact ⟨ac, al, h, (hv 10 (by norm_num) (by norm_num) (by simp)).1⟩

end Shipgrav
