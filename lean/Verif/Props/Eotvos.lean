import Verif.Model.Eotvos
import Verif.Spec.Eotvos
import Mathlib.Analysis.Real.Pi.Bounds
import Mathlib.Tactic.LinearCombination
import Mathlib.Tactic.Linarith
import Mathlib.Tactic.Positivity
import Mathlib.Tactic.FieldSimp

/-! C52–C56: `center_diff` and `eotvos_full`. -/

namespace Shipgrav
open Real Spec

private theorem series_length (n : ℕ) (f : ℕ → ℝ) : (series n f).length = n := by simp [series]

private theorem from2_eq (n : ℕ) (f : ℕ → ℝ) : from2 (series n f) = series (n - 2) fun k => f (k + 2) := by
  apply List.ext_getElem
  · simp [from2, series]
  · intro i h1 h2
    simp only [from2, series, List.getElem_drop, List.getElem_map, List.getElem_range]
    congr 1
    omega

private theorem upto2_eq (n : ℕ) (f : ℕ → ℝ) : upto2 (series n f) = series (n - 2) f := by
  apply List.ext_getElem
  · simp [upto2, series]
  · intro i h1 h2
    simp [upto2, series]

private theorem inner_eq (n : ℕ) (f : ℕ → ℝ) : inner (series n f) = series (n - 2) fun k => f (k + 1) := by
  apply List.ext_getElem
  · simp [inner, series]
    omega
  · intro i h1 h2
    simp only [inner, series, List.getElem_drop, List.getElem_take, List.getElem_map, List.getElem_range]
    congr 1
    omega

private theorem zip_series (n : ℕ) (f g : ℕ → ℝ) : (series n f).zip (series n g) = (List.range n).map fun k => (f k, g k) := by
  unfold series
  rw [List.zip_map']

/-- C56.  What `center_diff` returns: the two central differences at all inner points, and -999 for other orders. -/
theorem C56_values (n : ℕ) (y : ℕ → ℝ) (order : ℤ) (samp : ℝ) :
    centerDiff (series n y) order samp =
      if order = 1 then .val (series (n - 2) fun k => (y (k + 2) - y k) * (samp / 2))
      else if order = 2 then .val (series (n - 2) fun k => (y k - 2 * y (k + 1) + y (k + 2)) * samp ^ 2)
      else .sentinel := by
  unfold centerDiff
  rw [from2_eq, upto2_eq, inner_eq, zip_series, zip_series]
  have : ((List.range (n - 2)).map fun k => (y k, y (k + 1))).zip (series (n - 2) fun k => y (k + 2)) =
      (List.range (n - 2)).map fun k => ((y k, y (k + 1)), y (k + 2)) := by
    unfold series
    rw [List.zip_map']
  rw [this]
  simp only [List.map_map]
  rfl

/-- C56.  The first difference is the derivative of a quadratic, at all inner points. -/
theorem C56_first_exact (n : ℕ) (a b c t0 samp : ℝ) (hs : samp ≠ 0) :
    centerDiff (series n fun k => a + b * (t0 + k / samp) + c * (t0 + k / samp) ^ 2) 1 samp =
      .val (series (n - 2) fun k => b + 2 * c * (t0 + (k + 1) / samp)) := by
  rw [C56_values, if_pos rfl]
  congr 2
  funext k
  push_cast
  field_simp
  ring

/-- C56.  The second difference is the second derivative of a cubic, at all inner points. -/
theorem C56_second_exact (n : ℕ) (a b c d t0 samp : ℝ) (hs : samp ≠ 0) :
    centerDiff (series n fun k => a + b * (t0 + k / samp) + c * (t0 + k / samp) ^ 2 + d * (t0 + k / samp) ^ 3) 2 samp =
      .val (series (n - 2) fun k => 2 * c + 6 * d * (t0 + (k + 1) / samp)) := by
  rw [C56_values, if_neg (by decide), if_pos rfl]
  congr 2
  funext k
  push_cast
  field_simp
  ring

/-- C56.  Both are linear. -/
theorem C56_linear (n : ℕ) (y z : ℕ → ℝ) (p q : ℝ) (order : ℤ) (samp : ℝ) (ho : order = 1 ∨ order = 2) :
    ∃ u v : ℕ → ℝ, centerDiff (series n y) order samp = .val (series (n - 2) u) ∧
      centerDiff (series n z) order samp = .val (series (n - 2) v) ∧
      centerDiff (series n fun k => p * y k + q * z k) order samp = .val (series (n - 2) fun k => p * u k + q * v k) := by
  rcases ho with rfl | rfl
  · refine ⟨_, _, by rw [C56_values, if_pos rfl], by rw [C56_values, if_pos rfl], ?_⟩
    rw [C56_values, if_pos rfl]
    congr 2
    funext k
    ring
  · refine ⟨_, _, by rw [C56_values, if_neg (by decide), if_pos rfl], by rw [C56_values, if_neg (by decide), if_pos rfl], ?_⟩
    rw [C56_values, if_neg (by decide), if_pos rfl]
    congr 2
    funext k
    ring

/-- The vertical component, in closed form.  The second derivative of longitude and the first component of `wdot` do not appear. -/
theorem eotvosRow_eq (a b latr ht dlat ddlat dlon ddlon dht ddht : ℝ) :
    eotvosRow a b latr ht dlat ddlat dlon ddlon dht ddht = eotvos a b ⟨latr, dlat, ddlat, dlon, ht, dht, ddht⟩ := by
  unfold eotvosRow eotvos meridianTerm parallelTerm radius deviation earthRate Row3.cross Row3.twice
  simp only
  rw [cos_sub]
  generalize (0.00007292115 : ℝ) = W
  generalize (a - b) / a = f
  generalize sin (2 * latr) = s2
  generalize cos (2 * latr) = c2
  generalize sin latr = s
  generalize cos latr = c
  generalize sin (arctan (f * s2)) = sd
  generalize cos (arctan (f * s2)) = cd
  ring

private theorem getD_series (n k : ℕ) (f : ℕ → ℝ) (h : k < n) : (series n f).getD k 0 = f k := by
  unfold series
  rw [List.getD_eq_getElem?_getD, List.getElem?_map, List.getElem?_range h]
  rfl

private theorem series_map (n : ℕ) (f : ℕ → ℝ) (g : ℝ → ℝ) : (series n f).map g = series n fun k => g (f k) := by
  unfold series
  rw [List.map_map]
  rfl

/-- C54, C55.  The correction at every sample of every track with at least three series: that of the motion there, with central
differences for the derivatives; the first and last values are those of their neighbours. -/
theorem C54_values (n : ℕ) (lon lat ht : ℕ → ℝ) (samp a b : ℝ) (hn : 3 ≤ n) :
    eotvosFull (series n lon) (series n lat) (series n ht) samp a b =
      .ok (series n fun k => eotvos a b (motionAt lon lat ht samp (min (max k 1) (n - 2)))) := by
  unfold eotvosFull
  rw [if_neg (by simp [series_length])]
  simp only [series_map, C56_values, if_true, inner_eq, series_length, Ret.arr, (by decide : ¬ ((2 : ℤ) = 1)), if_false]
  have hE : ((List.range (n - 2)).map fun (k : ℕ) => eotvosRow a b ((series (n - 2) fun k => radians (lat (k + 1))).getD k 0)
      ((series (n - 2) fun k => ht (k + 1)).getD k 0)
      ((series (n - 2) fun k => (radians (lat (k + 2)) - radians (lat k)) * (samp / 2)).getD k 0)
      ((series (n - 2) fun k => (radians (lat k) - 2 * radians (lat (k + 1)) + radians (lat (k + 2))) * samp ^ 2).getD k 0)
      ((series (n - 2) fun k => (radians (lon (k + 2)) - radians (lon k)) * (samp / 2)).getD k 0)
      ((series (n - 2) fun k => (radians (lon k) - 2 * radians (lon (k + 1)) + radians (lon (k + 2))) * samp ^ 2).getD k 0)
      ((series (n - 2) fun k => (ht (k + 2) - ht k) * (samp / 2)).getD k 0)
      ((series (n - 2) fun k => (ht k - 2 * ht (k + 1) + ht (k + 2)) * samp ^ 2).getD k 0)) =
      (List.range (n - 2)).map fun (k : ℕ) => eotvos a b (motionAt lon lat ht samp (k + 1)) := by
    apply List.map_congr_left
    intro k hk
    have hk' := List.mem_range.1 hk
    simp only [getD_series _ _ _ hk', eotvosRow_eq]
    congr 1
    unfold motionAt rate accel radians
    simp only [Nat.add_sub_cancel]
    congr 1 <;> ring
  rw [hE]
  obtain ⟨N, rfl⟩ : ∃ N, n = N + 3 := ⟨n - 3, by omega⟩
  have h1 : ((List.range (N + 3 - 2)).map fun (k : ℕ) => eotvos a b (motionAt lon lat ht samp (k + 1))).head? =
      some (eotvos a b (motionAt lon lat ht samp 1)) := by
    rw [List.head?_map, List.head?_range]
    simp
  have h2 : ((List.range (N + 3 - 2)).map fun (k : ℕ) => eotvos a b (motionAt lon lat ht samp (k + 1))).getLast? =
      some (eotvos a b (motionAt lon lat ht samp (N + 1))) := by
    rw [show N + 3 - 2 = N + 1 by omega, List.range_succ, List.map_append, List.getLast?_append]
    simp
  rw [h1, h2]
  simp only
  congr 1
  apply List.ext_getElem
  · simp [series]
  · intro i i1 i2
    simp only [series, List.getElem_map, List.getElem_range]
    rcases Nat.eq_zero_or_pos i with rfl | hi
    · simp
    · obtain ⟨j, rfl⟩ : ∃ j, i = j + 1 := ⟨i - 1, by omega⟩
      simp only [List.cons_append, List.getElem_cons_succ]
      by_cases hj : j < N + 1
      · rw [List.getElem_append_left (by simpa using hj)]
        simp only [List.getElem_map, List.getElem_range]
        congr 2
        omega
      · simp [series] at i2
        have : j = N + 1 := by omega
        subst this
        rw [List.getElem_append_right (by simp)]
        simp only [List.getElem_singleton]
        congr 2
        omega

/-- C54.  Fewer than three series raise. -/
theorem C54_too_short (n : ℕ) (lon lat ht : ℕ → ℝ) (samp a b : ℝ) (hn : n < 3) :
    eotvosFull (series n lon) (series n lat) (series n ht) samp a b = .error .indexError := by
  unfold eotvosFull
  rw [if_neg (by simp [series_length])]
  simp only [series_map, inner_eq, series_length]
  rw [show n - 2 = 0 by omega]
  rfl

/-- C54.  A constant added to all longitudes changes nothing. -/
theorem C54_longitude_shift (n : ℕ) (lon lat ht : ℕ → ℝ) (samp a b c : ℝ) :
    eotvosFull (series n fun k => lon k + c) (series n lat) (series n ht) samp a b =
      eotvosFull (series n lon) (series n lat) (series n ht) samp a b := by
  by_cases hn : 3 ≤ n
  · rw [C54_values _ _ _ _ _ _ _ hn, C54_values _ _ _ _ _ _ _ hn]
    congr 2
    funext k
    congr 1
    unfold motionAt rate
    congr 1
    ring
  · rw [C54_too_short _ _ _ _ _ _ _ (by omega), C54_too_short _ _ _ _ _ _ _ (by omega)]

/-- C54.  Mirroring the track at the equator changes nothing. -/
theorem C54_mirror (n : ℕ) (lon lat ht : ℕ → ℝ) (samp a b : ℝ) :
    eotvosFull (series n lon) (series n fun k => -lat k) (series n ht) samp a b =
      eotvosFull (series n lon) (series n lat) (series n ht) samp a b := by
  by_cases hn : 3 ≤ n
  · rw [C54_values _ _ _ _ _ _ _ hn, C54_values _ _ _ _ _ _ _ hn]
    congr 2
    funext k
    generalize min (max k 1) (n - 2) = j
    have h0 : (motionAt lon (fun k => -lat k) ht samp j).lat = -(motionAt lon lat ht samp j).lat := by unfold motionAt; simp only; ring
    have h1 : (motionAt lon (fun k => -lat k) ht samp j).lat1 = -(motionAt lon lat ht samp j).lat1 := by
      unfold motionAt rate; simp only; ring
    have h2 : (motionAt lon (fun k => -lat k) ht samp j).lat2 = -(motionAt lon lat ht samp j).lat2 := by
      unfold motionAt accel; simp only; ring
    have h3 : (motionAt lon (fun k => -lat k) ht samp j).lon1 = (motionAt lon lat ht samp j).lon1 := rfl
    have h4 : (motionAt lon (fun k => -lat k) ht samp j).ht = (motionAt lon lat ht samp j).ht := rfl
    have h5 : (motionAt lon (fun k => -lat k) ht samp j).ht2 = (motionAt lon lat ht samp j).ht2 := rfl
    unfold eotvos meridianTerm parallelTerm radius deviation
    simp only [h0, h1, h2, h3, h4, h5]
    generalize motionAt lon lat ht samp j = m
    rw [show 2 * -m.lat = -(2 * m.lat) by ring, sin_neg, cos_neg, sin_neg, cos_neg, mul_neg ((a - b) / a) (sin (2 * m.lat)),
      arctan_neg, sin_neg, cos_neg, show ∀ x y : ℝ, -x - -y = -(x - y) by intros; ring, cos_neg]
    generalize (a - b) / a = f
    generalize sin (2 * m.lat) = s2
    generalize cos (2 * m.lat) = c2
    generalize sin m.lat = s
    generalize cos (m.lat - arctan (f * s2)) = cm
    generalize cos m.lat = c
    generalize sin (arctan (f * s2)) = sd
    generalize cos (arctan (f * s2)) = cd
    ring
  · rw [C54_too_short _ _ _ _ _ _ _ (by omega), C54_too_short _ _ _ _ _ _ _ (by omega)]

/-- C55.  The row with the second derivative of longitude in the place where the code has the first. -/
noncomputable def eotvosRowFixed (a b latr ht dlat ddlat dlon ddlon dht ddht : ℝ) : ℝ :=
  let We := 0.00007292115
  let ecc := (a - b) / a
  let slat := sin latr
  let clat := cos latr
  let rp := a * (1 - ecc * slat * slat)
  let drp := -a * dlat * ecc * sin (2 * latr)
  let ddrp := -a * ddlat * ecc * sin (2 * latr) - 2 * a * dlat * dlat * ecc * cos (2 * latr)
  let D := arctan (ecc * sin (2 * latr))
  let dD := 2 * dlat * ecc * cos (2 * latr)
  let ddD := 2 * ddlat * ecc * cos (2 * latr) - 4 * dlat * dlat * ecc * sin (2 * latr)
  let r : Row3 := ⟨-rp * sin D, 0, -rp * cos D - ht⟩
  let rdot : Row3 := ⟨-drp * sin D - rp * dD * cos D, 0, -drp * cos D + rp * dD * sin D - dht⟩
  let ck := -ddrp * cos D + 2 * drp * dD * sin D + rp * (ddD * sin D + dD * dD * cos D) - ddht
  let w : Row3 := ⟨(dlon + We) * clat, -dlat, -(dlon + We) * slat⟩
  let wdot : Row3 := ⟨ddlon * clat - (dlon + We) * dlat * slat, -ddlat, -ddlon * slat - (dlon + We) * dlat * clat⟩
  let we : Row3 := ⟨We * clat, 0, -We * slat⟩
  (ck + (w.twice.cross rdot).z + (wdot.cross r).z + (w.cross (w.cross r)).z - (we.cross (we.cross r)).z) * 100000

/-- C55.  `dlon` in place of `ddlon` in the angular acceleration has no effect on the correction. -/
theorem C55_typo_harmless (a b latr ht dlat ddlat dlon ddlon dht ddht : ℝ) :
    eotvosRow a b latr ht dlat ddlat dlon ddlon dht ddht = eotvosRowFixed a b latr ht dlat ddlat dlon ddlon dht ddht := by
  unfold eotvosRow eotvosRowFixed Row3.cross Row3.twice
  simp only
  ring

/-- C55.  The correction depends on longitude only through its first difference. -/
theorem C55_no_second_longitude_difference (n : ℕ) (lon lon' lat ht : ℕ → ℝ) (samp a b : ℝ)
    (h : ∀ k, 1 ≤ k → k + 1 < n → lon (k + 1) - lon (k - 1) = lon' (k + 1) - lon' (k - 1)) :
    eotvosFull (series n lon) (series n lat) (series n ht) samp a b =
      eotvosFull (series n lon') (series n lat) (series n ht) samp a b := by
  by_cases hn : 3 ≤ n
  · rw [C54_values _ _ _ _ _ _ _ hn, C54_values _ _ _ _ _ _ _ hn]
    congr 2
    funext k
    congr 1
    unfold motionAt rate
    congr 1
    have := h (min (max k 1) (n - 2)) (by omega) (by omega)
    rw [← sub_mul, ← sub_mul, this]
  · rw [C54_too_short _ _ _ _ _ _ _ (by omega), C54_too_short _ _ _ _ _ _ _ (by omega)]

/-- C52.  At rest there is no correction, at any place and height. -/
theorem C52_rest (n : ℕ) (lon lat ht samp a b : ℝ) (hn : 3 ≤ n) :
    eotvosFull (series n fun _ => lon) (series n fun _ => lat) (series n fun _ => ht) samp a b = .ok (series n fun _ => 0) := by
  rw [C54_values _ _ _ _ _ _ _ hn]
  congr 2
  funext k
  unfold eotvos meridianTerm parallelTerm motionAt rate accel
  simp only
  ring

/-- C53.  The formula for motion along a parallel. -/
theorem C53_parallel (n : ℕ) (lon lat ht w samp a b : ℝ) (hs : samp ≠ 0) (hn : 3 ≤ n) :
    eotvosFull (series n fun k => lon + w * (k / samp)) (series n fun _ => lat) (series n fun _ => ht) samp a b =
      .ok (series n fun _ => parallelEotvos a b lat ht w) := by
  rw [C54_values _ _ _ _ _ _ _ hn]
  congr 2
  funext k
  obtain ⟨j, hj⟩ : ∃ j, min (max k 1) (n - 2) = j + 1 := ⟨min (max k 1) (n - 2) - 1, by omega⟩
  rw [hj]
  have h1 : (motionAt (fun k => lon + w * (k / samp)) (fun _ => lat) (fun _ => ht) samp (j + 1)).lon1 = w * (π / 180) := by
    unfold motionAt rate
    simp only [Nat.add_sub_cancel]
    push_cast
    field_simp
    ring
  unfold eotvos meridianTerm parallelTerm
  simp only [h1]
  unfold motionAt rate accel parallelEotvos radius deviation earthRate
  simp only
  ring

/-- C53.  Away from the poles it is larger the faster the motion to the east (for any motion that does not undo the rotation of the
earth). -/
theorem C53_increasing (a b lat ht w w' : ℝ) (hb : 0 < b) (hab : b ≤ a) (hht : 0 ≤ ht) (hlat : |lat| < 90)
    (hw : -0.004 ≤ w) (hlt : w < w') : parallelEotvos a b lat ht w < parallelEotvos a b lat ht w' := by
  have hpi := pi_gt_three
  have hpi4 := pi_lt_four
  unfold parallelEotvos
  simp only
  obtain ⟨l1, l2⟩ := abs_lt.1 hlat
  set φ := lat * (π / 180) with hφ
  have p1 : -(π / 2) < φ := by rw [hφ]; nlinarith
  have p2 : φ < π / 2 := by rw [hφ]; nlinarith
  have hc : 0 < cos φ := cos_pos_of_mem_Ioo ⟨p1, p2⟩
  have ha : 0 < a := lt_of_lt_of_le hb hab
  have hf0 : 0 ≤ (a - b) / a := div_nonneg (by linarith) ha.le
  have hf1 : (a - b) / a < 1 := by rw [div_lt_one ha]; linarith
  set f := (a - b) / a with hf
  have hs := sin_sq_le_one φ
  have hs0 := sq_nonneg (sin φ)
  have hr : 0 < a * (1 - f * sin φ ^ 2) := by
    apply mul_pos ha
    nlinarith
  have hD : 0 < cos (φ - arctan (f * sin (2 * φ))) := by
    have d1 := neg_pi_div_two_lt_arctan (f * sin (2 * φ))
    have d2 := arctan_lt_pi_div_two (f * sin (2 * φ))
    apply cos_pos_of_mem_Ioo
    rcases le_total 0 φ with h | h
    · have : 0 ≤ arctan (f * sin (2 * φ)) := by
        rw [← arctan_zero]
        apply arctan_strictMono.monotone
        apply mul_nonneg hf0
        exact sin_nonneg_of_nonneg_of_le_pi (by linarith) (by linarith)
      exact ⟨by linarith, by linarith⟩
    · have : arctan (f * sin (2 * φ)) ≤ 0 := by
        rw [← arctan_zero]
        apply arctan_strictMono.monotone
        apply mul_nonpos_of_nonneg_of_nonpos hf0
        exact sin_nonpos_of_nonpos_of_neg_pi_le (by linarith) (by linarith)
      exact ⟨by linarith, by linarith⟩
  have hk : 0 < cos φ * (a * (1 - f * sin φ ^ 2) * cos (φ - arctan (f * sin (2 * φ))) + ht * cos φ) := by positivity
  have e : ∀ x : ℝ, 100000 * ((0.00007292115 + x) ^ 2 - 0.00007292115 ^ 2) * cos φ *
      (a * (1 - f * sin φ ^ 2) * cos (φ - arctan (f * sin (2 * φ))) + ht * cos φ) =
      100000 * ((0.00007292115 + x) ^ 2 - 0.00007292115 ^ 2) *
      (cos φ * (a * (1 - f * sin φ ^ 2) * cos (φ - arctan (f * sin (2 * φ))) + ht * cos φ)) := by intro x; ring
  rw [e, e]
  apply mul_lt_mul_of_pos_right _ hk
  have hpi' := pi_lt_d4
  have q1 : -0.00007 ≤ w * (π / 180) := by
    norm_num at hw hpi' ⊢
    nlinarith
  have q2 : w * (π / 180) < w' * (π / 180) := by
    apply mul_lt_mul_of_pos_right hlt
    positivity
  generalize w * (π / 180) = x at *
  generalize w' * (π / 180) = x' at *
  have q3 := mul_pos (sub_pos.2 q2) (show 0 < 2 * 0.00007292115 + x + x' by norm_num at q1 ⊢; linarith)
  norm_num at q3 ⊢
  nlinarith

/-- C53.  Hence positive for motion to the east. -/
theorem C53_east_positive (a b lat ht w : ℝ) (hb : 0 < b) (hab : b ≤ a) (hht : 0 ≤ ht) (hlat : |lat| < 90) (hw : 0 < w) :
    0 < parallelEotvos a b lat ht w := by
  have := C53_increasing a b lat ht 0 w hb hab hht hlat (by norm_num) hw
  have h0 : parallelEotvos a b lat ht 0 = 0 := by unfold parallelEotvos; simp
  rwa [h0] at this

/-! ### The hypotheses can be met -/

example := C52_rest 100 (-150) 30 10 1 6378137.0 6356752.3142 (by norm_num)
example := C53_parallel 100 (-150) 30 10 0.0001 1 6378137.0 6356752.3142 (by norm_num) (by norm_num)
example := C53_east_positive 6378137.0 6356752.3142 (-45) 0 0.0001 (by norm_num) (by norm_num) (by norm_num)
  (by rw [abs_of_neg (by norm_num)]; norm_num) (by norm_num)
example := C56_first_exact 7 1 2 3 0 0.5 (by norm_num)
example := C55_no_second_longitude_difference 5 (fun k => if k % 2 = 0 then 1 else 0) (fun k => if k % 2 = 0 then 1 else 7) (fun k => k) (fun _ => 0) 1
  6378137.0 6356752.3142 (by
    intro k h1 h2
    have : k = 1 ∨ k = 2 ∨ k = 3 := by omega
    rcases this with rfl | rfl | rfl <;> norm_num)

end Shipgrav
