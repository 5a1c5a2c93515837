import Verif.Model.Gaussian
import Verif.Spec.Gaussian
import Verif.Lemmas.ListSum

namespace Shipgrav
open Spec

theorem gauss_prms (fl : ℕ) (h : 1 ≤ fl) :
    gaussianCoeffs (fl : ℤ) = .ok ((List.range (taps fl)).map (weight fl)) := by
  have hfl : ((fl : ℤ)) ≠ 0 := by omega
  have hlen : ¬ ((fl : ℤ) / 2 + 1 < 0) := by omega
  have htn : ((fl : ℤ) / 2 + 1).toNat = fl / 2 + 1 := by omega
  have hprm : (List.range ((fl : ℤ) / 2 + 1).toNat).map (fun m : ℕ =>
        Real.exp (-(1 / 2) * ((((fl : ℤ) / 2 - ((fl : ℤ) / 2 + 1 - m) : ℤ) : ℝ) * (6 / ((fl : ℤ) : ℝ))) ^ 2))
      = (List.range (fl / 2 + 1)).map (bell fl) := by
    rw [htn]
    apply List.map_congr_left
    intro m _
    unfold bell
    have : ((fl : ℤ) / 2 - ((fl : ℤ) / 2 + 1 - m) : ℤ) = (m : ℤ) - 1 := by ring
    rw [this]
    push_cast
    rfl
  have hsplit : (List.range (fl / 2 + 1)).map (bell fl)
      = bell fl 0 :: (List.range (fl / 2)).map (fun m => bell fl (m + 1)) := by
    rw [List.range_succ_eq_map]; simp
  have hrefl : ((List.range (fl / 2)).map (fun m => bell fl (m + 1))).reverse ++ [bell fl 0]
        ++ (List.range (fl / 2)).map (fun m => bell fl (m + 1))
      = (List.range (taps fl)).map (rawWeight fl) := by
    apply List.ext_getElem
    · simp [taps]; omega
    · intro i h1 h2
      simp only [List.getElem_map, List.getElem_range, rawWeight]
      have hi : i < 2 * (fl / 2) + 1 := by simpa [taps] using h2
      rcases lt_trichotomy i (fl / 2) with hlt | heq | hgt
      · rw [List.getElem_append_left (by simp; omega), List.getElem_append_left (by simpa using hlt),
          List.getElem_reverse]
        simp only [List.getElem_map, List.getElem_range, List.length_map, List.length_range]
        congr 1; omega
      · subst heq
        rw [List.getElem_append_left (by simp), List.getElem_append_right (by simp)]
        simp
      · rw [List.getElem_append_right (by simp; omega)]
        simp only [List.getElem_map, List.getElem_range, List.length_append, List.length_reverse, List.length_map,
          List.length_range, List.length_singleton]
        congr 1; omega
  unfold gaussianCoeffs
  simp only [hfl, hlen, if_false, hprm, hsplit, hrefl]
  congr 1
  rw [sum_map_range]
  simp [weight, Function.comp_def]

theorem ringLoop_eq (w : List ℝ) (hw : 1 ≤ w.length) (xs : List ℝ) :
    ∀ buf : List ℝ, buf.length = w.length →
    ringLoop w buf xs = (List.range xs.length).map (fun i =>
      ∑ j ∈ Finset.range w.length, w.getD j 0 * (buf ++ xs).getD (i + 1 + j) 0) := by
  induction xs with
  | nil => intro buf _; simp [ringLoop]
  | cons x xs ih =>
    intro buf hb
    have hl : (buf.tail ++ [x]).length = w.length := by simp; omega
    obtain ⟨b0, bt, rfl⟩ : ∃ b0 bt, buf = b0 :: bt := by
      cases buf with
      | nil => simp at hb; omega
      | cons b t => exact ⟨b, t, rfl⟩
    rw [ringLoop, ih _ hl, List.length_cons, List.range_succ_eq_map, List.map_cons, List.map_map]
    congr 1
    · rw [zipWith_sum_eq_range _ _ hl, hl]
      apply Finset.sum_congr rfl
      intro j hj
      have hj' : j < w.length := by simpa using hj
      have hbt : bt.length + 1 = w.length := by simpa using hb
      have key : ((b0 :: bt) ++ x :: xs).getD (0 + 1 + j) 0 = (bt ++ [x]).getD j 0 := by
        have : (b0 :: bt) ++ x :: xs = b0 :: ((bt ++ [x]) ++ xs) := by simp
        rw [this, show 0 + 1 + j = j + 1 by omega, List.getD_cons_succ,
          List.getD_append _ _ _ _ (by simp; omega)]
      rw [key, List.tail_cons, mul_comm]
    · apply List.map_congr_left
      intro i _
      simp only [Function.comp]
      apply Finset.sum_congr rfl
      intro j _
      congr 1
      rw [List.tail_cons]
      have h1 : (b0 :: bt) ++ x :: xs = b0 :: ((bt ++ [x]) ++ xs) := by simp
      rw [h1, show i.succ + 1 + j = (i + 1 + j) + 1 by omega, List.getD_cons_succ]

theorem gaussianFilter_eq (x : List ℝ) (fl : ℕ) (h : 1 ≤ fl) (hx : fl < x.length) :
    gaussianFilter x fl = .ok ((List.range x.length).map (fir (taps fl) (weight fl) x)) := by
  unfold gaussianFilter
  have : (x.length : ℤ) > (fl : ℤ) := by exact_mod_cast hx
  rw [if_pos this, gauss_prms fl h]
  simp only
  congr 1
  rw [ringLoop_eq _ (by simp [taps]) _ _ (by simp)]
  apply List.map_congr_left
  intro i hi
  unfold fir
  simp only [List.length_map, List.length_range]
  apply Finset.sum_congr rfl
  intro j hj
  have hj' : j < taps fl := by simpa using hj
  congr 1
  · rw [List.getD_eq_getElem _ _ (by simpa using hj')]; simp
  · unfold sampleAt
    have hT : 1 ≤ taps fl := by simp [taps]
    by_cases hc : 0 ≤ (i : ℤ) - (taps fl - 1 : ℕ) + j
    · rw [if_pos hc, List.getD_append_right _ _ _ _ (by simp; omega)]
      congr 1
      simp only [List.length_replicate]
      omega
    · rw [if_neg hc, List.getD_append _ _ _ _ (by simp; omega)]
      rw [List.getD_eq_getElem _ _ (by simp; omega)]
      simp

theorem bell_pos (fl d : ℕ) : 0 < bell fl d := Real.exp_pos _

theorem rawWeight_pos (fl j : ℕ) : 0 < rawWeight fl j := bell_pos _ _

theorem rawSum_pos (fl : ℕ) : 0 < ∑ k ∈ Finset.range (taps fl), rawWeight fl k :=
  Finset.sum_pos (fun _ _ => rawWeight_pos _ _) ⟨0, by simp [taps]⟩

theorem weight_pos (fl j : ℕ) : 0 < weight fl j := div_pos (rawWeight_pos _ _) (rawSum_pos _)

theorem weight_sum (fl : ℕ) : ∑ j ∈ Finset.range (taps fl), weight fl j = 1 := by
  unfold weight
  rw [← Finset.sum_div]
  exact div_self (rawSum_pos fl).ne'

theorem weight_symm (fl j : ℕ) (h : j < taps fl) : weight fl (taps fl - 1 - j) = weight fl j := by
  unfold weight rawWeight
  congr 2
  unfold taps at *
  omega

end Shipgrav
