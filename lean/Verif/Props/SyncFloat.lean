import Verif.Model.SyncFloat
import Verif.Lemmas.LatCorrFloat
import Verif.Lemmas.FloatTime
import Verif.Props.NavFloat

/-! C136: positions at the times of the gravimeter in double precision. -/

namespace Shipgrav
open Spec

/-! ### Helpers -/

private theorem samples_len {α : Type} (f : ℕ → α) (n : ℕ) : (samples f n).length = n := by simp [samples]

private theorem getD_samples {α : Type} (f : ℕ → α) (n k : ℕ) (d : α) (h : k < n) : (samples f n).getD k d = f k := by
  unfold samples
  rw [List.getD_eq_getElem?_getD, List.getElem?_map, List.getElem?_range h]
  rfl

private theorem search_spec (t : ℕ → ℚ) (x : ℚ) (m : ℕ) (ht : ∀ i j, i < j → j < m → t i < t j) :
    searchF (samples t m) x ≤ m ∧ ∀ j < m, t j < x ↔ j < searchF (samples t m) x := by
  induction m with
  | zero => simp [searchF, samples]
  | succ m ih =>
    obtain ⟨h1, h2⟩ := ih fun i j hij hj => ht i j hij (by omega)
    have hs : searchF (samples t (m + 1)) x = searchF (samples t m) x + if t m < x then 1 else 0 := by
      unfold searchF samples
      rw [List.range_succ, List.map_append, List.countP_append]
      simp [List.countP_cons]
    rw [hs]
    by_cases hm : t m < x
    · rw [if_pos hm]
      have hall : ∀ j < m, t j < x := fun j hj => (ht j m hj (by omega)).trans hm
      have hc : searchF (samples t m) x = m := by
        rcases Nat.lt_or_ge (searchF (samples t m) x) m with h | h
        · have := (h2 _ h).mp (hall _ h); omega
        · omega
      rw [hc]
      refine ⟨le_refl _, fun j hj => ⟨fun _ => by omega, fun _ => ?_⟩⟩
      rcases Nat.lt_or_ge j m with h | h
      · exact hall j h
      · obtain rfl : j = m := by omega
        exact hm
    · rw [if_neg hm]
      refine ⟨by omega, fun j hj => ?_⟩
      rcases Nat.lt_or_ge j m with h | h
      · rw [h2 j h, Nat.add_zero]
      · obtain rfl : j = m := by omega
        exact ⟨fun h => absurd h hm, fun h => by omega⟩

/-- The line through two points, in double precision. -/
private def lineF (x0 x1 y0 y1 x : ℚ) : ℚ := toDouble (toDouble (toDouble (toDouble (y1 - y0) / toDouble (x1 - x0)) * toDouble (x - x0)) + y0)

private theorem interp_value (t y : ℕ → ℚ) (m : ℕ) (hm : 2 ≤ m) (ht : ∀ i j, i < j → j < m → t i < t j) (x : ℚ) :
    ∃ i, i + 1 < m ∧ (i = 0 ∨ t i < x) ∧ (i + 2 = m ∨ x ≤ t (i + 1)) ∧
      interp1dF (samples t m) (samples y m) x = lineF (t i) (t (i + 1)) (y i) (y (i + 1)) x := by
  obtain ⟨h1, h2⟩ := search_spec t x m ht
  generalize hc : searchF (samples t m) x = c at *
  obtain ⟨i, hi⟩ : ∃ i, min (max c 1) (m - 1) = i + 1 := ⟨min (max c 1) (m - 1) - 1, by omega⟩
  have him : i + 1 < m := by omega
  refine ⟨i, him, ?_, ?_, ?_⟩
  · rcases Nat.eq_zero_or_pos i with h | h
    · exact Or.inl h
    · exact Or.inr ((h2 i (by omega)).mpr (by omega))
  · rcases Nat.lt_or_ge (i + 2) m with h | h
    · right
      by_contra hx
      have := (h2 (i + 1) him).mp (not_le.mp hx)
      omega
    · left; omega
  · unfold interp1dF lineF
    simp only [hc, samples_len, hi, Nat.add_sub_cancel, getD_samples _ _ _ _ him, getD_samples _ _ _ _ (by omega : i < m)]

private theorem line_err (x0 x1 y0 y1 x Y : ℚ) (h : x0 < x1) (h0 : x0 ≤ x) (h1 : x ≤ x1) (hy0 : |y0| ≤ Y) (hy1 : |y1| ≤ Y) :
    |lineF x0 x1 y0 y1 x - (y0 + (y1 - y0) * ((x - x0) / (x1 - x0)))| ≤ Y / 2 ^ 48 := by
  obtain ⟨q, hq⟩ : ∃ q, q = (x - x0) / (x1 - x0) := ⟨_, rfl⟩
  have q0 : 0 ≤ q := by rw [hq]; exact div_nonneg (by linarith) (by linarith)
  have q1 : q ≤ 1 := by rw [hq, div_le_one (by linarith)]; linarith
  have hY : 0 ≤ Y := (abs_nonneg _).trans hy0
  obtain ⟨a0, b0⟩ := abs_le.1 hy0
  obtain ⟨a1, b1⟩ := abs_le.1 hy1
  have hA : |(y1 - y0) * q| ≤ 2 * Y := by
    rw [abs_mul, abs_of_nonneg q0]
    have : |y1 - y0| ≤ 2 * Y := by rw [abs_le]; constructor <;> linarith
    calc _ ≤ |y1 - y0| * 1 := mul_le_mul_of_nonneg_left q1 (abs_nonneg _)
      _ ≤ _ := by linarith
  have hW : |(y1 - y0) * q + y0| ≤ Y := by
    rw [abs_le]; constructor <;> nlinarith
  have n1 := near_toDouble ((near_toDouble (near_self (y1 - y0))).div (near_toDouble (near_self (x1 - x0))))
  have n2 := near_toDouble (n1.mul (near_toDouble (near_self (x - x0))))
  have e1 := n2.err (by positivity) (by norm_num)
  have e2 : ((y1 - y0 : ℚ) : ℝ) / ((x1 - x0 : ℚ) : ℝ) * ((x - x0 : ℚ) : ℝ) = (((y1 - y0) * q : ℚ) : ℝ) := by
    rw [hq]; push_cast; ring
  rw [e2] at e1
  have hA' : |(((y1 - y0) * q : ℚ) : ℝ)| ≤ 2 * Y := by exact_mod_cast hA
  have hW' : |(((y1 - y0) * q + y0 : ℚ) : ℝ)| ≤ Y := by exact_mod_cast hW
  have hY' : (0 : ℝ) ≤ Y := by exact_mod_cast hY
  rw [← hq]
  have e3 : |((toDouble (toDouble (toDouble (y1 - y0) / toDouble (x1 - x0)) * toDouble (x - x0)) + y0 : ℚ) : ℝ) - (((y1 - y0) * q + y0 : ℚ) : ℝ)| ≤
      11 / 2 ^ 52 * Y := by
    rw [Rat.cast_add, Rat.cast_add, add_sub_add_right_eq_sub]
    refine e1.trans ?_
    calc _ ≤ 101 / 100 * (0 + 1 / 2 ^ 52 + (0 + 1 / 2 ^ 52) + 1 / 2 ^ 52 + (0 + 1 / 2 ^ 52) + 1 / 2 ^ 52) * (2 * (Y : ℝ)) :=
          mul_le_mul_of_nonneg_left hA' (by norm_num)
      _ ≤ _ := by norm_num; linarith
  have e4 := rnd_err le_rfl _ _ e3 hW'
  have e5 : |(lineF x0 x1 y0 y1 x : ℝ) - (((y1 - y0) * q + y0 : ℚ) : ℝ)| ≤ (Y : ℝ) / 2 ^ 48 := by
    refine e4.trans ?_
    norm_num
    linarith
  have e6 : |lineF x0 x1 y0 y1 x - ((y1 - y0) * q + y0)| ≤ Y / 2 ^ 48 := by exact_mod_cast e5
  rwa [add_comm] at e6

/-- The seconds in double precision of an instant. -/
private theorem stamp_err {t : ℤ} (h : Modern t) : |timestampF t - (t : ℚ) / 1000000| ≤ 1 / 2 ^ 21 := by
  have : |(t : ℚ) / 1000000| ≤ 2 ^ ((32 : ℤ) + 1) := by
    rw [abs_div, abs_of_pos (by norm_num : (0 : ℚ) < 1000000), div_le_iff₀ (by norm_num), ← Int.cast_abs]
    norm_num
    exact_mod_cast h
  rw [abs_sub_comm]
  refine (toDouble_rounds.error _ 32 this).trans (le_of_eq ?_)
  norm_num [zpow_neg]

private theorem stamp_mono {a b : ℤ} (h : a ≤ b) : timestampF a ≤ timestampF b := by
  apply toDouble_rounds.mono
  have : (a : ℚ) ≤ b := by exact_mod_cast h
  linarith

/-- Shifting the times by up to `δ` moves the position by up to `2 δ v`. -/
private theorem shift_err (x0 x1 x t0 t1 t d δ v : ℚ) (h : x0 < x1) (h' : t0 < t1) (h0 : x0 ≤ x) (h1 : x ≤ x1) (e0 : |x0 - t0| ≤ δ) (e1 : |x1 - t1| ≤ δ)
    (e : |x - t| ≤ δ) (hd : |d| ≤ v * (t1 - t0)) : |d * ((x - x0) / (x1 - x0)) - d * ((t - t0) / (t1 - t0))| ≤ 2 * δ * v := by
  have hp : 0 < x1 - x0 := by linarith
  have hp' : 0 < t1 - t0 := by linarith
  obtain ⟨q, hq⟩ : ∃ q, q = (x - x0) / (x1 - x0) := ⟨_, rfl⟩
  have q0 : 0 ≤ q := by rw [hq]; exact div_nonneg (by linarith) hp.le
  have q1 : q ≤ 1 := by rw [hq, div_le_one hp]; linarith
  have hx : x - x0 = q * (x1 - x0) := by rw [hq]; field_simp
  rw [← hq]
  have key : d * q - d * ((t - t0) / (t1 - t0)) = d / (t1 - t0) * ((x - t) - (1 - q) * (x0 - t0) - q * (x1 - t1)) := by
    have : (x - t) - (1 - q) * (x0 - t0) - q * (x1 - t1) = q * (t1 - t0) - (t - t0) := by linear_combination hx
    rw [this]
    field_simp
  rw [key, abs_mul]
  have hv : |d / (t1 - t0)| ≤ v := by
    rw [abs_div, abs_of_pos hp', div_le_iff₀ hp']
    exact hd
  have hs : |(x - t) - (1 - q) * (x0 - t0) - q * (x1 - t1)| ≤ 2 * δ := by
    rw [abs_le] at *
    constructor <;> nlinarith
  calc _ ≤ v * (2 * δ) := mul_le_mul hv hs (abs_nonneg _) ((abs_nonneg _).trans hv)
    _ = _ := by ring

/-! ### C136 -/

/-- **C136.** Between two fixes the scripts place the gravimeter on the straight line through them, up to what the ship covers in a millionth of a second and
a part in 2^48 of the coordinates: whatever the instants of the fixes and of the reading, although the seconds that stand for them are rounded. -/
theorem C136_position (T : ℕ → ℤ) (y : ℕ → ℚ) (m : ℕ) (hT : ∀ i j, i < j → j < m → T i < T j) (hM : ∀ i < m, Modern (T i)) (Y : ℚ) (hY : ∀ i < m, |y i| ≤ Y)
    (t : ℤ) (ht : Modern t) (k : ℕ) (hk : k + 1 < m) (h0 : T k ≤ t) (h1 : t ≤ T (k + 1)) (v : ℚ)
    (hv : |y (k + 1) - y k| ≤ v * (((T (k + 1) : ℚ) - T k) / 1000000)) :
    |interp1dF (samples (fun i => timestampF (T i)) m) (samples y m) (timestampF t) - (y k + (y (k + 1) - y k) * (((t : ℚ) - T k) / (T (k + 1) - T k)))| ≤
      v / 2 ^ 20 + Y / 2 ^ 48 := by
  have hF : ∀ i j, i < j → j < m → timestampF (T i) < timestampF (T j) := fun i j hij hj => timestampF_lt (hM i (by omega)) (hM j hj) (hT i j hij hj)
  have hle : ∀ i j, i ≤ j → j < m → T i ≤ T j := by
    intro i j hij hj
    rcases Nat.eq_or_lt_of_le hij with rfl | h
    · exact le_rfl
    · exact (hT i j h hj).le
  have hd : (0 : ℚ) < ((T (k + 1) : ℚ) - T k) / 1000000 := by
    have : (T k : ℚ) < T (k + 1) := by exact_mod_cast hT k (k + 1) (by omega) hk
    apply div_pos <;> linarith
  have v0 : 0 ≤ v := by
    by_contra hn
    have := (abs_nonneg _).trans hv
    nlinarith
  obtain ⟨i, him, hlo, hhi, e⟩ := interp_value _ y m (by omega) hF (timestampF t)
  rw [e]
  have lt' : ∀ j < m, timestampF (T j) < timestampF t → T j < t := fun j hj h => by
    by_contra hn
    exact absurd (stamp_mono (not_lt.1 hn)) (not_le.2 h)
  have le' : ∀ j < m, timestampF t ≤ timestampF (T j) → t ≤ T j := fun j hj h => by
    by_contra hn
    exact absurd (timestampF_lt (hM j hj) ht (not_le.1 hn)) (not_lt.2 h)
  have hik : i = k ∨ i + 1 = k ∧ t = T k := by
    have a1 : i ≤ k := by
      rcases hlo with h | h
      · omega
      · by_contra hc
        have := lt' i (by omega) h
        have := hle (k + 1) i (by omega) (by omega)
        omega
    rcases Nat.eq_or_lt_of_le a1 with h | h
    · exact Or.inl h
    · right
      rcases hhi with h' | h'
      · omega
      · have b1 := le' (i + 1) him h'
        rcases Nat.eq_or_lt_of_le (by omega : i + 1 ≤ k) with h'' | h''
        · exact ⟨h'', le_antisymm (h'' ▸ b1) h0⟩
        · have := hT (i + 1) k h'' (by omega)
          omega
  rcases hik with rfl | ⟨hik, htk⟩
  · have l := line_err (timestampF (T i)) (timestampF (T (i + 1))) (y i) (y (i + 1)) (timestampF t) Y (hF i (i + 1) (by omega) hk) (stamp_mono h0) (stamp_mono h1)
      (hY i (by omega)) (hY (i + 1) hk)
    have s := shift_err (timestampF (T i)) (timestampF (T (i + 1))) (timestampF t) (T i / 1000000) (T (i + 1) / 1000000) (t / 1000000) (y (i + 1) - y i) (1 / 2 ^ 21) v
      (hF i (i + 1) (by omega) hk) (by linarith) (stamp_mono h0) (stamp_mono h1) (stamp_err (hM i (by omega))) (stamp_err (hM (i + 1) hk)) (stamp_err ht)
      (by rw [← sub_div]; exact hv)
    rw [← sub_div, ← sub_div, div_div_div_cancel_right₀ (by norm_num)] at s
    have := abs_add_le (lineF (timestampF (T i)) (timestampF (T (i + 1))) (y i) (y (i + 1)) (timestampF t) -
      (y i + (y (i + 1) - y i) * ((timestampF t - timestampF (T i)) / (timestampF (T (i + 1)) - timestampF (T i)))))
      ((y (i + 1) - y i) * ((timestampF t - timestampF (T i)) / (timestampF (T (i + 1)) - timestampF (T i))) - (y (i + 1) - y i) * (((t : ℚ) - T i) / (T (i + 1) - T i)))
    refine le_trans (le_of_eq (congrArg _ (by ring))) (this.trans ((add_le_add l s).trans (le_of_eq ?_)))
    ring
  · subst hik
    have l := line_err (timestampF (T i)) (timestampF (T (i + 1))) (y i) (y (i + 1)) (timestampF t) Y (hF i (i + 1) (by omega) him)
      (by rw [htk]; exact (hF i (i + 1) (by omega) him).le) (by rw [htk]) (hY i (by omega)) (hY (i + 1) him)
    have hne : timestampF (T (i + 1)) - timestampF (T i) ≠ 0 := (sub_pos.2 (hF i (i + 1) (by omega) him)).ne'
    rw [htk, div_self hne] at l
    rw [htk, sub_self, zero_div, mul_zero, add_zero]
    have : y i + (y (i + 1) - y i) * 1 = y (i + 1) := by ring
    rw [this] at l
    refine l.trans ?_
    have : 0 ≤ v / 2 ^ 20 := by positivity
    linarith

/-- **C136.** A ship that stays where it is stays there, at every time: also before the first and after the last fix. -/
theorem C136_rest (T : ℕ → ℚ) (c : ℚ) (hc : IsDouble c) (m : ℕ) (hm : 2 ≤ m) (hT : ∀ i j, i < j → j < m → T i < T j) (x : ℚ) :
    interp1dF (samples T m) (samples (fun _ => c) m) x = c := by
  obtain ⟨i, -, -, -, e⟩ := interp_value T (fun _ => c) m hm hT x
  have z : toDouble 0 = 0 := by decide +kernel
  rw [e]
  unfold lineF
  rw [sub_self, z, zero_div, z, zero_mul, z, zero_add]
  exact toDouble_rounds.exact hc

/-- **C136.** The position at the instant of a fix need not be that fix to the last bit: from 1° to 5/1024° in seven seconds, read at the second fix. -/
theorem C136_at_fix_refuted : ¬ ∀ (T : ℕ → ℤ) (y : ℕ → ℚ) (m : ℕ), (∀ i j, i < j → j < m → T i < T j) → (∀ i < m, Modern (T i) ∧ IsDouble (y i)) → ∀ k < m, 2 ≤ m →
    interp1dF (samples (fun i => timestampF (T i)) m) (samples y m) (timestampF (T k)) = y k := by
  intro h
  have := h (fun i => 1647129600000000 + 7000000 * i) (fun i => if i = 0 then 1 else 5 / 1024) 2 (fun i j h _ => by omega) (fun i hi => by
    refine ⟨by unfold Modern; interval_cases i <;> decide, ?_⟩
    interval_cases i
    · exact ⟨1, 0, by norm_num, by norm_num⟩
    · exact ⟨5, -10, by norm_num, by norm_num⟩) 1 (by norm_num) (by norm_num)
  revert this
  decide +kernel

/-! ### Non-vacuity -/

/-- A reading half a second after the first of two fixes, 2022-03-13. -/
example : |interp1dF (samples (fun i => timestampF (1647129600000000 + 1000000 * i)) 2) (samples (fun i => 150 + i / 20000) 2) (timestampF 1647129600500000) -
    (150 + 1 / 40000)| ≤ 1 / 10 ^ 9 := by
  refine (le_of_eq (congrArg abs (congrArg _ ?_))).trans ((C136_position (fun i => 1647129600000000 + 1000000 * i) (fun i => 150 + i / 20000) 2 (fun i j h _ => by omega)
    (fun i hi => ?_) 151 (fun i hi => ?_) 1647129600500000 (by unfold Modern; decide) 0 (by norm_num) (by norm_num) (by norm_num) (1 / 20000)
    (by norm_num [abs_le])).trans (by norm_num))
  · norm_num
  · unfold Modern; interval_cases i <;> decide
  · interval_cases i <;> norm_num [abs_le]

end Shipgrav
