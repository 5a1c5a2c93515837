import Verif.Spec.Float64
import Verif.Py.Float64
import Mathlib.Algebra.Order.Archimedean.Basic
import Mathlib.Tactic.Linarith
import Mathlib.Tactic.NormNum
import Mathlib.Tactic.Positivity
import Mathlib.Tactic.FieldSimp
import Mathlib.Tactic.Ring

/-! Rounding to double precision: bounds for the error, monotonicity; `toDouble` rounds to nearest. -/

namespace Shipgrav
open Spec

theorem isDouble_of_le {m e : ℤ} (h : |m| ≤ 2 ^ 53) : IsDouble ((m : ℚ) * 2 ^ e) := by
  rcases h.lt_or_eq with h | h
  · exact ⟨m, e, h, rfl⟩
  · rcases (abs_eq (by positivity)).1 h with rfl | rfl
    · refine ⟨1, e + 53, by norm_num, ?_⟩
      rw [zpow_add₀ two_ne_zero]; push_cast; norm_num; ring
    · refine ⟨-1, e + 53, by norm_num, ?_⟩
      rw [zpow_add₀ two_ne_zero]; push_cast; norm_num; ring

theorem roundHalfEven_near (q : ℚ) : |q - roundHalfEven q| ≤ 1 / 2 := by
  have h1 := Int.floor_le q
  have h2 := Int.lt_floor_add_one q
  unfold roundHalfEven
  simp only
  rw [abs_le]
  split
  · constructor <;> linarith
  · split
    · push_cast; constructor <;> linarith
    · split
      · constructor <;> linarith
      · push_cast; constructor <;> linarith

theorem roundHalfEven_nearestEven (q : ℚ) : IsNearestEven q (roundHalfEven q) := by
  have h1 := Int.floor_le q
  have h2 := Int.lt_floor_add_one q
  unfold IsNearestEven roundHalfEven
  simp only
  split
  · left; rw [abs_lt]; constructor <;> linarith
  · split
    · left; push_cast; rw [abs_lt]; constructor <;> linarith
    · have h3 : q - ⌊q⌋ = 1 / 2 := by linarith
      right
      split
      · rename_i h
        exact ⟨by rw [h3]; norm_num, Int.even_iff.2 h⟩
      · rename_i h
        refine ⟨by push_cast; rw [show q - (⌊q⌋ + 1) = -(1 / 2) by linarith]; norm_num, ?_⟩
        rw [Int.even_add_one]
        exact fun hh => h (Int.even_iff.1 hh)

theorem roundHalfEven_eq {q : ℚ} {n : ℤ} (h : |q - n| < 1 / 2) : roundHalfEven q = n := by
  have h1 := roundHalfEven_near q
  have h2 : |((roundHalfEven q - n : ℤ) : ℚ)| < 1 := by
    have : ((roundHalfEven q - n : ℤ) : ℚ) = (q - n) - (q - roundHalfEven q) := by push_cast; ring
    rw [this]
    calc |(q - n) - (q - roundHalfEven q)| ≤ |q - n| + |q - roundHalfEven q| := abs_sub _ _
      _ < 1 := by linarith
  rw [← Int.cast_abs] at h2
  have h3 : |roundHalfEven q - n| < 1 := by exact_mod_cast h2
  rw [Int.abs_lt_one_iff] at h3
  omega

theorem roundHalfEven_le (q : ℚ) (n : ℤ) : |q - roundHalfEven q| ≤ |q - n| := by
  by_cases h : |q - n| < 1 / 2
  · rw [roundHalfEven_eq h]
  · exact (roundHalfEven_near q).trans (not_lt.1 h)

theorem Spec.Rounds.exact {r : ℚ → ℚ} (hr : Rounds r) {x : ℚ} (hx : IsDouble x) : r x = x := by
  have := hr.nearest x x hx
  rw [sub_self, abs_zero] at this
  have := abs_nonpos_iff.1 this
  linarith

/-- Absolute error: half a unit in the last place. -/
theorem Spec.Rounds.error {r : ℚ → ℚ} (hr : Rounds r) (x : ℚ) (e : ℤ) (hx : |x| ≤ 2 ^ (e + 1)) : |x - r x| ≤ 2 ^ (e - 53) := by
  have hu : (0 : ℚ) < 2 ^ (e - 52) := by positivity
  obtain ⟨k, hk⟩ : ∃ k : ℤ, k = roundHalfEven (x / 2 ^ (e - 52)) := ⟨_, rfl⟩
  have h1 := roundHalfEven_near (x / 2 ^ (e - 52))
  rw [← hk] at h1
  have hsplit : (2 : ℚ) ^ (e + 1) = 2 ^ (53 : ℕ) * 2 ^ (e - 52) := by
    rw [← zpow_natCast, ← zpow_add₀ two_ne_zero]; congr 1; push_cast; ring
  have hq : |x / 2 ^ (e - 52)| ≤ 2 ^ 53 := by
    rw [abs_div, abs_of_pos hu, div_le_iff₀ hu, ← hsplit]; exact hx
  have hkb : |k| ≤ 2 ^ 53 := by
    have h2 : |(k : ℚ)| < 2 ^ 53 + 1 := by
      have : (k : ℚ) = x / 2 ^ (e - 52) - (x / 2 ^ (e - 52) - k) := by ring
      rw [this]
      calc _ ≤ |x / 2 ^ (e - 52)| + |x / 2 ^ (e - 52) - k| := abs_sub _ _
        _ < 2 ^ 53 + 1 := by linarith
    rw [← Int.cast_abs] at h2
    have h3 : |k| < 2 ^ 53 + 1 := by exact_mod_cast h2
    omega
  have h2 := hr.nearest x _ (isDouble_of_le (e := e - 52) hkb)
  refine h2.trans ?_
  have : x - k * 2 ^ (e - 52) = (x / 2 ^ (e - 52) - k) * 2 ^ (e - 52) := by field_simp
  rw [this, abs_mul, abs_of_pos hu]
  have h53 : (2 : ℚ) ^ (e - 53) = 1 / 2 * 2 ^ (e - 52) := by
    rw [show e - 52 = e - 53 + 1 by ring, zpow_add₀ two_ne_zero, zpow_one]; ring
  rw [h53]
  exact mul_le_mul_of_nonneg_right h1 hu.le

/-- Relative error. -/
theorem Spec.Rounds.rel {r : ℚ → ℚ} (hr : Rounds r) (x : ℚ) : |x - r x| ≤ |x| / 2 ^ 53 := by
  by_cases h0 : x = 0
  · subst h0
    rw [hr.exact ⟨0, 0, by norm_num, by norm_num⟩]; norm_num
  obtain ⟨e, he1, he2⟩ := exists_mem_Ico_zpow (abs_pos.2 h0) (one_lt_two (α := ℚ))
  have := hr.error x e he2.le
  refine this.trans ?_
  rw [zpow_sub₀ two_ne_zero, show (2 : ℚ) ^ (53 : ℤ) = 2 ^ 53 from zpow_natCast 2 53]
  exact div_le_div_of_nonneg_right he1 (by positivity)

theorem Spec.Rounds.mono {r : ℚ → ℚ} (hr : Rounds r) {x y : ℚ} (h : x ≤ y) : r x ≤ r y := by
  rcases h.lt_or_eq with h | h
  swap
  · rw [h]
  by_contra hc
  push Not at hc
  have h1 := hr.nearest x (r y) (hr.double y)
  have h2 := hr.nearest y (r x) (hr.double x)
  rcases abs_cases (x - r x) with ⟨a1, a2⟩ | ⟨a1, a2⟩ <;> rcases abs_cases (x - r y) with ⟨b1, b2⟩ | ⟨b1, b2⟩ <;>
    rcases abs_cases (y - r y) with ⟨c1, c2⟩ | ⟨c1, c2⟩ <;> rcases abs_cases (y - r x) with ⟨d1, d2⟩ | ⟨d1, d2⟩ <;> linarith

/-- `toDouble` rounds to the nearest double precision number. -/
theorem toDouble_rounds : Rounds toDouble := by
  have hbase : ∀ x : ℚ, x ≠ 0 → (2 : ℚ) ^ (Int.log 2 |x|) ≤ |x| ∧ |x| < 2 ^ (Int.log 2 |x| + 1) := fun x hx =>
    ⟨by exact_mod_cast Int.zpow_log_le_self (b := 2) one_lt_two (abs_pos.2 hx),
      by exact_mod_cast Int.lt_zpow_succ_log_self (b := 2) one_lt_two |x|⟩
  constructor
  · intro x
    unfold toDouble
    split
    · exact ⟨0, 0, by norm_num, by norm_num⟩
    rename_i hx
    obtain ⟨e, he⟩ : ∃ e, e = Int.log 2 |x| := ⟨_, rfl⟩
    have hb := (hbase x hx).2
    rw [← he] at hb ⊢
    apply isDouble_of_le
    have hu : (0 : ℚ) < 2 ^ (e - 52) := by positivity
    have hsplit : (2 : ℚ) ^ (e + 1) = 2 ^ (53 : ℕ) * 2 ^ (e - 52) := by
      rw [← zpow_natCast, ← zpow_add₀ two_ne_zero]; congr 1; push_cast; ring
    have hq : |x / 2 ^ (e - 52)| < 2 ^ 53 := by
      rw [abs_div, abs_of_pos hu, div_lt_iff₀ hu, ← hsplit]; exact hb
    have h1 := roundHalfEven_near (x / 2 ^ (e - 52))
    obtain ⟨k, hk⟩ : ∃ k : ℤ, k = roundHalfEven (x / 2 ^ (e - 52)) := ⟨_, rfl⟩
    rw [← hk] at h1 ⊢
    have h2 : |(k : ℚ)| < 2 ^ 53 + 1 := by
      have : (k : ℚ) = x / 2 ^ (e - 52) - (x / 2 ^ (e - 52) - k) := by ring
      rw [this]
      calc _ ≤ |x / 2 ^ (e - 52)| + |x / 2 ^ (e - 52) - k| := abs_sub _ _
        _ < 2 ^ 53 + 1 := by linarith
    rw [← Int.cast_abs] at h2
    have h3 : |k| < 2 ^ 53 + 1 := by exact_mod_cast h2
    omega
  · rintro x y ⟨m, f, hm, rfl⟩
    unfold toDouble
    split
    · rename_i hx; rw [hx, sub_self, abs_zero]; exact abs_nonneg _
    rename_i hx
    obtain ⟨e, he⟩ : ∃ e, e = Int.log 2 |x| := ⟨_, rfl⟩
    obtain ⟨hb1, hb2⟩ := hbase x hx
    rw [← he] at hb1 hb2 ⊢
    have hu : (0 : ℚ) < 2 ^ (e - 52) := by positivity
    have key : ∀ n : ℤ, |x - roundHalfEven (x / 2 ^ (e - 52)) * 2 ^ (e - 52)| ≤ |x - n * 2 ^ (e - 52)| := by
      intro n
      have h := roundHalfEven_le (x / 2 ^ (e - 52)) n
      have e1 : ∀ k : ℤ, x - k * 2 ^ (e - 52) = (x / 2 ^ (e - 52) - k) * 2 ^ (e - 52) := by intro k; field_simp
      rw [e1, e1, abs_mul, abs_mul]
      exact mul_le_mul_of_nonneg_right h (abs_nonneg _)
    by_cases hf : e - 52 ≤ f
    · obtain ⟨k, hk⟩ := Int.eq_ofNat_of_zero_le (sub_nonneg.2 hf)
      have h := key (m * 2 ^ k)
      have e2 : (((m * 2 ^ k : ℤ)) : ℚ) * 2 ^ (e - 52) = m * 2 ^ f := by
        rw [show f = (k : ℤ) + (e - 52) by omega, zpow_add₀ two_ne_zero, zpow_natCast]; push_cast; ring
      rwa [e2] at h
    · push Not at hf
      have hy : |(m : ℚ) * 2 ^ f| < 2 ^ e := by
        rw [abs_mul, abs_of_pos (by positivity : (0 : ℚ) < 2 ^ f), ← Int.cast_abs]
        have h1 : ((|m| : ℤ) : ℚ) < 2 ^ 53 := by exact_mod_cast hm
        have h2 : (2 : ℚ) ^ f ≤ 2 ^ (e - 53) := zpow_le_zpow_right₀ one_le_two (by omega)
        calc ((|m| : ℤ) : ℚ) * 2 ^ f < 2 ^ 53 * 2 ^ f := by gcongr
          _ ≤ 2 ^ 53 * 2 ^ (e - 53) := by gcongr
          _ = 2 ^ e := by rw [← zpow_natCast, ← zpow_add₀ two_ne_zero]; congr 1; push_cast; ring
      have h52 : (2 : ℚ) ^ e = 2 ^ 52 * 2 ^ (e - 52) := by
        rw [← zpow_natCast, ← zpow_add₀ two_ne_zero]; congr 1; push_cast; ring
      have hxy : |x| - 2 ^ e ≤ |x - m * 2 ^ f| := by
        have := abs_sub_abs_le_abs_sub x ((m : ℚ) * 2 ^ f)
        linarith
      refine le_trans ?_ hxy
      rcases le_total 0 x with h0 | h0
      · have h := key (2 ^ 52)
        rw [show ((2 ^ 52 : ℤ) : ℚ) * 2 ^ (e - 52) = 2 ^ e by rw [h52]; push_cast; rfl] at h
        rw [abs_of_nonneg h0] at hb1 ⊢
        rwa [abs_of_nonneg (by linarith : 0 ≤ x - 2 ^ e)] at h
      · have h := key (-2 ^ 52)
        rw [show ((-2 ^ 52 : ℤ) : ℚ) * 2 ^ (e - 52) = -2 ^ e by rw [h52]; push_cast; ring] at h
        rw [abs_of_nonpos h0] at hb1 ⊢
        rw [abs_of_nonpos (by linarith : x - -2 ^ e ≤ 0)] at h
        linarith

end Shipgrav
