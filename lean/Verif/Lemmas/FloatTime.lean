import Verif.Lemmas.Float64

/-! Instants and seconds in double precision. -/

namespace Shipgrav
open Spec

theorem truncQ_near (x : ℚ) : |x - truncQ x| ≤ 1 := by
  unfold truncQ
  split
  · have h1 := Int.floor_le x
    have h2 := Int.lt_floor_add_one x
    rw [abs_le]; constructor <;> linarith
  · have h1 := Int.le_ceil x
    have h2 := Int.ceil_lt_add_one x
    rw [abs_le]; constructor <;> linarith

/-- Seconds `v` of at most 2^33, rounded, and back. -/
theorem fromTimestampF_near (v : ℚ) (hv : |v| ≤ 2 ^ 33) :
    ∃ t : ℤ, fromTimestampF (toDouble v) = .ok t ∧ |1000000 * v - t| < 1 ∧ ∀ n : ℤ, 1000000 * v = n → t = n := by
  have h1 : |v - toDouble v| ≤ 1 / 2 ^ 21 := by
    have := toDouble_rounds.error v 32 (by exact_mod_cast hv)
    refine this.trans (le_of_eq ?_)
    norm_num [zpow_neg]
  obtain ⟨x, hx⟩ : ∃ x, x = toDouble v := ⟨_, rfl⟩
  rw [← hx] at h1 ⊢
  obtain ⟨w, hw⟩ : ∃ w, w = truncQ x := ⟨_, rfl⟩
  have h2 : |x - w| ≤ 1 := hw ▸ truncQ_near x
  obtain ⟨p, hp⟩ : ∃ p, p = (x - w) * 1000000 := ⟨_, rfl⟩
  have h3 : |p - toDouble p| ≤ 1 / 2 ^ 34 := by
    have hpb : |p| ≤ 2 ^ ((19 : ℤ) + 1) := by
      rw [hp, abs_mul, abs_of_pos (by norm_num : (0 : ℚ) < 1000000)]
      norm_num
      linarith
    refine (toDouble_rounds.error p 19 hpb).trans (le_of_eq ?_)
    norm_num [zpow_neg]
  have h4 := roundHalfEven_near (toDouble p)
  obtain ⟨u, hu⟩ : ∃ u, u = roundHalfEven (toDouble p) := ⟨_, rfl⟩
  rw [← hu] at h4
  have e1 : 1000000 * v - (w * 1000000 : ℤ) - toDouble p = 1000000 * (v - x) + (p - toDouble p) := by
    rw [hp]; push_cast; ring
  have h5 : |1000000 * v - (w * 1000000 : ℤ) - toDouble p| < 48 / 100 := by
    rw [e1]
    calc _ ≤ |1000000 * (v - x)| + |p - toDouble p| := abs_add_le _ _
      _ = 1000000 * |v - x| + |p - toDouble p| := by rw [abs_mul, abs_of_pos (by norm_num : (0 : ℚ) < 1000000)]
      _ ≤ 1000000 * (1 / 2 ^ 21) + 1 / 2 ^ 34 := by gcongr
      _ < 48 / 100 := by norm_num
  have h6 : |1000000 * v - (w * 1000000 + u : ℤ)| < 1 := by
    have : 1000000 * v - (w * 1000000 + u : ℤ) = (1000000 * v - (w * 1000000 : ℤ) - toDouble p) + (toDouble p - u) := by
      push_cast; ring
    rw [this]
    refine lt_of_le_of_lt (abs_add_le _ _) ?_
    linarith
  have hrange : instantUs 1 0 0 0 0 ≤ w * 1000000 + u ∧ w * 1000000 + u < instantUs (maxOrd + 1) 0 0 0 0 := by
    have e : instantUs (maxOrd + 1) 0 0 0 0 = 253402300800000000 := by decide
    have e' : instantUs 1 0 0 0 0 = -62135596800000000 := by decide
    rw [e, e']
    obtain ⟨a1, a2⟩ := abs_lt.1 h6
    obtain ⟨b1, b2⟩ := abs_le.1 hv
    constructor
    · have : ((-62135596800000000 : ℤ) : ℚ) ≤ ((w * 1000000 + u : ℤ) : ℚ) := by push_cast at a1 a2 ⊢; linarith
      exact_mod_cast this
    · have : ((w * 1000000 + u : ℤ) : ℚ) < ((253402300800000000 : ℤ) : ℚ) := by push_cast at a1 a2 ⊢; linarith
      exact_mod_cast this
  refine ⟨w * 1000000 + u, ?_, h6, ?_⟩
  · unfold fromTimestampF
    simp only [← hw, ← hp, ← hu]
    rw [if_pos hrange]
  · intro n hn
    have hun : u = n - w * 1000000 := by
      rw [hu]
      apply roundHalfEven_eq
      rw [hn] at h5
      rw [abs_sub_comm]
      push_cast at h5 ⊢
      linarith
    rw [hun]; ring

theorem timestampF_lt {a b : ℤ} (ha : |a| ≤ 2 ^ 33 * 1000000) (hb : |b| ≤ 2 ^ 33 * 1000000) (h : a < b) : timestampF a < timestampF b := by
  have bound : ∀ c : ℤ, |c| ≤ 2 ^ 33 * 1000000 → |(c : ℚ) / 1000000 - timestampF c| ≤ 1 / 2 ^ 21 := by
    intro c hc
    have : |(c : ℚ) / 1000000| ≤ 2 ^ ((32 : ℤ) + 1) := by
      rw [abs_div, abs_of_pos (by norm_num : (0 : ℚ) < 1000000), div_le_iff₀ (by norm_num), ← Int.cast_abs]
      norm_num
      exact_mod_cast hc
    refine (toDouble_rounds.error _ 32 this).trans (le_of_eq ?_)
    norm_num [zpow_neg]
  have h1 := (abs_le.1 (bound a ha)).1
  have h2 := (abs_le.1 (bound b hb)).2
  have h3 : (a : ℚ) + 1 ≤ b := by exact_mod_cast h
  have h4 : (b : ℚ) / 1000000 = a / 1000000 + (b - a) / 1000000 := by ring
  have h5 : (1 : ℚ) / 1000000 ≤ (b - a) / 1000000 := by
    apply div_le_div_of_nonneg_right _ (by norm_num); linarith
  norm_num at h1 h2 h5 ⊢
  linarith

theorem fromTimestampF_timestampF {t : ℤ} (h : |t| ≤ 2 ^ 33 * 1000000) : fromTimestampF (timestampF t) = .ok t := by
  have : |(t : ℚ) / 1000000| ≤ 2 ^ 33 := by
    rw [abs_div, abs_of_pos (by norm_num : (0 : ℚ) < 1000000), div_le_iff₀ (by norm_num), ← Int.cast_abs]
    exact_mod_cast h
  obtain ⟨u, hu, -, h3⟩ := fromTimestampF_near _ this
  rw [timestampF, hu, h3 t (by field_simp)]

/-- The microseconds that `int(float(text)*1e6)` makes of the fraction `f / 10^k` of a second. -/
def isoMicros (k f : ℕ) : ℤ := truncQ (toDouble (toDouble ((f : ℚ) / 10 ^ k) * 1000000))

/-- The two roundings move the number of microseconds by very little. -/
theorem isoMicros_pre (k f : ℕ) (hf : f < 10 ^ k) :
    |(f : ℚ) / 10 ^ k * 1000000 - toDouble (toDouble ((f : ℚ) / 10 ^ k) * 1000000)| ≤ 1 / 2 ^ 32 := by
  have h0 : (0 : ℚ) ≤ (f : ℚ) / 10 ^ k := by positivity
  have h1 : (f : ℚ) / 10 ^ k < 1 := by rw [div_lt_one (by positivity)]; exact_mod_cast hf
  obtain ⟨v, hv⟩ : ∃ v, v = (f : ℚ) / 10 ^ k := ⟨_, rfl⟩
  rw [← hv] at h0 h1 ⊢
  have a1 : |v - toDouble v| ≤ 1 / 2 ^ 54 := by
    have := toDouble_rounds.error v (-1) (by norm_num; rw [abs_of_nonneg h0]; exact h1.le)
    refine this.trans (le_of_eq ?_); norm_num [zpow_neg]
  have a2 : |toDouble v * 1000000| ≤ 2 ^ ((19 : ℤ) + 1) := by
    have h2 : |toDouble v| ≤ 1 + 1 / 2 ^ 54 := by
      have : toDouble v = v - (v - toDouble v) := by ring
      rw [this]
      calc _ ≤ |v| + |v - toDouble v| := abs_sub _ _
        _ ≤ 1 + 1 / 2 ^ 54 := by rw [abs_of_nonneg h0]; linarith
    rw [abs_mul, abs_of_pos (by norm_num : (0 : ℚ) < 1000000)]
    norm_num at h2 ⊢
    linarith
  have a3 : |toDouble v * 1000000 - toDouble (toDouble v * 1000000)| ≤ 1 / 2 ^ 34 := by
    refine (toDouble_rounds.error _ 19 a2).trans (le_of_eq ?_); norm_num [zpow_neg]
  have e : v * 1000000 - toDouble (toDouble v * 1000000) = (v - toDouble v) * 1000000 + (toDouble v * 1000000 - toDouble (toDouble v * 1000000)) := by ring
  rw [e]
  calc _ ≤ |(v - toDouble v) * 1000000| + _ := abs_add_le _ _
    _ = |v - toDouble v| * 1000000 + _ := by rw [abs_mul, abs_of_pos (by norm_num : (0 : ℚ) < 1000000)]
    _ ≤ 1 / 2 ^ 54 * 1000000 + 1 / 2 ^ 34 := by gcongr
    _ ≤ 1 / 2 ^ 32 := by norm_num

theorem toDouble_nonneg {x : ℚ} (h : 0 ≤ x) : 0 ≤ toDouble x := by
  have := toDouble_rounds.mono h
  rwa [toDouble_rounds.exact ⟨0, 0, by norm_num, by norm_num⟩] at this

/-- With up to nine decimals the microseconds are those of the text, or one less where the text has no more than whole microseconds. -/
theorem isoMicros_near (k f : ℕ) (hf : f < 10 ^ k) (hk : k ≤ 9) :
    isoMicros k f = (f * 1000000 / 10 ^ k : ℕ) ∨ (10 ^ k ∣ f * 1000000 ∧ 0 < f ∧ isoMicros k f = (f * 1000000 / 10 ^ k : ℕ) - 1) := by
  have hpre := isoMicros_pre k f hf
  have hnn : 0 ≤ toDouble (toDouble ((f : ℚ) / 10 ^ k) * 1000000) :=
    toDouble_nonneg (mul_nonneg (toDouble_nonneg (by positivity)) (by norm_num))
  unfold isoMicros truncQ
  rw [if_pos hnn]
  rcases Nat.eq_zero_or_pos f with h0 | h0
  · left
    subst h0
    have e : toDouble 0 = 0 := by decide +kernel
    simp [e]
  obtain ⟨y, hy⟩ : ∃ y, y = toDouble (toDouble ((f : ℚ) / 10 ^ k) * 1000000) := ⟨_, rfl⟩
  rw [← hy] at hpre hnn ⊢
  obtain ⟨n, hn⟩ : ∃ n, n = f * 1000000 / 10 ^ k := ⟨_, rfl⟩
  obtain ⟨m, hm⟩ : ∃ m, m = f * 1000000 % 10 ^ k := ⟨_, rfl⟩
  have hdm : 10 ^ k * n + m = f * 1000000 := by rw [hn, hm]; exact Nat.div_add_mod _ _
  have hml : m < 10 ^ k := by rw [hm]; exact Nat.mod_lt _ (by positivity)
  have hq : (f : ℚ) / 10 ^ k * 1000000 = n + m / 10 ^ k := by
    have : ((10 ^ k * n + m : ℕ) : ℚ) = ((f * 1000000 : ℕ) : ℚ) := by rw [hdm]
    push_cast at this
    field_simp
    linarith
  have hk9 : (10 : ℚ) ^ k ≤ 10 ^ 9 := pow_le_pow_right₀ (by norm_num) hk
  have hpos : (0 : ℚ) < 10 ^ k := by positivity
  rw [hq] at hpre
  obtain ⟨p1, p2⟩ := abs_le.1 hpre
  rw [← hn]
  have hup : (m : ℚ) / 10 ^ k ≤ 1 - 1 / 10 ^ 9 := by
    have h1 : (m : ℚ) + 1 ≤ 10 ^ k := by exact_mod_cast hml
    rw [div_le_iff₀ hpos]
    have : (1 : ℚ) / 10 ^ 9 * 10 ^ k ≤ 1 := by
      rw [div_mul_eq_mul_div, one_mul, div_le_one (by norm_num)]; exact hk9
    linarith
  by_cases hy2 : (n : ℚ) ≤ y
  · left
    rw [Int.floor_eq_iff]
    constructor
    · exact_mod_cast hy2
    · push_cast; norm_num at p1 hup ⊢; linarith
  · push Not at hy2
    right
    have hm0 : m = 0 := by
      by_contra hmne
      have h1 : (1 : ℚ) ≤ m := by exact_mod_cast Nat.one_le_iff_ne_zero.2 hmne
      have h2 : (1 : ℚ) / 10 ^ 9 ≤ m / 10 ^ k := by
        rw [div_le_div_iff₀ (by norm_num) hpos]; nlinarith
      norm_num at p2 h2
      linarith
    refine ⟨?_, h0, ?_⟩
    · rw [Nat.dvd_iff_mod_eq_zero, ← hm, hm0]
    · rw [hm0] at p2
      rw [Int.floor_eq_iff]
      push_cast
      norm_num at p2 ⊢
      exact ⟨by linarith, hy2⟩

/-- Milliseconds come out exactly. -/
theorem isoMicros_milli (k f : ℕ) (hk : k ≤ 3) (hf : f < 10 ^ k) : isoMicros k f = (f * 10 ^ (6 - k) : ℕ) := by
  have key : ∀ n : ℕ, n < 1000 → truncQ (toDouble (toDouble ((n : ℚ) / 1000) * 1000000)) = ((n * 1000 : ℕ) : ℤ) := by decide +kernel
  have h10 : 10 ^ k * 10 ^ (3 - k) = 1000 := by rw [← pow_add, Nat.add_sub_cancel' hk]; norm_num
  have h := key (f * 10 ^ (3 - k)) (by
    rw [← h10]; exact Nat.mul_lt_mul_of_pos_right hf (by positivity))
  unfold isoMicros
  have e : ((f * 10 ^ (3 - k) : ℕ) : ℚ) / 1000 = f / 10 ^ k := by
    have h10' : (10 : ℚ) ^ k * 10 ^ (3 - k) = 1000 := by exact_mod_cast h10
    rw [← h10']; push_cast; field_simp
  rw [e] at h
  rw [h]
  congr 1
  rw [mul_assoc, show 6 - k = (3 - k) + 3 by omega, pow_add]
  norm_num

end Shipgrav
