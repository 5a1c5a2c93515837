import Verif.Py.Repr
import Verif.Lemmas.Float64
import Mathlib.Data.Rat.Floor

/-! Decimals of at most 15 significant digits survive reading and writing in double precision. -/

namespace Shipgrav
open Spec

/-- A decimal of at most 15 significant digits, other than zero. -/
def Dec15 (q : ℚ) : Prop := ∃ (m : ℤ) (e : ℤ), 0 < m ∧ m < 10 ^ 15 ∧ q = m * 10 ^ e

theorem Dec15.pos {q : ℚ} (h : Dec15 q) : 0 < q := by
  obtain ⟨m, e, h0, _, rfl⟩ := h
  have : (0 : ℚ) < m := by exact_mod_cast h0
  positivity

private theorem rel_pos {q : ℚ} (h : 0 < q) : |q - toDouble q| ≤ q / 2 ^ 53 := by
  have := toDouble_rounds.rel q
  rwa [abs_of_pos h] at this

theorem toDouble_pos {q : ℚ} (h : 0 < q) : 0 < toDouble q := by
  have h1 := (abs_le.1 (rel_pos h)).2
  have : q / 2 ^ 53 < q := div_lt_self h (by norm_num)
  linarith

private theorem dec15_inj_aux {m m' e e' : ℤ} (he : e ≤ e') (hm : 0 < m) (hm' : m < 10 ^ 15) (hn : 0 < m')
    (h : toDouble ((m : ℚ) * 10 ^ e) = toDouble ((m' : ℚ) * 10 ^ e')) : (m : ℚ) * 10 ^ e = (m' : ℚ) * 10 ^ e' := by
  have hq : (0 : ℚ) < (m : ℚ) * 10 ^ e := by
    have : (0 : ℚ) < m := by exact_mod_cast hm
    positivity
  have hq' : (0 : ℚ) < (m' : ℚ) * 10 ^ e' := by
    have : (0 : ℚ) < m' := by exact_mod_cast hn
    positivity
  have hb : (m : ℚ) * 10 ^ e < 10 ^ 15 * 10 ^ e := by
    have : (m : ℚ) < 10 ^ 15 := by exact_mod_cast hm'
    have h0 : (0 : ℚ) < 10 ^ e := by positivity
    exact mul_lt_mul_of_pos_right this h0
  have r1 := abs_le.1 (rel_pos hq)
  have r2 := abs_le.1 (rel_pos hq')
  rw [← h] at r2
  have hg : (0 : ℚ) < 10 ^ e := by positivity
  obtain ⟨j, hj⟩ : ∃ j : ℤ, (m' : ℚ) * 10 ^ e' = j * 10 ^ e := by
    obtain ⟨n, hn⟩ := Int.eq_ofNat_of_zero_le (sub_nonneg.2 he)
    refine ⟨m' * 10 ^ n, ?_⟩
    have : e' = e + n := by omega
    rw [this, zpow_add₀ (by norm_num : (10 : ℚ) ≠ 0), zpow_natCast]
    push_cast
    ring
  rw [hj] at r2 hq' ⊢
  generalize toDouble ((m : ℚ) * 10 ^ e) = x at *
  generalize hG : (10 : ℚ) ^ e = G at *
  have d1 : |((m - j : ℤ) : ℚ)| * G < 1 * G := by
    rw [← abs_of_pos hg, ← abs_mul, abs_of_pos hg]
    push_cast
    rw [sub_mul, abs_lt]
    constructor <;> nlinarith
  have d2 : |((m - j : ℤ) : ℚ)| < 1 := lt_of_mul_lt_mul_right d1 hg.le
  have d3 : |m - j| < 1 := by exact_mod_cast d2
  have : m = j := by have := abs_lt.1 d3; omega
  rw [this]

/-- Two different decimals of at most 15 digits are different in double precision. -/
theorem dec15_inj {q q' : ℚ} (h : Dec15 q) (h' : Dec15 q') (he : toDouble q = toDouble q') : q = q' := by
  obtain ⟨m, e, h0, h1, rfl⟩ := h
  obtain ⟨m', e', h0', h1', rfl⟩ := h'
  rcases le_total e e' with hle | hle
  · exact dec15_inj_aux hle h0 h1 h0' he
  · exact (dec15_inj_aux hle h0' h1' h0 he.symm).symm

theorem decimalOf_reads {x r : ℚ} {k : ℕ} (h : decimalOf x k = some r) : toDouble r = x := by
  unfold decimalOf at h
  simp only at h
  split_ifs at h with h1 h2 h3
  · cases h; exact h2.1
  · cases h; exact h1
  · cases h; exact h3

private theorem grid_dec15 {n : ℤ} {e : ℤ} (h0 : 0 < n) (h1 : n ≤ 10 ^ 15) : Dec15 ((n : ℚ) * 10 ^ e) := by
  rcases lt_or_eq_of_le h1 with h | h
  · exact ⟨n, e, h0, h, rfl⟩
  · refine ⟨1, e + 15, by norm_num, by norm_num, ?_⟩
    rw [h, zpow_add₀ (by norm_num : (10 : ℚ) ≠ 0)]
    push_cast
    norm_num
    ring

theorem decimalOf_dec15 {x r : ℚ} {k : ℕ} (hx : 0 < x) (h1 : 1 ≤ k) (hk : k ≤ 15) (h : decimalOf x k = some r) : Dec15 r := by
  have hr : ∃ n : ℤ, r = n * 10 ^ (Int.log 10 x - k + 1) ∧ ⌊x / 10 ^ (Int.log 10 x - k + 1)⌋ ≤ n ∧ n ≤ ⌈x / (10 : ℚ) ^ (Int.log 10 x - k + 1)⌉ := by
    unfold decimalOf at h
    simp only at h
    split_ifs at h
    · cases h; exact ⟨_, rfl, Int.floor_le_ceil _, le_rfl⟩
    · cases h; exact ⟨_, rfl, le_rfl, Int.floor_le_ceil _⟩
    · cases h; exact ⟨_, rfl, Int.floor_le_ceil _, le_rfl⟩
  obtain ⟨n, rfl, hn, hn'⟩ := hr
  have hg : (0 : ℚ) < 10 ^ (Int.log 10 x - k + 1) := by positivity
  have hlo := Int.zpow_log_le_self (b := 10) (by norm_num) hx
  have hhi := Int.lt_zpow_succ_log_self (b := 10) (by norm_num) x
  push_cast at hlo hhi
  apply grid_dec15
  · refine lt_of_lt_of_le ?_ hn
    rw [Int.floor_pos, le_div_iff₀ hg, one_mul]
    refine le_trans ?_ hlo
    exact zpow_le_zpow_right₀ (by norm_num) (by omega)
  · refine hn'.trans ?_
    rw [Int.ceil_le, div_le_iff₀ hg]
    refine hhi.le.trans ?_
    rw [show (((10 ^ 15 : ℤ)) : ℚ) = (10 : ℚ) ^ (15 : ℤ) by norm_num, ← zpow_add₀ (by norm_num : (10 : ℚ) ≠ 0)]
    exact zpow_le_zpow_right₀ (by norm_num) (by omega)

theorem decimalOf_some {q : ℚ} (h : Dec15 q) : ∃ r, decimalOf (toDouble q) 15 = some r := by
  obtain ⟨m, e, h0, h1, rfl⟩ := id h
  have hq := h.pos
  have hx := toDouble_pos hq
  have hrel := abs_le.1 (rel_pos hq)
  have hlo := Int.zpow_log_le_self (b := 10) (by norm_num) hx
  have hhi := Int.lt_zpow_succ_log_self (b := 10) (by norm_num) (toDouble ((m : ℚ) * 10 ^ e))
  push_cast at hlo hhi
  set x := toDouble ((m : ℚ) * 10 ^ e) with hxd
  set L := Int.log 10 x with hL
  have hLe : L < e + 15 := by
    have a1 : (m : ℚ) ≤ 10 ^ 15 - 1 := by
      have : m ≤ 10 ^ 15 - 1 := by omega
      exact_mod_cast this
    have he : (0 : ℚ) < 10 ^ e := by positivity
    have a2 : (m : ℚ) * 10 ^ e ≤ (10 ^ 15 - 1) * 10 ^ e := mul_le_mul_of_nonneg_right a1 he.le
    have a3 : x < 10 ^ 15 * 10 ^ e := by
      generalize (m : ℚ) * 10 ^ e = q at *
      generalize (10 : ℚ) ^ e = G at *
      nlinarith
    have a4 : (10 : ℚ) ^ L < 10 ^ (e + 15) := by
      refine hlo.trans_lt (a3.trans_eq ?_)
      rw [zpow_add₀ (by norm_num : (10 : ℚ) ≠ 0)]
      norm_num
      ring
    exact (zpow_lt_zpow_iff_right₀ (by norm_num)).1 a4
  obtain ⟨j, hj⟩ : ∃ j : ℤ, (m : ℚ) * 10 ^ e = j * 10 ^ (L - (15 : ℕ) + 1) := by
    obtain ⟨n, hn⟩ := Int.eq_ofNat_of_zero_le (sub_nonneg.2 (by push_cast; omega : L - (15 : ℕ) + 1 ≤ e))
    refine ⟨m * 10 ^ n, ?_⟩
    have : e = (L - (15 : ℕ) + 1) + n := by omega
    rw [this, zpow_add₀ (by norm_num : (10 : ℚ) ≠ 0), zpow_natCast]
    push_cast
    ring
  have hg : (0 : ℚ) < 10 ^ (L - (15 : ℕ) + 1) := by positivity
  have hxg : x < 10 ^ 15 * 10 ^ (L - (15 : ℕ) + 1) := by
    refine hhi.trans_eq ?_
    rw [← zpow_natCast, ← zpow_add₀ (by norm_num : (10 : ℚ) ≠ 0)]
    congr 1
    push_cast
    ring
  have hread : toDouble (j * 10 ^ (L - (15 : ℕ) + 1)) = x := by rw [← hj]
  have hor : j = ⌊x / 10 ^ (L - (15 : ℕ) + 1)⌋ ∨ j = ⌈x / (10 : ℚ) ^ (L - (15 : ℕ) + 1)⌉ := by
    rw [hj] at hrel hq
    generalize (10 : ℚ) ^ (L - (15 : ℕ) + 1) = G at *
    have b1 : (j : ℚ) * G ≤ 2 * x := by nlinarith
    have b2 : (j : ℚ) * G - x < G := by nlinarith
    have b3 : x - (j : ℚ) * G < G := by nlinarith
    rcases le_total ((j : ℚ) * G) x with hle | hle
    · left
      symm
      rw [Int.floor_eq_iff, le_div_iff₀ hg, div_lt_iff₀ hg]
      exact ⟨hle, by linarith⟩
    · right
      symm
      rw [Int.ceil_eq_iff, div_le_iff₀ hg, lt_div_iff₀ hg]
      exact ⟨by linarith, hle⟩
  unfold decimalOf
  simp only
  rw [← hL]
  rcases hor with e1 | e1
  · rw [e1] at hread
    rw [if_pos hread]
    split_ifs <;> exact ⟨_, rfl⟩
  · rw [e1] at hread
    split_ifs with c1 c2
    · exact ⟨_, rfl⟩
    · exact ⟨_, rfl⟩
    · exact ⟨_, rfl⟩

/-- A decimal of at most 15 significant digits is written as it was read. -/
theorem shortest_toDouble {q : ℚ} (h : Dec15 q) : shortest (toDouble q) = q := by
  unfold shortest
  have hx := toDouble_pos h.pos
  obtain ⟨r, hr⟩ := decimalOf_some h
  have : (List.range 17) = List.range 15 ++ [15, 16] := by decide
  rw [this, List.findSome?_append]
  have hs : ((List.range 15).findSome? fun i => decimalOf (toDouble q) (i + 1)).isSome := by
    rw [List.findSome?_isSome_iff]
    exact ⟨14, by simp, by rw [hr]; rfl⟩
  obtain ⟨v, hv⟩ := Option.isSome_iff_exists.1 hs
  rw [hv]
  show v = q
  obtain ⟨i, hi, hv'⟩ := List.exists_of_findSome?_eq_some hv
  have hi' : i < 15 := List.mem_range.1 hi
  exact dec15_inj (decimalOf_dec15 hx (by omega) (by omega) hv') h (decimalOf_reads hv')

/-! ### What is written is read back, and nothing shorter is -/

private theorem int_gap {j : ℤ} {G : ℚ} (hG : 0 < G) (hj : j ≠ 0) : G ≤ |(j : ℚ) * G| := by
  rw [abs_mul, abs_of_pos hG]
  have : (1 : ℚ) ≤ |(j : ℚ)| := by
    rw [← Int.cast_abs]
    exact_mod_cast Int.one_le_abs hj
  nlinarith

private theorem on_grid {m e e' : ℤ} (h : e' ≤ e) (b : ℕ) (hb : b ≠ 0) : ∃ j : ℤ, (m : ℚ) * (b : ℚ) ^ e = j * (b : ℚ) ^ e' := by
  obtain ⟨n, hn⟩ := Int.eq_ofNat_of_zero_le (sub_nonneg.2 h)
  refine ⟨m * (b : ℤ) ^ n, ?_⟩
  have : e = e' + n := by omega
  rw [this, zpow_add₀ (by exact_mod_cast hb), zpow_natCast]
  push_cast
  ring

/-- Different double precision numbers are not closer than 2⁻⁵³ of their size. -/
theorem double_gap {x y : ℚ} (hx : IsDouble x) (hy : IsDouble y) (h : |x - y| < |x| / 2 ^ 53) : x = y := by
  by_contra hne
  obtain ⟨m, e, hm, rfl⟩ := hx
  obtain ⟨m', e', hm', rfl⟩ := hy
  have hmq : |(m : ℚ)| < 2 ^ 53 := by rw [← Int.cast_abs]; exact_mod_cast hm
  have hmq' : |(m' : ℚ)| ≤ 2 ^ 53 - 1 := by
    rw [← Int.cast_abs]
    have : |m'| ≤ 2 ^ 53 - 1 := by omega
    exact_mod_cast this
  rcases le_total e e' with hle | hle
  · obtain ⟨j, hj⟩ := on_grid (m := m') hle 2 (by norm_num)
    push_cast at hj
    have hG : (0 : ℚ) < 2 ^ e := by positivity
    rw [hj, ← sub_mul, ← Int.cast_sub] at h
    have hne' : m - j ≠ 0 := by
      intro h0
      apply hne
      rw [hj, sub_eq_zero.1 h0]
    have g := int_gap hG hne'
    rw [abs_mul, abs_of_pos hG] at h
    rw [abs_mul, abs_of_pos hG] at g
    generalize (2 : ℚ) ^ e = G at *
    rw [abs_mul, abs_of_pos hG] at h
    nlinarith
  · obtain ⟨j, hj⟩ := on_grid (m := m) hle 2 (by norm_num)
    push_cast at hj
    have hG : (0 : ℚ) < 2 ^ e' := by positivity
    have hne' : j - m' ≠ 0 := by
      intro h0
      apply hne
      rw [hj, sub_eq_zero.1 h0]
    have g := int_gap hG hne'
    rw [hj] at h
    rw [Int.cast_sub, sub_mul] at g
    have t : |(j : ℚ) * 2 ^ e'| ≤ |(j : ℚ) * 2 ^ e' - m' * 2 ^ e'| + |(m' : ℚ) * 2 ^ e'| := by
      have := abs_add_le ((j : ℚ) * 2 ^ e' - m' * 2 ^ e') (m' * 2 ^ e')
      simpa using this
    rw [abs_mul (m' : ℚ), abs_of_pos hG] at t
    generalize |(j : ℚ) * 2 ^ e' - m' * 2 ^ e'| = D at *
    generalize |(j : ℚ) * 2 ^ e'| = X at *
    generalize (2 : ℚ) ^ e' = G at *
    nlinarith

/-- A decimal of at most `k` digits that is read as `x` makes `decimalOf x k` find one. -/
theorem decimalOf_complete {x : ℚ} (hx : 0 < x) (hd : IsDouble x) {k : ℕ} (hk : 1 ≤ k) {n e : ℤ} (hn : |n| < 10 ^ k)
    (hr : toDouble ((n : ℚ) * 10 ^ e) = x) : (decimalOf x k).isSome := by
  have hxx := toDouble_rounds.exact hd
  have hlo := Int.zpow_log_le_self (b := 10) (by norm_num) hx
  push_cast at hlo
  set L := Int.log 10 x with hL
  have hg : (0 : ℚ) < 10 ^ (L - k + 1) := by positivity
  have f1 : (⌊x / 10 ^ (L - k + 1)⌋ : ℚ) * 10 ^ (L - k + 1) ≤ x := by
    rw [← le_div_iff₀ hg]; exact Int.floor_le _
  have f2 : x ≤ (⌈x / (10 : ℚ) ^ (L - k + 1)⌉ : ℚ) * 10 ^ (L - k + 1) := by
    rw [← div_le_iff₀ hg]; exact Int.le_ceil _
  have key : toDouble ((⌊x / (10 : ℚ) ^ (L - k + 1)⌋ : ℚ) * 10 ^ (L - k + 1)) = x ∨
      toDouble ((⌈x / (10 : ℚ) ^ (L - k + 1)⌉ : ℚ) * 10 ^ (L - k + 1)) = x := by
    rcases le_or_gt (L - k + 1) e with hle | hlt
    · obtain ⟨j, hj⟩ := on_grid (m := n) hle 10 (by norm_num)
      push_cast at hj
      rw [hj] at hr
      rcases le_total ((j : ℚ) * 10 ^ (L - k + 1)) x with h | h
      · left
        apply le_antisymm
        · exact (toDouble_rounds.mono f1).trans_eq hxx
        · rw [← hr]
          apply toDouble_rounds.mono
          apply mul_le_mul_of_nonneg_right _ hg.le
          rw [hr]
          exact_mod_cast Int.le_floor.2 ((le_div_iff₀ hg).2 h)
      · right
        apply le_antisymm
        · conv_rhs => rw [← hr]
          apply toDouble_rounds.mono
          apply mul_le_mul_of_nonneg_right _ hg.le
          exact_mod_cast Int.ceil_le.2 ((div_le_iff₀ hg).2 h)
        · conv_lhs => rw [← hxx]
          exact toDouble_rounds.mono f2
    · left
      apply le_antisymm
      · exact (toDouble_rounds.mono f1).trans_eq hxx
      · conv_lhs => rw [← hr]
        apply toDouble_rounds.mono
        have a1 : (n : ℚ) * 10 ^ e ≤ 10 ^ L := by
          have b1 : (n : ℚ) ≤ 10 ^ k := by
            have : n ≤ 10 ^ k := (le_abs_self n).trans hn.le
            exact_mod_cast this
          have b2 : (0 : ℚ) < 10 ^ e := by positivity
          refine (mul_le_mul_of_nonneg_right b1 b2.le).trans ?_
          rw [← zpow_natCast, ← zpow_add₀ (by norm_num : (10 : ℚ) ≠ 0)]
          exact zpow_le_zpow_right₀ (by norm_num) (by omega)
        refine a1.trans ?_
        obtain ⟨j, hj⟩ := on_grid (m := 1) (by omega : L - k + 1 ≤ L) 10 (by norm_num)
        push_cast at hj
        rw [one_mul] at hj
        rw [hj]
        apply mul_le_mul_of_nonneg_right _ hg.le
        rw [hj] at hlo
        exact_mod_cast Int.le_floor.2 ((le_div_iff₀ hg).2 hlo)
  unfold decimalOf
  simp only
  rw [← hL]
  rcases key with h | h
  · rw [if_pos h]; split_ifs <;> rfl
  · split_ifs <;> rfl

/-- 17 digits are enough. -/
theorem decimalOf_17 {x : ℚ} (hx : 0 < x) (hd : IsDouble x) : (decimalOf x 17).isSome := by
  have hlo := Int.zpow_log_le_self (b := 10) (by norm_num) hx
  have hhi := Int.lt_zpow_succ_log_self (b := 10) (by norm_num) x
  push_cast at hlo hhi
  set L := Int.log 10 x with hL
  have hg : (0 : ℚ) < 10 ^ (L - 16) := by positivity
  have e1 : (10 : ℚ) ^ L = 10 ^ 16 * 10 ^ (L - 16) := by
    rw [show (10 : ℚ) ^ 16 = (10 : ℚ) ^ (16 : ℤ) by norm_num, ← zpow_add₀ (by norm_num : (10 : ℚ) ≠ 0)]
    congr 1
    ring
  have e2 : (10 : ℚ) ^ (L + 1) = 10 ^ 17 * 10 ^ (L - 16) := by
    rw [show (10 : ℚ) ^ 17 = (10 : ℚ) ^ (17 : ℤ) by norm_num, ← zpow_add₀ (by norm_num : (10 : ℚ) ≠ 0)]
    congr 1
    ring
  have near := roundHalfEven_near (x / 10 ^ (L - 16))
  set n := roundHalfEven (x / 10 ^ (L - 16)) with hnd
  have hr : toDouble ((n : ℚ) * 10 ^ (L - 16)) = x := by
    have a0 : |x - n * 10 ^ (L - 16)| ≤ 1 / 2 * 10 ^ (L - 16) := by
      have : x - n * 10 ^ (L - 16) = (x / 10 ^ (L - 16) - n) * 10 ^ (L - 16) := by
        rw [sub_mul, div_mul_cancel₀ _ hg.ne']
      rw [this, abs_mul, abs_of_pos hg]
      exact mul_le_mul_of_nonneg_right near hg.le
    have a1 := toDouble_rounds.nearest ((n : ℚ) * 10 ^ (L - 16)) x hd
    symm
    apply double_gap hd (toDouble_rounds.double _)
    rw [abs_of_pos hx]
    have a2 : |x - toDouble ((n : ℚ) * 10 ^ (L - 16))| ≤ |x - n * 10 ^ (L - 16)| + |n * 10 ^ (L - 16) - toDouble ((n : ℚ) * 10 ^ (L - 16))| := by
      have := abs_add_le (x - n * 10 ^ (L - 16)) (n * 10 ^ (L - 16) - toDouble ((n : ℚ) * 10 ^ (L - 16)))
      simpa using this
    rw [abs_sub_comm _ x] at a1
    have a3 : |x - toDouble ((n : ℚ) * 10 ^ (L - 16))| ≤ 10 ^ (L - 16) := by linarith
    refine a3.trans_lt ?_
    rw [lt_div_iff₀ (by norm_num)]
    rw [e1] at hlo
    generalize (10 : ℚ) ^ (L - 16) = G at *
    nlinarith
  have hb : |n| ≤ 10 ^ 17 := by
    have c1 : x / 10 ^ (L - 16) < 10 ^ 17 := by rw [div_lt_iff₀ hg]; rw [e2] at hhi; exact hhi
    have c2 : 0 < x / 10 ^ (L - 16) := by positivity
    have c3 := abs_le.1 near
    have : (n : ℚ) < 10 ^ 17 + 1 := by linarith
    have d1 : n < 10 ^ 17 + 1 := by exact_mod_cast this
    have : (-1 : ℚ) < n := by linarith
    have d2 : -1 < n := by exact_mod_cast this
    rw [abs_le]
    constructor <;> omega
  rcases hb.lt_or_eq with h | h
  · exact decimalOf_complete hx hd (by norm_num) (by exact_mod_cast h) hr
  · rcases (abs_eq (by positivity)).1 h with h | h
    · refine decimalOf_complete (n := 1) (e := L - 16 + 17) hx hd (by norm_num) (by norm_num) ?_
      rw [← hr, h, zpow_add₀ (by norm_num : (10 : ℚ) ≠ 0)]
      congr 1
      push_cast
      norm_num
      ring
    · exfalso
      have := abs_le.1 near
      rw [h] at this
      have c2 : 0 < x / 10 ^ (L - 16) := by positivity
      push_cast at this
      linarith [this.2]

/-- The shortest decimal is read as `x`; it is one of the decimals of `k` digits, and no decimal of fewer digits is read as `x`. -/
theorem shortest_spec {x : ℚ} (hx : 0 < x) (hd : IsDouble x) : ∃ k, 1 ≤ k ∧ k ≤ 17 ∧ decimalOf x k = some (shortest x) ∧
    toDouble (shortest x) = x ∧ ∀ (j : ℕ) (n e : ℤ), 1 ≤ j → j < k → |n| < 10 ^ j → toDouble ((n : ℚ) * 10 ^ e) ≠ x := by
  have hs : ((List.range 17).findSome? fun i => decimalOf x (i + 1)).isSome := by
    rw [List.findSome?_isSome_iff]
    exact ⟨16, by simp, decimalOf_17 hx hd⟩
  obtain ⟨v, hv⟩ := Option.isSome_iff_exists.1 hs
  have hv' : shortest x = v := by unfold shortest; rw [hv]; rfl
  rw [List.findSome?_eq_some_iff] at hv
  obtain ⟨l₁, i, l₂, hl, hi, hno⟩ := hv
  have hlen : l₁.length = i := by
    have := congrArg (fun l => l[l₁.length]?) hl
    simp at this
    have h2 : l₁.length < 17 := by
      have := congrArg List.length hl
      simp at this
      omega
    simpa [List.getElem?_range h2] using this
  have hpre : ∀ j, j < i → j ∈ l₁ := by
    intro j hj
    have h2 : j < 17 := by
      have := congrArg List.length hl
      simp at this
      omega
    have := congrArg (fun l => l[j]?) hl
    simp only [List.getElem?_range h2] at this
    rw [List.getElem?_append_left (by omega)] at this
    exact List.mem_of_getElem? this.symm
  have hi17 : i < 17 := by
    have := congrArg List.length hl
    simp at this
    omega
  refine ⟨i + 1, by omega, by omega, by rw [hv', hi], by rw [hv']; exact decimalOf_reads hi, ?_⟩
  intro j n e hj1 hj hn hr
  have h1 := decimalOf_complete hx hd hj1 hn hr
  have h2 := hno (j - 1) (hpre _ (by omega))
  rw [show j - 1 + 1 = j by omega] at h2
  rw [h2] at h1
  cases h1

end Shipgrav
