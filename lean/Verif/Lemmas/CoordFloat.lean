import Verif.Lemmas.Float64
import Verif.Lemmas.NavParse
import Verif.Lemmas.MapM
import Verif.Model.CoordFloat
import Mathlib.Tactic.Linarith
import Mathlib.Tactic.Positivity

/-! Degrees and minutes in double precision. -/

namespace Shipgrav
open Spec

theorem strip_length (s : Str) : (strip s).length ≤ s.length := by
  unfold strip rstrip lstrip
  rw [List.length_reverse]
  refine ((List.dropWhile_sublist _).length_le).trans ?_
  rw [List.length_reverse]
  exact (List.dropWhile_sublist _).length_le

theorem digitVal_le {c : Char} (h : isDigit c) : digitVal c ≤ 9 := by
  unfold isDigit at h
  rw [Bool.and_eq_true, decide_eq_true_eq, decide_eq_true_eq] at h
  have h2 : c.toNat ≤ '9'.toNat := h.2
  have h3 : '9'.toNat = 57 := rfl
  have h4 : '0'.toNat = 48 := rfl
  unfold digitVal
  omega

theorem runVal_lt (r : Str) : runVal r < 10 ^ r.length := by
  unfold runVal
  have key : ∀ (l : Str) (a : ℕ), (∀ c ∈ l, isDigit c) → l.foldl (fun a c => 10 * a + digitVal c) a < (a + 1) * 10 ^ l.length := by
    intro l
    induction l with
    | nil => intro a _; simp
    | cons c l ih =>
      intro a hc
      rw [List.foldl_cons]
      refine (ih _ (fun c h => hc c (by simp [h]))).trans_le ?_
      have := digitVal_le (hc c (by simp))
      rw [List.length_cons, pow_succ]
      have h2 : 10 * a + digitVal c + 1 ≤ (a + 1) * 10 := by omega
      calc (10 * a + digitVal c + 1) * 10 ^ l.length ≤ ((a + 1) * 10) * 10 ^ l.length := Nat.mul_le_mul_right _ h2
        _ = (a + 1) * (10 ^ l.length * 10) := by ring
  refine (key (r.filter isDigit) 0 (fun c hc => (List.mem_filter.1 hc).2)).trans_le ?_
  rw [zero_add, one_mul]
  exact Nat.pow_le_pow_right (by norm_num) (List.length_filter_le _ _)

theorem takeSign_length (s : Str) : (takeSign s).2.length ≤ s.length := by
  unfold takeSign
  split <;> simp

theorem parseInt_bound {s : Str} {z : ℤ} (h : parseInt s = some z) : |z| < 10 ^ s.length := by
  unfold parseInt at h
  simp only at h
  split at h
  · have hl := (takeSign_length (strip s)).trans (strip_length s)
    have h1 : runVal (takeSign (strip s)).2 < 10 ^ s.length := (runVal_lt _).trans_le (Nat.pow_le_pow_right (by norm_num) hl)
    have h2 : ((runVal (takeSign (strip s)).2 : ℕ) : ℤ) < 10 ^ s.length := by exact_mod_cast h1
    injection h with h
    rw [← h]
    split
    · rw [abs_neg, abs_of_nonneg (by positivity)]; exact h2
    · rw [abs_of_nonneg (by positivity)]; exact h2
  · cases h

/-- The three roundings of `int + float/60`. -/
theorem degMin_error (d m : ℚ) :
    |toDouble (d + toDouble (toDouble m / 60)) - (d + m / 60)| ≤ (|d| + |m| / 60) / 2 ^ 51 := by
  have h1 := toDouble_rounds.rel m
  have h2 := toDouble_rounds.rel (toDouble m / 60)
  have h3 := toDouble_rounds.rel (d + toDouble (toDouble m / 60))
  generalize toDouble (d + toDouble (toDouble m / 60)) = c at h3 ⊢
  generalize toDouble (toDouble m / 60) = b at h2 h3 ⊢
  generalize toDouble m = a at h1 h2 ⊢
  have ea : |a| ≤ |m| + |m| / 2 ^ 53 := by
    have : a = m - (m - a) := by ring
    rw [this]
    exact (abs_sub _ _).trans (by linarith)
  have eq : |a / 60| = |a| / 60 := by rw [abs_div]; norm_num
  rw [eq] at h2
  have eb : |b| ≤ |a| / 60 + |a| / 60 / 2 ^ 53 := by
    have : b = a / 60 - (a / 60 - b) := by ring
    rw [this]
    refine (abs_sub _ _).trans ?_
    rw [eq]; linarith
  have ed : |d + b| ≤ |d| + |b| := abs_add_le _ _
  have hc : c - (d + m / 60) = -(d + b - c) + -(a / 60 - b) + -((m - a) / 60) := by ring
  rw [hc]
  have e1 : |(m - a) / 60| = |m - a| / 60 := by rw [abs_div]; norm_num
  have h4 : |(-(d + b - c) + -(a / 60 - b) + -((m - a) / 60))| ≤ |d + b - c| + |a / 60 - b| + |m - a| / 60 := by
    refine (abs_add_le _ _).trans ?_
    rw [abs_neg ((m - a) / 60), e1]
    have := abs_add_le (-(d + b - c)) (-(a / 60 - b))
    rw [abs_neg, abs_neg] at this
    linarith
  refine h4.trans ?_
  have p1 := abs_nonneg m
  have p2 := abs_nonneg d
  norm_num at h1 h2 h3 ea eb ⊢
  linarith

theorem degMinF_cases (k : ℕ) (f : Str) (hemi : Except PyErr Str) (neg : Str) :
    (∃ e, degMin k f hemi neg = .error e ∧ degMinF k f hemi neg = .error e) ∨
    (degMin k f hemi neg = .ok none ∧ degMinF k f hemi neg = .ok none) ∨
      ∃ (d : ℤ) (m : ℚ) (n : Bool), |d| < 10 ^ k ∧ degMin k f hemi neg = .ok (some (signed n (d + m / 60))) ∧
        degMinF k f hemi neg = .ok (some (signed n (toDouble ((d : ℚ) + toDouble (toDouble m / 60))))) := by
  unfold degMin degMinF pyInt
  rcases hd : parseInt (f.take k) with _ | d
  · exact Or.inl ⟨_, rfl, rfl⟩
  simp only [bind, Except.bind]
  rcases pyFloatQ (f.drop k) with e | m
  · exact Or.inl ⟨_, rfl, rfl⟩
  simp only [pure, Except.pure]
  rcases hemi with e | hemi
  · exact Or.inl ⟨_, rfl, rfl⟩
  rcases m with _ | m
  · refine Or.inr (Or.inl ⟨?_, ?_⟩) <;> simp
  · refine Or.inr (Or.inr ⟨d, m, decide (hemi = neg), ?_, ?_, ?_⟩)
    · refine (parseInt_bound hd).trans_le ?_
      have : (f.take k).length ≤ k := by rw [List.length_take]; exact min_le_left _ _
      exact_mod_cast Nat.pow_le_pow_right (by norm_num) this
    · by_cases h : hemi = neg <;> simp [signed, h]
    · by_cases h : hemi = neg <;> simp [signed, h]

theorem degMinF_near (k : ℕ) (f : Str) (hemi : Except PyErr Str) (neg : Str) (hk : k ≤ 3) :
    (∃ e, degMin k f hemi neg = .error e ∧ degMinF k f hemi neg = .error e) ∨
    (degMin k f hemi neg = .ok none ∧ degMinF k f hemi neg = .ok none) ∨
      ∃ x y, degMin k f hemi neg = .ok (some x) ∧ degMinF k f hemi neg = .ok (some y) ∧ |y - x| ≤ (|x| + 2000) / 2 ^ 51 := by
  rcases degMinF_cases k f hemi neg with h | h | ⟨d, m, n, h1, h2, h3⟩
  · exact Or.inl h
  · exact Or.inr (Or.inl h)
  · refine Or.inr (Or.inr ⟨_, _, h2, h3, ?_⟩)
    have h5 : (|(d : ℚ)|) < 10 ^ k := by exact_mod_cast h1
    have h6 : (10 : ℚ) ^ k ≤ 10 ^ 3 := pow_le_pow_right₀ (by norm_num) hk
    have h4 := degMin_error d m
    have e1 : |signed n (toDouble ((d : ℚ) + toDouble (toDouble m / 60))) - signed n (d + m / 60)|
        = |toDouble ((d : ℚ) + toDouble (toDouble m / 60)) - (d + m / 60)| := by
      cases n
      · rfl
      · simp only [signed, if_true]
        rw [← abs_neg]; ring_nf
    have e2 : |signed n (d + m / 60)| = |d + m / 60| := by
      cases n
      · rfl
      · simp only [signed, if_true]; exact abs_neg _
    rw [e1, e2]
    refine h4.trans ?_
    have e3 : |m| / 60 ≤ |d + m / 60| + |(d : ℚ)| := by
      have : |m| / 60 = |(d + m / 60) - d| := by rw [add_sub_cancel_left, abs_div]; norm_num
      rw [this]
      exact abs_sub _ _
    refine div_le_div_of_nonneg_right ?_ (by positivity)
    linarith

end Shipgrav
