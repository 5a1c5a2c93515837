import Verif.Lemmas.ThermalFloat
import Mathlib.Data.Rat.Cast.Order

/-! C161: thermal models in double precision. -/

namespace Shipgrav
open Spec Real

/-! ### Helpers -/

private theorem getD_age (time : Bool) (u : ℚ) (x : List ℚ) (j : ℕ) (hj : j < x.length) :
    (x.map (ageSecondsF time u)).getD j none = ageSecondsF time u (x.getD j 0) ∧
      ((x.map fun q : ℚ => (q : ℝ)).map (ageSeconds time u)).getD j none = ageSeconds time u (x.getD j 0 : ℚ) := by
  rw [List.map_map]
  simp [List.getD_eq_getElem?_getD, List.getElem?_map, List.getElem?_eq_getElem hj]

private theorem age_ok {time : Bool} {u : ℚ} {x : List ℚ} (h : NoNegativeAges time u x) {j : ℕ} (hj : j < x.length) :
    (time = true ∧ 0 ≤ x.getD j 0) ∨ (time = false ∧ 0 < u) := by
  rcases h with ⟨h1, h2⟩ | h
  · left
    refine ⟨h1, h2 _ ?_⟩
    rw [List.getD_eq_getElem?_getD, List.getElem?_eq_getElem hj]
    exact List.getElem_mem hj
  · exact .inr h

private theorem getD_cast (z : List ℚ) (i : ℕ) : (z.map fun q : ℚ => (q : ℝ)).getD i 0 = (z.getD i 0 : ℚ) := by
  rw [List.getD_eq_getElem?_getD, List.getElem?_map, List.getD_eq_getElem?_getD]
  cases z[i]? <;> simp

private theorem getD_nonneg {z : List ℚ} (h : ∀ v ∈ z, 0 ≤ v) {i : ℕ} : 0 ≤ z.getD i 0 := by
  rw [List.getD_eq_getElem?_getD]
  cases e : z[i]? with
  | none => simp
  | some v => exact h v (List.mem_of_getElem? e)

private theorem getD_map' {α β : Type} (f : Option α → Option β) (t : List (Option α)) (j : ℕ) (hj : j < t.length) :
    (t.map f).getD j none = f (t.getD j none) := by
  simp [List.getD_eq_getElem?_getD, List.getElem?_map, List.getElem?_eq_getElem hj]

private theorem cast_ne {r w : ℚ} (h : r ≠ w) : (r : ℝ) - w ≠ 0 := by
  rw [sub_ne_zero]
  exact_mod_cast h

/-! ### Half-space -/

/-- **C161.** `therm_halfspace` in double precision: at ages and depths that are not negative the temperatures are within 12 · 2⁻⁵² of the
mantle temperature of those of exact arithmetic, the subsidence has a relative error of at most 15 · 2⁻⁵², and values are missing in the same places. -/
theorem C161_halfspace (lm : ThermLibm) (g : GoodThermLib lm.exp lm.sin lm.erf lm.erfcinv lm.sqrt lm.sqr) (x z : List ℚ) (u Tm : ℚ) (time : Bool) (rhom rhow a k : ℚ)
    (hx : NoNegativeAges time u x) (hz : ∀ v ∈ z, 0 ≤ v) (hne : z ≠ []) (hk : 0 < k) (hr : rhom ≠ rhow) :
    ∃ T' W' T W, thermHalfspaceF lm x z u Tm time rhom rhow a k = .ok (T', W') ∧
      thermHalfspace (x.map fun q : ℚ => (q : ℝ)) (z.map fun q : ℚ => (q : ℝ)) u Tm time rhom rhow a k = .ok (T, W) ∧
      T'.rows = z.length ∧ T'.cols = x.length ∧ W'.length = x.length ∧
      (∀ i < z.length, ∀ j < x.length, Agree (fun _ => |(Tm : ℝ)| * (12 / 2 ^ 52)) (T'.at' i j) (T.at' i j)) ∧
      ∀ j < x.length, Agree (fun y => |y| * (15 / 2 ^ 52)) (W'.getD j none) (W.getD j none) := by
  unfold thermHalfspaceF thermHalfspace
  simp only
  rw [if_neg (by rw [toDouble_eq_zero]; exact sub_ne_zero.2 hr), if_neg hne, if_neg (cast_ne hr), if_neg (by simpa using hne)]
  refine ⟨_, _, _, _, rfl, rfl, rfl, rfl, by simp, ?_, ?_⟩
  · intro i _ j hj
    obtain ⟨e1, e2⟩ := getD_age time u x j hj
    obtain ⟨a1, a2, t, a3, n⟩ := ageSeconds_eq (age_ok hx hj)
    simp only
    rw [e1, e2, a1, a3, getD_cast]
    exact node_agree g hk a2 n (getD_nonneg hz)
  · intro j hj
    obtain ⟨e1, e2⟩ := getD_age time u x j hj
    obtain ⟨a1, a2, t, a3, n⟩ := ageSeconds_eq (age_ok hx hj)
    rw [getD_map' _ _ _ (by simpa using hj), getD_map' _ _ _ (by simpa using hj), e1, e2, a1, a3]
    exact halfspaceW_agree g hk a2 n

/-- **C161.** `therm_Z_halfspace` in double precision: isotherms from the surface temperature up to, but without, the mantle temperature are within
16 · 2⁻⁵² of their depth plus the diffusion length of those of exact arithmetic; the subsidence has a relative error of at most 15 · 2⁻⁵². -/
theorem C161_isotherm (lm : ThermLibm) (g : GoodThermLib lm.exp lm.sin lm.erf lm.erfcinv lm.sqrt lm.sqr) (x : List ℚ) (T u Tm : ℚ) (time : Bool) (rhom rhow a k : ℚ)
    (hx : NoNegativeAges time u x) (h0 : 0 ≤ T) (h1 : T < Tm) (hk : 0 < k) (hr : rhom ≠ rhow) :
    ∃ Z' W' Z W, thermZHalfspaceF lm x T u Tm time rhom rhow a k = .ok (Z', W') ∧
      thermZHalfspace (x.map fun q : ℚ => (q : ℝ)) T u Tm time rhom rhow a k = .ok (Z, W) ∧ Z'.length = x.length ∧ W'.length = x.length ∧
      ∀ j < x.length, Agree (fun y => 16 / 2 ^ 52 * (2 * √(k * seconds time u (x.getD j 0 : ℚ)) + y)) (Z'.getD j none) (Z.getD j none) ∧
        Agree (fun y => |y| * (15 / 2 ^ 52)) (W'.getD j none) (W.getD j none) := by
  have hTm : Tm ≠ 0 := (h0.trans_lt h1).ne'
  have hTm' : ¬((0 : ℝ) - Tm = 0) := by
    rw [zero_sub, neg_eq_zero]
    exact_mod_cast hTm
  unfold thermZHalfspaceF thermZHalfspace
  simp only
  rw [if_neg (by rw [toDouble_eq_zero, zero_sub, neg_eq_zero]; exact hTm), if_neg (by rw [toDouble_eq_zero]; exact sub_ne_zero.2 hr),
    if_neg hTm', if_neg (cast_ne hr)]
  refine ⟨_, _, _, _, rfl, rfl, by simp, by simp, ?_⟩
  intro j hj
  obtain ⟨e1, e2⟩ := getD_age time u x j hj
  obtain ⟨a1, a2, t, a3, n⟩ := ageSeconds_eq (age_ok hx hj)
  rw [getD_map' _ _ _ (by simpa using hj), getD_map' _ _ _ (by simpa using hj), getD_map' _ _ _ (by simpa using hj), getD_map' _ _ _ (by simpa using hj), e1, e2, a1, a3]
  exact ⟨isotherm_agree g hk a2 n h0 h1 rfl, halfspaceW_agree g hk a2 n⟩

/-! ### Plate -/

/-- **C161.** `therm_plate` in double precision: temperatures are within 2⁻⁴³ of the mantle temperature of those of exact arithmetic, and the
subsidence has a relative error of at most 2⁻⁴². -/
theorem C161_plate (lm : ThermLibm) (g : GoodThermLib lm.exp lm.sin lm.erf lm.erfcinv lm.sqrt lm.sqr) (x z : List ℚ) (u zL0 Tm : ℚ) (time : Bool) (rhom rhow a k : ℚ)
    (hx : NoNegativeAges time u x) (hz : ∀ v ∈ z, 0 ≤ v) (hne : z ≠ []) (hL : 0 < zL0) (hk : 0 ≤ k) (hr : rhom ≠ rhow) :
    ∃ T' W' T W, thermPlateF lm x z u zL0 Tm time rhom rhow a k = .ok (T', W') ∧
      thermPlate (x.map fun q : ℚ => (q : ℝ)) (z.map fun q : ℚ => (q : ℝ)) u zL0 Tm time rhom rhow a k = .ok (T, W) ∧
      T'.rows = z.length ∧ T'.cols = x.length ∧ W'.length = x.length ∧
      (∀ i < z.length, ∀ j < x.length, ∃ (q : ℚ) (y : ℝ), T'.at' i j = some q ∧ T.at' i j = some y ∧ |(q : ℝ) - y| ≤ |(Tm : ℝ)| / 2 ^ 43) ∧
      ∀ j < x.length, ∃ (q : ℚ) (y : ℝ), W'.getD j none = some q ∧ W.getD j none = some y ∧ |(q : ℝ) - y| ≤ |y| / 2 ^ 42 := by
  unfold thermPlateF thermPlate
  simp only
  rw [if_neg hne, if_neg (by rw [toDouble_eq_zero]; exact sub_ne_zero.2 hr), if_neg (by simpa using hne), if_neg (cast_ne hr)]
  refine ⟨_, _, _, _, rfl, rfl, rfl, rfl, by simp, ?_, ?_⟩
  · intro i _ j hj
    obtain ⟨e1, e2⟩ := getD_age time u x j hj
    obtain ⟨a1, a2, t, a3, n⟩ := ageSeconds_eq (age_ok hx hj)
    simp only
    rw [e1, e2, a1, a3, getD_cast]
    exact ⟨_, _, rfl, rfl, plateNode_err g hL hk a2 n (getD_nonneg hz)⟩
  · intro j hj
    obtain ⟨e1, e2⟩ := getD_age time u x j hj
    obtain ⟨a1, a2, t, a3, n⟩ := ageSeconds_eq (age_ok hx hj)
    rw [getD_map' (Option.map _) _ _ (by simpa using hj), getD_map' (Option.map _) _ _ (by simpa using hj), e1, e2, a1, a3]
    exact ⟨_, _, rfl, rfl, plateW_err g hL hk a2 n⟩

/-! ### Exceptions -/

private theorem sub_cast_zero {r w : ℚ} : (r : ℝ) - w = 0 ↔ toDouble (r - w) = 0 := by
  rw [toDouble_eq_zero, ← Rat.cast_sub, Rat.cast_eq_zero]

/-- **C161.** Rounding changes nothing about which calls raise, and what they raise. -/
theorem C161_same_errors (lm : ThermLibm) (x z : List ℚ) (T u zL0 Tm : ℚ) (time : Bool) (rhom rhow a k : ℚ) (e : PyErr) :
    (thermHalfspaceF lm x z u Tm time rhom rhow a k = .error e ↔
      thermHalfspace (x.map fun q : ℚ => (q : ℝ)) (z.map fun q : ℚ => (q : ℝ)) u Tm time rhom rhow a k = .error e) ∧
    (thermZHalfspaceF lm x T u Tm time rhom rhow a k = .error e ↔ thermZHalfspace (x.map fun q : ℚ => (q : ℝ)) T u Tm time rhom rhow a k = .error e) ∧
    (thermPlateF lm x z u zL0 Tm time rhom rhow a k = .error e ↔
      thermPlate (x.map fun q : ℚ => (q : ℝ)) (z.map fun q : ℚ => (q : ℝ)) u zL0 Tm time rhom rhow a k = .error e) := by
  have hT : (0 : ℝ) - Tm = 0 ↔ toDouble (0 - Tm) = 0 := by
    have := sub_cast_zero (r := 0) (w := Tm)
    rwa [Rat.cast_zero] at this
  have hz : (z.map fun q : ℚ => (q : ℝ)) = [] ↔ z = [] := by simp
  refine ⟨?_, ?_, ?_⟩
  · unfold thermHalfspaceF thermHalfspace
    simp only [sub_cast_zero, hz]
    split_ifs <;> simp
  · unfold thermZHalfspaceF thermZHalfspace
    simp only [sub_cast_zero, hT]
    split_ifs <;> simp
  · unfold thermPlateF thermPlate
    simp only [sub_cast_zero, hz]
    split_ifs <;> simp

/-! ### Non-vacuity -/

/-- There is such a library. -/
theorem goodTherm_exists : ∃ lm : ThermLibm, GoodThermLib lm.exp lm.sin lm.erf lm.erfcinv lm.sqrt lm.sqr := by
  have key : ∀ x : ℝ, ∃ r : ℚ, |(r : ℝ) - x| ≤ 1 / 2 ^ 51 := by
    intro x
    obtain ⟨r, h1, h2⟩ := exists_rat_btwn (show x < x + 1 / 2 ^ 51 by linarith [show (0 : ℝ) < 1 / 2 ^ 51 by positivity])
    exact ⟨r, by rw [abs_le]; constructor <;> linarith⟩
  have rel : ∀ x : ℝ, 0 ≤ x → ∃ r : ℚ, |(r : ℝ) - x| ≤ x / 2 ^ 52 := by
    intro x hx
    rcases hx.eq_or_lt with rfl | hx
    · exact ⟨0, by norm_num⟩
    · obtain ⟨r, h1, h2⟩ := exists_rat_btwn (show x < x + x / 2 ^ 52 by linarith [show (0 : ℝ) < x / 2 ^ 52 by positivity])
      exact ⟨r, by rw [abs_le]; constructor <;> linarith⟩
  choose ex hex using fun q : ℚ => rel (exp (q : ℝ)) (exp_pos _).le
  choose sn hsn using fun q : ℚ => key (sin (q : ℝ))
  choose er her using fun q : ℚ => key (erf (q : ℝ))
  choose ei hei using fun q : ℚ => key ((erfcinv (q : ℝ)).getD 0)
  choose sq hsq using fun q : ℚ => rel (√(q : ℝ)) (sqrt_nonneg _)
  refine ⟨⟨ex, sn, er, ei, sq, fun q => q ^ 2⟩, ⟨fun q => ?_, fun q _ => hsn q, her, fun q _ _ x hx => ?_, fun q _ => hsq q, fun q => ?_⟩⟩
  · refine (hex q).trans ?_
    have := exp_pos (q : ℝ)
    norm_num
    linarith
  · have := hei q
    rw [← hx, erfcinv_erf] at this
    refine this.trans ?_
    have := abs_nonneg x
    norm_num
    linarith
  · push_cast
    rw [sub_self, abs_zero]
    positivity

/-- The default parameters of the functions, ages of 0, 10 and 60 million years, depths down to 100 km and the isotherm of 1000 °C meet the hypotheses. -/
example : NoNegativeAges true (1 / 100) [0, 10, 60] ∧ (∀ v ∈ [0, 50000, (100000 : ℚ)], 0 ≤ v) ∧ [0, 50000, (100000 : ℚ)] ≠ [] ∧ (0 : ℚ) < 1e-6 ∧ (3300 : ℚ) ≠ 1000 ∧
    (0 : ℚ) < 100000 ∧ (0 : ℚ) ≤ 1000 ∧ (1000 : ℚ) < 1350 := by
  refine ⟨.inl ⟨rfl, ?_⟩, ?_, by simp, ?_, ?_, ?_, ?_, ?_⟩ <;> norm_num

/-- Distances on both sides of a ridge that spreads. -/
example : NoNegativeAges false (1 / 100) [-10000, 0, 20000] := .inr ⟨rfl, by norm_num⟩

end Shipgrav
