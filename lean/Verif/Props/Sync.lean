import Verif.Model.Scripts
import Verif.Spec.Nav
import Verif.Lemmas.CrossCoupling

/-! Property theorems C102 and C103: positions at the times of the gravimeter; removal of dropouts. -/

namespace Shipgrav
open Spec

private theorem search_spec (t : ℕ → ℝ) (x : ℝ) (m : ℕ) (ht : ∀ i j, i < j → j < m → t i < t j) :
    searchReal (samples t m) x ≤ m ∧ ∀ j < m, t j < x ↔ j < searchReal (samples t m) x := by
  classical
  induction m with
  | zero => simp [searchReal, samples]
  | succ m ih =>
    obtain ⟨h1, h2⟩ := ih fun i j hij hj => ht i j hij (by omega)
    have hs : searchReal (samples t (m + 1)) x = searchReal (samples t m) x + if t m < x then 1 else 0 := by
      unfold searchReal samples
      rw [List.range_succ, List.map_append, List.countP_append]
      simp [List.countP_cons]
    rw [hs]
    by_cases hm : t m < x
    · rw [if_pos hm]
      have hall : ∀ j < m, t j < x := fun j hj => (ht j m hj (by omega)).trans hm
      have hc : searchReal (samples t m) x = m := by
        rcases Nat.lt_or_ge (searchReal (samples t m) x) m with h | h
        · have := (h2 _ h).mp (hall _ h); omega
        · omega
      rw [hc]
      refine ⟨le_refl _, fun j hj => ⟨fun _ => by omega, fun _ => ?_⟩⟩
      rcases Nat.lt_or_ge j m with h | h
      · exact hall j h
      · obtain rfl : j = m := by omega
        exact hm
    · rw [if_neg hm]
      refine ⟨by omega, fun j hj => ?_⟩
      rcases Nat.lt_or_ge j m with h | h
      · rw [h2 j h, Nat.add_zero]
      · obtain rfl : j = m := by omega
        exact ⟨fun h => absurd h hm, fun h => by omega⟩

/-- **C102.** Position at any time: on the straight line through the two fixes around that time; before the first and after the last fix the
first and the last two fixes count. -/
theorem C102_value (t y : ℕ → ℝ) (m : ℕ) (hm : 2 ≤ m) (ht : ∀ i j, i < j → j < m → t i < t j) (x : ℝ) :
    ∃ i, i + 1 < m ∧ (i = 0 ∨ t i < x) ∧ (i + 2 = m ∨ x ≤ t (i + 1)) ∧
      interp1d (samples t m) (samples y m) x = y i + (y (i + 1) - y i) * ((x - t i) / (t (i + 1) - t i)) := by
  obtain ⟨h1, h2⟩ := search_spec t x m ht
  generalize hc : searchReal (samples t m) x = c at *
  obtain ⟨i, hi⟩ : ∃ i, min (max c 1) (m - 1) = i + 1 := ⟨min (max c 1) (m - 1) - 1, by omega⟩
  have him : i + 1 < m := by omega
  refine ⟨i, him, ?_, ?_, ?_⟩
  · rcases Nat.eq_zero_or_pos i with h | h
    · exact Or.inl h
    · exact Or.inr ((h2 i (by omega)).mpr (by omega))
  · rcases Nat.lt_or_ge (i + 2) m with h | h
    · right
      by_contra hx
      have := (h2 (i + 1) him).mp (not_le.mp hx)
      omega
    · left; omega
  · have hg : ∀ (f : ℕ → ℝ) (k : ℕ), k < m → (samples f m).getD k 0 = f k := by
      intro f k hk
      unfold samples
      rw [List.getD_eq_getElem?_getD, List.getElem?_map, List.getElem?_range hk]; rfl
    unfold interp1d
    simp only [hc, samples_length, hi, Nat.add_sub_cancel, hg _ _ him, hg _ _ (by omega : i < m)]
    ring

/-- **C102.** At the time of a fix the position is that fix. -/
theorem C102_at_fix (t y : ℕ → ℝ) (m : ℕ) (hm : 2 ≤ m) (ht : ∀ i j, i < j → j < m → t i < t j) (k : ℕ) (hk : k < m) :
    interp1d (samples t m) (samples y m) (t k) = y k := by
  obtain ⟨i, him, hlo, hhi, hv⟩ := C102_value t y m hm ht (t k)
  rw [hv]
  have hd : t (i + 1) - t i ≠ 0 := (sub_pos.mpr (ht i (i + 1) (by omega) him)).ne'
  have hik : k = i ∨ k = i + 1 := by
    have h1 : i ≤ k := by
      rcases hlo with h | h
      · omega
      · by_contra hc
        exact absurd (ht k i (by omega) (by omega)) (not_lt.mpr h.le)
    have h2 : k ≤ i + 1 := by
      rcases hhi with h | h
      · omega
      · by_contra hc
        exact absurd (ht (i + 1) k (by omega) hk) (not_lt.mpr h)
    omega
  rcases hik with rfl | rfl
  · simp
  · rw [div_self hd]; ring

/-- **C102.** Between two fixes the position lies between theirs. -/
theorem C102_between (t y : ℕ → ℝ) (m : ℕ) (hm : 2 ≤ m) (ht : ∀ i j, i < j → j < m → t i < t j) (k : ℕ) (hk : k + 1 < m) (x : ℝ)
    (h0 : t k ≤ x) (h1 : x ≤ t (k + 1)) :
    min (y k) (y (k + 1)) ≤ interp1d (samples t m) (samples y m) x ∧ interp1d (samples t m) (samples y m) x ≤ max (y k) (y (k + 1)) := by
  rcases eq_or_lt_of_le h0 with h | h0'
  · rw [← h, C102_at_fix t y m hm ht k (by omega)]; exact ⟨min_le_left _ _, le_max_left _ _⟩
  rcases eq_or_lt_of_le h1 with h | h1'
  · rw [h, C102_at_fix t y m hm ht (k + 1) hk]; exact ⟨min_le_right _ _, le_max_right _ _⟩
  obtain ⟨i, him, hlo, hhi, hv⟩ := C102_value t y m hm ht x
  have hki : i = k := by
    have a1 : i ≤ k := by
      rcases hlo with h | h
      · omega
      · by_contra hc
        rcases Nat.lt_or_ge (k + 1) i with h' | h'
        · exact absurd ((ht (k + 1) i h' (by omega)).trans h) (not_lt.mpr h1)
        · obtain rfl : i = k + 1 := by omega
          exact absurd h (not_lt.mpr h1)
    have a2 : k ≤ i := by
      rcases hhi with h | h
      · omega
      · by_contra hc
        rcases Nat.lt_or_ge (i + 1) k with h' | h'
        · exact absurd ((ht (i + 1) k h' (by omega)).trans h0') (not_lt.mpr h)
        · obtain rfl : k = i + 1 := by omega
          exact absurd h0' (not_lt.mpr h)
    omega
  subst hki
  rw [hv]
  have hd : 0 < t (i + 1) - t i := sub_pos.mpr (ht i (i + 1) (by omega) him)
  obtain ⟨q, hq⟩ : ∃ q, q = (x - t i) / (t (i + 1) - t i) := ⟨_, rfl⟩
  have q0 : 0 ≤ q := by rw [hq]; exact div_nonneg (by linarith) hd.le
  have q1 : q ≤ 1 := by rw [hq, div_le_one hd]; linarith
  rw [← hq]
  rcases le_total (y i) (y (i + 1)) with h | h
  · rw [min_eq_left h, max_eq_right h]
    constructor <;> nlinarith
  · rw [min_eq_right h, max_eq_left h]
    constructor <;> nlinarith

/-- **C102.** For a ship in uniform motion the position is exact at every time, also before the first and after the last fix; the gravimeter's
rows keep their number and order. -/
theorem C102_uniform_motion (t : ℕ → ℝ) (m : ℕ) (hm : 2 ≤ m) (ht : ∀ i j, i < j → j < m → t i < t j) (a b a' b' : ℝ) (tsec : List ℝ) :
    syncScript (samples t m) (samples (fun i => a + b * t i) m) (samples (fun i => a' + b' * t i) m) tsec =
      (tsec.map fun x => a + b * x, tsec.map fun x => a' + b' * x) := by
  have key : ∀ (a b x : ℝ), interp1d (samples t m) (samples (fun i => a + b * t i) m) x = a + b * x := by
    intro a b x
    obtain ⟨i, him, _, _, hv⟩ := C102_value t (fun i => a + b * t i) m hm ht x
    have hd : t (i + 1) - t i ≠ 0 := (sub_pos.mpr (ht i (i + 1) (by omega) him)).ne'
    rw [hv]
    field_simp
    ring
  unfold syncScript
  exact Prod.ext (List.map_congr_left fun x _ => key a b x) (List.map_congr_left fun x _ => key a' b' x)

/-! ### Dropouts -/

/-- Row `i` is followed by one more than a degree further east. -/
def Spec.StepsEast {α : Type} (lon : α → ℚ) (rows : List α) (i : ℕ) : Prop := ∃ r s, rows[i]? = some r ∧ rows[i + 1]? = some s ∧ lon s - lon r > 1

private theorem mem_badInds {α : Type} (lon : α → ℚ) (rows : List α) (i : ℕ) : i ∈ badInds (rows.map lon) ↔ StepsEast lon rows i := by
  unfold badInds StepsEast
  rw [List.mem_filter, List.mem_range, decide_eq_true_eq, List.length_map]
  simp only [List.getD_eq_getElem?_getD, List.getElem?_map]
  constructor
  · rintro ⟨h1, h2⟩
    refine ⟨rows[i]'(by omega), rows[i + 1]'(by omega), List.getElem?_eq_getElem _, List.getElem?_eq_getElem _, ?_⟩
    rwa [List.getElem?_eq_getElem (by omega), List.getElem?_eq_getElem (by omega)] at h2
  · rintro ⟨u, v, hu, hv, h⟩
    have := (List.getElem?_eq_some_iff.mp hv).1
    refine ⟨by omega, ?_⟩
    rw [hu, hv]; exact h

private theorem dropIndices_eq {α : Type} (rows : List α) (bad : List ℕ) :
    dropIndices rows bad = ((List.range rows.length).filter fun i => i ∉ bad).filterMap fun i => rows[i]? := by
  unfold dropIndices
  have hz : rows.zipIdx = (List.range rows.length).filterMap fun i => rows[i]?.map fun r => (r, i) := by
    have h : ∀ (rows : List α) (k : ℕ), rows.zipIdx k = (List.range rows.length).filterMap fun i => rows[i]?.map fun r => (r, k + i) := by
      intro rows
      induction rows with
      | nil => simp
      | cons r rest ih =>
        intro k
        rw [List.zipIdx_cons, ih, List.length_cons, List.range_succ_eq_map, List.filterMap_cons_some (b := (r, k)) (by simp), List.filterMap_map]
        congr 1
        apply List.filterMap_congr
        intro i _
        simp [Nat.add_assoc, Nat.add_comm 1 i]
    simpa using h rows 0
  rw [hz]
  generalize hn : rows.length = n
  have hle : ∀ i ∈ List.range n, i < rows.length := by simp [hn]
  generalize List.range n = l at hle
  induction l with
  | nil => rfl
  | cons i l ih =>
    have hi : i < rows.length := hle i (by simp)
    rw [List.filterMap_cons_some (b := (rows[i], i)) (by simp [hi]), List.filter_cons, List.filter_cons]
    have ih' := ih fun j hj => hle j (by simp [hj])
    by_cases hb : i ∈ bad
    · rw [if_neg (by simpa using hb), if_neg (by simpa using hb)]; exact ih'
    · rw [if_pos (by simpa using hb), if_pos (by simpa using hb), List.map_cons, ih', List.filterMap_cons_some (b := rows[i]) (by simp [hi])]

open Classical in
/-- **C103, part.** Removal of dropouts keeps the order and removes a row exactly if the next one lies more than a degree further east (so
that the last row always stays). -/
theorem C103_kept_rows_partial {α : Type} (lon : α → ℚ) (rows : List α) :
    cleanDropouts lon rows = ((List.range rows.length).filter fun i => ¬ StepsEast lon rows i).filterMap fun i => rows[i]? := by
  unfold cleanDropouts
  rw [dropIndices_eq]
  congr 1
  apply List.filter_congr
  intro i _
  exact decide_eq_decide.mpr (not_congr (mem_badInds lon rows i))

/-- **C103, part.** Dropouts that stand alone, are not last and read at least a degree west of the track (`z`) are removed, and nothing else is. -/
theorem C103_isolated_partial (x : ℕ → ℚ) (z : ℚ) (out : ℕ → Bool) (n : ℕ) (hz : ∀ i, z + 1 < x i) (hx : ∀ i, x (i + 1) - x i ≤ 1)
    (h1 : ∀ i, out i = true → out (i + 1) = false) (hl : ∀ i, i + 1 = n → out i = false) :
    cleanDropouts (fun i => if out i then z else x i) (List.range n) = (List.range n).filter fun i => !out i := by
  classical
  rw [C103_kept_rows_partial, List.length_range]
  have hf : ∀ l : List ℕ, (∀ i ∈ l, i < n) → l.filterMap (fun i => (List.range n)[i]?) = l := by
    intro l
    induction l with
    | nil => simp
    | cons i l ih =>
      intro hb
      rw [List.filterMap_cons_some (b := i) (by rw [List.getElem?_range (hb i (by simp))]), ih fun j hj => hb j (by simp [hj])]
  rw [hf _ fun i hi => List.mem_range.mp (List.mem_filter.mp hi).1]
  apply List.filter_congr
  intro i hi
  have hin := List.mem_range.mp hi
  have key : StepsEast (fun i => if out i then z else x i) (List.range n) i ↔ out i = true := by
    constructor
    · rintro ⟨r, s, hr, hs, h⟩
      rw [List.getElem?_range hin, Option.some_inj] at hr
      have hsn : i + 1 < n := by simpa using (List.getElem?_eq_some_iff.mp hs).1
      rw [List.getElem?_range hsn, Option.some_inj] at hs
      subst hr hs
      by_contra ho
      have a := hz i
      have b := hx i
      simp only [ho, if_false] at h
      by_cases ho' : out (i + 1) = true
      · simp only [ho', if_true] at h; simp at h; linarith
      · simp only [ho'] at h; simp at h; linarith
    · intro ho
      have hsn : i + 1 < n := by
        rcases Nat.lt_or_ge (i + 1) n with h | h
        · exact h
        · have := hl i (by omega); simp [ho] at this
      refine ⟨i, i + 1, List.getElem?_range hin, List.getElem?_range hsn, ?_⟩
      have a := hz (i + 1)
      simp only [ho, h1 i ho, if_true]
      simp; linarith
  by_cases ho : out i = true
  · simp [key, ho]
  · simp [key, ho]

/-- **C103, refuted.** Of two dropouts in a row the first stays, and with it a jump of ten degrees. -/
theorem C103_consecutive_refuted : cleanDropouts id [10, 0, 0, 10] = [10, 0, 10] := by decide +kernel

/-- **C103, refuted.** In western longitudes, where a dropout reads east of the track, the good row before it is removed and the dropout stays. -/
theorem C103_west_refuted : cleanDropouts id [-120, -121, 0, -121] = [-120, 0, -121] := by decide +kernel

/-! ### Non-vacuity -/

/-- Four fixes at uneven times. -/
example : ∀ i j : ℕ, i < j → j < 4 → ((i : ℝ) ^ 2) < (j : ℝ) ^ 2 := by
  intro i j hij _
  have : (i : ℝ) < j := by exact_mod_cast hij
  have : (0 : ℝ) ≤ i := by positivity
  nlinarith

/-- One dropout among five rows near 130° E. -/
example : cleanDropouts (fun i : ℕ => if i == 2 then 0 else 130 + (i : ℚ) / 100) (List.range 5) = [0, 1, 3, 4] := by
  have hz : ∀ i : ℕ, (0 : ℚ) + 1 < 130 + (i : ℚ) / 100 := by
    intro i
    have : (0 : ℚ) ≤ i := Nat.cast_nonneg i
    linarith
  have h := C103_isolated_partial (fun i => 130 + (i : ℚ) / 100) 0 (fun i => i == 2) 5 hz (fun i => by push_cast; linarith)
    (fun i h => by simp at h ⊢; omega) (fun i h => by simp; omega)
  exact h

end Shipgrav
