import Verif.Model.Track
import Verif.Lemmas.ListSum
import Verif.Spec.Nav
import Mathlib.Data.List.Sort
import Mathlib.Algebra.Order.Floor.Semiring
import Mathlib.Tactic.FieldSimp

/-! Property theorems C111–C113: the line of `RMBA_calc.py` – its extensions, the anomaly put into it, its even spacing. -/

namespace Shipgrav
open Spec

/-! ### C111 -/

private theorem telescope (x : List ℝ) : (List.zipWith (· - ·) (x.drop 1) x).sum = x.getD (x.length - 1) 0 - x.getD 0 0 := by
  induction x with
  | nil => simp
  | cons a t ih =>
    cases t with
    | nil => simp
    | cons b u =>
      simp only [List.drop_succ_cons, List.drop_zero] at ih ⊢
      rw [List.zipWith_cons_cons, List.sum_cons, ih]
      simp

private theorem rangesFrom_getD {P : Type} (g : Geodesics P) (p : P) (pts : List P) (i : ℕ) (h : i < pts.length) :
    (rangesFrom g p pts).getD i 0 = if i = 0 then 0 else g.s12 p (pts[i]'h) := by
  unfold rangesFrom
  rw [List.getD_eq_getElem?_getD, List.getElem?_map, List.getElem?_zipIdx, List.getElem?_eq_getElem h]
  simp

private theorem rangesFrom_length {P : Type} (g : Geodesics P) (p : P) (pts : List P) : (rangesFrom g p pts).length = pts.length := by
  unfold rangesFrom; simp

/-- **C111.** The extended line.  `n + 1` points, the first and the last at a distance `L > 0` from each other: with `d = L / n` the mean spacing and `m` the greatest
number with `m d ≤ min L 500 km`, point `m + i` of the extended line is point `i` of the data, the points before it lie at distances `d, 2 d, …, m d` from the first
point of the data in the direction away from the last, the points after it at the same distances from the last point in the direction away from the first. -/
theorem C111_extended_line {P : Type} (g : Geodesics P) (pts : ℕ → P) (n : ℕ) (hn : 0 < n) (hL : 0 < g.s12 (pts 0) (pts n)) : ∃ m : ℕ, ∃ out : List P,
    extendLine g (samples pts (n + 1)) = .ok (m, out) ∧ out.length = (n + 1) + 2 * m ∧
      (∀ i ≤ n, out[m + i]? = some (pts i)) ∧
      (∀ k < m, out[m - 1 - k]? = some (g.direct (pts 0) (g.azi2 (pts n) (pts 0)) (g.s12 (pts 0) (pts n) / n * ((k : ℝ) + 1)))) ∧
      (∀ k < m, out[m + n + 1 + k]? = some (g.direct (pts n) (g.azi2 (pts 0) (pts n)) (g.s12 (pts 0) (pts n) / n * ((k : ℝ) + 1)))) ∧
      (m : ℝ) * (g.s12 (pts 0) (pts n) / n) ≤ min (g.s12 (pts 0) (pts n)) 500000 ∧
      min (g.s12 (pts 0) (pts n)) 500000 < ((m : ℝ) + 1) * (g.s12 (pts 0) (pts n) / n) := by
  set L := g.s12 (pts 0) (pts n) with hLdef
  have hnR : (0 : ℝ) < n := by exact_mod_cast hn
  set d := L / n with hd
  have hdpos : 0 < d := div_pos hL hnR
  have hlen : (samples pts (n + 1)).length = n + 1 := by simp [samples]
  have hget : ∀ i ≤ n, (samples pts (n + 1))[i]? = some (pts i) := by
    intro i hi; unfold samples; rw [List.getElem?_map, List.getElem?_range (by omega)]; rfl
  have hhead : (samples pts (n + 1)).head? = some (pts 0) := by rw [← hget 0 (by omega), List.head?_eq_getElem?]
  have hlast : (samples pts (n + 1)).getLast? = some (pts n) := by
    rw [List.getLast?_eq_getElem?, hlen]; exact hget n le_rfl
  have hmean : meanDiff (rangesFrom g (pts 0) (samples pts (n + 1))) = d := by
    unfold meanDiff
    rw [telescope, rangesFrom_length, hlen, rangesFrom_getD _ _ _ _ (by rw [hlen]; omega), rangesFrom_getD _ _ _ _ (by rw [hlen]; omega), if_neg (by omega), if_pos rfl]
    have : (samples pts (n + 1))[n + 1 - 1]'(by rw [hlen]; omega) = pts n := by
      have := hget n le_rfl
      rw [List.getElem?_eq_getElem (by rw [hlen]; omega)] at this
      exact Option.some.inj this
    rw [this, hd]; push_cast; ring
  have hext : (if L < 500e3 then L else 500e3) = min L 500000 := by
    split
    · rename_i h; rw [min_eq_left]; norm_num at h ⊢; linarith
    · rename_i h; rw [min_eq_right]; norm_num; norm_num at h ⊢; linarith
  set E := min L 500000 with hE
  have hE0 : 0 ≤ E := le_min hL.le (by norm_num)
  refine ⟨⌊E / d⌋₊, ((List.range ⌊E / d⌋₊).map fun (i : ℕ) => g.direct (pts 0) (g.azi2 (pts n) (pts 0)) (d * ((i : ℝ) + 1))).reverse ++ samples pts (n + 1) ++
    (List.range ⌊E / d⌋₊).map fun (i : ℕ) => g.direct (pts n) (g.azi2 (pts 0) (pts n)) (d * ((i : ℝ) + 1)), ?_, ?_, ?_, ?_, ?_, ?_, ?_⟩
  · unfold extendLine
    rw [hhead, hlast]
    simp only [hmean, ← hLdef]
    rw [if_neg (by rw [hlen]; push Not; exact ⟨by omega, hdpos.ne'⟩), hext]
  · simp [hlen]; omega
  · intro i hi
    rw [List.append_assoc, List.getElem?_append_right (by simp), List.getElem?_append_left (by simp [hlen]; omega)]
    simp only [List.length_reverse, List.length_map, List.length_range, Nat.add_sub_cancel_left]
    exact hget i hi
  · intro k hk
    rw [List.append_assoc, List.getElem?_append_left (by simp; omega), List.getElem?_reverse (by simp; omega)]
    simp only [List.length_map, List.length_range]
    rw [show ⌊E / d⌋₊ - 1 - (⌊E / d⌋₊ - 1 - k) = k by omega, List.getElem?_map, List.getElem?_range hk]; rfl
  · intro k hk
    rw [List.getElem?_append_right (by simp [hlen]; omega)]
    simp only [List.length_append, List.length_reverse, List.length_map, List.length_range, hlen]
    rw [show ⌊E / d⌋₊ + n + 1 + k - (⌊E / d⌋₊ + (n + 1)) = k by omega, List.getElem?_map, List.getElem?_range hk]; rfl
  · have := Nat.floor_le (div_nonneg hE0 hdpos.le)
    rwa [le_div_iff₀ hdpos] at this
  · have := Nat.lt_floor_add_one (E / d)
    rwa [div_lt_iff₀ hdpos] at this

/-- **C111.** A line shorter than 500 km gets as many points on each side as it has spacings. -/
theorem C111_short_line {P : Type} (g : Geodesics P) (pts : ℕ → P) (n : ℕ) (hn : 0 < n) (hL : 0 < g.s12 (pts 0) (pts n)) (hs : g.s12 (pts 0) (pts n) ≤ 500000) :
    ∃ out : List P, extendLine g (samples pts (n + 1)) = .ok (n, out) := by
  obtain ⟨m, out, h, _, _, _, _, h1, h2⟩ := C111_extended_line g pts n hn hL
  have hnR : (0 : ℝ) < n := by exact_mod_cast hn
  rw [min_eq_left hs] at h1 h2
  have e : g.s12 (pts 0) (pts n) = n * (g.s12 (pts 0) (pts n) / n) := by field_simp
  have hd : 0 < g.s12 (pts 0) (pts n) / n := div_pos hL hnR
  generalize g.s12 (pts 0) (pts n) / n = d at *
  rw [e] at h1 h2
  have h1' : (m : ℝ) ≤ n := le_of_mul_le_mul_right h1 hd
  have h2' : (n : ℝ) < m + 1 := lt_of_mul_lt_mul_right h2 hd.le
  have h3 : m ≤ n := by exact_mod_cast h1'
  have h4 : n < m + 1 := by exact_mod_cast h2'
  obtain rfl : m = n := by omega
  exact ⟨out, h⟩

/-! ### C112 -/

private theorem loc_rows (n a b : ℕ) (hb : b ≤ n) : ((List.range n).filter fun (i : ℕ) => decide (((a : ℕ) : ℤ) ≤ (i : ℤ) ∧ (i : ℤ) ≤ (b : ℤ) - 1)).length = b - a := by
  induction n generalizing b with
  | zero => obtain rfl : b = 0 := by omega
            simp
  | succ n ih =>
    rw [List.range_succ, List.filter_append, List.length_append]
    by_cases hbn : b ≤ n
    · rw [ih b hbn, List.filter_cons_of_neg (by simp; omega)]; simp
    · obtain rfl : b = n + 1 := by omega
      have e : (List.range n).filter (fun (i : ℕ) => decide (((a : ℕ) : ℤ) ≤ (i : ℤ) ∧ (i : ℤ) ≤ ((n + 1 : ℕ) : ℤ) - 1)) =
          (List.range n).filter (fun (i : ℕ) => decide (((a : ℕ) : ℤ) ≤ (i : ℤ) ∧ (i : ℤ) ≤ ((n : ℕ) : ℤ) - 1)) := by
        apply List.filter_congr
        intro i hi
        rw [List.mem_range] at hi
        simp only [decide_eq_decide]; omega
      rw [e, ih n le_rfl]
      by_cases ha : a ≤ n
      · rw [List.filter_cons_of_pos (by simp; omega)]; simp; omega
      · rw [List.filter_cons_of_neg (by simp; omega)]; simp; omega

/-- **C112.** The tracked line after the anomaly of a segment of `n` samples was put in, with `m` points added at both sides: point `m + i` has the smoothed anomaly of
sample `i` if at least 480 samples lie on both sides of `i`, all other points keep the tracked value.  Nothing raises. -/
theorem C112_embedded {α : Type} (m n : ℕ) (track ffaa : ℕ → α) : ∃ out : List α,
    embedTrack m (samples track (n + 2 * m)) (samples ffaa n) = .ok out ∧ out.length = n + 2 * m ∧
      ∀ r < n + 2 * m, out[r]? = some (if m + 480 ≤ r ∧ r + 480 < m + n then ffaa (r - m) else track r) := by
  have hlen : ∀ (f : ℕ → α) k, (samples f k).length = k := by intro f k; simp [samples]
  have hget : ∀ (f : ℕ → α) k i, i < k → (samples f k)[i]? = some (f i) := by
    intro f k i hi; unfold samples; rw [List.getElem?_map, List.getElem?_range hi]; rfl
  have htrim : (trimTrack (samples ffaa n)).length = n - 960 := by
    have : ∀ a b : ℕ, (((samples ffaa n).take ((samples ffaa n).length - a)).drop b).length = n - (a + b) := by
      intro a b; rw [List.length_drop, List.length_take, hlen]; omega
    exact this 480 480
  have hval : ∀ i, i < n - 960 → (trimTrack (samples ffaa n))[i]? = some (ffaa (480 + i)) := by
    have : ∀ a b i : ℕ, i < n - (a + b) → (((samples ffaa n).take ((samples ffaa n).length - a)).drop b)[i]? = some (ffaa (b + i)) := by
      intro a b i hi
      rw [List.getElem?_drop, List.getElem?_take, if_pos (by rw [hlen]; omega), hget _ _ _ (by omega)]
    exact this 480 480
  unfold embedTrack locAssign
  simp only [htrim]
  have hs : ((m : ℤ) + (lowpassTaps : ℕ)) = ((m + 480 : ℕ) : ℤ) := by simp [lowpassTaps]
  have he : ((m + 480 : ℕ) : ℤ) + ((n - 960 : ℕ) : ℤ) - 1 = ((m + 480 + (n - 960) : ℕ) : ℤ) - 1 := by push_cast; ring
  rw [hs, he, hlen]
  have hrows : ((List.range (n + 2 * m)).filter fun (i : ℕ) => decide (((m + 480 : ℕ) : ℤ) ≤ (i : ℤ) ∧ (i : ℤ) ≤ ((m + 480 + (n - 960) : ℕ) : ℤ) - 1)).length = n - 960 := by
    by_cases h : 960 ≤ n
    · rw [loc_rows _ _ _ (by omega)]; omega
    · have : n - 960 = 0 := by omega
      rw [this, List.length_eq_zero_iff, List.filter_eq_nil_iff]
      intro i _
      simp only [decide_eq_true_eq]; omega
  rw [if_pos hrows]
  refine ⟨_, rfl, by rw [List.length_map, List.length_zipIdx, hlen], ?_⟩
  intro r hr
  rw [List.getElem?_map, List.getElem?_zipIdx, hget _ _ _ hr]
  simp only [Option.map_some, Nat.zero_add]
  by_cases h : m + 480 ≤ r ∧ r + 480 < m + n
  · rw [if_pos (by omega), if_pos h, List.getD_eq_getElem?_getD, show ((r : ℤ) - ((m + 480 : ℕ) : ℤ)).toNat = r - (m + 480) by omega, hval _ (by omega)]
    simp only [Option.getD_some]
    exact congrArg (fun t => some (ffaa t)) (by omega)
  · rw [if_neg (by omega), if_neg h]

/-! ### C113 -/

open Classical in
private theorem sorted_search (xs : List ℝ) (h : xs.Pairwise (· ≤ ·)) (x : ℝ) : searchReal xs x ≤ xs.length ∧
    (∀ j < searchReal xs x, xs.getD j 0 < x) ∧ ∀ j, searchReal xs x ≤ j → j < xs.length → x ≤ xs.getD j 0 := by
  unfold searchReal
  induction xs with
  | nil => simp
  | cons a t ih =>
    obtain ⟨h1, h2⟩ := List.pairwise_cons.1 h
    obtain ⟨i1, i2, i3⟩ := ih h2
    rw [List.countP_cons]
    by_cases ha : a < x
    · simp only [ha, decide_true, if_true, List.length_cons]
      refine ⟨by omega, ?_, ?_⟩
      · intro j hj
        cases j with
        | zero => simpa using ha
        | succ j => rw [List.getD_cons_succ]; exact i2 j (by omega)
      · intro j hj hj'
        cases j with
        | zero => omega
        | succ j => simpa using i3 j (by omega) (by omega)
    · simp only [ha, decide_false, Bool.false_eq_true, if_false, Nat.add_zero, List.length_cons]
      have hz : t.countP (fun y => decide (y < x)) = 0 := by
        rw [List.countP_eq_zero]
        intro b hb
        have := h1 b hb
        simp only [decide_eq_true_eq]; push Not at ha ⊢; linarith
      rw [hz] at i3 ⊢
      refine ⟨by omega, by intro j hj; omega, ?_⟩
      intro j _ hj'
      cases j with
      | zero => simpa using ha
      | succ j => rw [List.getD_cons_succ]; exact i3 j (Nat.zero_le _) (by omega)

open Classical in
/-- Two neighbours among the sorted nodes. -/
private theorem strict_value (xs ys : List ℝ) (h : xs.length = ys.length) (x : ℝ) (h0 : ∃ u ∈ xs, u < x) (h1 : ∃ u ∈ xs, x ≤ u) :
    ∃ p ∈ xs.zip ys, ∃ q ∈ xs.zip ys, p.1 < x ∧ x ≤ q.1 ∧ (∀ u ∈ xs, u ≤ p.1 ∨ q.1 ≤ u) ∧
      interp1dStrict xs ys x = .ok (some (p.2 + (q.2 - p.2) * ((x - p.1) / (q.1 - p.1)))) := by
  set nodes := (xs.zip ys).mergeSort fun p q => decide (p.1 ≤ q.1) with hnodes
  have hperm : nodes.Perm (xs.zip ys) := List.mergeSort_perm _ _
  have hsort : (nodes.map Prod.fst).Pairwise (· ≤ ·) := by
    rw [List.pairwise_map]
    have := List.pairwise_mergeSort (le := fun p q : ℝ × ℝ => decide (p.1 ≤ q.1)) (by intro a b c; simp only [decide_eq_true_eq]; exact le_trans)
      (by intro a b; simp only [Bool.or_eq_true, decide_eq_true_eq]; exact le_total _ _) (xs.zip ys)
    exact this.imp (by intro a b hab; simpa using hab)
  have hfst : (nodes.map Prod.fst).Perm xs := by
    have := hperm.map Prod.fst
    rwa [List.map_fst_zip (by omega)] at this
  obtain ⟨s1, s2, s3⟩ := sorted_search _ hsort x
  unfold interp1dStrict
  simp only [← hnodes]
  have hl : (nodes.map Prod.fst).length = nodes.length := List.length_map _
  generalize hc : searchReal (nodes.map Prod.fst) x = c at *
  have hget : ∀ j < nodes.length, (nodes.map Prod.fst).getD j 0 = (nodes.getD j (0, 0)).1 ∧ (nodes.map Prod.snd).getD j 0 = (nodes.getD j (0, 0)).2 := by
    intro j hj
    simp only [List.getD_eq_getElem?_getD, List.getElem?_map, List.getElem?_eq_getElem hj]
    exact ⟨rfl, rfl⟩
  have mem_idx : ∀ u ∈ xs, ∃ j < nodes.length, (nodes.map Prod.fst).getD j 0 = u := by
    intro u hu
    obtain ⟨j, hj, e⟩ := List.getElem_of_mem (hfst.symm.subset hu)
    refine ⟨j, by omega, ?_⟩
    rw [List.getD_eq_getElem _ _ hj, e]
  have hc1 : 1 ≤ c := by
    obtain ⟨u, hu, hux⟩ := h0
    obtain ⟨j, hj, e⟩ := mem_idx u hu
    by_contra hcon
    have := s3 j (by omega) (by omega)
    rw [e] at this; linarith
  have hc2 : c < nodes.length := by
    obtain ⟨u, hu, hux⟩ := h1
    obtain ⟨j, hj, e⟩ := mem_idx u hu
    by_contra hcon
    have := s2 j (by omega)
    rw [e] at this; linarith
  have hhi : min (max c 1) (nodes.length - 1) = c := by omega
  have hlo := s2 (c - 1) (by omega)
  have hup := s3 c le_rfl (by omega)
  have hmem : ∀ j < nodes.length, nodes.getD j (0, 0) ∈ xs.zip ys := by
    intro j hj
    rw [List.getD_eq_getElem _ _ hj]
    exact hperm.subset (List.getElem_mem hj)
  rw [hl, hhi]
  have hb0 : ¬ (x < (nodes.map Prod.fst).getD 0 0 ∨ (nodes.map Prod.fst).getD (nodes.length - 1) 0 < x) := by
    push Not
    exact ⟨(s2 0 (by omega)).le, s3 _ (by omega) (by omega)⟩
  rw [if_neg hb0, (hget c hc2).1, (hget (c - 1) (by omega)).1, (hget c hc2).2, (hget (c - 1) (by omega)).2]
  rw [(hget (c - 1) (by omega)).1] at hlo
  rw [(hget c hc2).1] at hup
  have hlt := lt_of_lt_of_le hlo hup
  rw [if_neg hlt.ne']
  refine ⟨_, hmem (c - 1) (by omega), _, hmem c hc2, hlo, hup, ?_, ?_⟩
  · intro u hu
    obtain ⟨j, hj, e⟩ := mem_idx u hu
    rw [← e, (hget j hj).1]
    have hmono : ∀ i j, i ≤ j → j < nodes.length → (nodes.getD i (0, 0)).1 ≤ (nodes.getD j (0, 0)).1 := by
      intro i j hij hj
      rcases Nat.eq_or_lt_of_le hij with rfl | hij
      · exact le_rfl
      · have := List.pairwise_iff_getElem.1 hsort i j (by omega) (by omega) hij
        rw [List.getElem_map, List.getElem_map] at this
        rwa [List.getD_eq_getElem _ _ (by omega), List.getD_eq_getElem _ _ hj]
    by_cases hjc : j < c
    · left; exact hmono j (c - 1) (by omega) (by omega)
    · right; exact hmono c j (by omega) hj
  · congr 2; ring

open Classical in
/-- At the smallest abscissa. -/
private theorem strict_first (rest ys : List ℝ) (x0 y0 : ℝ) (hr : rest ≠ []) (hl : rest.length = ys.length) (hmin : ∀ u ∈ rest, x0 < u) :
    interp1dStrict (x0 :: rest) (y0 :: ys) x0 = .ok (some y0) := by
  set nodes := ((x0 :: rest).zip (y0 :: ys)).mergeSort fun p q => decide (p.1 ≤ q.1) with hnodes
  have hperm : nodes.Perm ((x0 :: rest).zip (y0 :: ys)) := List.mergeSort_perm _ _
  have hsort : nodes.Pairwise (fun p q => p.1 ≤ q.1) := by
    have := List.pairwise_mergeSort (le := fun p q : ℝ × ℝ => decide (p.1 ≤ q.1)) (by intro a b c; simp only [decide_eq_true_eq]; exact le_trans)
      (by intro a b; simp only [Bool.or_eq_true, decide_eq_true_eq]; exact le_total _ _) ((x0 :: rest).zip (y0 :: ys))
    exact this.imp (by intro a b hab; simpa using hab)
  rw [List.zip_cons_cons] at hperm
  have hrest : ∀ p ∈ rest.zip ys, x0 < p.1 := fun p hp => hmin _ (List.of_mem_zip hp).1
  obtain ⟨a, t, e⟩ : ∃ a t, nodes = a :: t := by
    cases h : nodes with
    | nil => rw [h] at hperm; exact absurd hperm.length_eq (by simp)
    | cons a t => exact ⟨a, t, rfl⟩
  have ha : a = (x0, y0) := by
    rw [e] at hperm hsort
    rcases List.mem_cons.1 (hperm.subset (by simp : a ∈ a :: t)) with h | h
    · exact h
    · rcases List.mem_cons.1 (hperm.symm.subset (by simp : (x0, y0) ∈ (x0, y0) :: rest.zip ys)) with h' | h'
      · exact h'.symm
      · have h1 := (List.pairwise_cons.1 hsort).1 _ h'
        have h2 := hrest a h
        simp only at h1; linarith
  subst ha
  have ht : t.Perm (rest.zip ys) := by rw [e] at hperm; exact hperm.cons_inv
  obtain ⟨b, u, eb⟩ : ∃ b u, t = b :: u := by
    cases h : t with
    | nil =>
      rw [h] at ht
      have := ht.length_eq
      rw [List.length_zip, ← hl, min_self, List.length_nil] at this
      exact absurd (List.length_eq_zero_iff.1 this.symm) hr
    | cons b u => exact ⟨b, u, rfl⟩
  have hb : x0 < b.1 := hrest b (ht.subset (by rw [eb]; simp))
  have hall : ∀ p ∈ nodes, x0 ≤ p.1 := by
    intro p hp
    rw [e] at hp hsort
    rcases List.mem_cons.1 hp with h | h
    · rw [h]
    · exact (List.pairwise_cons.1 hsort).1 p h
  unfold interp1dStrict
  simp only [← hnodes]
  have hc : searchReal (nodes.map Prod.fst) x0 = 0 := by
    unfold searchReal
    rw [List.countP_eq_zero]
    intro v hv
    obtain ⟨p, hp, rfl⟩ := List.mem_map.1 hv
    have := hall p hp
    simp only [decide_eq_true_eq]; linarith
  have hlast : ¬ (x0 < (nodes.map Prod.fst).getD 0 0 ∨ (nodes.map Prod.fst).getD ((nodes.map Prod.fst).length - 1) 0 < x0) := by
    push Not
    constructor
    · rw [e]; simp
    · have hlt : (nodes.map Prod.fst).length - 1 < (nodes.map Prod.fst).length := by rw [e]; simp
      rw [List.getD_eq_getElem _ _ hlt, List.getElem_map]
      exact hall _ (List.getElem_mem _)
  rw [if_neg hlast, hc]
  rw [e, eb]
  simp [hb.ne']

private theorem zip_samples (f g : ℕ → ℝ) (n : ℕ) (p : ℝ × ℝ) (h : p ∈ (samples f n).zip (samples g n)) : ∃ i < n, p = (f i, g i) := by
  unfold samples at h
  rw [List.zip_map', List.mem_map] at h
  obtain ⟨i, hi, rfl⟩ := h
  exact ⟨i, List.mem_range.1 hi, rfl⟩

private theorem mem_samples (f : ℕ → ℝ) (n : ℕ) (u : ℝ) : u ∈ samples f n ↔ ∃ i < n, f i = u := by
  unfold samples; simp

private theorem mapM_samples (f : ℝ → Except PyErr (Option ℝ)) (F : ℝ → Option ℝ) (l : List ℝ) (h : ∀ x ∈ l, f x = .ok (F x)) : l.mapM f = .ok (l.map F) := by
  induction l with
  | nil => rfl
  | cons a t ih =>
    rw [List.mapM_cons, h a (by simp), ih (fun x hx => h x (by simp [hx]))]; rfl

/-- **C113.** A column at even spacing.  `n + 1` points at distances `s i` from the first; only the first one is at distance zero: at each of the 1000 distances
`k L / 999`, with `L` the distance of the last point, the value is on the straight line between the two points next to that distance. -/
theorem C113_even_spacing (s y : ℕ → ℝ) (n : ℕ) (hn : 0 < n) (h0 : s 0 = 0) (hpos : ∀ i ≤ n, i ≠ 0 → 0 < s i) :
    ∃ v : ℕ → ℝ, evenSpacing (samples s (n + 1)) (samples y (n + 1)) = .ok (samples (fun (k : ℕ) => some (v k)) 1000) ∧ v 0 = y 0 ∧
      ∀ k : ℕ, k < 1000 → ∃ a ≤ n, ∃ b ≤ n, s a ≤ k * (s n / 999) ∧ k * (s n / 999) ≤ s b ∧ s a < s b ∧ (∀ i ≤ n, s i ≤ s a ∨ s b ≤ s i) ∧
        v k = y a + (y b - y a) * ((k * (s n / 999) - s a) / (s b - s a)) := by
  classical
  have hsn : 0 < s n := hpos n le_rfl (by omega)
  have hlen : ∀ f : ℕ → ℝ, (samples f (n + 1)).length = n + 1 := by intro f; simp [samples]
  have hlast : (samples s (n + 1)).getD ((samples s (n + 1)).length - 1) 0 = s n := by
    rw [hlen]; unfold samples
    rw [List.getD_eq_getElem?_getD, List.getElem?_map, List.getElem?_range (by omega)]; rfl
  have key : ∀ k : ℕ, k < 1000 → ∃ r : ℝ, interp1dStrict (samples s (n + 1)) (samples y (n + 1)) (k * (s n / 999)) = .ok (some r) ∧ (k = 0 → r = y 0) ∧
      ∃ a ≤ n, ∃ b ≤ n, s a ≤ k * (s n / 999) ∧ k * (s n / 999) ≤ s b ∧ s a < s b ∧ (∀ i ≤ n, s i ≤ s a ∨ s b ≤ s i) ∧
        r = y a + (y b - y a) * ((k * (s n / 999) - s a) / (s b - s a)) := by
    intro k hk
    by_cases hk0 : k = 0
    · subst hk0
      refine ⟨y 0, ?_, fun _ => rfl, ?_⟩
      · have : ((0 : ℕ) : ℝ) * (s n / 999) = 0 := by simp
        rw [this]
        have hcons : ∀ f : ℕ → ℝ, samples f (n + 1) = f 0 :: samples (fun i => f (i + 1)) n := by
          intro f; unfold samples; rw [List.range_succ_eq_map]; simp [Function.comp_def]
        rw [hcons s, hcons y, h0]
        apply strict_first
        · intro h
          have := congrArg List.length h
          simp [samples] at this; omega
        · simp [samples]
        · intro u hu
          obtain ⟨i, hi, rfl⟩ := (mem_samples _ _ _).1 hu
          exact hpos (i + 1) (by omega) (by omega)
      · -- the nearest other point
        obtain ⟨b, hb, hbmin⟩ := Finset.exists_min_image (Finset.Icc 1 n) s ⟨1, by simp; omega⟩
        rw [Finset.mem_Icc] at hb
        refine ⟨0, by omega, b, hb.2, by simp [h0], ?_, ?_, ?_, ?_⟩
        · simp; exact (hpos b hb.2 (by omega)).le
        · rw [h0]; exact hpos b hb.2 (by omega)
        · intro i hi
          by_cases hi0 : i = 0
          · left; rw [hi0]
          · right; exact hbmin i (Finset.mem_Icc.2 ⟨by omega, hi⟩)
        · rw [h0]; simp
    · have hx0 : 0 < (k : ℝ) * (s n / 999) := by
        have : (0 : ℝ) < k := by exact_mod_cast Nat.pos_of_ne_zero hk0
        positivity
      have hx1 : (k : ℝ) * (s n / 999) ≤ s n := by
        have : (k : ℝ) ≤ 999 := by exact_mod_cast (by omega : k ≤ 999)
        rw [mul_div_assoc', div_le_iff₀ (by norm_num)]
        nlinarith
      obtain ⟨p, hp, q, hq, h1, h2, h3, h4⟩ := strict_value (samples s (n + 1)) (samples y (n + 1)) (by rw [hlen, hlen]) (k * (s n / 999))
        ⟨s 0, (mem_samples _ _ _).2 ⟨0, by omega, rfl⟩, by rw [h0]; exact hx0⟩ ⟨s n, (mem_samples _ _ _).2 ⟨n, by omega, rfl⟩, hx1⟩
      obtain ⟨a, ha, rfl⟩ := zip_samples _ _ _ _ hp
      obtain ⟨b, hb, rfl⟩ := zip_samples _ _ _ _ hq
      refine ⟨_, h4, fun h => absurd h hk0, a, by omega, b, by omega, h1.le, h2, lt_of_lt_of_le h1 h2, ?_, rfl⟩
      intro i hi
      exact h3 (s i) ((mem_samples _ _ _).2 ⟨i, by omega, rfl⟩)
  choose! v hv using key
  refine ⟨v, ?_, (hv 0 (by norm_num)).2.1 rfl, fun k hk => (hv k hk).2.2⟩
  unfold evenSpacing linspace1000
  rw [hlast]
  have hF : ∀ x ∈ (List.range 1000).map (fun (i : ℕ) => (i : ℝ) * (s n / 999)), interp1dStrict (samples s (n + 1)) (samples y (n + 1)) x =
      .ok (match interp1dStrict (samples s (n + 1)) (samples y (n + 1)) x with | .ok r => r | .error _ => none) := by
    intro x hx
    rw [List.mem_map] at hx
    obtain ⟨k, hk, rfl⟩ := hx
    rw [List.mem_range] at hk
    rw [(hv k hk).1]
  rw [mapM_samples _ _ _ hF, List.map_map]
  refine congrArg Except.ok (List.map_congr_left ?_)
  intro k hk
  rw [List.mem_range] at hk
  simp only [Function.comp_apply, (hv k hk).1]

/-- **C113.** Even spacing brings in no new extremes. -/
theorem C113_no_overshoot (s y : ℕ → ℝ) (n : ℕ) (hn : 0 < n) (h0 : s 0 = 0) (hpos : ∀ i ≤ n, i ≠ 0 → 0 < s i)
    (lo hi : ℝ) (hy : ∀ i ≤ n, lo ≤ y i ∧ y i ≤ hi) :
    ∃ v : ℕ → ℝ, evenSpacing (samples s (n + 1)) (samples y (n + 1)) = .ok (samples (fun (k : ℕ) => some (v k)) 1000) ∧ ∀ k : ℕ, k < 1000 → lo ≤ v k ∧ v k ≤ hi := by
  obtain ⟨v, h1, _, h2⟩ := C113_even_spacing s y n hn h0 hpos
  refine ⟨v, h1, ?_⟩
  intro k hk
  obtain ⟨a, ha, b, hb, e1, e2, e3, _, e5⟩ := h2 k hk
  have hd : 0 < s b - s a := by linarith
  have t0 : 0 ≤ (k * (s n / 999) - s a) / (s b - s a) := div_nonneg (by linarith) hd.le
  have t1 : (k * (s n / 999) - s a) / (s b - s a) ≤ 1 := by rw [div_le_one hd]; linarith
  rw [e5]
  generalize (k * (s n / 999) - s a) / (s b - s a) = t at *
  obtain ⟨a1, a2⟩ := hy a ha
  obtain ⟨b1, b2⟩ := hy b hb
  constructor <;> nlinarith

/-- **C113.** A column that changes evenly along the line is met exactly. -/
theorem C113_even_slope (s : ℕ → ℝ) (n : ℕ) (hn : 0 < n) (h0 : s 0 = 0) (hpos : ∀ i ≤ n, i ≠ 0 → 0 < s i)
    (a c : ℝ) :
    evenSpacing (samples s (n + 1)) (samples (fun i => a + c * s i) (n + 1)) = .ok (samples (fun (k : ℕ) => some (a + c * (k * (s n / 999)))) 1000) := by
  obtain ⟨v, h1, _, h2⟩ := C113_even_spacing s (fun i => a + c * s i) n hn h0 hpos
  rw [h1]
  refine congrArg Except.ok (List.map_congr_left ?_)
  intro k hk
  rw [List.mem_range] at hk
  obtain ⟨i, _, j, _, _, _, e3, _, e5⟩ := h2 k hk
  have hd : s j - s i ≠ 0 := by intro h; linarith
  rw [e5]
  refine congrArg some ?_
  field_simp
  ring

/-! ### Non-vacuity -/

/-- The equator as a line, in metres. -/
private noncomputable def flat : Geodesics ℝ := ⟨fun p q => |p - q|, fun p q => if p < q then 90 else 270, fun p az d => if az < 180 then p + d else p - d⟩

example : ∃ out : List ℝ, extendLine flat (samples (fun i => 100 * (i : ℝ)) 11) = .ok (10, out) :=
  C111_short_line flat (fun i => 100 * (i : ℝ)) 10 (by norm_num) (by simp [flat]) (by simp [flat]; norm_num)

/-- A line that turns back: the distances are not sorted. -/
example : ∃ s : ℕ → ℝ, s 0 = 0 ∧ (∀ i ≤ 4, i ≠ 0 → 0 < s i) ∧ s 3 < s 2 :=
  ⟨fun i => if i = 3 then 1 / 2 else i, by simp, fun i _ hi => by
    have : (0 : ℝ) < i := by exact_mod_cast Nat.pos_of_ne_zero hi
    simp only; split <;> [norm_num; exact this], by norm_num⟩

end Shipgrav
