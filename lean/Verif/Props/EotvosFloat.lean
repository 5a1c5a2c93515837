import Verif.Lemmas.EotvosFloat
import Verif.Props.Eotvos
import Verif.Spec.Nav

/-! C133: the Eötvös correction in double precision. -/

namespace Shipgrav
open Spec Real

/-! ### Helpers -/

private theorem getD_samples {α : Type} (f : ℕ → α) (n k : ℕ) (d : α) (h : k < n) : (samples f n).getD k d = f k := by
  unfold samples
  rw [List.getD_eq_getElem?_getD, List.getElem?_map, List.getElem?_range h]
  rfl

private theorem samples_len {α : Type} (f : ℕ → α) (n : ℕ) : (samples f n).length = n := by simp [samples]

private theorem map_samples {α β : Type} (g : α → β) (f : ℕ → α) (n : ℕ) : (samples f n).map g = samples (fun k => g (f k)) n := by
  unfold samples
  rw [List.map_map]
  rfl

private theorem from2_samples {α : Type} (f : ℕ → α) (n : ℕ) : from2 (samples f n) = samples (fun k => f (k + 2)) (n - 2) := by
  apply List.ext_getElem
  · simp [from2, samples]
  · intro i h1 h2
    simp [from2, samples, Nat.add_comm]

private theorem upto2_samples {α : Type} (f : ℕ → α) (n : ℕ) : upto2 (samples f n) = samples f (n - 2) := by
  apply List.ext_getElem
  · simp [upto2, samples]
  · intro i h1 h2
    simp [upto2, samples]

private theorem inner_samples {α : Type} (f : ℕ → α) (n : ℕ) : inner (samples f n) = samples (fun k => f (k + 1)) (n - 2) := by
  apply List.ext_getElem
  · simp [inner, samples]
    omega
  · intro i h1 h2
    simp [inner, samples, Nat.add_comm]

private theorem zip_samples {α β : Type} (f : ℕ → α) (g : ℕ → β) (n : ℕ) : (samples f n).zip (samples g n) = samples (fun k => (f k, g k)) n := by
  unfold samples
  rw [List.zip_map']

theorem centerDiffF_one (lm : EotLibm) (y : ℕ → ℚ) (n : ℕ) (samp : ℚ) :
    centerDiffF lm (samples y n) 1 samp = samples (fun k => toDouble (toDouble (y (k + 2) - y k) * toDouble (samp / 2))) (n - 2) := by
  unfold centerDiffF
  rw [if_pos rfl, from2_samples, upto2_samples, zip_samples, map_samples]

theorem centerDiffF_two (lm : EotLibm) (y : ℕ → ℚ) (n : ℕ) (samp : ℚ) :
    centerDiffF lm (samples y n) 2 samp =
      samples (fun k => toDouble (toDouble (toDouble (y k - toDouble (2 * y (k + 1))) + y (k + 2)) * lm.sqr samp)) (n - 2) := by
  unfold centerDiffF
  rw [if_neg (by decide), from2_samples, upto2_samples, inner_samples, zip_samples, zip_samples, map_samples]

private theorem ends {α : Type} (f : ℕ → α) (n : ℕ) (hn : 3 ≤ n) (E : List α) (hE : E = (List.range (n - 2)).map f) :
    E.head? = some (f 0) ∧ E.getLast? = some (f (n - 3)) ∧ f 0 :: E ++ [f (n - 3)] = samples (fun k => f (min (max k 1) (n - 2) - 1)) n := by
  subst hE
  obtain ⟨N, rfl⟩ : ∃ N, n = N + 3 := ⟨n - 3, by omega⟩
  have h1 : ((List.range (N + 3 - 2)).map f).head? = some (f 0) := by
    rw [List.head?_map, List.head?_range]
    simp
  have h2 : ((List.range (N + 3 - 2)).map f).getLast? = some (f N) := by
    rw [show N + 3 - 2 = N + 1 by omega, List.range_succ, List.map_append, List.getLast?_append]
    simp
  refine ⟨h1, h2, ?_⟩
  rw [Nat.add_sub_cancel]
  apply List.ext_getElem
  · simp [samples]
  · intro i i1 i2
    simp only [samples, List.getElem_map, List.getElem_range]
    rcases Nat.eq_zero_or_pos i with rfl | hi
    · simp
    · obtain ⟨j, rfl⟩ : ∃ j, i = j + 1 := ⟨i - 1, by omega⟩
      simp only [List.cons_append, List.getElem_cons_succ]
      by_cases hj : j < N + 1
      · rw [List.getElem_append_left (by simpa using hj)]
        simp only [List.getElem_map, List.getElem_range]
        congr 1
        omega
      · simp [samples] at i2
        have : j = N + 1 := by omega
        subst this
        rw [List.getElem_append_right (by simp)]
        simp only [List.getElem_singleton]
        congr 1
        omega

/-- The computed row at sample `k + 1`. -/
private def rowF (lm : EotLibm) (lon lat ht : ℕ → ℚ) (samp a b : ℚ) (k : ℕ) : ℚ :=
  let latr := fun k => deg2radF (lat k)
  let lonr := fun k => deg2radF (lon k)
  let d1 := fun (y : ℕ → ℚ) => toDouble (toDouble (y (k + 2) - y k) * toDouble (samp / 2))
  let d2 := fun (y : ℕ → ℚ) => toDouble (toDouble (toDouble (y k - toDouble (2 * y (k + 1))) + y (k + 2)) * lm.sqr samp)
  eotvosRowG (doubleArith lm) a (toDouble (toDouble (a - b) / a)) (latr (k + 1)) (ht (k + 1)) (d1 latr) (d2 latr) (d1 lonr) (d2 lonr) (d1 ht) (d2 ht)

private theorem fullF_eq (lm : EotLibm) (lon lat ht : ℕ → ℚ) (samp a b : ℚ) (n : ℕ) (hn : 3 ≤ n) :
    eotvosFullF lm (samples lon n) (samples lat n) (samples ht n) samp a b = .ok (samples (fun k => rowF lm lon lat ht samp a b (min (max k 1) (n - 2) - 1)) n) := by
  unfold eotvosFullF
  rw [if_neg (by simp [samples_len])]
  simp only [map_samples, centerDiffF_one, centerDiffF_two, inner_samples, samples_len]
  have : (List.range (n - 2)).map (rowF lm lon lat ht samp a b) = (List.range (n - 2)).map fun (k : ℕ) => eotvosRowG (doubleArith lm) a (toDouble (toDouble (a - b) / a))
      ((samples (fun k => deg2radF (lat (k + 1))) (n - 2)).getD k 0) ((samples (fun k => ht (k + 1)) (n - 2)).getD k 0)
      ((samples (fun k => toDouble (toDouble (deg2radF (lat (k + 2)) - deg2radF (lat k)) * toDouble (samp / 2))) (n - 2)).getD k 0)
      ((samples (fun k => toDouble (toDouble (toDouble (deg2radF (lat k) - toDouble (2 * deg2radF (lat (k + 1)))) + deg2radF (lat (k + 2))) * lm.sqr samp)) (n - 2)).getD k 0)
      ((samples (fun k => toDouble (toDouble (deg2radF (lon (k + 2)) - deg2radF (lon k)) * toDouble (samp / 2))) (n - 2)).getD k 0)
      ((samples (fun k => toDouble (toDouble (toDouble (deg2radF (lon k) - toDouble (2 * deg2radF (lon (k + 1)))) + deg2radF (lon (k + 2))) * lm.sqr samp)) (n - 2)).getD k 0)
      ((samples (fun k => toDouble (toDouble (ht (k + 2) - ht k) * toDouble (samp / 2))) (n - 2)).getD k 0)
      ((samples (fun k => toDouble (toDouble (toDouble (ht k - toDouble (2 * ht (k + 1))) + ht (k + 2)) * lm.sqr samp)) (n - 2)).getD k 0) := by
    apply List.map_congr_left
    intro k hk
    have hk' := List.mem_range.1 hk
    simp only [getD_samples _ _ _ _ hk']
    rfl
  obtain ⟨e1, e2, e3⟩ := ends _ n hn _ this.symm
  rw [e1, e2]
  simp only
  rw [e3]

/-- The row in real numbers is that of the model. -/
private theorem row_exact (a b latr ht d1 d2 l1 l2 h1 h2 : ℝ) :
    eotvosRowG exactArith a ((a - b) / a) latr ht d1 d2 l1 l2 h1 h2 = eotvosRow a b latr ht d1 d2 l1 l2 h1 h2 := by
  unfold eotvosRowG eotvosRow RowOf.cross RowOf.twice Row3.cross Row3.twice exactArith
  norm_num

private theorem sim_mag {b : Bound} {x : ℝ} {q : ℚ} (h : Sim b x q) {m : ℚ} (hm : |x| ≤ (m : ℝ)) : Sim (m, b.2) x q := ⟨hm, h.2⟩

private theorem sim_radians (x : ℚ) (L e : ℚ) (h : |x| ≤ L) (hm : L * (3.15 / 180) * 3.1 ≤ e) : Sim (L * (3.15 / 180), e * vQ) (radians x) (deg2radF x) := by
  have h' : |(x : ℝ)| ≤ L := by exact_mod_cast h
  have hπ := Real.pi_lt_d2
  have hp := Real.pi_pos
  have h0 : |radians (x : ℝ)| ≤ ((L * (3.15 / 180) : ℚ) : ℝ) := by
    unfold radians
    rw [abs_mul, abs_of_pos (by positivity : 0 < π / 180)]
    push_cast
    exact mul_le_mul h' (by linarith) (by positivity) ((abs_nonneg _).trans h')
  refine ⟨h0, ?_⟩
  have n1 := near_toDouble (near_pi.div (near_self 180))
  have n2 := near_toDouble ((near_self x).mul n1)
  have e1 := n2.err (by positivity) (by norm_num)
  have e2 : (x : ℝ) * (π / ((180 : ℚ) : ℝ)) = radians x := by unfold radians; norm_num
  rw [e2] at e1
  refine e1.trans ?_
  have hm' : ((L * (3.15 / 180) * 3.1 : ℚ) : ℝ) ≤ e := by exact_mod_cast hm
  unfold vQ
  push_cast at hm' h0 ⊢
  calc _ ≤ 101 / 100 * (0 + (1 / 2 ^ 52 + 0 + 1 / 2 ^ 52) + 1 / 2 ^ 52) * ((L : ℝ) * (3.15 / 180)) := mul_le_mul_of_nonneg_left h0 (by positivity)
    _ = (L : ℝ) * (3.15 / 180) * 3.03 * (1 / 2 ^ 52) := by ring
    _ ≤ (L : ℝ) * (3.15 / 180) * 3.1 * (1 / 2 ^ 52) := by
      have : 0 ≤ (L : ℝ) := (abs_nonneg _).trans h'
      apply mul_le_mul_of_nonneg_right _ (by positivity)
      apply mul_le_mul_of_nonneg_left _ (by positivity)
      norm_num
    _ ≤ _ := mul_le_mul_of_nonneg_right hm' (by positivity)

/-- Bounds for a first difference. -/
private def d1B (Y : Bound) (S : ℚ) : Bound := boundArith.mul (boundArith.sub Y Y) (rB (S / 2) 0)

/-- Bounds for a second difference. -/
private def d2B (Y : Bound) (S : ℚ) : Bound :=
  boundArith.mul (boundArith.add (boundArith.sub Y (boundArith.mul (boundArith.lit 2) Y)) Y) (S ^ 2, vQ * S ^ 2)

private theorem sim_d1 {Y : Bound} {x0 x2 : ℝ} {q0 q2 : ℚ} (h0 : Sim Y x0 q0) (h2 : Sim Y x2 q2) {samp S : ℚ} (hs : 0 ≤ samp) (hS : samp ≤ S) :
    Sim (d1B Y S) ((x2 - x0) * ((samp : ℝ) / 2)) (toDouble (toDouble (q2 - q0) * toDouble (samp / 2))) := by
  refine sim_mul (sim_sub h2 h0) (sim_round ⟨?_, ?_⟩)
  · have : (0 : ℝ) ≤ samp := by exact_mod_cast hs
    rw [abs_of_nonneg (by linarith)]
    have : (samp : ℝ) ≤ S := by exact_mod_cast hS
    push_cast
    linarith
  · push_cast
    simp

private theorem sim_d2 {Y : Bound} {x0 x1 x2 : ℝ} {q0 q1 q2 : ℚ} (h0 : Sim Y x0 q0) (h1 : Sim Y x1 q1) (h2 : Sim Y x2 q2) {lm : EotLibm} (hq : GoodSqr lm.sqr)
    {samp S : ℚ} (hs : 0 ≤ samp) (hS : samp ≤ S) :
    Sim (d2B Y S) ((x0 - 2 * x1 + x2) * (samp : ℝ) ^ 2) (toDouble (toDouble (toDouble (q0 - toDouble (2 * q1)) + q2) * lm.sqr samp)) := by
  have two : Sim (boundArith.lit 2) 2 2 := by
    have := sim_lit 2
    have e : toDouble 2 = 2 := by decide +kernel
    rw [e] at this
    exact_mod_cast this
  have hs' : (0 : ℝ) ≤ samp := by exact_mod_cast hs
  have hS' : (samp : ℝ) ≤ S := by exact_mod_cast hS
  have hsq : (samp : ℝ) ^ 2 ≤ (S : ℝ) ^ 2 := pow_le_pow_left₀ hs' hS' 2
  refine sim_mul (sim_add (sim_sub h0 (sim_mul two h1)) h2) ⟨?_, (hq samp).trans ?_⟩
  · rw [abs_of_nonneg (by positivity)]
    push_cast
    exact hsq
  · unfold vQ
    push_cast
    rw [div_eq_inv_mul, ← one_div]
    exact mul_le_mul_of_nonneg_left hsq (by positivity)

private def latB : Bound := (90 * (3.15 / 180), 5 * vQ)
private def lonB : Bound := (360 * (3.15 / 180), 20 * vQ)
private def htB : Bound := (10000, 0)
private def eccB : Bound := (336 / 100000, 3 * vQ)

/-- The bounds for a whole row at sampling rates up to `S`. -/
private def rowB (S : ℚ) : Bound :=
  eotvosRowG boundArith (6378137, 0) eccB latB htB (18 / 100000, (d1B latB S).2) (18 / 1000000, (d2B latB S).2) (18 / 100000, (d1B lonB S).2) (d2B lonB S)
    (d1B htB S) (d2B htB S)

private theorem sim_ecc : Sim eccB ((6378137 - 6356752.3142) / 6378137) (toDouble (toDouble (6378137 - toDouble 6356752.3142) / 6378137)) := by
  have e : |toDouble (toDouble (6378137 - toDouble 6356752.3142) / 6378137) - (6378137 - 6356752.3142) / 6378137| ≤ 3 * vQ := by decide +kernel
  constructor
  · unfold eccB
    rw [abs_of_pos (by norm_num)]
    norm_num
  · have e' : ((|toDouble (toDouble (6378137 - toDouble 6356752.3142) / 6378137) - (6378137 - 6356752.3142) / 6378137| : ℚ) : ℝ) ≤ ((3 * vQ : ℚ) : ℝ) := by
      exact_mod_cast e
    rw [Rat.cast_abs, Rat.cast_sub] at e'
    have c : (((6378137 - 6356752.3142) / 6378137 : ℚ) : ℝ) = (6378137 - 6356752.3142) / 6378137 := by norm_num
    rw [c] at e'
    exact e'

private theorem radians_mul (x c : ℝ) : radians x * c = x * c * (π / 180) := by unfold radians; ring

private theorem deg_rate {x : ℝ} {c : ℚ} (h : |x| ≤ c) : |x * (π / 180)| ≤ ((c * (18 / 1000) : ℚ) : ℝ) := by
  have hπ := Real.pi_lt_d2
  have hp := Real.pi_pos
  rw [abs_mul, abs_of_pos (by positivity : 0 < π / 180)]
  push_cast
  exact mul_le_mul h (by linarith) (by positivity) ((abs_nonneg _).trans h)

/-- A track of `n` samples: latitudes, longitudes, heights up to 10 km, rates up to a hundredth of a degree per second and accelerations up to a thousandth of
a degree per second squared. -/
def Spec.Moderate (lon lat ht : ℕ → ℚ) (samp : ℚ) (n : ℕ) : Prop :=
  (∀ k < n, |lat k| ≤ 90 ∧ |lon k| ≤ 360 ∧ |ht k| ≤ 10000) ∧
    ∀ k, k + 2 < n → |(lat (k + 2) - lat k) * (samp / 2)| ≤ 1 / 100 ∧ |(lon (k + 2) - lon k) * (samp / 2)| ≤ 1 / 100 ∧
      |(lat k - 2 * lat (k + 1) + lat (k + 2)) * samp ^ 2| ≤ 1 / 1000

private theorem row_sim (lm : EotLibm) (g : GoodTrig lm.sin lm.cos lm.arctan) (hq : GoodSqr lm.sqr) (lon lat ht : ℕ → ℚ) (samp S : ℚ) (hs : 0 ≤ samp) (hS : samp ≤ S)
    (n : ℕ) (hm : Moderate lon lat ht samp n) (k : ℕ) (hk : k + 2 < n) :
    Sim (rowB S) (eotvos 6378137 6356752.3142 (motionAt (fun k => lon k) (fun k => lat k) (fun k => ht k) samp (k + 1)))
      (rowF lm lon lat ht samp 6378137 (toDouble 6356752.3142) k) := by
  obtain ⟨hp, hr⟩ := hm
  obtain ⟨r1, r2, r3⟩ := hr k hk
  have la : ∀ j < n, Sim latB (radians (lat j)) (deg2radF (lat j)) := fun j hj => sim_radians _ _ _ (hp j hj).1 (by norm_num)
  have lo : ∀ j < n, Sim lonB (radians (lon j)) (deg2radF (lon j)) := fun j hj => sim_radians _ _ _ (hp j hj).2.1 (by norm_num)
  have he : ∀ j < n, Sim htB (ht j) (ht j) := by
    intro j hj
    have := (hp j hj).2.2
    refine ⟨?_, by simp [htB]⟩
    unfold htB
    exact_mod_cast this
  have ha : Sim (6378137, 0) 6378137 6378137 := ⟨by norm_num, by norm_num⟩
  have a1 := sim_d1 (la k (by omega)) (la (k + 2) hk) hs hS
  have a2 := sim_d2 (la k (by omega)) (la (k + 1) (by omega)) (la (k + 2) hk) hq hs hS
  have o1 := sim_d1 (lo k (by omega)) (lo (k + 2) hk) hs hS
  have o2 := sim_d2 (lo k (by omega)) (lo (k + 1) (by omega)) (lo (k + 2) hk) hq hs hS
  have h1 := sim_d1 (he k (by omega)) (he (k + 2) hk) hs hS
  have h2 := sim_d2 (he k (by omega)) (he (k + 1) (by omega)) (he (k + 2) hk) hq hs hS
  have a1' := sim_mag a1 (m := 18 / 100000) (by
    have r : |((lat (k + 2) : ℝ) - lat k) * (samp / 2)| ≤ ((1 / 100 : ℚ) : ℝ) := by exact_mod_cast r1
    have := deg_rate r
    have e : (radians (lat (k + 2) : ℝ) - radians (lat k)) * ((samp : ℝ) / 2) = ((lat (k + 2) : ℝ) - lat k) * (samp / 2) * (π / 180) := by unfold radians; ring
    rw [e]
    refine this.trans ?_
    norm_num)
  have o1' := sim_mag o1 (m := 18 / 100000) (by
    have r : |((lon (k + 2) : ℝ) - lon k) * (samp / 2)| ≤ ((1 / 100 : ℚ) : ℝ) := by exact_mod_cast r2
    have := deg_rate r
    have e : (radians (lon (k + 2) : ℝ) - radians (lon k)) * ((samp : ℝ) / 2) = ((lon (k + 2) : ℝ) - lon k) * (samp / 2) * (π / 180) := by unfold radians; ring
    rw [e]
    refine this.trans ?_
    norm_num)
  have a2' := sim_mag a2 (m := 18 / 1000000) (by
    have r : |((lat k : ℝ) - 2 * lat (k + 1) + lat (k + 2)) * (samp : ℝ) ^ 2| ≤ ((1 / 1000 : ℚ) : ℝ) := by exact_mod_cast r3
    have := deg_rate r
    have e : (radians (lat k : ℝ) - 2 * radians (lat (k + 1)) + radians (lat (k + 2))) * (samp : ℝ) ^ 2 =
        ((lat k : ℝ) - 2 * lat (k + 1) + lat (k + 2)) * (samp : ℝ) ^ 2 * (π / 180) := by unfold radians; ring
    rw [e]
    refine this.trans ?_
    norm_num)
  have key := (sim_row g ha sim_ecc (la (k + 1) (by omega)) (he (k + 1) (by omega)) a1' a2' o1' o2 h1 h2 (by decide +kernel) (by decide +kernel) (by decide +kernel)
    (by decide +kernel))
  rw [row_exact, eotvosRow_eq] at key
  have e : motionAt (fun k => (lon k : ℝ)) (fun k => (lat k : ℝ)) (fun k => (ht k : ℝ)) samp (k + 1) =
      ⟨radians (lat (k + 1)), (radians (lat (k + 2)) - radians (lat k)) * ((samp : ℝ) / 2),
        (radians (lat k) - 2 * radians (lat (k + 1)) + radians (lat (k + 2))) * (samp : ℝ) ^ 2,
        (radians (lon (k + 2)) - radians (lon k)) * ((samp : ℝ) / 2), ht (k + 1), ((ht (k + 2) : ℝ) - ht k) * ((samp : ℝ) / 2),
        ((ht k : ℝ) - 2 * ht (k + 1) + ht (k + 2)) * (samp : ℝ) ^ 2⟩ := by
    unfold motionAt rate accel radians
    simp only [Nat.add_sub_cancel]
    congr 1 <;> ring
  rw [e]
  exact key

private theorem row_err (lm : EotLibm) (g : GoodTrig lm.sin lm.cos lm.arctan) (hq : GoodSqr lm.sqr) (lon lat ht : ℕ → ℚ) (samp S T : ℚ) (hs : 0 ≤ samp) (hS : samp ≤ S)
    (n : ℕ) (hm : Moderate lon lat ht samp n) (k : ℕ) (hk : k + 2 < n) (hT : (rowB S).2 ≤ T) :
    |(rowF lm lon lat ht samp 6378137 (toDouble 6356752.3142) k : ℝ) -
      eotvos 6378137 6356752.3142 (motionAt (fun k => lon k) (fun k => lat k) (fun k => ht k) samp (k + 1))| ≤ T :=
  (row_sim lm g hq lon lat ht samp S hs hS n hm k hk).2.trans (by exact_mod_cast hT)

/-- The size of the exact correction, with the error of the computed one. -/
theorem eotvosF_size (lm : EotLibm) (g : GoodTrig lm.sin lm.cos lm.arctan) (hq : GoodSqr lm.sqr) (n : ℕ) (hn : 3 ≤ n) (lon lat ht : ℕ → ℚ) (samp : ℚ)
    (hs : 0 ≤ samp) (hS : samp ≤ 1) (hm : Moderate lon lat ht samp n) :
    ∃ F : ℕ → ℚ, eotvosFullF lm (samples lon n) (samples lat n) (samples ht n) samp 6378137 (toDouble 6356752.3142) = .ok (samples F n) ∧
      ∀ k < n, Sim (5000000000, 62 / 1000000)
        (eotvos 6378137 6356752.3142 (motionAt (fun k => lon k) (fun k => lat k) (fun k => ht k) samp (min (max k 1) (n - 2)))) (F k) := by
  refine ⟨_, fullF_eq lm lon lat ht samp _ _ n hn, ?_⟩
  intro k hk
  have := row_sim lm g hq lon lat ht samp 1 hs hS n hm (min (max k 1) (n - 2) - 1) (by omega)
  rw [Nat.sub_add_cancel (by omega)] at this
  have b : (rowB 1).1 ≤ 5000000000 ∧ (rowB 1).2 ≤ 62 / 1000000 := by decide +kernel
  exact ⟨this.1.trans (by exact_mod_cast b.1), this.2.trans (by exact_mod_cast b.2)⟩

/-! ### C133 -/

/-- C133.  The Eötvös correction of a track sampled once a second or more slowly, computed in double precision with a library that is right to two units in the last place,
is off by less than a ten thousandth of a milligal. -/
theorem C133_eotvos (lm : EotLibm) (g : GoodTrig lm.sin lm.cos lm.arctan) (hq : GoodSqr lm.sqr) (n : ℕ) (hn : 3 ≤ n) (lon lat ht : ℕ → ℚ) (samp : ℚ)
    (hs : 0 ≤ samp) (hS : samp ≤ 1) (hm : Moderate lon lat ht samp n) :
    ∃ E : ℕ → ℝ, ∃ F : ℕ → ℚ,
      eotvosFull (series n fun k => lon k) (series n fun k => lat k) (series n fun k => ht k) samp 6378137 6356752.3142 = .ok (series n E) ∧
      eotvosFullF lm (samples lon n) (samples lat n) (samples ht n) samp 6378137 (toDouble 6356752.3142) = .ok (samples F n) ∧
      ∀ k < n, |(F k : ℝ) - E k| ≤ 1 / 10000 := by
  refine ⟨_, _, C54_values n _ _ _ _ _ _ hn, fullF_eq lm lon lat ht samp _ _ n hn, ?_⟩
  intro k hk
  have := row_err lm g hq lon lat ht samp 1 (1 / 10000) hs hS n hm (min (max k 1) (n - 2) - 1) (by omega) (by decide +kernel)
  rw [Nat.sub_add_cancel (by omega)] at this
  refine this.trans ?_
  norm_num

/-- C133.  At ten samples a second the error stays below a hundredth of a milligal. -/
theorem C133_ten_hertz (lm : EotLibm) (g : GoodTrig lm.sin lm.cos lm.arctan) (hq : GoodSqr lm.sqr) (n : ℕ) (hn : 3 ≤ n) (lon lat ht : ℕ → ℚ) (samp : ℚ)
    (hs : 0 ≤ samp) (hS : samp ≤ 10) (hm : Moderate lon lat ht samp n) :
    ∃ E : ℕ → ℝ, ∃ F : ℕ → ℚ,
      eotvosFull (series n fun k => lon k) (series n fun k => lat k) (series n fun k => ht k) samp 6378137 6356752.3142 = .ok (series n E) ∧
      eotvosFullF lm (samples lon n) (samples lat n) (samples ht n) samp 6378137 (toDouble 6356752.3142) = .ok (samples F n) ∧
      ∀ k < n, |(F k : ℝ) - E k| ≤ 1 / 100 := by
  refine ⟨_, _, C54_values n _ _ _ _ _ _ hn, fullF_eq lm lon lat ht samp _ _ n hn, ?_⟩
  intro k hk
  have := row_err lm g hq lon lat ht samp 10 (1 / 100) hs hS n hm (min (max k 1) (n - 2) - 1) (by omega) (by decide +kernel)
  rw [Nat.sub_add_cancel (by omega)] at this
  refine this.trans ?_
  norm_num

private theorem fixed {x : ℚ} (h : IsDouble x) : toDouble x = x := toDouble_rounds.exact h

private theorem isDouble_toDouble (x : ℚ) : IsDouble (toDouble x) := toDouble_rounds.double x

private theorem isDouble_neg {x : ℚ} (h : IsDouble x) : IsDouble (-x) := by
  obtain ⟨m, e, hm, rfl⟩ := h
  exact ⟨-m, e, by rwa [abs_neg], by push_cast; ring⟩

private theorem isDouble_twice {x : ℚ} (h : IsDouble x) : IsDouble (2 * x) := by
  obtain ⟨m, e, hm, rfl⟩ := h
  refine ⟨m, e + 1, hm, ?_⟩
  rw [zpow_add_one₀ (by norm_num)]
  ring

private theorem second_zero {x : ℚ} (h : IsDouble x) : toDouble (toDouble (x - toDouble (2 * x)) + x) = 0 := by
  rw [fixed (isDouble_twice h), show x - 2 * x = -x by ring, fixed (isDouble_neg h), neg_add_cancel]
  decide +kernel

/-- C133.  A platform at rest gets no correction at all, in double precision too and with every library. -/
theorem C133_rest (lm : EotLibm) (n : ℕ) (hn : 3 ≤ n) (lon lat ht samp a b : ℚ) (hht : IsDouble ht) :
    eotvosFullF lm (samples (fun _ => lon) n) (samples (fun _ => lat) n) (samples (fun _ => ht) n) samp a b = .ok (samples (fun _ => 0) n) := by
  rw [fullF_eq _ _ _ _ _ _ _ _ hn]
  refine congrArg (fun f => Except.ok (samples f n)) (funext fun k => ?_)
  have z : toDouble 0 = 0 := by decide +kernel
  have hd : ∀ x, toDouble (toDouble (deg2radF x - toDouble (2 * deg2radF x)) + deg2radF x) = 0 := fun x => second_zero (isDouble_toDouble _)
  unfold rowF
  simp only [sub_self, z, zero_mul, second_zero hht, hd lat, hd lon]
  unfold eotvosRowG RowOf.cross RowOf.twice doubleArith
  simp only [mul_zero, zero_mul, z, neg_zero, sub_zero, add_zero, zero_add, sub_self, fixed (isDouble_toDouble _), neg_mul]

/-! ### Non-vacuity -/

/-- The hypotheses on the library can be met. -/
theorem goodEotLibm_exists : ∃ lm : EotLibm, GoodTrig lm.sin lm.cos lm.arctan ∧ GoodSqr lm.sqr := by
  have key : ∀ x : ℝ, ∃ r : ℚ, |(r : ℝ) - x| ≤ 1 / 2 ^ 51 := by
    intro x
    obtain ⟨r, h1, h2⟩ := exists_rat_btwn (show x < x + 1 / 2 ^ 51 by linarith [show (0 : ℝ) < 1 / 2 ^ 51 by positivity])
    exact ⟨r, by rw [abs_le]; constructor <;> linarith⟩
  choose sn hsn using fun q : ℚ => key (sin (q : ℝ))
  choose cs hcs using fun q : ℚ => key (cos (q : ℝ))
  choose ac hac using fun q : ℚ => key (arctan (q : ℝ))
  refine ⟨⟨sn, cs, ac, fun q => q ^ 2⟩, ⟨fun q _ => hsn q, fun q _ => hcs q, fun q _ => hac q⟩, fun q => ?_⟩
  push_cast
  rw [sub_self, abs_zero]
  positivity

/-- An hour to the north-east at about 11 m/s, in a heave of a metre. -/
example : Moderate (fun k => 150 + k / 20000) (fun k => -33 + k / 20000) (fun k => if k % 2 = 0 then 1 else 0) 1 3600 := by
  refine ⟨fun k hk => ?_, fun k _ => ?_⟩
  · have h : (k : ℚ) < 3600 := by exact_mod_cast hk
    have h0 : (0 : ℚ) ≤ k := by positivity
    refine ⟨?_, ?_, ?_⟩
    · rw [abs_le]; constructor <;> linarith
    · rw [abs_le]; constructor <;> linarith
    · beta_reduce
      split <;> norm_num
  · push_cast
    refine ⟨?_, ?_, ?_⟩
    · rw [show ((-33 : ℚ) + (k + 2) / 20000 - (-33 + k / 20000)) * (1 / 2) = 1 / 20000 by ring]; norm_num
    · rw [show ((150 : ℚ) + (k + 2) / 20000 - (150 + k / 20000)) * (1 / 2) = 1 / 20000 by ring]; norm_num
    · rw [show ((-33 : ℚ) + k / 20000 - 2 * (-33 + (k + 1) / 20000) + (-33 + (k + 2) / 20000)) * 1 ^ 2 = 0 by ring]; norm_num

end Shipgrav
