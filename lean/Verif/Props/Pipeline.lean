import Verif.Model.Pipeline
import Verif.Props.Sync
import Verif.Props.FreeAir

/-! C119 and C120: from unsorted tables to the free-air anomaly, in the example scripts. -/

namespace Shipgrav
open Spec Real

private theorem map_samples {α β : Type} (f : α → β) (x : ℕ → α) (n : ℕ) : (samples x n).map f = samples (fun i => f (x i)) n := by
  unfold samples
  rw [List.map_map]; rfl

private theorem sort_pairwise {α κ : Type} [LinearOrder κ] (key : α → κ) (rows : List α) :
    (sortValues key rows).Pairwise fun a b => key a ≤ key b := by
  classical
  have := List.pairwise_mergeSort (le := fun a b => decide (key a ≤ key b)) (fun a b c h1 h2 => by
    simp only [decide_eq_true_eq] at *; exact le_trans h1 h2) (fun a b => by
    simp only [Bool.or_eq_true, decide_eq_true_eq]; exact le_total _ _) rows
  unfold sortValues
  refine List.Pairwise.imp ?_ (by convert this)
  intro a b h
  simpa using h

private theorem sort_perm {α κ : Type} [LinearOrder κ] (key : α → κ) (rows : List α) : (sortValues key rows).Perm rows := by
  unfold sortValues; exact List.mergeSort_perm _ _

/-- Rows with different keys have one order only. -/
private theorem sort_unique {α κ : Type} [LinearOrder κ] (key : α → κ) (rows out : List α) (hp : rows.Perm out)
    (ho : out.Pairwise fun a b => key a < key b) : sortValues key rows = out := by
  apply List.Perm.eq_of_pairwise (le := fun a b => key a ≤ key b) ?_ (sort_pairwise key rows) (ho.imp le_of_lt) ((sort_perm key rows).trans hp)
  intro a b ha hb h1 h2
  have hb' : b ∈ out := hb
  have ha' : a ∈ out := ((sort_perm key rows).trans hp).mem_iff.1 ha
  have hk : key a = key b := le_antisymm h1 h2
  by_contra hne
  have hnd : (out.map key).Nodup := by
    rw [List.Nodup, List.pairwise_map]
    exact ho.imp ne_of_lt
  exact hne (List.inj_on_of_nodup_map hnd ha' hb' hk)

/-- C119.  The order of the rows in the tables, and so of the files that are given to the readers, does not matter (if no two rows have the
same time). -/
theorem C119_order (nav nav' : List (ℝ × ℝ × ℝ)) (dgs dgs' : List (ℤ × ℝ)) (bias sampling : ℝ) (hn : nav.Perm nav') (hd : dgs.Perm dgs')
    (hn1 : (nav.map Prod.fst).Nodup) (hd1 : (dgs.map Prod.fst).Nodup) :
    faaPipeline nav dgs bias sampling = faaPipeline nav' dgs' bias sampling := by
  have key : ∀ {κ β : Type} [LinearOrder κ] (l l' : List (κ × β)), l.Perm l' → (l.map Prod.fst).Nodup → sortValues Prod.fst l = sortValues Prod.fst l' := by
    intro κ β _ l l' hp h1
    apply sort_unique Prod.fst l _ (hp.trans (sort_perm _ l').symm)
    have h2 : ((sortValues Prod.fst l').map Prod.fst).Nodup := ((hp.trans (sort_perm Prod.fst l').symm).map Prod.fst).nodup_iff.1 h1
    rw [List.Nodup, List.pairwise_map] at h2
    exact (sort_pairwise Prod.fst l').imp₂ (fun a b h h' => lt_of_le_of_ne h h') h2
  unfold faaPipeline
  rw [key nav nav' hn hn1, key dgs dgs' hd hd1]

/-- `v` is on the straight line through the two fixes around the time `T` (before the first and after the last fix: through the first or last
two). -/
def Spec.OnTrack (τ x : ℕ → ℝ) (m : ℕ) (T v : ℝ) : Prop :=
  ∃ i, i + 1 < m ∧ (i = 0 ∨ τ i < T) ∧ (i + 2 = m ∨ T ≤ τ (i + 1)) ∧ v = x i + (x (i + 1) - x i) * ((T - τ i) / (τ (i + 1) - τ i))

private theorem samples_pairwise {κ β : Type} [LinearOrder κ] (t : ℕ → κ) (f : ℕ → β) (n : ℕ) (h : ∀ i j, i < j → j < n → t i < t j) :
    (samples (fun k => (t k, f k)) n).Pairwise fun a b => a.1 < b.1 := by
  unfold samples
  rw [List.pairwise_map]
  refine List.Pairwise.imp_of_mem ?_ (List.pairwise_lt_range (n := n))
  intro a b _ hb hab
  exact h a b hab (by simpa using hb)

/-- What the steps amount to for tables in any order. -/
private theorem pipeline_eq (nav : List (ℝ × ℝ × ℝ)) (dgs : List (ℤ × ℝ)) (bias s : ℝ) (τ x y : ℕ → ℝ) (m : ℕ) (t : ℕ → ℤ) (r : ℕ → ℝ) (n : ℕ) (hn : 3 ≤ n)
    (hτ : ∀ i j, i < j → j < m → τ i < τ j) (ht : ∀ i j, i < j → j < n → t i < t j)
    (hnav : nav.Perm (samples (fun i => (τ i, x i, y i)) m)) (hdgs : dgs.Perm (samples (fun k => (t k, r k)) n))
    (hv : ∀ k < n, ValidStamp (t k)) (lon lat : ℕ → ℝ) (hlon : ∀ k, lon k = interp1d (samples τ m) (samples x m) ((t k : ℝ) / 1000000))
    (hlat : ∀ k, lat k = interp1d (samples τ m) (samples y m) ((t k : ℝ) / 1000000)) :
    ∃ tide : ℕ → ℝ, (∀ k < n, |tide k| ≤ 0.24 ∧ ∃ gm gs, longman [lon k] [lat k] [t k] 0 = .ok [some (tide k, gm, gs)]) ∧
      faaPipeline nav dgs bias s = .ok (samples (fun k => (t k, some (r k + bias - normalGravity (lat k) +
        eotvos 6378137.0 6356752.3142 (motionAt lon lat (fun _ => 0) s (min (max k 1) (n - 2))) + tide k))) n) := by
  obtain ⟨tide, h1, h2⟩ := C104_value n hn (fun k => r k + bias) lon lat t s hv
  refine ⟨tide, h1, ?_⟩
  unfold faaPipeline
  rw [sort_unique Prod.fst nav _ hnav (samples_pairwise τ (fun i => (x i, y i)) m hτ), sort_unique Prod.fst dgs _ hdgs (samples_pairwise t r n ht)]
  simp only [map_samples]
  unfold syncScript
  simp only [map_samples, ← hlon, ← hlat]
  rw [h2]
  simp only [samples]
  rw [List.zip_map']

/-- C119.  From tables in any order, with fixes at the times `τ` and readings at the times `t` (microseconds since the epoch), come in order
of time: the reading plus the bias, less normal gravity, plus Eötvös correction and tide, all for positions on the straight lines between the fixes. -/
theorem C119_value (nav : List (ℝ × ℝ × ℝ)) (dgs : List (ℤ × ℝ)) (bias s : ℝ) (τ x y : ℕ → ℝ) (m : ℕ) (hm : 2 ≤ m) (t : ℕ → ℤ) (r : ℕ → ℝ) (n : ℕ)
    (hn : 3 ≤ n) (hτ : ∀ i j, i < j → j < m → τ i < τ j) (ht : ∀ i j, i < j → j < n → t i < t j)
    (hnav : nav.Perm (samples (fun i => (τ i, x i, y i)) m)) (hdgs : dgs.Perm (samples (fun k => (t k, r k)) n))
    (hv : ∀ k < n, ValidStamp (t k)) :
    ∃ lon lat tide : ℕ → ℝ, (∀ k, OnTrack τ x m ((t k : ℝ) / 1000000) (lon k) ∧ OnTrack τ y m ((t k : ℝ) / 1000000) (lat k)) ∧
      (∀ k < n, |tide k| ≤ 0.24 ∧ ∃ gm gs, longman [lon k] [lat k] [t k] 0 = .ok [some (tide k, gm, gs)]) ∧
      faaPipeline nav dgs bias s = .ok (samples (fun k => (t k, some (r k + bias - normalGravity (lat k) +
        eotvos 6378137.0 6356752.3142 (motionAt lon lat (fun _ => 0) s (min (max k 1) (n - 2))) + tide k))) n) := by
  obtain ⟨tide, h1, h2⟩ := pipeline_eq nav dgs bias s τ x y m t r n hn hτ ht hnav hdgs hv _ _ (fun _ => rfl) (fun _ => rfl)
  exact ⟨_, _, tide, fun k => ⟨C102_value τ x m hm hτ _, C102_value τ y m hm hτ _⟩, h1, h2⟩

private theorem eotvos_parallel (lon : ℕ → ℝ) (lat s a b : ℝ) (k : ℕ) :
    eotvos a b (motionAt lon (fun _ => lat) (fun _ => 0) s k) = parallelEotvos a b lat 0 ((lon (k + 1) - lon (k - 1)) / 2 * s) := by
  unfold eotvos meridianTerm parallelTerm motionAt rate accel parallelEotvos radius deviation earthRate
  simp only
  ring

private theorem interp_line (τ : ℕ → ℝ) (m : ℕ) (hm : 2 ≤ m) (hτ : ∀ i j, i < j → j < m → τ i < τ j) (a b T : ℝ) :
    interp1d (samples τ m) (samples (fun i => a + b * τ i) m) T = a + b * T := by
  obtain ⟨i, him, _, _, hv⟩ := C102_value τ (fun i => a + b * τ i) m hm hτ T
  have hd : τ (i + 1) - τ i ≠ 0 := (sub_pos.mpr (hτ i (i + 1) (by omega) him)).ne'
  rw [hv]
  field_simp
  ring

/-- C119, C120.  A ship that goes along the parallel of latitude `lat` with `w` degrees per second: the correction for its motion is that of `w`
times the mean spacing of the readings before and after, in units of the nominal spacing. -/
theorem C120_correction (nav : List (ℝ × ℝ × ℝ)) (dgs : List (ℤ × ℝ)) (bias s : ℝ) (τ : ℕ → ℝ) (m : ℕ) (hm : 2 ≤ m) (t : ℕ → ℤ) (r : ℕ → ℝ) (n : ℕ)
    (hn : 3 ≤ n) (hτ : ∀ i j, i < j → j < m → τ i < τ j) (ht : ∀ i j, i < j → j < n → t i < t j) (lon0 w lat : ℝ)
    (hnav : nav.Perm (samples (fun i => (τ i, lon0 + w * τ i, lat)) m)) (hdgs : dgs.Perm (samples (fun k => (t k, r k)) n))
    (hv : ∀ k < n, ValidStamp (t k)) :
    ∃ tide : ℕ → ℝ,
      (∀ k < n, |tide k| ≤ 0.24 ∧ ∃ gm gs, longman [lon0 + w * ((t k : ℝ) / 1000000)] [lat] [t k] 0 = .ok [some (tide k, gm, gs)]) ∧
      faaPipeline nav dgs bias s = .ok (samples (fun k =>
        let j := min (max k 1) (n - 2)
        (t k, some (r k + bias - normalGravity lat +
          parallelEotvos 6378137.0 6356752.3142 lat 0 (w * (((t (j + 1) : ℝ) - t (j - 1)) / 2 / 1000000 * s)) + tide k))) n) := by
  obtain ⟨tide, h1, h2⟩ := pipeline_eq nav dgs bias s τ (fun i => lon0 + w * τ i) (fun _ => lat) m t r n hn hτ ht hnav hdgs hv
    (fun k => lon0 + w * ((t k : ℝ) / 1000000)) (fun _ => lat) (fun k => (interp_line τ m hm hτ lon0 w _).symm)
    (fun k => by have := (interp_line τ m hm hτ lat 0 ((t k : ℝ) / 1000000)).symm; simpa using this)
  refine ⟨tide, h1, h2.trans ?_⟩
  congr 3
  funext k
  simp only
  rw [eotvos_parallel, show ∀ a b : ℝ, (lon0 + w * (a / 1000000) - (lon0 + w * (b / 1000000))) / 2 * s = w * ((a - b) / 2 / 1000000 * s) from
    fun a b => by ring]

/-- C120, part.  With readings at the nominal spacing throughout, the correction is that of the speed of the ship. -/
theorem C120_even_partial (nav : List (ℝ × ℝ × ℝ)) (dgs : List (ℤ × ℝ)) (bias s : ℝ) (hs : s ≠ 0) (τ : ℕ → ℝ) (m : ℕ) (hm : 2 ≤ m) (t : ℕ → ℤ) (r : ℕ → ℝ)
    (n : ℕ) (hn : 3 ≤ n) (hτ : ∀ i j, i < j → j < m → τ i < τ j) (ht : ∀ i j, i < j → j < n → t i < t j) (lon0 w lat : ℝ)
    (hnav : nav.Perm (samples (fun i => (τ i, lon0 + w * τ i, lat)) m)) (hdgs : dgs.Perm (samples (fun k => (t k, r k)) n))
    (hv : ∀ k < n, ValidStamp (t k)) (heven : ∀ k, k + 1 < n → ((t (k + 1) : ℝ) - t k) / 1000000 = 1 / s) :
    ∃ tide : ℕ → ℝ,
      (∀ k < n, |tide k| ≤ 0.24 ∧ ∃ gm gs, longman [lon0 + w * ((t k : ℝ) / 1000000)] [lat] [t k] 0 = .ok [some (tide k, gm, gs)]) ∧
      faaPipeline nav dgs bias s = .ok (samples (fun k =>
        (t k, some (r k + bias - normalGravity lat + parallelEotvos 6378137.0 6356752.3142 lat 0 w + tide k))) n) := by
  obtain ⟨tide, h1, h2⟩ := C120_correction nav dgs bias s τ m hm t r n hn hτ ht lon0 w lat hnav hdgs hv
  refine ⟨tide, h1, h2.trans ?_⟩
  refine congrArg Except.ok (samples_congr _ _ _ ?_)
  intro k _
  simp only
  obtain ⟨j, hj⟩ : ∃ j, min (max k 1) (n - 2) = j + 1 := ⟨min (max k 1) (n - 2) - 1, by omega⟩
  have e1 := heven j (by omega)
  have e2 := heven (j + 1) (by omega)
  have : ((t (j + 1 + 1) : ℝ) - t j) / 2 / 1000000 * s = 1 := by
    have : ((t (j + 1 + 1) : ℝ) - t j) / 1000000 = 1 / s + 1 / s := by linear_combination e1 + e2
    calc ((t (j + 1 + 1) : ℝ) - t j) / 2 / 1000000 * s = (((t (j + 1 + 1) : ℝ) - t j) / 1000000) * s / 2 := by ring
      _ = 1 := by rw [this]; field_simp; norm_num
  rw [hj, Nat.add_sub_cancel, this, mul_one]

/-- C120, refuted.  Claim: the correction is that of the speed of the ship also where readings are missing.  On either side of a gap it is too
large for a ship that goes east: the anomaly there is higher than with the correction for the speed `w`. -/
theorem C120_gap_refuted (nav : List (ℝ × ℝ × ℝ)) (dgs : List (ℤ × ℝ)) (bias s : ℝ) (hs : 0 < s) (τ : ℕ → ℝ) (m : ℕ) (hm : 2 ≤ m) (t : ℕ → ℤ) (r : ℕ → ℝ)
    (n : ℕ) (hτ : ∀ i j, i < j → j < m → τ i < τ j) (ht : ∀ i j, i < j → j < n → t i < t j) (lon0 w lat : ℝ) (hw : 0 < w)
    (hlat : |lat| < 90) (hnav : nav.Perm (samples (fun i => (τ i, lon0 + w * τ i, lat)) m)) (hdgs : dgs.Perm (samples (fun k => (t k, r k)) n))
    (hv : ∀ k < n, ValidStamp (t k)) (k : ℕ) (hk : 1 ≤ k) (hkn : k + 1 < n) (hgap : 2 / s < ((t (k + 1) : ℝ) - t (k - 1)) / 1000000) :
    ∃ l v tide gm gs, faaPipeline nav dgs bias s = .ok l ∧ l[k]? = some (t k, some v) ∧
      longman [lon0 + w * ((t k : ℝ) / 1000000)] [lat] [t k] 0 = .ok [some (tide, gm, gs)] ∧
      r k + bias - normalGravity lat + parallelEotvos 6378137.0 6356752.3142 lat 0 w + tide < v := by
  obtain ⟨tide, h1, h2⟩ := C120_correction nav dgs bias s τ m hm t r n (by omega) hτ ht lon0 w lat hnav hdgs hv
  obtain ⟨-, gm, gs, hl⟩ := h1 k (by omega)
  have hlt := C53_increasing 6378137.0 6356752.3142 lat 0 w (w * (((t (k + 1) : ℝ) - t (k - 1)) / 2 / 1000000 * s)) (by norm_num) (by norm_num) le_rfl hlat
    (by linarith) (by
      have : 1 < ((t (k + 1) : ℝ) - t (k - 1)) / 2 / 1000000 * s := by
        rw [div_lt_iff₀ hs] at hgap
        calc (1 : ℝ) = 2 / 2 := by norm_num
          _ < (((t (k + 1) : ℝ) - t (k - 1)) / 1000000 * s) / 2 := by linarith
          _ = _ := by ring
      nlinarith)
  refine ⟨_, r k + bias - normalGravity lat + parallelEotvos 6378137.0 6356752.3142 lat 0 (w * (((t (k + 1) : ℝ) - t (k - 1)) / 2 / 1000000 * s)) + tide k,
    tide k, gm, gs, h2, ?_, hl, by linarith⟩
  unfold samples
  rw [List.getElem?_map, List.getElem?_range (by omega)]
  simp only [Option.map_some]
  rw [show min (max k 1) (n - 2) = k by omega]

/-! ### The hypotheses can be met -/

private def exSec (k : ℕ) : ℕ := if k = 2 then 30 else k

private theorem exSec_lt : ∀ i j, i < j → j < 3 → exSec i < exSec j := by
  intro i j hij hj
  unfold exSec
  split_ifs <;> omega

private theorem exTime (k : ℕ) : utcInstant 2022 3 13 0 0 (exSec k) 0 = utcInstant 2022 3 13 0 0 0 0 + exSec k * 1000000 := by
  unfold utcInstant usOfDay
  ring

/-- Three readings, the last one 29 seconds late, of a ship that goes east on the equator. -/
example := C120_gap_refuted (samples (fun i => ((i : ℝ), 10 + 0.0001 * (i : ℝ), 0)) 2) (samples (fun k => (utcInstant 2022 3 13 0 0 (exSec k) 0, 1)) 3)
  968895 1 one_pos (fun i => (i : ℝ)) 2 le_rfl (fun k => utcInstant 2022 3 13 0 0 (exSec k) 0) (fun _ => 1) 3 (fun i j h _ => by simpa using h)
  (fun i j h hj => by
    have := exSec_lt i j h hj
    simp only [exTime]; omega) 10 0.0001 0 (by norm_num) (by norm_num) (List.Perm.refl _) (List.Perm.refl _)
  (fun k hk => ⟨2022, 3, 13, 0, 0, exSec k, 0, by decide, by
    have : exSec k < 60 := by unfold exSec; split_ifs <;> omega
    constructor <;> omega, rfl⟩) 1 le_rfl (by norm_num) (by
    simp only [exTime]
    norm_num [exSec])

end Shipgrav
