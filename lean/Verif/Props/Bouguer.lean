import Verif.Model.Scripts
import Verif.Props.Halfspace
import Verif.Props.Parker1d

/-! Property theorems C107: mantle Bouguer anomaly and its residual (`RMBA_calc.py`). -/

namespace Shipgrav
open Spec Real

private theorem temps_at (i : ℕ) (hi : i < 28) : bouguerTemps.getD i 0 = (i : ℝ) * 50 := by
  unfold bouguerTemps
  rw [List.getD_eq_getElem?_getD, List.getElem?_map, List.getElem?_range hi]; rfl

private theorem rho_at (a : ℝ) (i : ℕ) (hi : i < 28) : (bouguerRho a).getD (i + 3) 0 = 3300 * (1 - a * ((i : ℝ) * 50 - 1350)) := by
  unfold bouguerRho bouguerTemps
  rw [List.getD_eq_getElem?_getD, List.getElem?_append_right (by simp)]
  simp [hi]

/-- **C107.** The density contrasts: 1100 kg/m³ at the sea floor, 800 below the sediments, at the base of the crust that to mantle at 0 °C,
and the effect of 50 °C of expansion at each of the 27 isotherms; together they lead from water to mantle at 1350 °C. -/
theorem C107_contrasts (a : ℝ) :
    bouguerDrho a 0 = 1100 ∧ bouguerDrho a 1 = 800 ∧ bouguerDrho a 2 = 3300 * (1 + 1350 * a) - 2900 ∧
      (∀ i < 27, bouguerDrho a (i + 3) = -(3300 * 50 * a)) ∧ (∑ i ∈ Finset.range 30, bouguerDrho a i) = 3300 - 1000 := by
  have h0 : bouguerDrho a 0 = 1100 := by unfold bouguerDrho bouguerRho; simp; norm_num
  have h1 : bouguerDrho a 1 = 800 := by unfold bouguerDrho bouguerRho; simp; norm_num
  have h2 : bouguerDrho a 2 = 3300 * (1 + 1350 * a) - 2900 := by
    unfold bouguerDrho
    rw [rho_at a 0 (by norm_num)]
    unfold bouguerRho
    simp
    ring
  have h3 : ∀ i < 27, bouguerDrho a (i + 3) = -(3300 * 50 * a) := by
    intro i hi
    unfold bouguerDrho
    rw [show i + 3 + 1 = (i + 1) + 3 by omega, rho_at a (i + 1) (by omega), rho_at a i (by omega)]
    push_cast
    ring
  refine ⟨h0, h1, h2, h3, ?_⟩
  rw [show 30 = 27 + 3 from rfl, Finset.sum_range_succ', Finset.sum_range_succ', Finset.sum_range_succ']
  rw [Finset.sum_congr rfl fun i hi => (show bouguerDrho a (i + 1 + 1 + 1) = -(3300 * 50 * a) from h3 i (Finset.mem_range.mp hi))]
  rw [Finset.sum_const, Finset.card_range]
  simp only [zero_add, Nat.reduceAdd, h0, h1, h2]
  norm_num
  ring

private theorem allFinite_samples (z : ℕ → ℝ) (n : ℕ) : allFinite (samples (fun i => some (z i)) n) = some (samples z n) := by
  unfold samples
  generalize List.range n = l
  induction l with
  | nil => rfl
  | cons i l ih => simp only [List.map_cons, allFinite, ih, Option.map_some]

private theorem zipWith_samples {α β γ : Type} (f : α → β → γ) (x : ℕ → α) (y : ℕ → β) (n : ℕ) :
    List.zipWith f (samples x n) (samples y n) = samples (fun i => f (x i) (y i)) n := by
  unfold samples
  rw [List.zipWith_map, List.zipWith_self]

private theorem map_samples {α β : Type} (f : α → β) (x : ℕ → α) (n : ℕ) : (samples x n).map f = samples (fun i => f (x i)) n := by
  unfold samples
  rw [List.map_map]; rfl

private theorem iso_ok (age : ℕ → ℝ) (n : ℕ) (hage : ∀ i < n, 0 ≤ age i) (a : ℝ) (j : ℕ) (hj : j < 27) :
    ∃ e W, erf e = (j : ℝ) * 50 / 1350 ∧ thermZHalfspace (samples age n) (bouguerTemps.getD j 0) 0.01 1350 true 3300 1000 a 1e-6 =
      .ok (samples (fun i => some (2 * √(1e-6 * (secondsPerMyr * age i)) * e)) n, W) := by
  have hj' : (j : ℝ) ≤ 26 := by exact_mod_cast (show j ≤ 26 by omega)
  have hj0 : (0 : ℝ) ≤ j := Nat.cast_nonneg j
  obtain ⟨e, he, hee⟩ := erfcinv_spec (((j : ℝ) * 50 - 1350) / (0 - 1350)) (by
    rw [lt_div_iff_of_neg (by norm_num)]; linarith) (by rw [div_lt_iff_of_neg (by norm_num)]; linarith)
  refine ⟨e, ((samples age n).map (ageSeconds true 0.01)).map (halfspaceSubsidence (2 * 3300 * a * (1350 - 0) / (3300 - 1000)) 1e-6),
    by rw [hee]; ring, ?_⟩
  rw [temps_at j (by omega)]
  unfold thermZHalfspace
  rw [if_neg (by norm_num), if_neg (by norm_num)]
  simp only [he]
  congr 2
  unfold samples
  rw [List.map_map, List.map_map]
  apply List.map_congr_left
  intro i hi
  have h0 := hage i (List.mem_range.mp hi)
  have hs : ageSeconds true 0.01 (age i) = some (secondsPerMyr * age i) := by
    unfold ageSeconds secondsPerMyr secyr
    simp only [if_true]
    congr 1
    ring
  have hm : (0 : ℝ) < secondsPerMyr := by unfold secondsPerMyr; norm_num
  simp only [Function.comp_apply, hs, bind, Option.bind, pure]
  rw [sqrtR, if_pos (by positivity)]

/-- **C107.** The residual anomaly is the free-air anomaly less the gravity of the sea floor, the base of the sediments, the base of the crust
6 km below that, and 27 isotherms of a cooling half-space below the crust.  For every profile with ages of zero or more. -/
theorem C107_value (xobs : List ℝ) (n : ℕ) (hx : xobs.length = n) (hn : 0 < n) (faa dep sed age : ℕ → ℝ) (hage : ∀ i < n, 0 ≤ age i) (a : ℝ) :
    ∃ (w s c : ℕ → ℝ) (Z th : ℕ → ℕ → ℝ),
      grav1dPadded xobs (samples dep n) 0 1100 = .ok (samples w n) ∧
      grav1dPadded xobs (samples (fun i => dep i - sed i) n) 0 800 = .ok (samples s n) ∧
      grav1dPadded xobs (samples (fun i => dep i - sed i - 6000) n) 0 (3300 * (1 + 1350 * a) - 2900) = .ok (samples c n) ∧
      (∀ j : ℕ, j < 27 → (∃ e, erf e = (j : ℝ) * 50 / 1350 ∧ ∀ i, Z j i = 2 * √(1e-6 * (secondsPerMyr * age i)) * e) ∧
        grav1dPadded xobs (samples (fun i => dep i - sed i - Z j i - 6000) n) 0 (-(3300 * 50 * a)) = .ok (samples (th j) n)) ∧
      mbaScript xobs (samples faa n) (samples dep n) (samples sed n) a = .ok (samples (fun i => faa i - w i - s i - c i) n) ∧
      rmbaScript xobs (samples faa n) (samples dep n) (samples sed n) (samples age n) a =
        .ok (some (samples (fun i => faa i - w i - s i - c i - ∑ j ∈ Finset.range 27, th j i) n)) := by
  obtain ⟨r0, r1, r2, r3, -⟩ := C107_contrasts a
  have hiso := fun j (hj : j < 27) => iso_ok age n hage a j hj
  choose! e W he hZ using hiso
  obtain ⟨w, hw⟩ : ∃ w : ℕ → ℝ, grav1dPadded xobs (samples dep n) 0 1100 = .ok (samples w n) := ⟨_, C68_value xobs n hx hn _ _ _⟩
  obtain ⟨s, hs⟩ : ∃ s : ℕ → ℝ, grav1dPadded xobs (samples (fun i => dep i - sed i) n) 0 800 = .ok (samples s n) := ⟨_, C68_value xobs n hx hn _ _ _⟩
  obtain ⟨c, hc⟩ : ∃ c : ℕ → ℝ, grav1dPadded xobs (samples (fun i => dep i - sed i - 6000) n) 0 (3300 * (1 + 1350 * a) - 2900) = .ok (samples c n) :=
    ⟨_, C68_value xobs n hx hn _ _ _⟩
  have hth : ∀ j, ∃ t : ℕ → ℝ, grav1dPadded xobs (samples (fun i => dep i - sed i - 2 * √(1e-6 * (secondsPerMyr * age i)) * e j - 6000) n) 0
      (-(3300 * 50 * a)) = .ok (samples t n) := fun j => ⟨_, C68_value xobs n hx hn _ _ _⟩
  choose th hth using hth
  have hmba : mbaScript xobs (samples faa n) (samples dep n) (samples sed n) a = .ok (samples (fun i => faa i - w i - s i - c i) n) := by
    unfold mbaScript
    simp only [zipWith_samples, map_samples, r0, r1, r2, hw, hs, hc, bind, Except.bind, pure, Except.pure]
  refine ⟨w, s, c, fun j i => 2 * √(1e-6 * (secondsPerMyr * age i)) * e j, th, hw, hs, hc, fun j hj => ⟨⟨e j, he j hj, fun _ => rfl⟩, hth j⟩, hmba, ?_⟩
  have hone : ∀ j < 27, thermalCorr xobs (samples dep n) (samples sed n) (samples age n) a j = .ok (some (samples (th j) n)) := by
    intro j hj
    unfold thermalCorr
    simp only [hZ j hj, bind, Except.bind, pure, Except.pure, allFinite_samples, zipWith_samples, map_samples, r3 j hj, hth j]
  have hloop : ∀ m i, i + m ≤ 27 → thermalCorrs xobs (samples dep n) (samples sed n) (samples age n) a m i =
      .ok (some ((List.range m).map fun k => samples (th (i + k)) n)) := by
    intro m
    induction m with
    | zero => intro i _; rfl
    | succ m ih =>
      intro i hi
      unfold thermalCorrs
      simp only [hone i (by omega), ih (i + 1) (by omega), bind, Except.bind, pure, Except.pure, Option.bind]
      rw [List.range_succ_eq_map, List.map_cons, List.map_map]
      congr 3
      apply List.map_congr_left
      intro k _
      simp only [Function.comp_apply]
      rw [show i + 1 + k = i + (k + 1) by omega]
  unfold rmbaScript
  rw [hmba, show bouguerTemps.length - 1 = 27 by simp [bouguerTemps], hloop 27 0 (by omega)]
  simp only [bind, Except.bind, pure, Except.pure, Option.map_some]
  congr 2
  apply List.ext_getElem
  · simp [samples]
  · intro i h1 h2
    have hi : i < n := by simpa [samples] using h2
    simp only [List.getElem_map, List.getElem_zipIdx, samples, List.getElem_range, List.map_map, Function.comp_def, zero_add]
    congr 1
    rw [← sum_map_range]
    congr 1
    apply List.map_congr_left
    intro j _
    exact samples_getD (th j) n i hi

/-- **C107.** Without relief — constant depth, sediment thickness and age — all three anomalies agree. -/
theorem C107_flat (xobs : List ℝ) (n : ℕ) (hx : xobs.length = n) (hn : 0 < n) (faa : ℕ → ℝ) (dep sed age a : ℝ) (hage : 0 ≤ age) :
    mbaScript xobs (samples faa n) (samples (fun _ => dep) n) (samples (fun _ => sed) n) a = .ok (samples faa n) ∧
      rmbaScript xobs (samples faa n) (samples (fun _ => dep) n) (samples (fun _ => sed) n) (samples (fun _ => age) n) a = .ok (some (samples faa n)) := by
  obtain ⟨w, s, c, Z, th, hw, hs, hc, hth, h1, h2⟩ := C107_value xobs n hx hn faa (fun _ => dep) (fun _ => sed) (fun _ => age) (fun _ _ => hage) a
  have hflat : ∀ (z rho : ℝ) (v : ℕ → ℝ), grav1dPadded xobs (samples (fun _ => z) n) 0 rho = .ok (samples v n) → ∀ i < n, v i = 0 := by
    intro z rho v hv i hi
    have hr : samples (fun _ => z) n = List.replicate n z := by unfold samples; rw [List.map_const', List.length_range]
    rw [hr, C68_flat xobs n hx hn] at hv
    injection hv with hv
    have := congrArg (fun l => l[i]?) hv
    simp only [samples, List.getElem?_map, List.getElem?_range hi, Option.map_some, List.getElem?_replicate, if_pos hi, Option.some_inj] at this
    exact this.symm
  rw [h1, h2]
  have hw' := hflat _ _ _ hw
  have hs' := hflat _ _ _ hs
  have hc' := hflat _ _ _ hc
  have ht' : ∀ j < 27, ∀ i < n, th j i = 0 := by
    intro j hj
    obtain ⟨⟨e, -, hZ⟩, h⟩ := hth j hj
    simp only [hZ] at h
    exact hflat _ _ _ h
  constructor
  · congr 1
    apply samples_congr
    intro i hi
    rw [hw' i hi, hs' i hi, hc' i hi]; ring
  · congr 2
    apply samples_congr
    intro i hi
    rw [hw' i hi, hs' i hi, hc' i hi, Finset.sum_eq_zero fun j hj => ht' j (Finset.mem_range.mp hj) i hi]; ring

/-- **C107.** Without thermal expansion the residual anomaly is the mantle Bouguer anomaly. -/
theorem C107_no_expansion (xobs : List ℝ) (n : ℕ) (hx : xobs.length = n) (hn : 0 < n) (faa dep sed age : ℕ → ℝ) (hage : ∀ i < n, 0 ≤ age i) :
    ∃ m, mbaScript xobs (samples faa n) (samples dep n) (samples sed n) 0 = .ok m ∧
      rmbaScript xobs (samples faa n) (samples dep n) (samples sed n) (samples age n) 0 = .ok (some m) := by
  obtain ⟨w, s, c, Z, th, hw, hs, hc, hth, h1, h2⟩ := C107_value xobs n hx hn faa dep sed age hage 0
  refine ⟨_, h1, h2.trans ?_⟩
  congr 2
  apply samples_congr
  intro i hi
  rw [Finset.sum_eq_zero, sub_zero]
  intro j hj
  obtain ⟨-, h⟩ := hth j (Finset.mem_range.mp hj)
  obtain ⟨v1, v2, -, -, h3⟩ := C68_linear xobs n hx hn (fun i => dep i - sed i - Z j i - 6000) 0 0 0 0 0
  simp only [mul_zero, add_zero, zero_mul, neg_zero] at h h3
  rw [h3] at h
  injection h with h
  have := congrArg (fun l => l[i]?) h
  simp only [samples, List.getElem?_map, List.getElem?_range hi, Option.map_some, Option.some_inj] at this
  exact this.symm

/-! ### Non-vacuity -/

/-- Three points, ages growing from zero. -/
example : ([0, 1000, 2000] : List ℝ).length = 3 ∧ ∀ i < 3, (0 : ℝ) ≤ (fun i : ℕ => (i : ℝ) / 10) i := ⟨rfl, fun i _ => by positivity⟩

end Shipgrav
