import Verif.Model.Scripts
import Verif.Props.LatCorr
import Verif.Props.Eotvos
import Verif.Props.Tide
import Verif.Spec.Nav

/-! Property theorems C104: free-air anomaly in the example scripts. -/

namespace Shipgrav
open Spec Real

/-- Somigliana's formula with the constants of WGS84, mGal. -/
noncomputable def Spec.normalGravity (lat : ℝ) : ℝ :=
  978032.53359 * ((1 + 0.00193185265241 * sin (lat * (π / 180)) ^ 2) / √(1 - 0.00669437999014 * sin (lat * (π / 180)) ^ 2))

/-- The time stamp is a valid UTC time. -/
def Spec.ValidStamp (t : ℤ) : Prop := ∃ y m d h mi s us, ValidDate y m d ∧ ValidTime h mi s us ∧ t = utcInstant y m d h mi s us

private theorem zip_samples {α β : Type} (x : ℕ → α) (y : ℕ → β) (n : ℕ) : (samples x n).zip (samples y n) = samples (fun i => (x i, y i)) n := by
  unfold samples
  rw [List.zip_map']

private theorem map_samples {α β : Type} (f : α → β) (x : ℕ → α) (n : ℕ) : (samples x n).map f = samples (fun i => f (x i)) n := by
  unfold samples
  rw [List.map_map]; rfl

private theorem zeros_eq (n : ℕ) : List.replicate n (0 : ℝ) = samples (fun _ => 0) n := by
  unfold samples; rw [List.map_const', List.length_range]

private theorem latCorr_samples (lat : ℕ → ℝ) (n : ℕ) : latCorrScript (samples lat n) = samples (fun k => some (normalGravity (lat k))) n := by
  unfold latCorrScript
  simp only [show (samples lat n).length = n by simp [samples], zeros_eq, zip_samples, map_samples, C58_zero, C57_formula, Option.map_some, add_zero]
  rfl

/-- **C104.** The free-air anomaly of the example scripts is the reading, less normal gravity, plus the Eötvös correction of the motion at that
sample (at the ends: of the neighbour), plus the tide at that place and time; `full_field` is the same with normal gravity left in.  For
every track of three samples or more. -/
theorem C104_value (n : ℕ) (hn : 3 ≤ n) (grav lon lat : ℕ → ℝ) (t : ℕ → ℤ) (sampling : ℝ) (ht : ∀ k < n, ValidStamp (t k)) :
    ∃ tide : ℕ → ℝ, (∀ k < n, |tide k| ≤ 0.24 ∧ ∃ gm gs, longman [lon k] [lat k] [t k] 0 = .ok [some (tide k, gm, gs)]) ∧
      faaScript (samples grav n) (samples lon n) (samples lat n) (samples t n) sampling =
        let E := fun k => eotvos 6378137.0 6356752.3142 (motionAt lon lat (fun _ => 0) sampling (min (max k 1) (n - 2)))
        .ok (samples (fun k => some (grav k - normalGravity (lat k) + E k + tide k)) n, samples (fun k => some (grav k + E k + tide k)) n) := by
  have hone : ∀ k < n, ∃ g : ℝ × ℝ × ℝ, longman [lon k] [lat k] [t k] 0 = .ok [some g] := by
    intro k hk
    obtain ⟨out, ho, hl⟩ := (C48_lengths [lon k] [lat k] [t k] 0).2 ⟨rfl, rfl⟩
    obtain ⟨v, rfl⟩ := List.length_eq_one_iff.mp hl
    have := C50_always_defined _ _ _ _ _ (fun s hs => by rw [List.mem_singleton.mp hs]; exact ht k hk) ho v (by simp)
    obtain ⟨g, rfl⟩ := Option.isSome_iff_exists.mp this
    exact ⟨g, ho⟩
  choose! g hg using hone
  have hall : longman (samples lon n) (samples lat n) (samples t n) 0 = .ok (samples (fun k => some (g k)) n) := by
    have hs : ∀ {α : Type} (f : ℕ → α), (samples f n).length = n := by intro α f; simp [samples]
    unfold longman
    rw [if_neg (by simp [hs]), if_neg (by simp [hs])]
    congr 1
    rw [zip_samples, zip_samples, map_samples]
    unfold samples
    apply List.map_congr_left
    intro k hk
    have h := hg k (List.mem_range.mp hk)
    unfold longman at h
    rw [if_neg (by simp), if_neg (by simp)] at h
    simp only [List.zip_cons_cons, List.zip_nil_right, List.map_cons, List.map_nil] at h
    injection h with h
    injection h with h _
  refine ⟨fun k => (g k).1, fun k hk => ⟨?_, _, _, hg k hk⟩, ?_⟩
  · exact (C51_bounded _ _ _ _ (fun s hs => by rw [List.mem_singleton.mp hs]; exact ht k hk) (hg k hk) (g k) (by simp)).1
  · unfold faaScript
    have hE := C54_values n lon lat (fun _ => 0) sampling 6378137.0 6356752.3142 hn
    have hser : ∀ f : ℕ → ℝ, series n f = samples f n := fun _ => rfl
    simp only [hser] at hE
    simp only [show (samples lat n).length = n by simp [samples], zeros_eq, hE, hall, latCorr_samples, map_samples, zip_samples, Option.map_some]
    rfl

/-- **C104.** With fewer than three samples the correction for motion raises. -/
theorem C104_too_short (n : ℕ) (hn : n < 3) (grav lon lat : ℕ → ℝ) (t : ℕ → ℤ) (sampling : ℝ) :
    faaScript (samples grav n) (samples lon n) (samples lat n) (samples t n) sampling = .error .indexError := by
  unfold faaScript
  have hE := C54_too_short n lon lat (fun _ => 0) sampling 6378137.0 6356752.3142 hn
  have hser : ∀ f : ℕ → ℝ, series n f = samples f n := fun _ => rfl
  simp only [hser] at hE
  simp only [show (samples lat n).length = n by simp [samples], zeros_eq, hE]

/-- **C104.** A ship at rest: the anomaly is the reading less normal gravity, plus the tide. -/
theorem C104_at_rest (n : ℕ) (hn : 3 ≤ n) (grav : ℕ → ℝ) (lon lat : ℝ) (t : ℕ → ℤ) (sampling : ℝ) (ht : ∀ k < n, ValidStamp (t k)) :
    ∃ tide : ℕ → ℝ, (∀ k < n, |tide k| ≤ 0.24 ∧ ∃ gm gs, longman [lon] [lat] [t k] 0 = .ok [some (tide k, gm, gs)]) ∧
      faaScript (samples grav n) (samples (fun _ => lon) n) (samples (fun _ => lat) n) (samples t n) sampling =
        .ok (samples (fun k => some (grav k - normalGravity lat + tide k)) n, samples (fun k => some (grav k + tide k)) n) := by
  obtain ⟨tide, h1, h2⟩ := C104_value n hn grav (fun _ => lon) (fun _ => lat) t sampling ht
  refine ⟨tide, h1, h2.trans ?_⟩
  have hE : ∀ (a b : ℝ) (k : ℕ), eotvos a b (motionAt (fun _ => lon) (fun _ => lat) (fun _ => 0) sampling k) = 0 := by
    intro a b k
    unfold eotvos meridianTerm parallelTerm motionAt rate accel
    simp only
    ring
  simp only [hE, add_zero]

/-! ### Non-vacuity -/

/-- Three time stamps in March 2022. -/
example : ∀ k < 3, ValidStamp (utcInstant 2022 3 13 0 0 (k : ℕ) 0) := by
  intro k hk
  exact ⟨2022, 3, 13, 0, 0, k, 0, by decide, by constructor <;> omega, rfl⟩

end Shipgrav
