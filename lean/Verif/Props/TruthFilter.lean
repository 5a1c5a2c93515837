import Verif.Props.Truth
import Verif.Props.Lowpass

/-! C166 (end to end): the smoothed free-air anomaly of the example scripts in a seaway. -/

namespace Shipgrav
open Spec Real

private theorem surface_unique {W : Space → ℝ} {φ lam γ γ' : ℝ} (h : SurfaceGravity wgs84A wgs84B W φ lam γ) (h' : SurfaceGravity wgs84A wgs84B W φ lam γ') : γ = γ' := by
  have := (uniqueDiffOn_Ici (0 : ℝ) 0 (Set.self_mem_Ici)).eq_deriv _ h h'
  linarith

private theorem smooth_out {n : ℕ} (hn : 1440 < n) {faa signal err : ℕ → ℝ} {ws : List Ripple} {ε ε' K : ℝ}
    (hK : ∀ k, k + 2 < n → |signal (k + 2) - 2 * signal (k + 1) + signal k| ≤ K) (he : ∀ k < n, |err k| ≤ ε) (hw : ∀ w ∈ ws, 2 ≤ w.period)
    (h : ∀ k, 1 ≤ k → k + 1 < n → |faa k - (signal k + (err k + (ws.map fun w => w.value k).sum))| ≤ ε') : ∃ F : ℕ → ℝ,
    lowpassScript 1 (samples faa n) = .ok (samples F n) ∧
      ∀ i, 480 ≤ i → i + 480 < n → |F i - signal i| ≤ 1.7 * (ε' + ε) + 14300 * K + (ws.map fun w => |w.amp| * (w.period / 94) ^ 6).sum := by
  obtain ⟨F, hF, hb⟩ := C166_filter n hn signal (fun k => faa k - signal k - (ws.map fun w => w.value k).sum) ws (ε' + ε) K hK (fun k h1 h2 => by
    have a := h k h1 h2
    have b := he k (by omega)
    beta_reduce
    rw [show faa k - signal k - (ws.map fun w => w.value k).sum = (faa k - (signal k + (err k + (ws.map fun w => w.value k).sum))) + err k by ring]
    exact (abs_add_le _ _).trans (add_le_add a b)) hw
  refine ⟨F, ?_, hb⟩
  rw [← hF]
  congr 2
  funext k
  ring

/-- **C166.** A ship cruises as in `C165_script`, one reading each second.  The anomaly of the earth along the track is smooth (second differences of at most `K` mGal/s²);
the readings carry an error of at most `ε` and the accelerations of waves.  The smoothed free-air anomaly, 480 samples from the ends and further inside, is that of the earth
within `1.7 (0.005 + ε) + 14300 K` mGal and what is left of the waves. -/
theorem C166_script (W : Space → ℝ) (hW : LevelField wgs84A wgs84B wgs84GM wgs84Rate W) (lon lat : ℝ → ℝ) (hc : Cruise lon lat) (n : ℕ) (hn : 1440 < n)
    (t : ℕ → ℤ) (hv : ∀ k < n, ValidStamp (t k)) (T : ℝ) (γ : ℕ → ℝ) (hγ : ∀ k < n, SurfaceGravity wgs84A wgs84B W (rad (lat (T + k))) (rad (lon (T + k))) (γ k)) :
    ∃ pull : ℕ → ℝ, (∀ k < n, TidePull (lon (T + k)) (lat (T + k)) (t k) (pull k)) ∧ ∀ (g err reading : ℕ → ℝ) (ws : List Ripple) (ε K : ℝ),
      (∀ k, k + 2 < n → |100000 * (g (k + 2) - γ (k + 2)) - 2 * (100000 * (g (k + 1) - γ (k + 1))) + 100000 * (g k - γ k)| ≤ K) →
      (∀ k < n, |err k| ≤ ε) → (∀ w ∈ ws, 2 ≤ w.period) →
      (∀ k < n, reading k = trueReading lon lat (g k) (pull k) (T + k) + (err k + (ws.map fun w => w.value k).sum)) →
      ∃ faa full F : ℕ → ℝ, faaScript (samples reading n) (samples (fun k => lon (T + k)) n) (samples (fun k => lat (T + k)) n) (samples t n) 1 =
          .ok (samples (fun k => some (faa k)) n, samples (fun k => some (full k)) n) ∧
        lowpassScript 1 (samples faa n) = .ok (samples F n) ∧
        ∀ i, 480 ≤ i → i + 480 < n → |F i - 100000 * (g i - γ i)| ≤ 1.7 * (0.005 + ε) + 14300 * K + (ws.map fun w => |w.amp| * (w.period / 94) ^ 6).sum := by
  obtain ⟨pull, hp, hm⟩ := C165_script W hW lon lat hc n (by omega) 1 le_rfl t hv T
  simp only [div_one] at hp hm
  refine ⟨pull, hp, fun g err reading ws ε K hK he hw hr => ?_⟩
  obtain ⟨faa, full, hs, hb⟩ := hm g (fun k => err k + (ws.map fun w => w.value k).sum) reading hr
  obtain ⟨F, hF, hb'⟩ := smooth_out (faa := faa) (signal := fun k => 100000 * (g k - γ k)) (err := err) (ε' := 0.005) hn hK he hw (fun k h1 h2 => by
    obtain ⟨γ', hγ', h, -⟩ := hb k h1 h2
    rw [surface_unique hγ' (hγ k (by omega))] at h
    exact h)
  exact ⟨faa, full, F, hs, hF, hb'⟩

/-- **C166.** The same from the tables of fixes and readings, as in `C165_tables`. -/
theorem C166_tables (W : Space → ℝ) (hW : LevelField wgs84A wgs84B wgs84GM wgs84Rate W) (lon lat : ℝ → ℝ) (hc : Cruise lon lat) (A : ℝ) (hA : ∀ u, |iteratedDeriv 2 lon u| ≤ A ∧ |iteratedDeriv 2 lat u| ≤ A) (nav : List (ℝ × ℝ × ℝ))
    (dgs : List (ℤ × ℝ)) (bias : ℝ) (τ x y : ℕ → ℝ) (m : ℕ) (hm : 2 ≤ m) (hτ : ∀ i j, i < j → j < m → τ i < τ j) (δ e : ℝ)
    (hδ : ∀ i, i + 1 < m → τ (i + 1) - τ i ≤ δ) (hfix : ∀ i < m, |x i - lon (τ i)| ≤ e ∧ |y i - lat (τ i)| ≤ e)
    (hnav : nav.Perm (samples (fun i => (τ i, x i, y i)) m)) (t : ℕ → ℤ) (r : ℕ → ℝ) (n : ℕ) (hn : 1440 < n) (hdgs : dgs.Perm (samples (fun k => (t k, r k)) n))
    (hv : ∀ k < n, ValidStamp (t k)) (T : ℝ) (heven : ∀ k < n, (t k : ℝ) / 1000000 = T + k)
    (hcover : ∀ k < n, τ 0 ≤ (t k : ℝ) / 1000000 ∧ (t k : ℝ) / 1000000 ≤ τ (m - 1)) (hε : e + A / 8 * δ ^ 2 ≤ 1 / 8000)
    (γ : ℕ → ℝ) (hγ : ∀ k < n, SurfaceGravity wgs84A wgs84B W (rad (lat (T + k))) (rad (lon (T + k))) (γ k)) :
    ∃ pull : ℕ → ℝ, (∀ k < n, TidePull (lon (T + k)) (lat (T + k)) (t k) (pull k)) ∧ ∀ (g err : ℕ → ℝ) (ws : List Ripple) (ε K : ℝ),
      (∀ k, k + 2 < n → |100000 * (g (k + 2) - γ (k + 2)) - 2 * (100000 * (g (k + 1) - γ (k + 1))) + 100000 * (g k - γ k)| ≤ K) →
      (∀ k < n, |err k| ≤ ε) → (∀ w ∈ ws, 2 ≤ w.period) →
      (∀ k < n, r k + bias = trueReading lon lat (g k) (pull k) (T + k) + (err k + (ws.map fun w => w.value k).sum)) →
      ∃ v F : ℕ → ℝ, faaPipeline nav dgs bias 1 = .ok (samples (fun k => (t k, some (v k))) n) ∧ lowpassScript 1 (samples v n) = .ok (samples F n) ∧
        ∀ i, 480 ≤ i → i + 480 < n → |F i - 100000 * (g i - γ i)| ≤
          1.7 * (0.005 + ε + 4100400 * (e + A / 8 * δ ^ 2)) + 14300 * K + (ws.map fun w => |w.amp| * (w.period / 94) ^ 6).sum := by
  obtain ⟨pull, hp, hm⟩ := C165_tables W hW lon lat hc A hA nav dgs bias 1 le_rfl τ x y m hm hτ δ e hδ hfix hnav t r n (by omega) hdgs hv T
    (fun k hk => by rw [div_one]; exact heven k hk) hcover (by linarith)
  simp only [div_one] at hp hm
  refine ⟨pull, hp, fun g err ws ε K hK he hw hr => ?_⟩
  obtain ⟨v, hs, hb⟩ := hm g (fun k => err k + (ws.map fun w => w.value k).sum) hr
  obtain ⟨F, hF, hb'⟩ := smooth_out (faa := v) (signal := fun k => 100000 * (g k - γ k)) (err := err) (ε' := 0.005 + 4100400 * (e + A / 8 * δ ^ 2)) hn hK he hw
    (fun k h1 h2 => by
      obtain ⟨γ', hγ', h⟩ := hb k h1 h2
      rw [surface_unique hγ' (hγ k (by omega))] at h
      refine h.trans (le_of_eq ?_)
      ring)
  refine ⟨v, F, hs, hF, fun i a b => (hb' i a b).trans (le_of_eq ?_)⟩
  ring

/-! ### Non-vacuity -/

/-- Such theoretical gravity exists along every track. -/
example (W : Space → ℝ) (hW : LevelField wgs84A wgs84B wgs84GM wgs84Rate W) (lon lat : ℝ → ℝ) (T : ℝ) (n : ℕ) :
    ∃ γ : ℕ → ℝ, ∀ k < n, SurfaceGravity wgs84A wgs84B W (rad (lat (T + k))) (rad (lon (T + k))) (γ k) :=
  ⟨_, fun k _ => (normal_true W hW (lat (T + k)) (lon (T + k))).choose_spec.1⟩

/-- Swell of 8 s that moves the ship up and down by 0.1 g and one of 15 s of 0.02 g leave less than 0.4 mGal; an anomaly of 30 mGal over a sine of 100 km at 5 m/s
has second differences of less than 3e-6 mGal, which makes less than 0.05 mGal. -/
example : ((([⟨98000, 8, 0⟩, ⟨19600, 15, 1⟩] : List Ripple).map fun w => |w.amp| * (w.period / 94) ^ 6).sum < 0.4) ∧ (14300 : ℝ) * 3e-6 < 0.05 := by
  norm_num [abs_of_pos]

end Shipgrav
