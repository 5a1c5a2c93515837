import Verif.Lemmas.Truth
import Verif.Props.Pipeline

/-! C165: from what the instruments of a ship record to the free-air anomaly of the earth (all corrections of grav.py as the example scripts apply them). -/

namespace Shipgrav
open Spec Real

/-- **C165.** A ship cruises over an earth whose theoretical gravity is that of the level ellipsoid WGS84.  The gravimeter reads at a fixed rate of at least once a second
what gravity, motion and tide make it read, plus `noise`.  At every sample but the first and the last, the free-air anomaly of the example scripts is gravity less
theoretical gravity, and the full field is gravity, within 0.005 mGal and the noise of the reading. -/
theorem C165_script (W : Space → ℝ) (hW : LevelField wgs84A wgs84B wgs84GM wgs84Rate W) (lon lat : ℝ → ℝ) (hc : Cruise lon lat) (n : ℕ) (hn : 3 ≤ n) (s : ℝ) (hs : 1 ≤ s)
    (t : ℕ → ℤ) (hv : ∀ k < n, ValidStamp (t k)) (T : ℝ) :
    ∃ pull : ℕ → ℝ, (∀ k < n, TidePull (lon (T + k / s)) (lat (T + k / s)) (t k) (pull k)) ∧ ∀ g noise reading : ℕ → ℝ,
      (∀ k < n, reading k = trueReading lon lat (g k) (pull k) (T + k / s) + noise k) →
      ∃ faa full : ℕ → ℝ, faaScript (samples reading n) (samples (fun k => lon (T + k / s)) n) (samples (fun k => lat (T + k / s)) n) (samples t n) s =
          .ok (samples (fun k => some (faa k)) n, samples (fun k => some (full k)) n) ∧
        ∀ k, 1 ≤ k → k + 1 < n → ∃ γ, SurfaceGravity wgs84A wgs84B W (rad (lat (T + k / s))) (rad (lon (T + k / s))) γ ∧
          |faa k - (100000 * (g k - γ) + noise k)| ≤ 0.005 ∧ |full k - (100000 * g k + noise k)| ≤ 0.005 := by
  have hp : ∀ k, ∃ pull, k < n → TidePull (lon (T + k / s)) (lat (T + k / s)) (t k) pull ∧
      ∀ g gm gs, longman [lon (T + k / s)] [lat (T + k / s)] [t k] 0 = .ok [some (g, gm, gs)] → |g - pull| ≤ 1.15e-4 := by
    intro k
    by_cases hk : k < n
    · obtain ⟨x, hx⟩ := tide_true (lon (T + k / s)) (lat (T + k / s)) (t k) (hv k hk)
      exact ⟨x, fun _ => hx⟩
    · exact ⟨0, fun h => absurd h hk⟩
  choose pull hpull using hp
  refine ⟨pull, fun k hk => (hpull k hk).1, fun g noise reading hr => ?_⟩
  obtain ⟨tide, ht, hval⟩ := C104_value n hn reading (fun k => lon (T + k / s)) (fun k => lat (T + k / s)) t s hv
  refine ⟨_, _, hval, fun k h1 h2 => ?_⟩
  obtain ⟨γ, hγ, hγ'⟩ := normal_true W hW (lat (T + k / s)) (lon (T + k / s))
  refine ⟨γ, hγ, ?_⟩
  have hm := motion_true hc n hn s hs T k h1 h2
  obtain ⟨-, gm, gs, hl⟩ := ht k (by omega)
  have htd := (hpull k (by omega)).2 _ _ _ hl
  dsimp only
  rw [hr k (by omega)]
  unfold trueReading
  generalize eotvos _ _ _ = E at *
  generalize excessAcceleration _ _ _ _ _ _ = X at *
  generalize normalGravity _ = N at *
  rw [abs_le] at hm htd hγ'
  obtain ⟨m1, m2⟩ := hm
  obtain ⟨t1, t2⟩ := htd
  obtain ⟨n1, n2⟩ := hγ'
  rw [abs_le, abs_le]
  clear hpull hl ht hval hv hr
  norm_num at m1 m2 t1 t2 n1 n2 ⊢
  refine ⟨⟨?_, ?_⟩, ?_, ?_⟩ <;> linarith

private theorem samples_inj {α : Type} {f g : ℕ → α} {n : ℕ} (h : samples f n = samples g n) (k : ℕ) (hk : k < n) : f k = g k := by
  have h' := congrArg (fun l => l[k]?) h
  simpa [samples, List.getElem?_map, List.getElem?_range hk] using h'

/-- **C165.** The whole way from the tables that the readers return (rows in any order) to the anomaly.  Fixes at the times `τ`, no more than `δ` seconds apart, each within `e`
degrees of where the ship was, cover the times of the readings; the gravimeter reads as in `C165_script`, off by the known bias.  The anomaly comes out within 0.005 mGal, the
noise of the readings, and what errors of position of up to `e + A δ² / 8` degrees can do, where `A` bounds the second derivatives of longitude and latitude (zero on a
steady course). -/
theorem C165_tables (W : Space → ℝ) (hW : LevelField wgs84A wgs84B wgs84GM wgs84Rate W) (lon lat : ℝ → ℝ) (hc : Cruise lon lat) (A : ℝ) (hA : ∀ u, |iteratedDeriv 2 lon u| ≤ A ∧ |iteratedDeriv 2 lat u| ≤ A) (nav : List (ℝ × ℝ × ℝ))
    (dgs : List (ℤ × ℝ)) (bias s : ℝ) (hs : 1 ≤ s) (τ x y : ℕ → ℝ) (m : ℕ) (hm : 2 ≤ m) (hτ : ∀ i j, i < j → j < m → τ i < τ j) (δ e : ℝ)
    (hδ : ∀ i, i + 1 < m → τ (i + 1) - τ i ≤ δ) (hfix : ∀ i < m, |x i - lon (τ i)| ≤ e ∧ |y i - lat (τ i)| ≤ e)
    (hnav : nav.Perm (samples (fun i => (τ i, x i, y i)) m)) (t : ℕ → ℤ) (r : ℕ → ℝ) (n : ℕ) (hn : 3 ≤ n) (hdgs : dgs.Perm (samples (fun k => (t k, r k)) n))
    (hv : ∀ k < n, ValidStamp (t k)) (T : ℝ) (heven : ∀ k < n, (t k : ℝ) / 1000000 = T + k / s)
    (hcover : ∀ k < n, τ 0 ≤ (t k : ℝ) / 1000000 ∧ (t k : ℝ) / 1000000 ≤ τ (m - 1)) (hε : 4 * (e + A / 8 * δ ^ 2) * s ^ 2 ≤ 1 / 2000) :
    ∃ pull : ℕ → ℝ, (∀ k < n, TidePull (lon (T + k / s)) (lat (T + k / s)) (t k) (pull k)) ∧ ∀ g noise : ℕ → ℝ,
      (∀ k < n, r k + bias = trueReading lon lat (g k) (pull k) (T + k / s) + noise k) →
      ∃ v : ℕ → ℝ, faaPipeline nav dgs bias s = .ok (samples (fun k => (t k, some (v k))) n) ∧
        ∀ k, 1 ≤ k → k + 1 < n → ∃ γ, SurfaceGravity wgs84A wgs84B W (rad (lat (T + k / s))) (rad (lon (T + k / s))) γ ∧
          |v k - (100000 * (g k - γ) + noise k)| ≤ 0.005 + (e + A / 8 * δ ^ 2) * (1.6e6 * s ^ 2 + 2.5e6 * s + 400) := by
  have hs0 : 0 < s := by linarith
  have htt : ∀ i j, i < j → j < n → t i < t j := by
    intro i j hij hj
    have h1 := heven i (by omega)
    have h2 := heven j hj
    have h3 : (i : ℝ) / s < j / s := div_lt_div_of_pos_right (by exact_mod_cast hij) hs0
    have : (t i : ℝ) < t j := by linarith
    exact_mod_cast this
  obtain ⟨pull, hpull, hmain⟩ := C165_script W hW lon lat hc n hn s hs t hv T
  refine ⟨pull, hpull, fun g noise hr => ?_⟩
  obtain ⟨faa, full, hscript, hbound⟩ := hmain g noise (fun k => r k + bias) hr
  obtain ⟨lon', lat', tide, hon, htide, hpipe⟩ := C119_value nav dgs bias s τ x y m hm t r n hn hτ htt hnav hdgs hv
  have close : ∀ (f : ℝ → ℝ) (z : ℕ → ℝ), ContDiff ℝ 2 f → (∀ u, |iteratedDeriv 2 f u| ≤ A) → (∀ i < m, |z i - f (τ i)| ≤ e) → ∀ k < n, ∀ v,
      OnTrack τ z m ((t k : ℝ) / 1000000) v → |f (T + k / s) - v| ≤ e + A / 8 * δ ^ 2 := by
    rintro f z hf h2 hz k hk v ⟨i, hi, hl, hu, rfl⟩
    have hp : τ i ≤ (t k : ℝ) / 1000000 := by
      rcases hl with rfl | h
      · exact (hcover k hk).1
      · exact h.le
    have hq : (t k : ℝ) / 1000000 ≤ τ (i + 1) := by
      rcases hu with h | h
      · have := (hcover k hk).2
        rwa [show m - 1 = i + 1 by omega] at this
      · exact h
    have := line_close f hf A h2 (τ i) (τ (i + 1)) ((t k : ℝ) / 1000000) δ e (z i) (z (i + 1)) hp hq (hτ i (i + 1) (by omega) hi) (hδ i hi)
      (hz i (by omega)) (hz (i + 1) hi)
    rw [heven k hk] at this ⊢
    rw [abs_sub_comm]
    exact this
  have hlat : ∀ k < n, |lat (T + k / s) - lat' k| ≤ e + A / 8 * δ ^ 2 := fun k hk =>
    close lat y (hc.smoothLat.of_le (by norm_num)) (fun u => (hA u).2) (fun i hi => (hfix i hi).2) k hk _ (hon k).2
  have hlon : ∀ k < n, |lon (T + k / s) - lon' k| ≤ e + A / 8 * δ ^ 2 := fun k hk =>
    close lon x (hc.smoothLon.of_le (by norm_num)) (fun u => (hA u).1) (fun i hi => (hfix i hi).1) k hk _ (hon k).1
  generalize hεd : e + A / 8 * δ ^ 2 = ε at *
  have hε0 : 0 ≤ ε := (abs_nonneg _).trans (hlat 0 (by omega))
  have hg : Gentle (fun k => lon (T + k / s)) (fun k => lat (T + k / s)) s n := fun k _ => by
    obtain ⟨a, b, c⟩ := gentle_of hc s hs T k
    exact ⟨a.trans (by norm_num), b.trans (by norm_num), c.trans (by norm_num)⟩
  have hss : s ≤ s ^ 2 := by nlinarith
  have hε1 : ε * s ≤ 1 / 8000 := by
    have := mul_le_mul_of_nonneg_left hss hε0
    linarith
  have hg' : Gentle lon' lat' s n := by
    intro k hk
    obtain ⟨a, b, c⟩ := gentle_of hc s hs T k
    have dr : ∀ (p q : ℕ → ℝ) (K : ℝ), |rate p s (k + 1)| ≤ K → |p (k + 1 + 1) - q (k + 1 + 1)| ≤ ε → |p k - q k| ≤ ε → |rate q s (k + 1)| ≤ K + 1 / 8000 := by
      intro p q K hK h1 h2
      have e1 : rate q s (k + 1) = rate p s (k + 1) + ((p k - q k) - (p (k + 1 + 1) - q (k + 1 + 1))) / 2 * s := by
        unfold rate
        rw [Nat.add_sub_cancel]
        ring
      rw [e1]
      refine (abs_add_le _ _).trans (add_le_add hK ?_)
      rw [abs_mul, abs_of_pos hs0, abs_div, abs_of_pos (by norm_num : (0 : ℝ) < 2)]
      have h3 : |(p k - q k) - (p (k + 1 + 1) - q (k + 1 + 1))| ≤ 2 * ε := (abs_sub _ _).trans (by linarith)
      calc |(p k - q k) - (p (k + 1 + 1) - q (k + 1 + 1))| / 2 * s ≤ 2 * ε / 2 * s := by gcongr
        _ ≤ 1 / 8000 := by linarith
    refine ⟨(dr _ lat' _ a (hlat _ (by omega)) (hlat _ (by omega))).trans (by norm_num), (dr _ lon' _ b (hlon _ (by omega)) (hlon _ (by omega))).trans (by norm_num), ?_⟩
    have e1 : accel lat' s (k + 1) = accel (fun k => lat (T + k / s)) s (k + 1) +
        (2 * (lat (T + (k + 1 : ℕ) / s) - lat' (k + 1)) - ((lat (T + (k + 1 + 1 : ℕ) / s) - lat' (k + 1 + 1)) + (lat (T + k / s) - lat' k))) * s ^ 2 := by
      unfold accel
      rw [Nat.add_sub_cancel]
      ring
    rw [e1]
    have h0 := hlat k (by omega)
    have h1 := hlat (k + 1) (by omega)
    have h2 := hlat (k + 1 + 1) (by omega)
    generalize lat (T + (k + 1 : ℕ) / s) - lat' (k + 1) = A at *
    generalize lat (T + (k + 1 + 1 : ℕ) / s) - lat' (k + 1 + 1) = B at *
    generalize lat (T + k / s) - lat' k = C at *
    refine (abs_add_le _ _).trans ?_
    rw [abs_mul, abs_of_pos (by positivity : (0 : ℝ) < s ^ 2)]
    have h3 : |2 * A - (B + C)| ≤ 4 * ε := by
      rw [abs_le] at *
      constructor <;> linarith
    have h4 := mul_le_mul_of_nonneg_right h3 (by positivity : (0 : ℝ) ≤ s ^ 2)
    norm_num at *
    linarith
  obtain ⟨f1, f2, u1, u2, e1, e2, hb⟩ := C137_sensitivity n hn (fun k => r k + bias) (fun k => lon (T + k / s)) (fun k => lat (T + k / s)) lon' lat' t s ε hs0.le hv
    (fun k hk => ⟨hlat k hk, hlon k hk⟩) hg hg'
  obtain ⟨tide', ht', hval'⟩ := C104_value n hn (fun k => r k + bias) lon' lat' t s hv
  refine ⟨_, hpipe, fun k h1 h2 => ?_⟩
  have hk : k < n := by omega
  obtain ⟨γ, hγ, hb1, -⟩ := hbound k h1 h2
  refine ⟨γ, hγ, ?_⟩
  have q1 : f1 k = faa k := by
    have h := e1.symm.trans hscript
    injection h with h
    injection h with h _
    have := samples_inj h k hk
    injection this
  have q2 : f2 k = r k + bias - normalGravity (lat' k) + eotvos 6378137.0 6356752.3142 (motionAt lon' lat' (fun _ => 0) s (min (max k 1) (n - 2))) + tide' k := by
    have h := e2.symm.trans hval'
    injection h with h
    injection h with h _
    have := samples_inj h k hk
    injection this
  have q3 : tide k = tide' k := by
    obtain ⟨-, gm, gs, hl⟩ := htide k hk
    obtain ⟨-, gm', gs', hl'⟩ := ht' k hk
    rw [hl] at hl'
    simp only [Except.ok.injEq, List.cons.injEq, Option.some.injEq, Prod.mk.injEq, and_true] at hl'
    exact hl'.1
  rw [q3, ← q2]
  have hb2 := (hb k hk).1
  rw [q1] at hb2
  rw [show f2 k - (100000 * (g k - γ) + noise k) = (faa k - (100000 * (g k - γ) + noise k)) - (faa k - f2 k) by ring]
  exact (abs_sub _ _).trans (add_le_add hb1 hb2)

/-! ### Non-vacuity -/

/-- A ship at 10 m/s to the north east from the equator, in a wide turn. -/
example : Cruise (fun t => 150 + 5e-5 * t) (fun t => 1e-3 * sin (t / 100)) := by
  have h0 : ∀ s : ℝ, HasDerivAt (fun t : ℝ => 150 + 5e-5 * t) 5e-5 s := fun s => by
    simpa using ((hasDerivAt_id s).const_mul (5e-5 : ℝ)).const_add 150
  have d1 : deriv (fun t : ℝ => 150 + 5e-5 * t) = fun _ => 5e-5 := funext fun s => (h0 s).deriv
  have dn : ∀ (j : ℕ) (s : ℝ), iteratedDeriv (j + 2) (fun t : ℝ => 150 + 5e-5 * t) s = 0 := fun j s => by
    rw [iteratedDeriv_succ', d1, iteratedDeriv_succ', deriv_const']
    simp
  have sn : ∀ (j : ℕ) (s : ℝ), |iteratedDeriv j (fun t : ℝ => 1e-3 * sin (t / 100)) s| ≤ 1e-3 * (1 / 100) ^ j := fun j s => by
    have e : iteratedDeriv j (fun t : ℝ => 1e-3 * sin (t / 100)) s = 1e-3 * ((1 / 100) ^ j * iteratedDeriv j sin (1 / 100 * s)) := by
      have := iteratedDeriv_comp_const_mul (n := j) (contDiff_sin (n := j)) (1 / 100 : ℝ)
      rw [iteratedDeriv_const_mul_field]
      rw [show (fun t : ℝ => sin (t / 100)) = fun t => sin (1 / 100 * t) from funext fun t => by ring_nf, this]
    rw [e, abs_mul, abs_mul, abs_of_pos (by norm_num : (0 : ℝ) < 1e-3), abs_of_pos (by positivity : (0 : ℝ) < (1 / 100) ^ j)]
    have := abs_iteratedDeriv_sin_le_one j (1 / 100 * s)
    calc (1e-3 : ℝ) * ((1 / 100) ^ j * |iteratedDeriv j sin (1 / 100 * s)|) ≤ 1e-3 * ((1 / 100) ^ j * 1) := by gcongr
      _ = _ := by ring
  refine ⟨?_, ?_, ?_, ?_, ?_, ?_, ?_, ?_, ?_⟩
  · exact contDiff_const.mul (contDiff_sin.comp (contDiff_id.div_const 100))
  · exact contDiff_const.add (contDiff_const.mul contDiff_id)
  · intro s; rw [← iteratedDeriv_one]; exact (sn 1 s).trans (by norm_num)
  · intro s; rw [d1]; norm_num
  · intro s; exact (sn 2 s).trans (by norm_num)
  · intro s; rw [dn 0]; norm_num
  · intro s; exact (sn 3 s).trans (by norm_num)
  · intro s; rw [dn 1]; norm_num
  · intro s; exact (sn 4 s).trans (by norm_num)

/-- A minute of fixes and readings, one each second. -/
example : let t : ℕ → ℤ := fun k => utcInstant 2022 3 13 0 0 k 0
    let τ : ℕ → ℝ := fun k => (t k : ℝ) / 1000000
    (∀ i j, i < j → j < 60 → τ i < τ j) ∧ (∀ i, i + 1 < 60 → τ (i + 1) - τ i ≤ 1) ∧ (∀ k < 60, ValidStamp (t k)) ∧
    (∀ k < 60, (t k : ℝ) / 1000000 = τ 0 + k / 1) ∧ (∀ k < 60, τ 0 ≤ (t k : ℝ) / 1000000 ∧ (t k : ℝ) / 1000000 ≤ τ (60 - 1)) ∧
    4 * ((1e-6 : ℝ) + 1.25e-7 * 1 ^ 2) * 1 ^ 2 ≤ 1 / 2000 := by
  intro t τ
  have e : ∀ k : ℕ, τ k = τ 0 + k := fun k => by
    simp only [τ, t, utcInstant, usOfDay]
    push_cast
    ring
  refine ⟨fun i j hij _ => ?_, fun i _ => ?_, fun k hk => ⟨2022, 3, 13, 0, 0, k, 0, by decide, by constructor <;> omega, rfl⟩, fun k _ => ?_, fun k hk => ?_, by norm_num⟩
  · rw [e i, e j]
    have : (i : ℝ) < j := by exact_mod_cast hij
    linarith
  · rw [e (i + 1), e i]; push_cast; linarith
  · rw [div_one]; exact e k
  · have h : (k : ℝ) ≤ 59 := by exact_mod_cast (by omega : k ≤ 59)
    have h0 : (0 : ℝ) ≤ k := Nat.cast_nonneg k
    change τ 0 ≤ τ k ∧ τ k ≤ τ (60 - 1)
    rw [e k, e (60 - 1)]
    constructor
    · linarith
    · push_cast; norm_num; linarith

end Shipgrav
