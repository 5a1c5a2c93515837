import Verif.Props.PipelineFloat
import Verif.Props.TruthFilter
import Verif.Props.LowpassFloat

/-! C168: the programs in double precision against the exact ones, and against the earth. -/

namespace Shipgrav
open Spec Real

/-! ### Helpers -/

private theorem map_samples {α β : Type} (f : α → β) (x : ℕ → α) (n : ℕ) : (samples x n).map f = samples (fun i => f (x i)) n := by
  unfold samples
  rw [List.map_map]; rfl

private theorem samples_inj {α : Type} {f g : ℕ → α} {n : ℕ} (h : samples f n = samples g n) (k : ℕ) (hk : k < n) : f k = g k := by
  have h' := congrArg (fun l => l[k]?) h
  simpa [samples, List.getElem?_map, List.getElem?_range hk] using h'

/-- Around every time in the range of the fixes there are two of them. -/
private theorem bracket (T : ℕ → ℤ) (t : ℤ) (m : ℕ) (hm : 2 ≤ m) (h0 : T 0 ≤ t) (h1 : t ≤ T (m - 1)) : ∃ j, j + 1 < m ∧ T j ≤ t ∧ t ≤ T (j + 1) := by
  induction m with
  | zero => omega
  | succ m ih =>
    rcases Nat.lt_or_ge m 2 with h | h
    · have : m = 1 := by omega
      subst this
      exact ⟨0, by omega, h0, h1⟩
    · rcases le_total t (T (m - 1)) with h2 | h2
      · obtain ⟨j, a, b⟩ := ih h h2
        exact ⟨j, by omega, b⟩
      · refine ⟨m - 1, by omega, h2, ?_⟩
        rw [show m - 1 + 1 = m + 1 - 1 by omega]
        exact h1

/-- Positions between fixes are the same for the exact program. -/
private theorem onTrack_between (T : ℕ → ℤ) (x : ℕ → ℚ) (m : ℕ) (hT : ∀ i j, i < j → j < m → T i < T j) (t : ℤ) (j : ℕ) (hj : j + 1 < m) (h0 : T j ≤ t) (h1 : t ≤ T (j + 1))
    (v : ℝ) (h : OnTrack (fun i => (T i : ℝ) / 1000000) (fun i => (x i : ℝ)) m ((t : ℝ) / 1000000) v) : v = (between T x j t : ℝ) := by
  obtain ⟨i, hi, hl, hu, rfl⟩ := h
  have conv : ∀ a b : ℤ, (a : ℝ) / 1000000 < (b : ℝ) / 1000000 ↔ a < b := fun a b => by
    rw [div_lt_div_iff_of_pos_right (by norm_num)]; exact Int.cast_lt
  have conv' : ∀ a b : ℤ, (a : ℝ) / 1000000 ≤ (b : ℝ) / 1000000 ↔ a ≤ b := fun a b => by
    rw [div_le_div_iff_of_pos_right (by norm_num)]; exact Int.cast_le
  rw [conv] at hl
  rw [conv'] at hu
  have mono : ∀ a b, a ≤ b → b < m → T a ≤ T b := fun a b hab hb => by
    rcases hab.eq_or_lt with rfl | h
    · exact le_rfl
    · exact (hT a b h hb).le
  have hpos : ∀ a, a + 1 < m → (T a : ℝ) < T (a + 1) := fun a ha => by exact_mod_cast hT a (a + 1) (by omega) ha
  have scale : ∀ a, ((t : ℝ) / 1000000 - (T a : ℝ) / 1000000) / ((T (a + 1) : ℝ) / 1000000 - (T a : ℝ) / 1000000) = ((t : ℝ) - T a) / (T (a + 1) - T a) := fun a => by
    rw [← sub_div, ← sub_div, div_div_div_cancel_right₀ (by norm_num)]
  rw [scale i]
  unfold between
  push_cast
  rcases Nat.lt_trichotomy i j with h | h | h
  · -- the reading is at the fix between the two intervals
    have h3 : t ≤ T (i + 1) := by
      rcases hu with h4 | h4
      · omega
      · exact h4
    have h4 : T (i + 1) ≤ T j := mono _ _ h (by omega)
    have h5 : T (i + 1) = t := le_antisymm (h4.trans h0) h3
    have h6 : T j = t := le_antisymm h0 (h3.trans h4)
    have h7 : i + 1 = j := by
      by_contra hne
      have := hT (i + 1) j (by omega) (by omega)
      omega
    subst h7
    have hp := hpos i (by omega)
    rw [h5] at hp ⊢
    rw [div_self (by linarith), sub_self, zero_div]
    ring
  · subst h; rfl
  · rcases hl with h3 | h3
    · omega
    · have := mono (j + 1) i h (by omega)
      omega

private theorem motion_congr {lon lon' lat lat' : ℕ → ℝ} {n i : ℕ} (hi : i + 2 < n) (h : ∀ k < n, lon k = lon' k ∧ lat k = lat' k) (s : ℝ) :
    motionAt lon lat (fun _ => 0) s (i + 1) = motionAt lon' lat' (fun _ => 0) s (i + 1) := by
  unfold motionAt rate accel
  simp only [show i + 1 - 1 = i by omega, (h i (by omega)).1, (h i (by omega)).2, (h (i + 1) (by omega)).2, (h (i + 1 + 1) (by omega)).1, (h (i + 1 + 1) (by omega)).2]

/-! ### C168 -/

/-- **C168.** The chain from the tables to the anomaly in double precision against the same chain in exact arithmetic, on the tables with the exact times: one row per
reading in the order of time from both, with anomalies that differ by no more than 6e-3 mGal.  The hypotheses are those of `C138_pipeline`. -/
theorem C168_pipeline (lm : TideLibm) (g : GoodLib lm) (nav : List (ℚ × ℚ × ℚ)) (dgs : List (ℤ × ℚ)) (bias samp : ℚ) (hs : 0 ≤ samp) (hS : samp ≤ 1)
    (m : ℕ) (T : ℕ → ℤ) (x y : ℕ → ℚ) (hT : ∀ i j, i < j → j < m → T i < T j) (hM : ∀ i < m, Modern (T i) ∧ |x i| ≤ 359 ∧ |y i| ≤ 89)
    (hv : ∀ i, i + 1 < m → |x (i + 1) - x i| ≤ ((T (i + 1) : ℚ) - T i) / 10 ^ 9 ∧ |y (i + 1) - y i| ≤ ((T (i + 1) : ℚ) - T i) / 10 ^ 9)
    (hnav : nav.Perm (samples (fun i => (timestampF (T i), x i, y i)) m))
    (n : ℕ) (hn : 3 ≤ n) (t : ℕ → Stamp) (r : ℕ → ℚ) (ht : ∀ i j, i < j → j < n → (t i).instant < (t j).instant) (hr : ∀ k < n, |r k + bias| ≤ 1999999)
    (hdgs : dgs.Perm (samples (fun k => ((t k).instant, r k)) n))
    (j : ℕ → ℕ) (hj : ∀ k < n, j k + 1 < m ∧ T (j k) ≤ (t k).instant ∧ (t k).instant ≤ T (j k + 1))
    (lon lat : ℕ → ℚ) (hlon : ∀ k < n, lon k = between T x (j k) (t k).instant) (hlat : ∀ k < n, lat k = between T y (j k) (t k).instant)
    (hG : ∀ k, k + 2 < n → |rate (fun i => lat i) samp (k + 1)| ≤ 9 / 10000 ∧ |rate (fun i => lon i) samp (k + 1)| ≤ 9 / 10000 ∧
      |accel (fun i => lat i) samp (k + 1)| ≤ 9 / 10000) :
    ∃ (faa : ℕ → ℚ) (v : ℕ → ℝ), faaPipelineF lm nav dgs bias samp = .ok (samples (fun k => ((t k).instant, faa k)) n) ∧
      faaPipeline (samples (fun i => ((T i : ℝ) / 1000000, (x i : ℝ), (y i : ℝ))) m) (dgs.map fun p => (p.1, (p.2 : ℝ))) bias samp =
        .ok (samples (fun k => ((t k).instant, some (v k))) n) ∧
      ∀ k < n, |(faa k : ℝ) - v k| ≤ 6e-3 := by
  obtain ⟨faa, h1, h2⟩ := pipeline_args lm g nav dgs bias samp hs hS m T x y hT hM hv hnav n hn t r r ht (fun k hk => ⟨hr k hk, by rw [sub_self]; norm_num⟩) hdgs j hj lon lat
    (fun k hk => by rw [hlon k hk, sub_self]; norm_num) (fun k hk => by rw [hlat k hk, sub_self]; norm_num) hG
  have hm : 2 ≤ m := by have := (hj 0 (by omega)).1; omega
  have hτ : ∀ i j, i < j → j < m → (T i : ℝ) / 1000000 < (T j : ℝ) / 1000000 := fun i j hij hjm => by
    have : (T i : ℝ) < T j := by exact_mod_cast hT i j hij hjm
    linarith
  have hstamp : ∀ k < n, ValidStamp (t k).instant := fun k _ => ⟨(t k).y, (t k).m, (t k).d, (t k).h, (t k).mi, (t k).s, (t k).us, (t k).date, (t k).time, rfl⟩
  obtain ⟨lon', lat', tide, hon, htide, hpipe⟩ := C119_value (samples (fun i => ((T i : ℝ) / 1000000, (x i : ℝ), (y i : ℝ))) m) (dgs.map fun p => (p.1, (p.2 : ℝ))) bias samp
    (fun i => (T i : ℝ) / 1000000) (fun i => (x i : ℝ)) (fun i => (y i : ℝ)) m hm (fun k => (t k).instant) (fun k => (r k : ℝ)) n hn hτ ht (List.Perm.refl _)
    (by have := hdgs.map fun p => (p.1, (p.2 : ℝ)); rw [map_samples] at this; exact this) hstamp
  have pos : ∀ k < n, lon' k = (lon k : ℝ) ∧ lat' k = (lat k : ℝ) := fun k hk => by
    obtain ⟨a, b, c⟩ := hj k hk
    rw [hlon k hk, hlat k hk]
    exact ⟨onTrack_between T x m hT _ _ a b c _ (hon k).1, onTrack_between T y m hT _ _ a b c _ (hon k).2⟩
  refine ⟨faa, _, h1, hpipe, fun k hk => ?_⟩
  have h3 := h2 k hk
  obtain ⟨i, hi⟩ : ∃ i, min (max k 1) (n - 2) = i + 1 := ⟨min (max k 1) (n - 2) - 1, by omega⟩
  have htd : tide k = lunarTide (argsAt (centuries (t k).y (t k).m (t k).d (t k).h (t k).mi (t k).s)) (lon k) (lat k) 0 (hourOfDay (t k).h (t k).mi (t k).s) +
      solarTide (argsAt (centuries (t k).y (t k).m (t k).d (t k).h (t k).mi (t k).s)) (lon k) (lat k) 0 (hourOfDay (t k).h (t k).mi (t k).s) := by
    obtain ⟨-, gm, gs, hl⟩ := htide k hk
    have ha := longman_args (t k).y (t k).m (t k).d (t k).h (t k).mi (t k).s (t k).us (t k).date (t k).time (lon' k) (lat' k) 0
    have e : longman [lon' k] [lat' k] [(t k).instant] 0 = longman [lon' k] [lat' k] [utcInstant (t k).y (t k).m (t k).d (t k).h (t k).mi (t k).s (t k).us] 0 := rfl
    rw [e, ha] at hl
    simp only [Except.ok.injEq, List.cons.injEq, Option.some.injEq, Prod.mk.injEq, and_true] at hl
    rw [← hl.1, (pos k hk).1, (pos k hk).2]
  unfold exactFaa at h3
  rw [htd, (pos k hk).2, hi, motion_congr (by omega) pos]
  rw [hi] at h3
  push_cast at h3
  have e : (6378137.0 : ℝ) = 6378137 := by norm_num
  rw [e]
  exact h3

/-- **C168.** A ship cruises and its gravimeter reads as in `C165_tables`, once a second.  The fixes and readings are doubles, and so are all steps of the computation.
The anomaly at every reading but the first and the last is gravity less theoretical gravity, within 0.011 mGal, the noise of the reading, and what errors of position of up to
`e + A δ² / 8` degrees can do (`A` as in `C165_tables`). -/
theorem C168_faa (lm : TideLibm) (gl : GoodLib lm) (W : Space → ℝ) (hW : LevelField wgs84A wgs84B wgs84GM wgs84Rate W) (lon lat : ℝ → ℝ) (hc : Cruise lon lat) (A : ℝ) (hA : ∀ u, |iteratedDeriv 2 lon u| ≤ A ∧ |iteratedDeriv 2 lat u| ≤ A)
    (nav : List (ℚ × ℚ × ℚ)) (dgs : List (ℤ × ℚ)) (bias : ℚ) (m : ℕ) (hm : 2 ≤ m) (T : ℕ → ℤ) (x y : ℕ → ℚ) (hT : ∀ i j, i < j → j < m → T i < T j)
    (hM : ∀ i < m, Modern (T i) ∧ |x i| ≤ 359 ∧ |y i| ≤ 89)
    (hv : ∀ i, i + 1 < m → |x (i + 1) - x i| ≤ ((T (i + 1) : ℚ) - T i) / 10 ^ 9 ∧ |y (i + 1) - y i| ≤ ((T (i + 1) : ℚ) - T i) / 10 ^ 9)
    (hnav : nav.Perm (samples (fun i => (timestampF (T i), x i, y i)) m)) (δ e : ℝ) (hδ : ∀ i, i + 1 < m → (T (i + 1) : ℝ) / 1000000 - (T i : ℝ) / 1000000 ≤ δ)
    (hfix : ∀ i < m, |(x i : ℝ) - lon ((T i : ℝ) / 1000000)| ≤ e ∧ |(y i : ℝ) - lat ((T i : ℝ) / 1000000)| ≤ e) (hε : e + A / 8 * δ ^ 2 ≤ 1 / 10000)
    (n : ℕ) (hn : 3 ≤ n) (t : ℕ → Stamp) (r : ℕ → ℚ) (hr : ∀ k < n, |r k + bias| ≤ 1999999) (hdgs : dgs.Perm (samples (fun k => ((t k).instant, r k)) n)) (T₀ : ℝ)
    (heven : ∀ k < n, ((t k).instant : ℝ) / 1000000 = T₀ + k) (hcover : ∀ k < n, T 0 ≤ (t k).instant ∧ (t k).instant ≤ T (m - 1)) :
    ∃ pull : ℕ → ℝ, (∀ k < n, TidePull (lon (T₀ + k)) (lat (T₀ + k)) (t k).instant (pull k)) ∧ ∃ faa : ℕ → ℚ,
      faaPipelineF lm nav dgs bias 1 = .ok (samples (fun k => ((t k).instant, faa k)) n) ∧ ∀ g noise : ℕ → ℝ,
        (∀ k < n, (r k : ℝ) + bias = trueReading lon lat (g k) (pull k) (T₀ + k) + noise k) →
        ∀ k, 1 ≤ k → k + 1 < n → ∃ γ, SurfaceGravity wgs84A wgs84B W (rad (lat (T₀ + k))) (rad (lon (T₀ + k))) γ ∧
          |(faa k : ℝ) - (100000 * (g k - γ) + noise k)| ≤ 0.011 + 4100400 * (e + A / 8 * δ ^ 2) := by
  have hτ : ∀ i j, i < j → j < m → (T i : ℝ) / 1000000 < (T j : ℝ) / 1000000 := fun i j hij hjm => by
    have : (T i : ℝ) < T j := by exact_mod_cast hT i j hij hjm
    linarith
  have hstamp : ∀ k < n, ValidStamp (t k).instant := fun k _ => ⟨(t k).y, (t k).m, (t k).d, (t k).h, (t k).mi, (t k).s, (t k).us, (t k).date, (t k).time, rfl⟩
  have htt : ∀ i j, i < j → j < n → (t i).instant < (t j).instant := by
    intro i j hij hj
    have h1 := heven i (by omega)
    have h2 := heven j hj
    have h3 : (i : ℝ) < j := by exact_mod_cast hij
    have : ((t i).instant : ℝ) < (t j).instant := by linarith
    exact_mod_cast this
  -- positions between the fixes
  have hb : ∀ k, ∃ j, k < n → j + 1 < m ∧ T j ≤ (t k).instant ∧ (t k).instant ≤ T (j + 1) := fun k => by
    by_cases hk : k < n
    · obtain ⟨j, h⟩ := bracket T (t k).instant m hm (hcover k hk).1 (hcover k hk).2
      exact ⟨j, fun _ => h⟩
    · exact ⟨0, fun h => absurd h hk⟩
  choose j hj using hb
  have close : ∀ (f : ℝ → ℝ) (z : ℕ → ℚ), ContDiff ℝ 2 f → (∀ u, |iteratedDeriv 2 f u| ≤ A) → (∀ i < m, |(z i : ℝ) - f ((T i : ℝ) / 1000000)| ≤ e) → ∀ k < n,
      |f (T₀ + k) - (between T z (j k) (t k).instant : ℝ)| ≤ 1 / 10000 := by
    intro f z hf h2 hz k hk
    obtain ⟨j1, j2, j3⟩ := hj k hk
    have p2 : (T (j k) : ℝ) / 1000000 ≤ ((t k).instant : ℝ) / 1000000 := by
      have : (T (j k) : ℝ) ≤ (t k).instant := by exact_mod_cast j2
      linarith
    have p3 : ((t k).instant : ℝ) / 1000000 ≤ (T (j k + 1) : ℝ) / 1000000 := by
      have : ((t k).instant : ℝ) ≤ T (j k + 1) := by exact_mod_cast j3
      linarith
    have := line_close f hf A h2 _ _ (((t k).instant : ℝ) / 1000000) δ e (z (j k)) (z (j k + 1)) p2 p3 (hτ (j k) (j k + 1) (by omega) j1) (hδ _ j1)
      (hz _ (by omega)) (hz _ j1)
    rw [← sub_div, ← sub_div, div_div_div_cancel_right₀ (by norm_num : (1000000 : ℝ) ≠ 0)] at this
    rw [heven k hk] at this
    rw [abs_sub_comm]
    unfold between
    push_cast
    exact this.trans hε
  have clat := close lat y (hc.smoothLat.of_le (by norm_num)) (fun u => (hA u).2) (fun i hi => (hfix i hi).2)
  have clon := close lon x (hc.smoothLon.of_le (by norm_num)) (fun u => (hA u).1) (fun i hi => (hfix i hi).1)
  have hG : ∀ k, k + 2 < n → |rate (fun i => ((between T y (j i) (t i).instant : ℚ) : ℝ)) ((1 : ℚ) : ℝ) (k + 1)| ≤ 9 / 10000 ∧
      |rate (fun i => ((between T x (j i) (t i).instant : ℚ) : ℝ)) ((1 : ℚ) : ℝ) (k + 1)| ≤ 9 / 10000 ∧
      |accel (fun i => ((between T y (j i) (t i).instant : ℚ) : ℝ)) ((1 : ℚ) : ℝ) (k + 1)| ≤ 9 / 10000 := by
    intro k hk
    obtain ⟨a, b, c⟩ := gentle_of hc 1 le_rfl T₀ k
    have l0 := clat k (by omega)
    have l1 := clat (k + 1) (by omega)
    have l2 := clat (k + 2) (by omega)
    have o0 := clon k (by omega)
    have o2 := clon (k + 2) (by omega)
    unfold rate at a b ⊢
    unfold accel at c ⊢
    simp only [show k + 1 - 1 = k by omega, show k + 1 + 1 = k + 2 by omega, div_one, Rat.cast_one, mul_one, one_pow] at a b c ⊢
    rw [abs_le] at a b c l0 l1 l2 o0 o2
    obtain ⟨a1, a2⟩ := a
    obtain ⟨b1, b2⟩ := b
    obtain ⟨c1, c2⟩ := c
    push_cast at l0 l1 l2 o0 o2 a1 a2 b1 b2 c1 c2
    refine ⟨?_, ?_, ?_⟩ <;> rw [abs_le] <;> constructor <;> linarith
  obtain ⟨faa, v, h1, h2, h3⟩ := C168_pipeline lm gl nav dgs bias 1 zero_le_one le_rfl m T x y hT hM hv hnav n hn t r htt hr hdgs j (fun k hk => hj k hk)
    (fun k => between T x (j k) (t k).instant) (fun k => between T y (j k) (t k).instant) (fun _ _ => rfl) (fun _ _ => rfl) hG
  have hd : (dgs.map fun p => (p.1, (p.2 : ℝ))).Perm (samples (fun k => ((t k).instant, (r k : ℝ))) n) := by
    have := hdgs.map fun p => (p.1, (p.2 : ℝ))
    rw [map_samples] at this
    exact this
  obtain ⟨pull, hp, hmain⟩ := C165_tables W hW lon lat hc A hA (samples (fun i => ((T i : ℝ) / 1000000, (x i : ℝ), (y i : ℝ))) m) (dgs.map fun p => (p.1, (p.2 : ℝ))) bias 1 le_rfl
    (fun i => (T i : ℝ) / 1000000) (fun i => (x i : ℝ)) (fun i => (y i : ℝ)) m hm hτ δ e hδ hfix (List.Perm.refl _) (fun k => (t k).instant) (fun k => (r k : ℝ)) n hn hd hstamp T₀
    (fun k hk => by rw [div_one]; exact heven k hk) (fun k hk => by
      obtain ⟨a, b⟩ := hcover k hk
      have a' : (T 0 : ℝ) ≤ (t k).instant := by exact_mod_cast a
      have b' : ((t k).instant : ℝ) ≤ T (m - 1) := by exact_mod_cast b
      constructor <;> beta_reduce <;> linarith) (by linarith)
  simp only [div_one] at hp hmain
  refine ⟨pull, hp, faa, h1, fun g noise hread k ha hb => ?_⟩
  obtain ⟨v', hs, hbound⟩ := hmain g noise hread
  rw [Rat.cast_one, hs] at h2
  have hvv : v' k = v k := by
    have := samples_inj (Except.ok.inj h2) k (by omega)
    simpa using this
  obtain ⟨γ, hγ, h⟩ := hbound k ha hb
  refine ⟨γ, hγ, ?_⟩
  rw [hvv] at h
  have h4 := abs_add_le ((faa k : ℝ) - v k) (v k - (100000 * (g k - γ) + noise k))
  rw [sub_add_sub_cancel] at h4
  have h5 := h3 k (by omega)
  linarith

private theorem surface_unique {W : Space → ℝ} {φ lam γ γ' : ℝ} (h : SurfaceGravity wgs84A wgs84B W φ lam γ) (h' : SurfaceGravity wgs84A wgs84B W φ lam γ') : γ = γ' := by
  have := (uniqueDiffOn_Ici (0 : ℝ) 0 (Set.self_mem_Ici)).eq_deriv _ h h'
  linarith

/-- **C168.** `C166_tables` in double precision, from the tables to the smoothed anomaly: a ship cruises as in `C168_faa`; the anomaly of the earth along its track has second
differences of at most `K` mGal/s², and the readings carry errors of at most `ε` and the accelerations of waves.  The doubles the smoothing returns, 480 samples from the ends
and further inside, are the anomaly of the earth within `1.7 (0.011 + ε)` mGal, the curvature of the anomaly, what is left of the waves, what the errors of position do, and
`1.2e-11` of the largest anomaly in the record. -/
theorem C168_smooth (lm : TideLibm) (gl : GoodLib lm) (fl : FilterLibm) (hg : GoodFilterLib fl.sin fl.cos fl.sum fl.dot)
    (W : Space → ℝ) (hW : LevelField wgs84A wgs84B wgs84GM wgs84Rate W) (lon lat : ℝ → ℝ) (hc : Cruise lon lat) (A : ℝ) (hA : ∀ u, |iteratedDeriv 2 lon u| ≤ A ∧ |iteratedDeriv 2 lat u| ≤ A)
    (nav : List (ℚ × ℚ × ℚ)) (dgs : List (ℤ × ℚ)) (bias : ℚ) (m : ℕ) (hm : 2 ≤ m) (T : ℕ → ℤ) (x y : ℕ → ℚ) (hT : ∀ i j, i < j → j < m → T i < T j)
    (hM : ∀ i < m, Modern (T i) ∧ |x i| ≤ 359 ∧ |y i| ≤ 89)
    (hv : ∀ i, i + 1 < m → |x (i + 1) - x i| ≤ ((T (i + 1) : ℚ) - T i) / 10 ^ 9 ∧ |y (i + 1) - y i| ≤ ((T (i + 1) : ℚ) - T i) / 10 ^ 9)
    (hnav : nav.Perm (samples (fun i => (timestampF (T i), x i, y i)) m)) (δ e : ℝ) (hδ : ∀ i, i + 1 < m → (T (i + 1) : ℝ) / 1000000 - (T i : ℝ) / 1000000 ≤ δ)
    (hfix : ∀ i < m, |(x i : ℝ) - lon ((T i : ℝ) / 1000000)| ≤ e ∧ |(y i : ℝ) - lat ((T i : ℝ) / 1000000)| ≤ e) (hε : e + A / 8 * δ ^ 2 ≤ 1 / 10000)
    (n : ℕ) (hn : 1440 < n) (t : ℕ → Stamp) (r : ℕ → ℚ) (hr : ∀ k < n, |r k + bias| ≤ 1999999) (hdgs : dgs.Perm (samples (fun k => ((t k).instant, r k)) n)) (T₀ : ℝ)
    (heven : ∀ k < n, ((t k).instant : ℝ) / 1000000 = T₀ + k) (hcover : ∀ k < n, T 0 ≤ (t k).instant ∧ (t k).instant ≤ T (m - 1))
    (γ : ℕ → ℝ) (hγ : ∀ k < n, SurfaceGravity wgs84A wgs84B W (rad (lat (T₀ + k))) (rad (lon (T₀ + k))) (γ k)) :
    ∃ pull : ℕ → ℝ, (∀ k < n, TidePull (lon (T₀ + k)) (lat (T₀ + k)) (t k).instant (pull k)) ∧ ∃ faa : ℕ → ℚ,
      faaPipelineF lm nav dgs bias 1 = .ok (samples (fun k => ((t k).instant, faa k)) n) ∧ ∀ (g err : ℕ → ℝ) (ws : List Ripple) (ε K M : ℝ),
        (∀ k, k + 2 < n → |100000 * (g (k + 2) - γ (k + 2)) - 2 * (100000 * (g (k + 1) - γ (k + 1))) + 100000 * (g k - γ k)| ≤ K) →
        (∀ k < n, |err k| ≤ ε) → (∀ w ∈ ws, 2 ≤ w.period) → (∀ k < n, |(faa k : ℝ)| ≤ M) →
        (∀ k < n, (r k : ℝ) + bias = trueReading lon lat (g k) (pull k) (T₀ + k) + (err k + (ws.map fun w => w.value k).sum)) →
        ∃ F : ℕ → ℚ, lowpassScriptF fl 1 (samples faa n) = .ok (samples F n) ∧
          ∀ i, 480 ≤ i → i + 480 < n → |(F i : ℝ) - 100000 * (g i - γ i)| ≤
            1.7 * (0.011 + ε + 4100400 * (e + A / 8 * δ ^ 2)) + 14300 * K + (ws.map fun w => |w.amp| * (w.period / 94) ^ 6).sum + 1.2e-11 * M := by
  obtain ⟨pull, hp, faa, h1, h2⟩ := C168_faa lm gl W hW lon lat hc A hA nav dgs bias m hm T x y hT hM hv hnav δ e hδ hfix hε n (by omega) t r hr hdgs T₀ heven hcover
  refine ⟨pull, hp, faa, h1, fun g err ws ε K M hK he hw hMx hread => ?_⟩
  have h3 := h2 g (fun k => err k + (ws.map fun w => w.value k).sum) hread
  obtain ⟨F, hF, hb⟩ := C167_filter fl hg n hn faa (fun k => 100000 * (g k - γ k)) (fun k => (faa k : ℝ) - 100000 * (g k - γ k) - (ws.map fun w => w.value k).sum) ws
    (0.011 + ε + 4100400 * (e + A / 8 * δ ^ 2)) K M (fun k _ => by ring) hMx hK (fun k a b => by
      obtain ⟨γ', hγ', h⟩ := h3 k a b
      rw [surface_unique hγ' (hγ k (by omega))] at h
      have h4 := he k (by omega)
      have h5 := abs_add_le ((faa k : ℝ) - (100000 * (g k - γ k) + (err k + (ws.map fun w => w.value k).sum))) (err k)
      rw [show (faa k : ℝ) - (100000 * (g k - γ k) + (err k + (ws.map fun w => w.value k).sum)) + err k = (faa k : ℝ) - 100000 * (g k - γ k) - (ws.map fun w => w.value k).sum by
        ring] at h5
      linarith) hw
  exact ⟨F, hF, hb⟩

/-! ### Non-vacuity -/

private def hourStamp (k : ℕ) : Stamp := ⟨2022, 3, 13, 0, (k / 60 % 60 : ℕ), (k % 60 : ℕ), 500000, by decide, ⟨by norm_num, by norm_num, by omega, by omega, by omega, by omega, by norm_num, by norm_num⟩,
  by norm_num, by norm_num⟩

private theorem hourStamp_instant (k : ℕ) (hk : k < 3600) : (hourStamp k).instant = 1647129600500000 + 1000000 * k := by
  show ((dayNumber 2022 3 13 : ℤ) - dayNumber 1970 1 1) * 86400000000 + (0 * 3600000000 + ((k / 60 % 60 : ℕ) : ℤ) * 60000000 + ((k % 60 : ℕ) : ℤ) * 1000000 + 500000) = _
  have e : dayNumber 1970 1 1 = 719163 := by rw [← ymd2ord_eq _ _ _ (by norm_num) (by norm_num) (by norm_num)]; decide +kernel
  have e' : dayNumber 2022 3 13 = 738227 := by rw [← ymd2ord_eq _ _ _ (by norm_num) (by norm_num) (by norm_num)]; decide +kernel
  rw [e, e']
  push_cast
  omega

private theorem steady (c : ℝ) : ContDiff ℝ 4 (fun u : ℝ => c + (u - 1647129600) / 20000) ∧ (deriv fun u : ℝ => c + (u - 1647129600) / 20000) = (fun _ => 1 / 20000) ∧
    ∀ (j : ℕ) (s : ℝ), iteratedDeriv (j + 2) (fun u : ℝ => c + (u - 1647129600) / 20000) s = 0 := by
  have d1 : (deriv fun u : ℝ => c + (u - 1647129600) / 20000) = (fun _ => 1 / 20000) := funext fun s => by
    have : HasDerivAt (fun u : ℝ => c + (u - 1647129600) / 20000) (1 / 20000) s := (((hasDerivAt_id s).sub_const 1647129600).div_const 20000).const_add c
    exact this.deriv
  refine ⟨contDiff_const.add ((contDiff_id.sub contDiff_const).div_const _), d1, fun j s => ?_⟩
  rw [iteratedDeriv_succ', d1, iteratedDeriv_succ', deriv_const']
  simp

private theorem steady_cruise : Cruise (fun u : ℝ => 150 + (u - 1647129600) / 20000) (fun u : ℝ => -33 + (u - 1647129600) / 20000) := by
  obtain ⟨a1, a2, a3⟩ := steady 150
  obtain ⟨b1, b2, b3⟩ := steady (-33)
  refine ⟨b1.of_le (by norm_num), a1.of_le (by norm_num), ?_, ?_, ?_, ?_, ?_, ?_, ?_⟩
  · intro s; rw [b2]; norm_num
  · intro s; rw [a2]; norm_num
  · intro s; rw [b3 0]; norm_num
  · intro s; rw [a3 0]; norm_num
  · intro s; rw [b3 1]; norm_num
  · intro s; rw [a3 1]; norm_num
  · intro s; rw [b3 2]; norm_num

/-- An hour at about 11 m/s to the north-east, 3601 fixes and 3600 readings, one a second, both tables in reverse order: `C168_smooth` applies. -/
example (W : Space → ℝ) (hW : LevelField wgs84A wgs84B wgs84GM wgs84Rate W) : ∃ (lm : TideLibm) (faa : ℕ → ℚ),
    faaPipelineF lm (samples (fun i => (timestampF (1647129600000000 + 1000000 * i), 150 + (i : ℚ) / 20000, -33 + (i : ℚ) / 20000)) 3601).reverse
      (samples (fun k => ((hourStamp k).instant, (100 : ℚ))) 3600).reverse 979000 1 = .ok (samples (fun k => ((hourStamp k).instant, faa k)) 3600) := by
  obtain ⟨lm, gl⟩ := goodLib_exists
  obtain ⟨fl, hg⟩ := goodFilterLib_exists
  obtain ⟨n, hn⟩ : ∃ n, n = 3600 := ⟨_, rfl⟩
  have hcast : ∀ (q : ℚ) (i : ℕ), ((q + (i : ℚ) / 20000 : ℚ) : ℝ) = (q : ℝ) + ((((1647129600000000 + 1000000 * (i : ℤ) : ℤ) : ℝ) / 1000000) - 1647129600) / 20000 := fun q i => by
    push_cast; ring
  have h := C168_smooth lm gl fl hg W hW _ _ steady_cruise 0
    (fun u => ⟨(abs_eq_zero.2 ((steady 150).2.2 0 u)).le, (abs_eq_zero.2 ((steady (-33)).2.2 0 u)).le⟩)
    (samples (fun i => (timestampF (1647129600000000 + 1000000 * i), 150 + (i : ℚ) / 20000, -33 + (i : ℚ) / 20000)) (n + 1)).reverse
    (samples (fun k => ((hourStamp k).instant, (100 : ℚ))) n).reverse 979000 (n + 1) (by omega) (fun i => 1647129600000000 + 1000000 * i) (fun i => 150 + (i : ℚ) / 20000)
    (fun i => -33 + (i : ℚ) / 20000) (fun i j h _ => by omega)
    (fun i hi => by
      have h : (i : ℚ) ≤ 3600 := by exact_mod_cast (by omega : i ≤ 3600)
      have h0 : (0 : ℚ) ≤ i := by positivity
      refine ⟨by unfold Modern; rw [abs_le]; omega, ?_, ?_⟩ <;> · rw [abs_le]; constructor <;> linarith)
    (fun i _ => by
      push_cast
      constructor
      · rw [show (150 : ℚ) + (i + 1) / 20000 - (150 + i / 20000) = 1 / 20000 by ring]; norm_num [abs_le]; linarith
      · rw [show (-33 : ℚ) + (i + 1) / 20000 - (-33 + i / 20000) = 1 / 20000 by ring]; norm_num [abs_le]; linarith)
    (List.reverse_perm _) 1 0 (fun i _ => by push_cast; linarith)
    (fun i _ => by
      beta_reduce
      rw [hcast, hcast]
      constructor <;> simp) (by norm_num) n (by omega) hourStamp (fun _ => 100) (fun k _ => by norm_num [abs_le]) (List.reverse_perm _) 1647129600.5
    (fun k hk => by rw [hourStamp_instant k (by omega)]; push_cast; ring)
    (fun k hk => by
      rw [hourStamp_instant k (by omega)]
      constructor <;> push_cast <;> omega)
    _ (fun k _ => (normal_true W hW _ _).choose_spec.1)
  obtain ⟨pull, -, faa, h1, -⟩ := h
  rw [hn] at h1
  exact ⟨lm, faa, h1⟩

end Shipgrav
