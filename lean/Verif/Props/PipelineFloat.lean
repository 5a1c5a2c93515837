import Verif.Props.SyncFloat
import Verif.Props.FreeAirFloat
import Verif.Props.Sensitivity

/-! C138: from the tables of the readers to the free-air anomaly in double precision. -/

namespace Shipgrav
open Spec Real

/-! ### Helpers -/

private theorem map_samples {α β : Type} (f : α → β) (x : ℕ → α) (n : ℕ) : (samples x n).map f = samples (fun i => f (x i)) n := by
  unfold samples
  rw [List.map_map]; rfl

private theorem zip_samples {α β : Type} (x : ℕ → α) (y : ℕ → β) (n : ℕ) : (samples x n).zip (samples y n) = samples (fun i => (x i, y i)) n := by
  unfold samples
  rw [List.zip_map']

private theorem sort_samples {κ β : Type} [LinearOrder κ] (rows : List (κ × β)) (t : ℕ → κ) (f : ℕ → β) (n : ℕ) (ht : ∀ i j, i < j → j < n → t i < t j)
    (hp : rows.Perm (samples (fun k => (t k, f k)) n)) : sortValuesF Prod.fst rows = samples (fun k => (t k, f k)) n := by
  have ho : (samples (fun k => (t k, f k)) n).Pairwise fun a b => a.1 < b.1 := by
    unfold samples
    rw [List.pairwise_map]
    refine List.Pairwise.imp_of_mem ?_ (List.pairwise_lt_range (n := n))
    intro a b _ hb hab
    exact ht a b hab (by simpa using hb)
  have hs : (sortValuesF Prod.fst rows).Pairwise fun a b => a.1 ≤ b.1 := by
    have := List.pairwise_mergeSort (le := fun (a b : κ × β) => decide (a.1 ≤ b.1)) (fun a b c h1 h2 => by
      simp only [decide_eq_true_eq] at *; exact le_trans h1 h2) (fun a b => by
      simp only [Bool.or_eq_true, decide_eq_true_eq]; exact le_total _ _) rows
    unfold sortValuesF
    exact this.imp fun h => by simpa using h
  have hperm : (sortValuesF Prod.fst rows).Perm (samples (fun k => (t k, f k)) n) := (List.mergeSort_perm _ _).trans hp
  apply List.Perm.eq_of_pairwise (le := fun a b => a.1 ≤ b.1) ?_ hs (ho.imp le_of_lt) hperm
  intro a b ha hb h1 h2
  have ha' := hperm.mem_iff.1 ha
  unfold samples at ha' hb
  obtain ⟨i, hi, rfl⟩ := List.mem_map.1 ha'
  obtain ⟨j, hj, rfl⟩ := List.mem_map.1 hb
  have hk : t i = t j := le_antisymm h1 h2
  have : i = j := by
    rcases Nat.lt_trichotomy i j with h | h | h
    · exact absurd (ht i j h (List.mem_range.1 hj)) (by rw [hk]; exact lt_irrefl _)
    · exact h
    · exact absurd (ht j i h (List.mem_range.1 hi)) (by rw [hk]; exact lt_irrefl _)
  rw [this]

private theorem stamp_modern (x : Stamp) : Modern x.instant := by
  obtain ⟨d1, d2⟩ := days_range x.y x.m x.d x.date x.after x.before
  obtain ⟨t1, t2, t3, t4, t5, t6, t7, t8⟩ := x.time
  have e : dayNumber 1970 1 1 = 719163 := by rw [← ymd2ord_eq _ _ _ (by norm_num) (by norm_num) (by norm_num)]; decide +kernel
  unfold Modern Stamp.instant utcInstant usOfDay dayUs
  rw [e, abs_le]
  generalize dayNumber x.y x.m x.d = n at *
  constructor <;> · norm_num; omega

/-- The line through the fixes `j` and `j + 1`, at the instant `t`. -/
def Spec.between (T : ℕ → ℤ) (y : ℕ → ℚ) (j : ℕ) (t : ℤ) : ℚ := y j + (y (j + 1) - y j) * (((t : ℚ) - T j) / (T (j + 1) - T j))

theorem between_le {T : ℕ → ℤ} {y : ℕ → ℚ} {j : ℕ} {t : ℤ} {Y : ℚ} (h : T j < T (j + 1)) (h0 : T j ≤ t) (h1 : t ≤ T (j + 1)) (y0 : |y j| ≤ Y) (y1 : |y (j + 1)| ≤ Y) :
    |between T y j t| ≤ Y := by
  unfold between
  have h' : (T j : ℚ) < T (j + 1) := by exact_mod_cast h
  have h0' : (T j : ℚ) ≤ t := by exact_mod_cast h0
  have h1' : (t : ℚ) ≤ T (j + 1) := by exact_mod_cast h1
  have q0 : 0 ≤ ((t : ℚ) - T j) / (T (j + 1) - T j) := div_nonneg (by linarith) (by linarith)
  have q1 : ((t : ℚ) - T j) / (T (j + 1) - T j) ≤ 1 := by rw [div_le_one (by linarith)]; linarith
  generalize ((t : ℚ) - T j) / (T (j + 1) - T j) = q at *
  rw [abs_le] at *
  constructor <;> nlinarith

private theorem grow {x y c e : ℝ} (h : |x - y| ≤ e) (hy : |y| ≤ c) : |x| ≤ c + e := by
  have : x = y + (x - y) := by ring
  rw [this]
  exact (abs_add_le _ _).trans (add_le_add hy h)

/-- The chain of steps, with positions and readings that differ a little from those in the tables. -/
theorem pipeline_args (lm : TideLibm) (g : GoodLib lm) (nav : List (ℚ × ℚ × ℚ)) (dgs : List (ℤ × ℚ)) (bias samp : ℚ) (hs : 0 ≤ samp) (hS : samp ≤ 1)
    (m : ℕ) (T : ℕ → ℤ) (x y : ℕ → ℚ) (hT : ∀ i j, i < j → j < m → T i < T j) (hM : ∀ i < m, Modern (T i) ∧ |x i| ≤ 359 ∧ |y i| ≤ 89)
    (hv : ∀ i, i + 1 < m → |x (i + 1) - x i| ≤ ((T (i + 1) : ℚ) - T i) / 10 ^ 9 ∧ |y (i + 1) - y i| ≤ ((T (i + 1) : ℚ) - T i) / 10 ^ 9)
    (hnav : nav.Perm (samples (fun i => (timestampF (T i), x i, y i)) m))
    (n : ℕ) (hn : 3 ≤ n) (t : ℕ → Stamp) (r v : ℕ → ℚ) (ht : ∀ i j, i < j → j < n → (t i).instant < (t j).instant) (hr : ∀ k < n, |r k + bias| ≤ 1999999 ∧ |r k - v k| ≤ 1e-9)
    (hdgs : dgs.Perm (samples (fun k => ((t k).instant, r k)) n))
    (j : ℕ → ℕ) (hj : ∀ k < n, j k + 1 < m ∧ T (j k) ≤ (t k).instant ∧ (t k).instant ≤ T (j k + 1))
    (lon lat : ℕ → ℚ) (hlon : ∀ k < n, |between T x (j k) (t k).instant - lon k| ≤ 2e-12) (hlat : ∀ k < n, |between T y (j k) (t k).instant - lat k| ≤ 2e-12)
    (hG : ∀ k, k + 2 < n → |rate (fun i => lat i) samp (k + 1)| ≤ 9 / 10000 ∧ |rate (fun i => lon i) samp (k + 1)| ≤ 9 / 10000 ∧
      |accel (fun i => lat i) samp (k + 1)| ≤ 9 / 10000) :
    ∃ faa : ℕ → ℚ, faaPipelineF lm nav dgs bias samp = .ok (samples (fun k => ((t k).instant, faa k)) n) ∧
      ∀ k < n, |(faa k : ℝ) - exactFaa n (fun k => v k + bias) lon lat samp (argsAt (centuries (t k).y (t k).m (t k).d (t k).h (t k).mi (t k).s)) (hourOfDay (t k).h (t k).mi (t k).s) k| ≤ 6e-3 := by
  have hF : ∀ i j, i < j → j < m → timestampF (T i) < timestampF (T j) := fun i j hij hj => timestampF_lt (hM i (by omega)).1 (hM j hj).1 (hT i j hij hj)
  obtain ⟨lonF, hlonF⟩ : ∃ f : ℕ → ℚ, f = fun k => interp1dF (samples (fun i => timestampF (T i)) m) (samples x m) (timestampF (t k).instant) := ⟨_, rfl⟩
  obtain ⟨latF, hlatF⟩ : ∃ f : ℕ → ℚ, f = fun k => interp1dF (samples (fun i => timestampF (T i)) m) (samples y m) (timestampF (t k).instant) := ⟨_, rfl⟩
  obtain ⟨gF, hgF⟩ : ∃ f : ℕ → ℚ, f = fun k => toDouble (r k + bias) := ⟨_, rfl⟩
  have pos : ∀ (z : ℕ → ℚ), (∀ i < m, |z i| ≤ 359) → (∀ i, i + 1 < m → |z (i + 1) - z i| ≤ ((T (i + 1) : ℚ) - T i) / 10 ^ 9) → ∀ k < n,
      |interp1dF (samples (fun i => timestampF (T i)) m) (samples z m) (timestampF (t k).instant) - between T z (j k) (t k).instant| ≤ 9.55e-10 := by
    intro z hz hz' k hk
    obtain ⟨j1, j2, j3⟩ := hj k hk
    have := C136_position T z m hT (fun i hi => (hM i hi).1) 359 hz (t k).instant (stamp_modern _) (j k) j1 j2 j3 (1 / 1000)
      ((hz' _ j1).trans (le_of_eq (by ring)))
    refine this.trans ?_
    norm_num
  have plon : ∀ k < n, |lonF k - lon k| ≤ 9.57e-10 := fun k hk => by
    rw [hlonF]
    have h1 := pos x (fun i hi => (hM i hi).2.1) (fun i hi => (hv i hi).1) k hk
    exact ((abs_sub_le _ _ _).trans (add_le_add h1 (hlon k hk))).trans (by norm_num)
  have plat : ∀ k < n, |latF k - lat k| ≤ 9.57e-10 := fun k hk => by
    rw [hlatF]
    have h1 := pos y (fun i hi => (hM i hi).2.2.trans (by norm_num)) (fun i hi => (hv i hi).2) k hk
    exact ((abs_sub_le _ _ _).trans (add_le_add h1 (hlat k hk))).trans (by norm_num)
  have blon : ∀ k < n, |lon k| ≤ 359.1 := fun k hk => by
    obtain ⟨j1, j2, j3⟩ := hj k hk
    have h1 := between_le (y := x) (hT _ _ (by omega) j1) j2 j3 (hM _ (by omega)).2.1 (hM _ j1).2.1
    have h2 := hlon k hk
    rw [abs_sub_comm] at h2
    have := abs_add_le (lon k - between T x (j k) (t k).instant) (between T x (j k) (t k).instant)
    rw [sub_add_cancel] at this
    exact (this.trans (add_le_add h2 h1)).trans (by norm_num)
  have blat : ∀ k < n, |lat k| ≤ 89.1 := fun k hk => by
    obtain ⟨j1, j2, j3⟩ := hj k hk
    have h1 := between_le (y := y) (hT _ _ (by omega) j1) j2 j3 (hM _ (by omega)).2.2 (hM _ j1).2.2
    have h2 := hlat k hk
    rw [abs_sub_comm] at h2
    have := abs_add_le (lat k - between T y (j k) (t k).instant) (between T y (j k) (t k).instant)
    rw [sub_add_cancel] at this
    exact (this.trans (add_le_add h2 h1)).trans (by norm_num)
  have rlon : ∀ k < n, |(lonF k : ℝ) - lon k| ≤ 9.57e-10 := fun k hk => by
    have := plon k hk
    rw [← Rat.cast_sub, ← Rat.cast_abs]
    have h2 : ((|lonF k - lon k| : ℚ) : ℝ) ≤ ((9.57e-10 : ℚ) : ℝ) := by exact_mod_cast this
    refine h2.trans ?_
    norm_num
  have rlat : ∀ k < n, |(latF k : ℝ) - lat k| ≤ 9.57e-10 := fun k hk => by
    have := plat k hk
    rw [← Rat.cast_sub, ← Rat.cast_abs]
    have h2 : ((|latF k - lat k| : ℚ) : ℝ) ≤ ((9.57e-10 : ℚ) : ℝ) := by exact_mod_cast this
    refine h2.trans ?_
    norm_num
  have s0 : (0 : ℝ) ≤ samp := by exact_mod_cast hs
  have s1 : (samp : ℝ) ≤ 1 := by exact_mod_cast hS
  have s2 : (samp : ℝ) ^ 2 ≤ 1 := pow_le_one₀ s0 s1
  -- rates of the computed positions
  have dr : ∀ (p q : ℕ → ℚ) (k : ℕ), (∀ i < n, |(p i : ℝ) - q i| ≤ 9.57e-10) → k + 2 < n →
      |rate (fun i => (p i : ℝ)) samp (k + 1) - rate (fun i => (q i : ℝ)) samp (k + 1)| ≤ 9.57e-10 := by
    intro p q k h hk
    have e : rate (fun i => (p i : ℝ)) samp (k + 1) - rate (fun i => (q i : ℝ)) samp (k + 1) = (((p (k + 2) : ℝ) - q (k + 2)) - ((p k : ℝ) - q k)) / 2 * samp := by
      unfold rate
      rw [show k + 1 + 1 = k + 2 by omega, show k + 1 - 1 = k by omega]
      ring
    rw [e, abs_mul, abs_of_nonneg s0]
    have h0 := h k (by omega)
    have h2 := h (k + 2) hk
    have : |(((p (k + 2) : ℝ) - q (k + 2)) - ((p k : ℝ) - q k)) / 2| ≤ 9.57e-10 := by
      rw [abs_le] at *
      constructor <;> linarith
    calc _ ≤ 9.57e-10 * (1 : ℝ) := mul_le_mul this s1 s0 (by norm_num)
      _ = _ := by norm_num
  have da : ∀ k : ℕ, k + 2 < n → |accel (fun i => (latF i : ℝ)) samp (k + 1) - accel (fun i => (lat i : ℝ)) samp (k + 1)| ≤ 4e-9 := by
    intro k hk
    have e : accel (fun i => (latF i : ℝ)) samp (k + 1) - accel (fun i => (lat i : ℝ)) samp (k + 1) =
        (((latF (k + 2) : ℝ) - lat (k + 2)) - 2 * ((latF (k + 1) : ℝ) - lat (k + 1)) + ((latF k : ℝ) - lat k)) * (samp : ℝ) ^ 2 := by
      unfold accel
      rw [show k + 1 + 1 = k + 2 by omega, show k + 1 - 1 = k by omega]
      ring
    rw [e, abs_mul, abs_of_nonneg (sq_nonneg (samp : ℝ))]
    have h0 := rlat k (by omega)
    have h1 := rlat (k + 1) (by omega)
    have h2 := rlat (k + 2) hk
    have : |((latF (k + 2) : ℝ) - lat (k + 2)) - 2 * ((latF (k + 1) : ℝ) - lat (k + 1)) + ((latF k : ℝ) - lat k)| ≤ 4e-9 := by
      rw [abs_le] at *
      constructor <;> · norm_num at *; linarith
    calc _ ≤ 4e-9 * (1 : ℝ) := mul_le_mul this s2 (sq_nonneg _) (by norm_num)
      _ = _ := by norm_num
  have gF1 : ∀ k, k + 2 < n → |rate (fun i => (latF i : ℝ)) samp (k + 1)| ≤ 1 / 1000 ∧ |rate (fun i => (lonF i : ℝ)) samp (k + 1)| ≤ 1 / 1000 ∧
      |accel (fun i => (latF i : ℝ)) samp (k + 1)| ≤ 1 / 1000 := by
    intro k hk
    obtain ⟨g1, g2, g3⟩ := hG k hk
    exact ⟨(grow (dr _ _ k rlat hk) g1).trans (by norm_num), (grow (dr _ _ k rlon hk) g2).trans (by norm_num), (grow (da k hk) g3).trans (by norm_num)⟩
  have mod : Moderate lonF latF (fun _ => 0) samp n := by
    refine ⟨fun k hk => ⟨?_, ?_, by norm_num⟩, fun k hk => ?_⟩
    · have := abs_add_le (latF k - lat k) (lat k)
      rw [sub_add_cancel] at this
      refine this.trans ((add_le_add (plat k hk) (blat k hk)).trans (by norm_num))
    · have := abs_add_le (lonF k - lon k) (lon k)
      rw [sub_add_cancel] at this
      refine this.trans ((add_le_add (plon k hk) (blon k hk)).trans (by norm_num))
    · obtain ⟨g1, g2, g3⟩ := gF1 k hk
      unfold rate at g1 g2
      unfold accel at g3
      rw [show k + 1 + 1 = k + 2 by omega, show k + 1 - 1 = k by omega] at g1 g2 g3
      beta_reduce at g1 g2 g3
      have c1 : |(latF (k + 2) - latF k) / 2 * samp| ≤ 1 / 1000 := by
        have : ((|(latF (k + 2) - latF k) / 2 * samp| : ℚ) : ℝ) ≤ ((1 / 1000 : ℚ) : ℝ) := by push_cast; exact g1
        exact_mod_cast this
      have c2 : |(lonF (k + 2) - lonF k) / 2 * samp| ≤ 1 / 1000 := by
        have : ((|(lonF (k + 2) - lonF k) / 2 * samp| : ℚ) : ℝ) ≤ ((1 / 1000 : ℚ) : ℝ) := by push_cast; exact g2
        exact_mod_cast this
      have c3 : |(latF (k + 2) - 2 * latF (k + 1) + latF k) * samp ^ 2| ≤ 1 / 1000 := by
        have : ((|(latF (k + 2) - 2 * latF (k + 1) + latF k) * samp ^ 2| : ℚ) : ℝ) ≤ ((1 / 1000 : ℚ) : ℝ) := by push_cast; exact g3
        exact_mod_cast this
      refine ⟨?_, ?_, ?_⟩
      · rw [show (latF (k + 2) - latF k) * (samp / 2) = (latF (k + 2) - latF k) / 2 * samp by ring]
        exact c1.trans (by norm_num)
      · rw [show (lonF (k + 2) - lonF k) * (samp / 2) = (lonF (k + 2) - lonF k) / 2 * samp by ring]
        exact c2.trans (by norm_num)
      · rw [show (latF k - 2 * latF (k + 1) + latF (k + 2)) * samp ^ 2 = (latF (k + 2) - 2 * latF (k + 1) + latF k) * samp ^ 2 by ring]
        exact c3
  have gerr : ∀ k < n, |(gF k : ℝ) - ((v k + bias : ℚ) : ℝ)| ≤ 2e-9 ∧ |gF k| ≤ 2000000 := by
    intro k hk
    have e := toDouble_rounds.rel (r k + bias)
    have e' : |r k + bias - gF k| ≤ 1e-9 := by
      rw [hgF]
      refine e.trans ((div_le_div_of_nonneg_right (hr k hk).1 (by norm_num)).trans ?_)
      norm_num
    rw [abs_sub_comm] at e'
    constructor
    · have e2 : |gF k - (v k + bias)| ≤ 2e-9 := by
        have := abs_add_le (gF k - (r k + bias)) (r k - v k)
        rw [show gF k - (r k + bias) + (r k - v k) = gF k - (v k + bias) by ring] at this
        exact (this.trans (add_le_add e' (hr k hk).2)).trans (by norm_num)
      rw [← Rat.cast_sub, ← Rat.cast_abs]
      have h2 : ((|gF k - (v k + bias)| : ℚ) : ℝ) ≤ ((2e-9 : ℚ) : ℝ) := by exact_mod_cast e2
      refine h2.trans ?_
      norm_num
    · have := abs_add_le (gF k - (r k + bias)) (r k + bias)
      rw [sub_add_cancel] at this
      exact this.trans ((add_le_add e' (hr k hk).1).trans (by norm_num))
  obtain ⟨faa, full, h1, h2⟩ := faaF_near lm g n hn gF lonF latF t samp hs hS (fun k hk => (gerr k hk).2) mod
  refine ⟨faa, ?_, ?_⟩
  · unfold faaPipelineF
    rw [sort_samples nav _ _ m hF hnav, sort_samples dgs _ _ n ht hdgs]
    simp only [map_samples, syncScriptF]
    rw [hgF, hlonF, hlatF] at h1
    rw [h1]
    simp only [zip_samples]
  · intro k hk
    obtain ⟨w2, -⟩ := h2 k hk
    have w1 := near_schureman (centuries (t k).y (t k).m (t k).d (t k).h (t k).mi (t k).s)
    obtain ⟨a, hae⟩ : ∃ a : ℕ → Astro, argsAt (centuries (t k).y (t k).m (t k).d (t k).h (t k).mi (t k).s) = a k := ⟨fun _ => _, rfl⟩
    rw [hae] at w1 w2 ⊢
    have e1 : 0 ≤ (a k).e1 ∧ (a k).e1 ≤ 0.018 := by
      obtain ⟨r1, r2⟩ := centuries_range _ _ _ _ _ _ _ (t k).date (t k).time
      have ee : (a k).e1 = tideE1 (centuries (t k).y (t k).m (t k).d (t k).h (t k).mi (t k).s) := by rw [w1.e1]; unfold tideE1; norm_num; ring
      rw [ee]
      exact e1_range _ r1 r2
    obtain ⟨p1, p2⟩ := place_pert (rlat k hk) (rlon k hk)
    have p3 := p2 (a k) (hourOfDay (t k).h (t k).mi (t k).s) e1.1 e1.2
    obtain ⟨i, hi⟩ : ∃ i, min (max k 1) (n - 2) = i + 1 := ⟨min (max k 1) (n - 2) - 1, by omega⟩
    have hin : i + 2 < n := by omega
    obtain ⟨g1, g2, g3⟩ := hG i hin
    obtain ⟨g1', g2', g3'⟩ := gF1 i hin
    have p4 := motion_pert (lon := fun k => (lonF k : ℝ)) (lat := fun k => (latF k : ℝ)) (lon' := fun k => (lon k : ℝ)) (lat' := fun k => (lat k : ℝ)) s0
      (fun j _ hj => ⟨rlat j (by omega), rlon j (by omega)⟩) g1' g2' g3' (g1.trans (by norm_num)) (g2.trans (by norm_num)) (g3.trans (by norm_num))
    have p5 : |eotvos 6378137 6356752.3142 (motionAt (fun k => (lonF k : ℝ)) (fun k => (latF k : ℝ)) (fun _ => 0) samp (i + 1)) -
        eotvos 6378137 6356752.3142 (motionAt (fun k => (lon k : ℝ)) (fun k => (lat k : ℝ)) (fun _ => 0) samp (i + 1))| ≤ 3.95e-3 := by
      refine p4.trans ?_
      have : (1.6e6 * (samp : ℝ) ^ 2 + 2.5e6 * samp + 175) ≤ 4100175 := by norm_num; linarith only [s1, s2]
      refine (mul_le_mul_of_nonneg_left this (by norm_num)).trans (by norm_num)
    have p6 := (gerr k hk).1
    unfold exactFaa at w2 ⊢
    rw [hi] at w2 ⊢
    generalize eotvos 6378137 6356752.3142 (motionAt (fun k => (lonF k : ℝ)) (fun k => (latF k : ℝ)) (fun _ => 0) samp (i + 1)) = E at *
    generalize eotvos 6378137 6356752.3142 (motionAt (fun k => (lon k : ℝ)) (fun k => (lat k : ℝ)) (fun _ => 0) samp (i + 1)) = E' at *
    generalize lunarTide (a k) (lonF k) (latF k) 0 (hourOfDay (t k).h (t k).mi (t k).s) + solarTide (a k) (lonF k) (latF k) 0 (hourOfDay (t k).h (t k).mi (t k).s) = t1 at *
    generalize lunarTide (a k) (lon k) (lat k) 0 (hourOfDay (t k).h (t k).mi (t k).s) + solarTide (a k) (lon k) (lat k) 0 (hourOfDay (t k).h (t k).mi (t k).s) = t2 at *
    generalize normalGravity (latF k) = n1 at *
    generalize normalGravity (lat k) = n2 at *
    generalize ((v k + bias : ℚ) : ℝ) = R at *
    rw [abs_le] at *
    obtain ⟨a1, a2⟩ := w2
    obtain ⟨b1, b2⟩ := p1
    obtain ⟨c1, c2⟩ := p3
    obtain ⟨d1, d2⟩ := p5
    obtain ⟨f1, f2⟩ := p6
    constructor
    · norm_num at *
      linarith only [a1, a2, b1, b2, c1, c2, d1, d2, f1, f2]
    · norm_num at *
      linarith only [a1, a2, b1, b2, c1, c2, d1, d2, f1, f2]

/-- The same, for some arguments near those of Schureman. -/
theorem pipeline_near (lm : TideLibm) (g : GoodLib lm) (nav : List (ℚ × ℚ × ℚ)) (dgs : List (ℤ × ℚ)) (bias samp : ℚ) (hs : 0 ≤ samp) (hS : samp ≤ 1)
    (m : ℕ) (T : ℕ → ℤ) (x y : ℕ → ℚ) (hT : ∀ i j, i < j → j < m → T i < T j) (hM : ∀ i < m, Modern (T i) ∧ |x i| ≤ 359 ∧ |y i| ≤ 89)
    (hv : ∀ i, i + 1 < m → |x (i + 1) - x i| ≤ ((T (i + 1) : ℚ) - T i) / 10 ^ 9 ∧ |y (i + 1) - y i| ≤ ((T (i + 1) : ℚ) - T i) / 10 ^ 9)
    (hnav : nav.Perm (samples (fun i => (timestampF (T i), x i, y i)) m))
    (n : ℕ) (hn : 3 ≤ n) (t : ℕ → Stamp) (r v : ℕ → ℚ) (ht : ∀ i j, i < j → j < n → (t i).instant < (t j).instant) (hr : ∀ k < n, |r k + bias| ≤ 1999999 ∧ |r k - v k| ≤ 1e-9)
    (hdgs : dgs.Perm (samples (fun k => ((t k).instant, r k)) n))
    (j : ℕ → ℕ) (hj : ∀ k < n, j k + 1 < m ∧ T (j k) ≤ (t k).instant ∧ (t k).instant ≤ T (j k + 1))
    (lon lat : ℕ → ℚ) (hlon : ∀ k < n, |between T x (j k) (t k).instant - lon k| ≤ 2e-12) (hlat : ∀ k < n, |between T y (j k) (t k).instant - lat k| ≤ 2e-12)
    (hG : ∀ k, k + 2 < n → |rate (fun i => lat i) samp (k + 1)| ≤ 9 / 10000 ∧ |rate (fun i => lon i) samp (k + 1)| ≤ 9 / 10000 ∧
      |accel (fun i => lat i) samp (k + 1)| ≤ 9 / 10000) :
    ∃ (faa : ℕ → ℚ) (a : ℕ → Astro), faaPipelineF lm nav dgs bias samp = .ok (samples (fun k => ((t k).instant, faa k)) n) ∧
      ∀ k < n, NearSchureman (centuries (t k).y (t k).m (t k).d (t k).h (t k).mi (t k).s) (a k) ∧
        |(faa k : ℝ) - exactFaa n (fun k => v k + bias) lon lat samp (a k) (hourOfDay (t k).h (t k).mi (t k).s) k| ≤ 6e-3 := by
  obtain ⟨faa, h1, h2⟩ := pipeline_args lm g nav dgs bias samp hs hS m T x y hT hM hv hnav n hn t r v ht hr hdgs j hj lon lat hlon hlat hG
  exact ⟨faa, _, h1, fun k hk => ⟨near_schureman _, h2 k hk⟩⟩

/-! ### C138 -/

/-- **C138.** Navigation rows of the readers in any order, with the time of each fix in double precision seconds, and gravimeter rows in any order are sorted,
brought together and turned into anomalies.  The result has one row for each reading, in the order of time; its anomaly is within 6e-3 mGal of the exact
anomaly at the position of the ship at that instant, which is on the straight line through the fixes `j k` and `j k + 1` before and after the reading.
The ship moves by at most a thousandth of a degree per second between fixes (`hv`) and by at most nine ten-thousandths between readings (`hG`). -/
theorem C138_pipeline (lm : TideLibm) (g : GoodLib lm) (nav : List (ℚ × ℚ × ℚ)) (dgs : List (ℤ × ℚ)) (bias samp : ℚ) (hs : 0 ≤ samp) (hS : samp ≤ 1)
    (m : ℕ) (T : ℕ → ℤ) (x y : ℕ → ℚ) (hT : ∀ i j, i < j → j < m → T i < T j) (hM : ∀ i < m, Modern (T i) ∧ |x i| ≤ 359 ∧ |y i| ≤ 89)
    (hv : ∀ i, i + 1 < m → |x (i + 1) - x i| ≤ ((T (i + 1) : ℚ) - T i) / 10 ^ 9 ∧ |y (i + 1) - y i| ≤ ((T (i + 1) : ℚ) - T i) / 10 ^ 9)
    (hnav : nav.Perm (samples (fun i => (timestampF (T i), x i, y i)) m))
    (n : ℕ) (hn : 3 ≤ n) (t : ℕ → Stamp) (r : ℕ → ℚ) (ht : ∀ i j, i < j → j < n → (t i).instant < (t j).instant) (hr : ∀ k < n, |r k + bias| ≤ 1999999)
    (hdgs : dgs.Perm (samples (fun k => ((t k).instant, r k)) n))
    (j : ℕ → ℕ) (hj : ∀ k < n, j k + 1 < m ∧ T (j k) ≤ (t k).instant ∧ (t k).instant ≤ T (j k + 1))
    (lon lat : ℕ → ℚ) (hlon : ∀ k < n, lon k = between T x (j k) (t k).instant) (hlat : ∀ k < n, lat k = between T y (j k) (t k).instant)
    (hG : ∀ k, k + 2 < n → |rate (fun i => lat i) samp (k + 1)| ≤ 9 / 10000 ∧ |rate (fun i => lon i) samp (k + 1)| ≤ 9 / 10000 ∧
      |accel (fun i => lat i) samp (k + 1)| ≤ 9 / 10000) :
    ∃ (faa : ℕ → ℚ) (a : ℕ → Astro), faaPipelineF lm nav dgs bias samp = .ok (samples (fun k => ((t k).instant, faa k)) n) ∧
      ∀ k < n, NearSchureman (centuries (t k).y (t k).m (t k).d (t k).h (t k).mi (t k).s) (a k) ∧
        |(faa k : ℝ) - exactFaa n (fun k => r k + bias) lon lat samp (a k) (hourOfDay (t k).h (t k).mi (t k).s) k| ≤ 6e-3 := by
  exact pipeline_near lm g nav dgs bias samp hs hS m T x y hT hM hv hnav n hn t r r ht (fun k hk => ⟨hr k hk, by rw [sub_self]; norm_num⟩) hdgs j hj lon lat
    (fun k hk => by rw [hlon k hk, sub_self]; norm_num) (fun k hk => by rw [hlat k hk, sub_self]; norm_num) hG

/-! ### Non-vacuity -/

private def exampleStamp (k : ℕ) : Stamp := ⟨2022, 3, 13, 0, 0, (k % 60 : ℕ), 500000, by decide, ⟨by norm_num, by norm_num, by norm_num, by norm_num, by omega, by omega, by norm_num, by norm_num⟩,
  by norm_num, by norm_num⟩

private theorem exampleStamp_instant (k : ℕ) (hk : k < 60) : (exampleStamp k).instant = 1647129600500000 + 1000000 * k := by
  show ((dayNumber 2022 3 13 : ℤ) - dayNumber 1970 1 1) * 86400000000 + (0 * 3600000000 + 0 * 60000000 + ((k % 60 : ℕ) : ℤ) * 1000000 + 500000) = _
  rw [Nat.mod_eq_of_lt hk]
  have e : dayNumber 1970 1 1 = 719163 := by rw [← ymd2ord_eq _ _ _ (by norm_num) (by norm_num) (by norm_num)]; decide +kernel
  have e' : dayNumber 2022 3 13 = 738227 := by rw [← ymd2ord_eq _ _ _ (by norm_num) (by norm_num) (by norm_num)]; decide +kernel
  rw [e, e']
  push_cast
  ring

/-- Sixty fixes and fifty-nine readings of a minute, one a second, both in reverse order, to the north-east at about 11 m/s. -/
example : ∃ lm : TideLibm, GoodLib lm ∧ ∃ (faa : ℕ → ℚ) (a : ℕ → Astro),
    faaPipelineF lm (samples (fun i => (timestampF (1647129600000000 + 1000000 * i), 150 + (i : ℚ) / 20000, -33 + (i : ℚ) / 20000)) 60).reverse
      (samples (fun k => ((exampleStamp k).instant, (100 : ℚ))) 59).reverse 979000 1 = .ok (samples (fun k => ((exampleStamp k).instant, faa k)) 59) ∧
    ∀ k < 59, |(faa k : ℝ) - exactFaa 59 (fun _ => 979100) (fun k => 150 + (k + 1 / 2) / 20000) (fun k => -33 + (k + 1 / 2) / 20000) 1 (a k)
      (hourOfDay 0 0 (k : ℤ)) k| ≤ 6e-3 := by
  obtain ⟨lm, g⟩ := goodLib_exists
  refine ⟨lm, g, ?_⟩
  have line : ∀ (c : ℚ) (k : ℕ), k < 59 → c + ((k : ℚ) + 1 / 2) / 20000 = between (fun i => 1647129600000000 + 1000000 * i) (fun i => c + (i : ℚ) / 20000) k (exampleStamp k).instant := by
    intro c k hk
    unfold between
    rw [exampleStamp_instant k (by omega)]
    push_cast
    ring
  have hM : ∀ i < 60, Modern (1647129600000000 + 1000000 * (i : ℕ)) ∧ |(150 : ℚ) + (i : ℚ) / 20000| ≤ 359 ∧ |(-33 : ℚ) + (i : ℚ) / 20000| ≤ 89 := by
    intro i hi
    have h : (i : ℚ) < 60 := by exact_mod_cast hi
    have h0 : (0 : ℚ) ≤ i := by positivity
    refine ⟨by unfold Modern; rw [abs_le]; omega, ?_, ?_⟩ <;> · rw [abs_le]; constructor <;> linarith
  have hv : ∀ i, i + 1 < 60 →
      |(150 : ℚ) + ((i + 1 : ℕ) : ℚ) / 20000 - (150 + (i : ℚ) / 20000)| ≤ (((1647129600000000 + 1000000 * ((i + 1 : ℕ) : ℤ) : ℤ) : ℚ) - ((1647129600000000 + 1000000 * (i : ℤ) : ℤ) : ℚ)) / 10 ^ 9 ∧
      |(-33 : ℚ) + ((i + 1 : ℕ) : ℚ) / 20000 - (-33 + (i : ℚ) / 20000)| ≤ (((1647129600000000 + 1000000 * ((i + 1 : ℕ) : ℤ) : ℤ) : ℚ) - ((1647129600000000 + 1000000 * (i : ℤ) : ℤ) : ℚ)) / 10 ^ 9 := by
    intro i hi
    push_cast
    constructor
    · rw [show (150 : ℚ) + (i + 1) / 20000 - (150 + i / 20000) = 1 / 20000 by ring]; norm_num [abs_le]; linarith
    · rw [show (-33 : ℚ) + (i + 1) / 20000 - (-33 + i / 20000) = 1 / 20000 by ring]; norm_num [abs_le]; linarith
  have ht : ∀ i j, i < j → j < 59 → (exampleStamp i).instant < (exampleStamp j).instant := by
    intro i j h hj
    rw [exampleStamp_instant i (by omega), exampleStamp_instant j (by omega)]
    omega
  have hj : ∀ k < 59, id k + 1 < 60 ∧ 1647129600000000 + 1000000 * ((id k : ℕ) : ℤ) ≤ (exampleStamp k).instant ∧
      (exampleStamp k).instant ≤ 1647129600000000 + 1000000 * ((id k + 1 : ℕ) : ℤ) := by
    intro k hk
    rw [exampleStamp_instant k (by omega)]
    refine ⟨by simp only [id]; omega, ?_, ?_⟩ <;> · simp only [id]; push_cast; omega
  obtain ⟨faa, a, h1, h2⟩ := C138_pipeline lm g _ _ 979000 1 (by norm_num) le_rfl 60 (fun i => 1647129600000000 + 1000000 * i) (fun i => 150 + (i : ℚ) / 20000)
    (fun i => -33 + (i : ℚ) / 20000) (fun i j h _ => by omega) hM hv (List.reverse_perm _) 59 (by norm_num) exampleStamp (fun _ => 100)
    ht (fun k _ => by norm_num [abs_le]) (List.reverse_perm _) id hj (fun k => 150 + ((k : ℚ) + 1 / 2) / 20000) (fun k => -33 + ((k : ℚ) + 1 / 2) / 20000)
    (line 150) (line (-33)) (by
      intro k _
      unfold rate accel
      rw [show k + 1 + 1 = k + 2 by omega, show k + 1 - 1 = k by omega]
      push_cast
      refine ⟨?_, ?_, ?_⟩
      · rw [show ((-33 : ℝ) + (k + 2 + 1 / 2) / 20000 - (-33 + (k + 1 / 2) / 20000)) / 2 * 1 = 1 / 20000 by ring]; norm_num
      · rw [show ((150 : ℝ) + (k + 2 + 1 / 2) / 20000 - (150 + (k + 1 / 2) / 20000)) / 2 * 1 = 1 / 20000 by ring]; norm_num
      · rw [show ((-33 : ℝ) + (k + 2 + 1 / 2) / 20000 - 2 * (-33 + (k + 1 + 1 / 2) / 20000) + (-33 + (k + 1 / 2) / 20000)) * 1 ^ 2 = 0 by ring]; norm_num)
  refine ⟨faa, a, h1, fun k hk => ?_⟩
  have := (h2 k hk).2
  rw [show ((100 : ℚ) + 979000) = 979100 by norm_num] at this
  have e : (exampleStamp k).s = (k : ℤ) := by show ((k % 60 : ℕ) : ℤ) = k; rw [Nat.mod_eq_of_lt (by omega)]
  rw [e] at this
  exact this

end Shipgrav
