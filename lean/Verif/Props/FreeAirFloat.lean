import Verif.Model.FreeAirFloat
import Verif.Props.FreeAir
import Verif.Props.TideFloat
import Verif.Props.LatFloat
import Verif.Props.EotvosFloat

/-! C135: the free-air anomaly of the example scripts in double precision. -/

namespace Shipgrav
open Spec Real

/-- What is asked of the library for the anomaly. -/
structure Spec.GoodLib (lm : TideLibm) : Prop where
  tide : GoodTideLib lm.sin lm.cos lm.arctan lm.arcsin lm.arccos lm.arctanInf lm.sqrt lm.sqr lm.cube
  sin : GoodSin lm.sin

/-- A time stamp between 1900 and 2099. -/
structure Spec.Stamp where
  y : ℕ
  m : ℕ
  d : ℕ
  h : ℤ
  mi : ℤ
  s : ℤ
  us : ℤ
  date : ValidDate y m d
  time : ValidTime h mi s us
  after : 1900 ≤ y
  before : y ≤ 2099

/-- Microseconds since the epoch. -/
def Spec.Stamp.instant (x : Stamp) : ℤ := utcInstant x.y x.m x.d x.h x.mi x.s x.us

/-- The exact anomaly: the reading, less normal gravity, plus the correction for the motion at that sample (at the ends: of the neighbour), plus the tide. -/
noncomputable def Spec.exactFaa (n : ℕ) (grav lon lat : ℕ → ℚ) (samp : ℚ) (a : Astro) (hour : ℝ) (k : ℕ) : ℝ :=
  grav k - normalGravity (lat k) + eotvos 6378137 6356752.3142 (motionAt (fun k => lon k) (fun k => lat k) (fun _ => 0) samp (min (max k 1) (n - 2))) +
    (lunarTide a (lon k) (lat k) 0 hour + solarTide a (lon k) (lat k) 0 hour)

/-! ### Helpers -/

private theorem zip_samples {α β : Type} (x : ℕ → α) (y : ℕ → β) (n : ℕ) : (samples x n).zip (samples y n) = samples (fun i => (x i, y i)) n := by
  unfold samples
  rw [List.zip_map']

private theorem map_samples {α β : Type} (f : α → β) (x : ℕ → α) (n : ℕ) : (samples x n).map f = samples (fun i => f (x i)) n := by
  unfold samples
  rw [List.map_map]; rfl

private theorem zeros_eq (n : ℕ) : List.replicate n (0 : ℚ) = samples (fun _ => 0) n := by
  unfold samples; rw [List.map_const', List.length_range]

private theorem samples_len {α : Type} (f : ℕ → α) (n : ℕ) : (samples f n).length = n := by simp [samples]

private theorem samples_congr {α : Type} {f g : ℕ → α} {n : ℕ} (h : ∀ k < n, f k = g k) : samples f n = samples g n := by
  unfold samples
  exact List.map_congr_left fun k hk => h k (List.mem_range.1 hk)

private theorem longmanF_samples (lm : TideLibm) (lon lat : ℕ → ℚ) (t : ℕ → ℤ) (n : ℕ) (g : ℕ → ℚ × ℚ × ℚ)
    (hg : ∀ k < n, longmanF lm [lon k] [lat k] [t k] 0 = .ok [g k]) : longmanF lm (samples lon n) (samples lat n) (samples t n) 0 = .ok (samples g n) := by
  unfold longmanF
  rw [if_neg (by simp [samples_len]), if_neg (by simp [samples_len])]
  rw [zip_samples, zip_samples, map_samples]
  refine congrArg Except.ok (samples_congr fun k hk => ?_)
  have h := hg k hk
  unfold longmanF at h
  rw [if_neg (by simp), if_neg (by simp)] at h
  simp only [List.zip_cons_cons, List.zip_nil_right, List.map_cons, List.map_nil] at h
  injection h with h
  injection h with h _

private theorem normal_size (x : ℝ) : |normalGravity x| ≤ 1000000 := by
  unfold normalGravity
  have h0 := sq_nonneg (sin (x * (π / 180)))
  have h1 := sin_sq_le_one (x * (π / 180))
  generalize sin (x * (π / 180)) ^ 2 = σ at *
  have hs : (0.99 : ℝ) ≤ √(1 - 0.00669437999014 * σ) := by
    apply Real.le_sqrt_of_sq_le
    norm_num
    linarith
  have hq : (1 + 0.00193185265241 * σ) / √(1 - 0.00669437999014 * σ) ≤ 1.02 := by
    rw [div_le_iff₀ (by linarith)]
    norm_num at *
    linarith
  have hp : 0 ≤ (1 + 0.00193185265241 * σ) / √(1 - 0.00669437999014 * σ) := by positivity
  rw [abs_of_nonneg (by positivity)]
  norm_num at *
  linarith

private theorem tide_bound (t : Stamp) (a : Astro) (h : a.e1 = 0.01675104 - 0.00004180 * (centuries t.y t.m t.d t.h t.mi t.s) - 0.000000126 * (centuries t.y t.m t.d t.h t.mi t.s) ^ 2)
    (lon lat hour : ℝ) : |lunarTide a lon lat 0 hour + solarTide a lon lat 0 hour| ≤ 1 := by
  obtain ⟨r1, r2⟩ := centuries_range _ _ _ _ _ _ _ t.date t.time
  have e : a.e1 = tideE1 (centuries t.y t.m t.d t.h t.mi t.s) := by rw [h]; unfold tideE1; norm_num; ring
  obtain ⟨e1, e2⟩ := e1_range _ r1 r2
  rw [← e] at e1 e2
  refine (abs_add_le _ _).trans ((add_le_add (lunar_bound a lon lat hour) (solar_bound a lon lat hour e1 e2)).trans ?_)
  norm_num

/-! ### C135 -/

/-- The anomaly in double precision, for the arguments of the code. -/
theorem faaF_near (lm : TideLibm) (g : GoodLib lm) (n : ℕ) (hn : 3 ≤ n) (grav lon lat : ℕ → ℚ) (t : ℕ → Stamp) (samp : ℚ) (hs : 0 ≤ samp) (hS : samp ≤ 1)
    (hg : ∀ k < n, |grav k| ≤ 2000000) (hm : Moderate lon lat (fun _ => 0) samp n) :
    ∃ (faa full : ℕ → ℚ), faaScriptF lm (samples grav n) (samples lon n) (samples lat n) (samples (fun k => (t k).instant) n) samp =
        .ok (samples faa n, samples full n) ∧
      ∀ k < n, |(faa k : ℝ) - exactFaa n grav lon lat samp (argsAt (centuries (t k).y (t k).m (t k).d (t k).h (t k).mi (t k).s)) (hourOfDay (t k).h (t k).mi (t k).s) k| ≤ 1.1e-3 ∧
        |(full k : ℝ) - (exactFaa n grav lon lat samp (argsAt (centuries (t k).y (t k).m (t k).d (t k).h (t k).mi (t k).s)) (hourOfDay (t k).h (t k).mi (t k).s) k + normalGravity (lat k))| ≤ 1.1e-3 ∧
        (NodeAway (argsAt (centuries (t k).y (t k).m (t k).d (t k).h (t k).mi (t k).s)) 1e-6 → |(faa k : ℝ) - exactFaa n grav lon lat samp (argsAt (centuries (t k).y (t k).m (t k).d (t k).h (t k).mi (t k).s)) (hourOfDay (t k).h (t k).mi (t k).s) k| ≤ 1e-4 ∧
          |(full k : ℝ) - (exactFaa n grav lon lat samp (argsAt (centuries (t k).y (t k).m (t k).d (t k).h (t k).mi (t k).s)) (hourOfDay (t k).h (t k).mi (t k).s) k + normalGravity (lat k))| ≤ 1e-4) := by
  have gt : GoodTrig lm.sin lm.cos lm.arctan :=
    ⟨fun q hq => g.tide.sin q (hq.trans (by norm_num)), fun q hq => g.tide.cos q (hq.trans (by norm_num)), fun q _ => g.tide.arctan q⟩
  obtain ⟨F, hF, hFe⟩ := eotvosF_size lm.toEotLibm gt g.tide.sqr n hn lon lat (fun _ => 0) samp hs hS hm
  have tides : ∀ k, ∀ x y z : ℚ, |x| ≤ 720 → |y| ≤ 90 → |z| ≤ 10000 →
      ∃ v, longmanF lm [x] [y] [(t k).instant] z = .ok [v] ∧ TideWithin (argsAt (centuries (t k).y (t k).m (t k).d (t k).h (t k).mi (t k).s)) x y z (hourOfDay (t k).h (t k).mi (t k).s) v 1e-3 ∧
        (NodeAway (argsAt (centuries (t k).y (t k).m (t k).d (t k).h (t k).mi (t k).s)) 1e-6 → TideWithin (argsAt (centuries (t k).y (t k).m (t k).d (t k).h (t k).mi (t k).s)) x y z (hourOfDay (t k).h (t k).mi (t k).s) v 1e-7) ∧
        (NodeAway (argsAt (centuries (t k).y (t k).m (t k).d (t k).h (t k).mi (t k).s)) 2e-3 → TideWithin (argsAt (centuries (t k).y (t k).m (t k).d (t k).h (t k).mi (t k).s)) x y z (hourOfDay (t k).h (t k).mi (t k).s) v 1e-9) :=
    fun k => tideF_near lm g.tide _ _ _ _ _ _ _ (t k).date (t k).time (t k).after (t k).before
  obtain ⟨a, hae⟩ : ∃ a : ℕ → Astro, ∀ k, argsAt (centuries (t k).y (t k).m (t k).d (t k).h (t k).mi (t k).s) = a k := ⟨_, fun _ => rfl⟩
  simp only [hae] at tides ⊢
  have ha : ∀ k, NearSchureman (centuries (t k).y (t k).m (t k).d (t k).h (t k).mi (t k).s) (a k) := fun k => by rw [← hae]; exact near_schureman _
  have ht := tides
  have pos : ∀ k < n, |lon k| ≤ 720 ∧ |lat k| ≤ 90 := fun k hk => ⟨((hm.1 k hk).2.1).trans (by norm_num), (hm.1 k hk).1⟩
  have one : ∀ k, ∃ v, k < n → longmanF lm [lon k] [lat k] [(t k).instant] 0 = .ok [v] ∧
      TideWithin (a k) (lon k) (lat k) 0 (hourOfDay (t k).h (t k).mi (t k).s) v 1e-3 ∧
      (NodeAway (a k) 1e-6 → TideWithin (a k) (lon k) (lat k) 0 (hourOfDay (t k).h (t k).mi (t k).s) v 1e-7) := by
    intro k
    by_cases hk : k < n
    · obtain ⟨v, h1, h2, h3, -⟩ := ht k (lon k) (lat k) 0 (pos k hk).1 (pos k hk).2 (by norm_num)
      rw [Rat.cast_zero] at h2 h3
      exact ⟨v, fun _ => ⟨h1, h2, h3⟩⟩
    · exact ⟨(0, 0, 0), fun h => absurd h hk⟩
  choose v hv using one
  have hL := longmanF_samples lm lon lat (fun k => (t k).instant) n v (fun k hk => (hv k hk).1)
  refine ⟨fun k => toDouble (toDouble (toDouble (grav k - latCorrF lm (lat k)) + F k) + (v k).1), fun k => toDouble (toDouble (grav k + F k) + (v k).1), ?_, ?_⟩
  · unfold faaScriptF
    simp only [samples_len, zeros_eq, hF, hL, map_samples, zip_samples]
  · intro k hk
    obtain ⟨-, w1, w2⟩ := hv k hk
    have sE := hFe k hk
    rw [show (fun _ : ℕ => (((0 : ℚ)) : ℝ)) = fun _ => (0 : ℝ) from funext fun _ => Rat.cast_zero] at sE
    have sG : Sim (2000000, 0) (grav k) (grav k) := ⟨by exact_mod_cast hg k hk, by simp⟩
    have sN : Sim (1000000, 2 / 10 ^ 8) (normalGravity (lat k)) (latCorrF lm (lat k)) := by
      obtain ⟨γ, hγ, h⟩ := C132_latitude_correction ⟨lm.sin, lm.sqrt, lm.sqr⟩ g.sin g.tide.sqrt g.tide.sqr (lat k) 0 (pos k hk).2 (by norm_num)
      rw [Rat.cast_zero, C58_zero, add_zero] at h
      rw [C57_formula] at hγ
      injection hγ with hγ
      refine ⟨by have := normal_size (lat k); exact_mod_cast this, ?_⟩
      have e : normalGravity (lat k : ℝ) = γ := hγ
      rw [e]
      have : ((2 / 10 ^ 8 : ℚ) : ℝ) = 2 / 10 ^ 8 := by norm_num
      rw [this]
      exact h
    unfold exactFaa
    generalize eotvos 6378137 6356752.3142 (motionAt (fun k => (lon k : ℝ)) (fun k => (lat k : ℝ)) (fun _ => 0) samp (min (max k 1) (n - 2))) = E at *
    unfold TideWithin at w1 w2
    have bm := tide_bound (t k) (a k) (ha k).e1 (lon k) (lat k) (hourOfDay (t k).h (t k).mi (t k).s)
    generalize lunarTide (a k) (lon k) (lat k) 0 (hourOfDay (t k).h (t k).mi (t k).s) + solarTide (a k) (lon k) (lat k) 0 (hourOfDay (t k).h (t k).mi (t k).s) = τ at *
    have fin : ∀ {e : ℚ}, |((v k).1 : ℝ) - τ| ≤ (e : ℝ) → e ≤ 1 / 1000 → ∀ {T : ℚ}, e + 8 / 100000 ≤ T →
        |((toDouble (toDouble (toDouble (grav k - latCorrF lm (lat k)) + F k) + (v k).1) : ℚ) : ℝ) - (grav k - normalGravity (lat k) + E + τ)| ≤ (T : ℝ) ∧
        |((toDouble (toDouble (grav k + F k) + (v k).1) : ℚ) : ℝ) - (grav k - normalGravity (lat k) + E + τ + normalGravity (lat k))| ≤ (T : ℝ) := by
      intro e he he1 T hT
      have sT : Sim (1, e) τ (v k).1 := ⟨by rw [Rat.cast_one]; exact bm, he⟩
      have r1 := sim_add (sim_add (sim_sub sG sN) sE) sT
      have r2 := sim_add (sim_add sG sE) sT
      constructor
      · refine r1.2.trans ?_
        have : (boundArith.add (boundArith.add (boundArith.sub (2000000, 0) (1000000, 2 / 10 ^ 8)) (5000000000, 62 / 1000000)) (1, e)).2 ≤ T := by
          simp only [boundArith, rB, vQ]
          norm_num
          linarith
        exact_mod_cast this
      · have h2 := r2.2.trans (show _ ≤ (T : ℝ) by
          have : (boundArith.add (boundArith.add (2000000, 0) (5000000000, 62 / 1000000)) (1, e)).2 ≤ T := by
            simp only [boundArith, rB, vQ]
            norm_num
            linarith
          exact_mod_cast this)
        rw [show (grav k : ℝ) - normalGravity (lat k) + E + τ + normalGravity (lat k) = grav k + E + τ by ring]
        exact h2
    obtain ⟨f1, f2⟩ := fin (e := 1 / 1000) (by have := w1.1; norm_num at *; exact this) le_rfl (T := 11 / 10000) (by norm_num)
    refine ⟨by norm_num at *; exact f1, by norm_num at *; exact f2, fun hA => ?_⟩
    obtain ⟨f3, f4⟩ := fin (e := 1 / 10000000) (by have := (w2 hA).1; norm_num at *; exact this) (by norm_num) (T := 1 / 10000) (by norm_num)
    exact ⟨by norm_num at *; exact f3, by norm_num at *; exact f4⟩

/-- C135.  The free-air anomaly of the example scripts, computed in double precision on a track sampled once a second or more slowly, is the exact one up to
1.1e-3 mGal, and up to 1e-4 mGal unless the moon's node is within 1e-6 radians of longitude 180° at that time; `full_field` likewise. -/
theorem C135_faa (lm : TideLibm) (g : GoodLib lm) (n : ℕ) (hn : 3 ≤ n) (grav lon lat : ℕ → ℚ) (t : ℕ → Stamp) (samp : ℚ) (hs : 0 ≤ samp) (hS : samp ≤ 1)
    (hg : ∀ k < n, |grav k| ≤ 2000000) (hm : Moderate lon lat (fun _ => 0) samp n) :
    ∃ (faa full : ℕ → ℚ) (a : ℕ → Astro), faaScriptF lm (samples grav n) (samples lon n) (samples lat n) (samples (fun k => (t k).instant) n) samp =
        .ok (samples faa n, samples full n) ∧
      ∀ k < n, NearSchureman (centuries (t k).y (t k).m (t k).d (t k).h (t k).mi (t k).s) (a k) ∧
        |(faa k : ℝ) - exactFaa n grav lon lat samp (a k) (hourOfDay (t k).h (t k).mi (t k).s) k| ≤ 1.1e-3 ∧
        |(full k : ℝ) - (exactFaa n grav lon lat samp (a k) (hourOfDay (t k).h (t k).mi (t k).s) k + normalGravity (lat k))| ≤ 1.1e-3 ∧
        (NodeAway (a k) 1e-6 → |(faa k : ℝ) - exactFaa n grav lon lat samp (a k) (hourOfDay (t k).h (t k).mi (t k).s) k| ≤ 1e-4 ∧
          |(full k : ℝ) - (exactFaa n grav lon lat samp (a k) (hourOfDay (t k).h (t k).mi (t k).s) k + normalGravity (lat k))| ≤ 1e-4) := by
  obtain ⟨faa, full, h1, h2⟩ := faaF_near lm g n hn grav lon lat t samp hs hS hg hm
  exact ⟨faa, full, _, h1, fun k hk => ⟨near_schureman _, h2 k hk⟩⟩

/-! ### Non-vacuity -/

/-- The hypotheses on the library can be met. -/
theorem goodLib_exists : ∃ lm : TideLibm, GoodLib lm := by
  obtain ⟨lm, g⟩ := goodTideLib_exists
  have rel : ∀ x : ℝ, ∃ r : ℚ, |(r : ℝ) - x| ≤ |x| / 2 ^ 51 := by
    intro x
    rcases eq_or_ne x 0 with rfl | hx
    · exact ⟨0, by norm_num⟩
    · have : 0 < |x| := abs_pos.2 hx
      obtain ⟨r, h1, h2⟩ := exists_rat_btwn (show x < x + |x| / 2 ^ 51 by linarith [show (0 : ℝ) < |x| / 2 ^ 51 by positivity])
      exact ⟨r, by rw [abs_le]; constructor <;> linarith⟩
  choose sn hsn using fun q : ℚ => rel (sin (q : ℝ))
  refine ⟨{ lm with sin := sn }, ⟨{ g with sin := fun q _ => (hsn q).trans ?_ }, fun q _ => hsn q⟩⟩
  have := abs_sin_le_one (q : ℝ)
  gcongr

/-- An hour to the north-east at about 11 m/s. -/
example : Moderate (fun k => 150 + k / 20000) (fun k => -33 + k / 20000) (fun _ => 0) 1 3600 := by
  refine ⟨fun k hk => ?_, fun k _ => ?_⟩
  · have h : (k : ℚ) < 3600 := by exact_mod_cast hk
    have h0 : (0 : ℚ) ≤ k := by positivity
    refine ⟨?_, ?_, by norm_num⟩ <;> · rw [abs_le]; constructor <;> linarith
  · push_cast
    refine ⟨?_, ?_, ?_⟩
    · rw [show ((-33 : ℚ) + (k + 2) / 20000 - (-33 + k / 20000)) * (1 / 2) = 1 / 20000 by ring]; norm_num
    · rw [show ((150 : ℚ) + (k + 2) / 20000 - (150 + k / 20000)) * (1 / 2) = 1 / 20000 by ring]; norm_num
    · rw [show ((-33 : ℚ) + k / 20000 - 2 * (-33 + (k + 1) / 20000) + (-33 + (k + 2) / 20000)) * 1 ^ 2 = 0 by ring]; norm_num

/-- A time stamp. -/
example : Stamp := ⟨2022, 3, 13, 0, 0, 59, 500000, by decide, by decide, by decide, by decide⟩

end Shipgrav
