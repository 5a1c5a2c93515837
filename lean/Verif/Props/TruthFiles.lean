import Verif.Props.FilesFloat
import Verif.Props.TruthFloat

/-! C168, from the text files: the anomaly that `interactive_line_pick.py` computes in double precision from the lines of navigation and gravimeter files of the Ride,
against that of the earth. -/

namespace Shipgrav
open Spec Real

/-- What `C168_faa` and `C168_smooth` ask of the tables holds for those of the readers. -/
private theorem ride_hyps (lm : TideLibm) (rd : ℚ → ℚ) (hrd : ∀ q, |rd q - q| ≤ |q| / 2 ^ 50) (dates : Dates) (bias samp : ℚ) (lon lat : ℝ → ℝ)
    (navFiles : List (List Str)) (fixes : List (List RideFix))
    (hfiles : List.Forall₂ (fun file fx => fx ≠ [] ∧ file.filter (fun l => decide ("GPGGA".toList <:+: l)) = fx.map RideFix.line ∧ ∀ x ∈ fx, x.Valid) navFiles fixes)
    (m : ℕ) (fix : ℕ → RideFix) (hfix : fixes.flatten.Perm (samples fix m))
    (hT : ∀ i j, i < j → j < m → (fix i).instant < (fix j).instant) (hM : ∀ i < m, Modern (fix i).instant ∧ |(fix i).lon| ≤ 180 ∧ |(fix i).lat| ≤ 88)
    (hv : ∀ i, i + 1 < m → (fix (i + 1)).instant - (fix i).instant ≤ 1000000000 ∧
      |(fix (i + 1)).lon - (fix i).lon| ≤ 9 / 10000 * (((fix (i + 1)).instant - (fix i).instant : ℤ) / 1000000) ∧
      |(fix (i + 1)).lat - (fix i).lat| ≤ 9 / 10000 * (((fix (i + 1)).instant - (fix i).instant : ℤ) / 1000000))
    (e : ℝ) (htrack : ∀ i < m, |((fix i).lon : ℝ) - lon (((fix i).instant : ℝ) / 1000000)| ≤ e ∧ |((fix i).lat : ℝ) - lat (((fix i).instant : ℝ) / 1000000)| ≤ e)
    (recs : List (List LaptopRecord)) (hrecs : ∀ l ∈ recs, l ≠ [] ∧ ∀ r ∈ l, r.Valid ∧ 1900 ≤ r.x.y ∧ r.x.y ≤ 2099)
    (n : ℕ) (hn : 3 ≤ n) (rec : ℕ → LaptopRecord) (hrec : recs.flatten.Perm (samples rec n))
    (hr : ∀ k < n, |(rec k).rgrav| ≤ 1000000 ∧ |(rec k).rgrav + bias| ≤ 1999998) :
    ∃ (x y : ℕ → ℚ) (t : ℕ → Stamp) (dgs : List (ℤ × ℚ)),
      faaFilesF lm rd dates "Ride".toList "GPGGA".toList navFiles (recs.map fun l => l.map LaptopRecord.line) bias samp =
        faaPipelineF lm (samples (fun i => (timestampF (fix i).instant, x i, y i)) m) dgs bias samp ∧
      (∀ i < m, Modern (fix i).instant ∧ |x i| ≤ 359 ∧ |y i| ≤ 89) ∧
      (∀ i, i + 1 < m → |x (i + 1) - x i| ≤ (((fix (i + 1)).instant : ℚ) - (fix i).instant) / 10 ^ 9 ∧ |y (i + 1) - y i| ≤ (((fix (i + 1)).instant : ℚ) - (fix i).instant) / 10 ^ 9) ∧
      (∀ i < m, |(x i : ℝ) - lon (((fix i).instant : ℝ) / 1000000)| ≤ e + 1 / 2 ^ 39 ∧ |(y i : ℝ) - lat (((fix i).instant : ℝ) / 1000000)| ≤ e + 1 / 2 ^ 39) ∧
      (∀ k < n, |rd (rec k).rgrav + bias| ≤ 1999999) ∧
      dgs.Perm (samples (fun k => ((t k).instant, rd (rec k).rgrav)) n) ∧ (∀ k < n, (t k).instant = (rec k).x.instant) ∧
      ∀ k < n, |((rd (rec k).rgrav : ℚ) : ℝ) - (rec k).rgrav| ≤ 1e-9 := by
  obtain ⟨x, y, t, dgs, hfile, ce, step, hdgs, st⟩ := ride_tables lm rd dates bias samp navFiles fixes hfiles m fix hfix hT hM hv recs hrecs n hn rec hrec
  have rerr : ∀ k < n, |rd (rec k).rgrav - (rec k).rgrav| ≤ 1e-9 := fun k hk =>
    (hrd _).trans ((div_le_div_of_nonneg_right (hr k hk).1 (by norm_num)).trans (by norm_num))
  have near : ∀ (p q : ℚ) (z : ℝ), |p - q| ≤ 1 / 2 ^ 39 → |(q : ℝ) - z| ≤ e → |(p : ℝ) - z| ≤ e + 1 / 2 ^ 39 := by
    intro p q z h1 h2
    have h3 : |(p : ℝ) - q| ≤ 1 / 2 ^ 39 := by
      have h : ((|p - q| : ℚ) : ℝ) ≤ ((1 / 2 ^ 39 : ℚ) : ℝ) := Rat.cast_le.2 h1
      push_cast at h
      exact h
    have h4 := abs_add_le ((p : ℝ) - q) ((q : ℝ) - z)
    rw [sub_add_sub_cancel] at h4
    linarith
  refine ⟨x, y, t, dgs, hfile, fun i hi => ?_, step, fun i hi => ⟨near _ _ _ (ce i hi).1 (htrack i hi).1, near _ _ _ (ce i hi).2 (htrack i hi).2⟩, fun k hk => ?_, hdgs,
    fun k hk => (st k hk).1, fun k hk => ?_⟩
  · obtain ⟨a1, a2⟩ := ce i hi
    obtain ⟨b1, b2, b3⟩ := hM i hi
    refine ⟨b1, ?_, ?_⟩
    · have := abs_add_le (x i - (fix i).lon) (fix i).lon
      rw [sub_add_cancel] at this
      exact (this.trans (add_le_add a1 b2)).trans (by norm_num)
    · have := abs_add_le (y i - (fix i).lat) (fix i).lat
      rw [sub_add_cancel] at this
      exact (this.trans (add_le_add a2 b3)).trans (by norm_num)
  · have := abs_add_le (rd (rec k).rgrav - (rec k).rgrav) ((rec k).rgrav + bias)
    rw [show rd (rec k).rgrav - (rec k).rgrav + ((rec k).rgrav + bias) = rd (rec k).rgrav + bias by ring] at this
    exact (this.trans (add_le_add (rerr k hk) (hr k hk).2)).trans (by norm_num)
  · have h : ((|rd (rec k).rgrav - (rec k).rgrav| : ℚ) : ℝ) ≤ ((1e-9 : ℚ) : ℝ) := Rat.cast_le.2 (rerr k hk)
    push_cast at h
    refine h.trans (le_of_eq ?_)
    norm_num

/-- **C168.** From the text files of the Ride (as in `C139_ride`) to the anomaly of the earth.  The ship cruises, the fixes written in the files are right to `e` degrees
and at most `δ` seconds apart, the gravimeter reads once a second.  The doubles that the script computes are, at every reading but the first and the last, gravity less theoretical
gravity within 0.012 mGal, the noise of the reading and what errors of position can do. -/
theorem C168_ride (lm : TideLibm) (gl : GoodLib lm) (rd : ℚ → ℚ) (hrd : ∀ q, |rd q - q| ≤ |q| / 2 ^ 50) (dates : Dates) (bias : ℚ)
    (W : Space → ℝ) (hW : LevelField wgs84A wgs84B wgs84GM wgs84Rate W) (lon lat : ℝ → ℝ) (hc : Cruise lon lat) (A : ℝ) (hA : ∀ u, |iteratedDeriv 2 lon u| ≤ A ∧ |iteratedDeriv 2 lat u| ≤ A)
    (navFiles : List (List Str)) (fixes : List (List RideFix))
    (hfiles : List.Forall₂ (fun file fx => fx ≠ [] ∧ file.filter (fun l => decide ("GPGGA".toList <:+: l)) = fx.map RideFix.line ∧ ∀ x ∈ fx, x.Valid) navFiles fixes)
    (m : ℕ) (hm : 2 ≤ m) (fix : ℕ → RideFix) (hfix : fixes.flatten.Perm (samples fix m))
    (hT : ∀ i j, i < j → j < m → (fix i).instant < (fix j).instant) (hM : ∀ i < m, Modern (fix i).instant ∧ |(fix i).lon| ≤ 180 ∧ |(fix i).lat| ≤ 88)
    (hv : ∀ i, i + 1 < m → (fix (i + 1)).instant - (fix i).instant ≤ 1000000000 ∧
      |(fix (i + 1)).lon - (fix i).lon| ≤ 9 / 10000 * (((fix (i + 1)).instant - (fix i).instant : ℤ) / 1000000) ∧
      |(fix (i + 1)).lat - (fix i).lat| ≤ 9 / 10000 * (((fix (i + 1)).instant - (fix i).instant : ℤ) / 1000000))
    (δ e : ℝ) (hδ : ∀ i, i + 1 < m → ((fix (i + 1)).instant : ℝ) / 1000000 - ((fix i).instant : ℝ) / 1000000 ≤ δ)
    (htrack : ∀ i < m, |((fix i).lon : ℝ) - lon (((fix i).instant : ℝ) / 1000000)| ≤ e ∧ |((fix i).lat : ℝ) - lat (((fix i).instant : ℝ) / 1000000)| ≤ e)
    (hε : e + A / 8 * δ ^ 2 ≤ 9 / 100000)
    (recs : List (List LaptopRecord)) (hrecs : ∀ l ∈ recs, l ≠ [] ∧ ∀ r ∈ l, r.Valid ∧ 1900 ≤ r.x.y ∧ r.x.y ≤ 2099)
    (n : ℕ) (hn : 3 ≤ n) (rec : ℕ → LaptopRecord) (hrec : recs.flatten.Perm (samples rec n))
    (hr : ∀ k < n, |(rec k).rgrav| ≤ 1000000 ∧ |(rec k).rgrav + bias| ≤ 1999998) (T₀ : ℝ)
    (heven : ∀ k < n, ((rec k).x.instant : ℝ) / 1000000 = T₀ + k) (hcover : ∀ k < n, (fix 0).instant ≤ (rec k).x.instant ∧ (rec k).x.instant ≤ (fix (m - 1)).instant) :
    ∃ pull : ℕ → ℝ, (∀ k < n, TidePull (lon (T₀ + k)) (lat (T₀ + k)) (rec k).x.instant (pull k)) ∧ ∃ faa : ℕ → ℚ,
      faaFilesF lm rd dates "Ride".toList "GPGGA".toList navFiles (recs.map fun l => l.map LaptopRecord.line) bias 1 = .ok (samples (fun k => ((rec k).x.instant, faa k)) n) ∧
      ∀ g noise : ℕ → ℝ, (∀ k < n, ((rec k).rgrav : ℝ) + bias = trueReading lon lat (g k) (pull k) (T₀ + k) + noise k) →
        ∀ k, 1 ≤ k → k + 1 < n → ∃ γ, SurfaceGravity wgs84A wgs84B W (rad (lat (T₀ + k))) (rad (lon (T₀ + k))) γ ∧
          |(faa k : ℝ) - (100000 * (g k - γ) + noise k)| ≤ 0.012 + 4100400 * (e + A / 8 * δ ^ 2) := by
  obtain ⟨x, y, t, dgs, hfile, h1, h2, h3, h4, h5, h6, h7⟩ := ride_hyps lm rd hrd dates bias 1 lon lat navFiles fixes hfiles m fix hfix hT hM hv e htrack recs hrecs n hn rec hrec hr
  obtain ⟨pull, hp, faa, hf, hmain⟩ := C168_faa lm gl W hW lon lat hc A hA _ dgs bias m hm (fun i => (fix i).instant) x y hT h1 h2 (List.Perm.refl _) δ (e + 1 / 2 ^ 39) hδ h3
    (by norm_num at hε ⊢; linarith) n hn t (fun k => rd (rec k).rgrav) h4 h5 T₀ (fun k hk => by rw [h6 k hk]; exact heven k hk) (fun k hk => by rw [h6 k hk]; exact hcover k hk)
  refine ⟨pull, fun k hk => ?_, faa, ?_, fun g noise hread k ha hb => ?_⟩
  · have := hp k hk
    rw [h6 k hk] at this
    exact this
  · rw [hfile, hf]
    unfold samples
    exact congrArg Except.ok (List.map_congr_left fun k hk => by rw [h6 k (List.mem_range.1 hk)])
  · obtain ⟨γ, hγ, h⟩ := hmain g (fun k => noise k + (((rd (rec k).rgrav : ℚ) : ℝ) - (rec k).rgrav)) (fun k hk => by
      have := hread k hk
      linarith) k ha hb
    refine ⟨γ, hγ, ?_⟩
    have h8 := abs_add_le ((faa k : ℝ) - (100000 * (g k - γ) + (noise k + (((rd (rec k).rgrav : ℚ) : ℝ) - (rec k).rgrav)))) (((rd (rec k).rgrav : ℚ) : ℝ) - (rec k).rgrav)
    rw [show (faa k : ℝ) - (100000 * (g k - γ) + (noise k + (((rd (rec k).rgrav : ℚ) : ℝ) - (rec k).rgrav))) + (((rd (rec k).rgrav : ℚ) : ℝ) - (rec k).rgrav) =
      (faa k : ℝ) - (100000 * (g k - γ) + noise k) by ring] at h8
    have h9 := h7 k (by omega)
    norm_num at h h9 ⊢
    linarith

/-- **C168.** The same after smoothing in double precision, in a seaway, as in `C168_smooth`. -/
theorem C168_ride_smooth (lm : TideLibm) (gl : GoodLib lm) (fl : FilterLibm) (hg : GoodFilterLib fl.sin fl.cos fl.sum fl.dot)
    (rd : ℚ → ℚ) (hrd : ∀ q, |rd q - q| ≤ |q| / 2 ^ 50) (dates : Dates) (bias : ℚ)
    (W : Space → ℝ) (hW : LevelField wgs84A wgs84B wgs84GM wgs84Rate W) (lon lat : ℝ → ℝ) (hc : Cruise lon lat) (A : ℝ) (hA : ∀ u, |iteratedDeriv 2 lon u| ≤ A ∧ |iteratedDeriv 2 lat u| ≤ A)
    (navFiles : List (List Str)) (fixes : List (List RideFix))
    (hfiles : List.Forall₂ (fun file fx => fx ≠ [] ∧ file.filter (fun l => decide ("GPGGA".toList <:+: l)) = fx.map RideFix.line ∧ ∀ x ∈ fx, x.Valid) navFiles fixes)
    (m : ℕ) (hm : 2 ≤ m) (fix : ℕ → RideFix) (hfix : fixes.flatten.Perm (samples fix m))
    (hT : ∀ i j, i < j → j < m → (fix i).instant < (fix j).instant) (hM : ∀ i < m, Modern (fix i).instant ∧ |(fix i).lon| ≤ 180 ∧ |(fix i).lat| ≤ 88)
    (hv : ∀ i, i + 1 < m → (fix (i + 1)).instant - (fix i).instant ≤ 1000000000 ∧
      |(fix (i + 1)).lon - (fix i).lon| ≤ 9 / 10000 * (((fix (i + 1)).instant - (fix i).instant : ℤ) / 1000000) ∧
      |(fix (i + 1)).lat - (fix i).lat| ≤ 9 / 10000 * (((fix (i + 1)).instant - (fix i).instant : ℤ) / 1000000))
    (δ e : ℝ) (hδ : ∀ i, i + 1 < m → ((fix (i + 1)).instant : ℝ) / 1000000 - ((fix i).instant : ℝ) / 1000000 ≤ δ)
    (htrack : ∀ i < m, |((fix i).lon : ℝ) - lon (((fix i).instant : ℝ) / 1000000)| ≤ e ∧ |((fix i).lat : ℝ) - lat (((fix i).instant : ℝ) / 1000000)| ≤ e)
    (hε : e + A / 8 * δ ^ 2 ≤ 9 / 100000)
    (recs : List (List LaptopRecord)) (hrecs : ∀ l ∈ recs, l ≠ [] ∧ ∀ r ∈ l, r.Valid ∧ 1900 ≤ r.x.y ∧ r.x.y ≤ 2099)
    (n : ℕ) (hn : 1440 < n) (rec : ℕ → LaptopRecord) (hrec : recs.flatten.Perm (samples rec n))
    (hr : ∀ k < n, |(rec k).rgrav| ≤ 1000000 ∧ |(rec k).rgrav + bias| ≤ 1999998) (T₀ : ℝ)
    (heven : ∀ k < n, ((rec k).x.instant : ℝ) / 1000000 = T₀ + k) (hcover : ∀ k < n, (fix 0).instant ≤ (rec k).x.instant ∧ (rec k).x.instant ≤ (fix (m - 1)).instant)
    (γ : ℕ → ℝ) (hγ : ∀ k < n, SurfaceGravity wgs84A wgs84B W (rad (lat (T₀ + k))) (rad (lon (T₀ + k))) (γ k)) :
    ∃ pull : ℕ → ℝ, (∀ k < n, TidePull (lon (T₀ + k)) (lat (T₀ + k)) (rec k).x.instant (pull k)) ∧ ∃ faa : ℕ → ℚ,
      faaFilesF lm rd dates "Ride".toList "GPGGA".toList navFiles (recs.map fun l => l.map LaptopRecord.line) bias 1 = .ok (samples (fun k => ((rec k).x.instant, faa k)) n) ∧
      ∀ (g err : ℕ → ℝ) (ws : List Ripple) (ε K M : ℝ),
        (∀ k, k + 2 < n → |100000 * (g (k + 2) - γ (k + 2)) - 2 * (100000 * (g (k + 1) - γ (k + 1))) + 100000 * (g k - γ k)| ≤ K) →
        (∀ k < n, |err k| ≤ ε) → (∀ w ∈ ws, 2 ≤ w.period) → (∀ k < n, |(faa k : ℝ)| ≤ M) →
        (∀ k < n, ((rec k).rgrav : ℝ) + bias = trueReading lon lat (g k) (pull k) (T₀ + k) + (err k + (ws.map fun w => w.value k).sum)) →
        ∃ F : ℕ → ℚ, lowpassScriptF fl 1 (samples faa n) = .ok (samples F n) ∧
          ∀ i, 480 ≤ i → i + 480 < n → |(F i : ℝ) - 100000 * (g i - γ i)| ≤
            1.7 * (0.012 + ε + 4100400 * (e + A / 8 * δ ^ 2)) + 14300 * K + (ws.map fun w => |w.amp| * (w.period / 94) ^ 6).sum + 1.2e-11 * M := by
  obtain ⟨x, y, t, dgs, hfile, h1, h2, h3, h4, h5, h6, h7⟩ := ride_hyps lm rd hrd dates bias 1 lon lat navFiles fixes hfiles m fix hfix hT hM hv e htrack recs hrecs n (by omega) rec
    hrec hr
  obtain ⟨pull, hp, faa, hf, hmain⟩ := C168_smooth lm gl fl hg W hW lon lat hc A hA _ dgs bias m hm (fun i => (fix i).instant) x y hT h1 h2 (List.Perm.refl _) δ (e + 1 / 2 ^ 39) hδ h3
    (by norm_num at hε ⊢; linarith) n hn t (fun k => rd (rec k).rgrav) h4 h5 T₀ (fun k hk => by rw [h6 k hk]; exact heven k hk) (fun k hk => by rw [h6 k hk]; exact hcover k hk) γ hγ
  refine ⟨pull, fun k hk => ?_, faa, ?_, fun g err ws ε K M hK he hw hMx hread => ?_⟩
  · have := hp k hk
    rw [h6 k hk] at this
    exact this
  · rw [hfile, hf]
    unfold samples
    exact congrArg Except.ok (List.map_congr_left fun k hk => by rw [h6 k (List.mem_range.1 hk)])
  · obtain ⟨F, hF, hb⟩ := hmain g (fun k => err k + (((rd (rec k).rgrav : ℚ) : ℝ) - (rec k).rgrav)) ws (ε + 1e-9) K M hK (fun k hk =>
      (abs_add_le _ _).trans (add_le_add (he k hk) (h7 k hk))) hw hMx (fun k hk => by
      have := hread k hk
      linarith)
    refine ⟨F, hF, fun i a b => (hb i a b).trans ?_⟩
    generalize (ws.map fun w => |w.amp| * (w.period / 94) ^ 6).sum = S
    norm_num
    linarith

/-! ### Non-vacuity -/

private theorem steady (c q b : ℝ) : ContDiff ℝ 4 (fun u : ℝ => c + q * (u - b)) ∧ (deriv fun u : ℝ => c + q * (u - b)) = (fun _ => q) ∧
    ∀ (j : ℕ) (s : ℝ), iteratedDeriv (j + 2) (fun u : ℝ => c + q * (u - b)) s = 0 := by
  have d1 : (deriv fun u : ℝ => c + q * (u - b)) = (fun _ => q) := funext fun s => by
    have : HasDerivAt (fun u : ℝ => c + q * (u - b)) (q * 1) s := (((hasDerivAt_id s).sub_const b).const_mul q).const_add c
    rw [this.deriv, mul_one]
  refine ⟨contDiff_const.add (contDiff_const.mul (contDiff_id.sub contDiff_const)), d1, fun j s => ?_⟩
  rw [iteratedDeriv_succ', d1, iteratedDeriv_succ', deriv_const']
  simp

private theorem example_cruise : Cruise (fun u : ℝ => -(117 + (14 + 200 / 1000) / 60) + -(1 / 60000) * (u - 1686960000))
    (fun u : ℝ => (32 + (42 + 100 / 1000) / 60) + 1 / 60000 * (u - 1686960000)) := by
  obtain ⟨a1, a2, a3⟩ := steady (-(117 + (14 + 200 / 1000) / 60)) (-(1 / 60000)) 1686960000
  obtain ⟨b1, b2, b3⟩ := steady (32 + (42 + 100 / 1000) / 60) (1 / 60000) 1686960000
  refine ⟨b1.of_le (by norm_num), a1.of_le (by norm_num), ?_, ?_, ?_, ?_, ?_, ?_, ?_⟩
  · intro s; rw [b2]; norm_num
  · intro s; rw [a2]; norm_num
  · intro s; rw [b3 0]; norm_num
  · intro s; rw [a3 0]; norm_num
  · intro s; rw [b3 1]; norm_num
  · intro s; rw [a3 1]; norm_num
  · intro s; rw [b3 2]; norm_num

/-- Four fixes in two files, the later file first, and three readings, on a straight track to the north-west: the anomaly computed for the second reading, when gravity at
the ship is `g`. -/
example (dates : Dates) (W : Space → ℝ) (hW : LevelField wgs84A wgs84B wgs84GM wgs84Rate W) : ∃ (lm : TideLibm) (faa : ℕ → ℚ) (pull γ : ℝ),
    faaFilesF lm toDouble dates "Ride".toList "GPGGA".toList [[(exFix 2).line, "$GPVTG,1".toList, (exFix 3).line], [(exFix 0).line, (exFix 1).line]]
      [[(exRec 1).line, (exRec 2).line], [(exRec 0).line]] 979000 1 = .ok (samples (fun k => ((exRec k).x.instant, faa k)) 3) ∧
    ∀ g noise : ℝ, 979001.5 = trueReading (fun u : ℝ => -(117 + (14 + 200 / 1000) / 60) + -(1 / 60000) * (u - 1686960000))
        (fun u : ℝ => (32 + (42 + 100 / 1000) / 60) + 1 / 60000 * (u - 1686960000)) g pull 1686960001.5 + noise →
      |(faa 1 : ℝ) - (100000 * (g - γ) + noise)| ≤ 0.012 := by
  obtain ⟨lm, gl⟩ := goodLib_exists
  have hr : ∀ k, (exRec k).rgrav = 1 + 5 / 10 ^ 1 := fun k => by show exNum k 1 = _; norm_num [exNum]
  obtain ⟨pull, -, faa, h1, h2⟩ := C168_ride lm gl toDouble (fun q => by
      rw [abs_sub_comm]
      exact (toDouble_rounds.rel q).trans (by have := abs_nonneg q; norm_num; linarith)) dates 979000 W hW _ _ example_cruise 0
    (fun u => ⟨(abs_eq_zero.2 ((steady (-(117 + (14 + 200 / 1000) / 60)) (-(1 / 60000)) 1686960000).2.2 0 u)).le,
      (abs_eq_zero.2 ((steady (32 + (42 + 100 / 1000) / 60) (1 / 60000) 1686960000).2.2 0 u)).le⟩)
    [[(exFix 2).line, "$GPVTG,1".toList, (exFix 3).line], [(exFix 0).line, (exFix 1).line]] [[exFix 2, exFix 3], [exFix 0, exFix 1]]
    (.cons ⟨by simp, by decide +kernel, by simpa using ⟨exFix_valid 2 (by norm_num), exFix_valid 3 (by norm_num)⟩⟩
      (.cons ⟨by simp, by decide +kernel, by simpa using ⟨exFix_valid 0 (by norm_num), exFix_valid 1 (by norm_num)⟩⟩ .nil))
    4 (by norm_num) exFix (List.perm_append_comm (l₁ := [exFix 2, exFix 3]) (l₂ := [exFix 0, exFix 1]))
    (fun i j h _ => by rw [exFix_instant, exFix_instant]; omega)
    (fun i hi => by
      have h : (i : ℚ) < 4 := by exact_mod_cast hi
      have h0 : (0 : ℚ) ≤ i := by positivity
      rw [exFix_instant, exFix_lon, exFix_lat, abs_neg]
      refine ⟨by unfold Modern; rw [abs_le]; omega, ?_, ?_⟩ <;> · rw [abs_le]; constructor <;> linarith)
    (fun i hi => by
      rw [exFix_instant, exFix_instant, exFix_lon, exFix_lat, exFix_lon, exFix_lat]
      push_cast
      refine ⟨by omega, ?_, ?_⟩ <;> · rw [abs_le]; constructor <;> norm_num <;> linarith)
    1 0 (fun i _ => by rw [exFix_instant, exFix_instant]; push_cast; linarith)
    (fun i _ => by
      rw [exFix_instant, exFix_lon, exFix_lat]
      push_cast
      constructor <;> · rw [abs_le]; constructor <;> linarith)
    (by norm_num)
    [[exRec 1, exRec 2], [exRec 0]] (by
      have v : ∀ k < 3, (exRec k).Valid ∧ 1900 ≤ (exRec k).x.y ∧ (exRec k).x.y ≤ 2099 := fun k hk => ⟨exRec_valid k hk, by show 1900 ≤ 2023; norm_num, by show 2023 ≤ 2099; norm_num⟩
      intro l hl
      rcases List.mem_cons.1 hl with rfl | hl
      · refine ⟨by simp, fun r hr => ?_⟩
        rcases List.mem_cons.1 hr with rfl | hr
        · exact v 1 (by norm_num)
        · rw [List.mem_singleton.1 hr]; exact v 2 (by norm_num)
      · rw [List.mem_singleton.1 hl]
        refine ⟨by simp, fun r hr => ?_⟩
        rw [List.mem_singleton.1 hr]; exact v 0 (by norm_num))
    3 le_rfl exRec (List.perm_append_comm (l₁ := [exRec 1, exRec 2]) (l₂ := [exRec 0]))
    (fun k _ => by rw [hr]; norm_num [abs_le]) 1686960000.5 (fun k _ => by rw [exRec_instant]; push_cast; ring)
    (fun k hk => by
      rw [exRec_instant, exFix_instant, exFix_instant]
      constructor <;> push_cast <;> omega)
  obtain ⟨γ, hγ, -⟩ := normal_true W hW ((32 + (42 + 100 / 1000) / 60) + 1 / 60000 * (1686960001.5 - 1686960000)) (-(117 + (14 + 200 / 1000) / 60) + -(1 / 60000) * (1686960001.5 - 1686960000))
  refine ⟨lm, faa, pull 1, γ, h1, fun g noise hread => ?_⟩
  have hu : (1686960000.5 : ℝ) + (1 : ℕ) = 1686960001.5 := by norm_num
  -- readings at the other times are met by some noise
  obtain ⟨γ', hγ', h⟩ := h2 (fun _ => g) (fun k => (((exRec k).rgrav : ℝ) + (979000 : ℚ)) - trueReading (fun u : ℝ => -(117 + (14 + 200 / 1000) / 60) + -(1 / 60000) * (u - 1686960000))
    (fun u : ℝ => (32 + (42 + 100 / 1000) / 60) + 1 / 60000 * (u - 1686960000)) g (pull k) (1686960000.5 + k)) (fun k _ => by ring) 1 le_rfl (by norm_num)
  rw [hu] at hγ' h
  have e : γ' = γ := by
    have := (uniqueDiffOn_Ici (0 : ℝ) 0 (Set.self_mem_Ici)).eq_deriv _ hγ' hγ
    linarith
  rw [e] at h
  have e2 : ((exRec 1).rgrav : ℝ) + ((979000 : ℚ) : ℝ) = 979001.5 := by rw [hr]; norm_num
  beta_reduce at h
  rw [e2, hread] at h
  rw [add_sub_cancel_left] at h
  refine h.trans ?_
  norm_num

end Shipgrav
