import Verif.Props.Mode
import Verif.Lemmas.ReliefGrid

/-! C148: the anomaly of a surface is Newton's law (grav.py 688–813). -/

namespace Shipgrav
open Spec Real MeasureTheory

private theorem mean_waves (ny nx K : ℕ) (hny : 0 < ny) (hnx : 0 < nx) (z0 : ℝ) (A : ℕ → ℝ) (w : ℕ → ℕ → ℕ → ℝ)
    (hw : ∀ m < K, ∑ a ∈ Finset.range ny, ∑ b ∈ Finset.range nx, w m a b = 0) :
    gridMean ny nx (fun a b => z0 + ∑ m ∈ Finset.range K, A m * w m a b) = z0 := by
  have hxr : (nx : ℝ) ≠ 0 := by exact_mod_cast hnx.ne'
  have hyr : (ny : ℝ) ≠ 0 := by exact_mod_cast hny.ne'
  have hs : ∑ a ∈ Finset.range ny, ∑ b ∈ Finset.range nx, (z0 + ∑ m ∈ Finset.range K, A m * w m a b) = ny * nx * z0 := by
    simp only [Finset.sum_add_distrib, Finset.sum_const, Finset.card_range, nsmul_eq_mul]
    have : ∑ a ∈ Finset.range ny, ∑ b ∈ Finset.range nx, ∑ m ∈ Finset.range K, A m * w m a b =
        ∑ m ∈ Finset.range K, A m * ∑ a ∈ Finset.range ny, ∑ b ∈ Finset.range nx, w m a b := by
      simp only [Finset.mul_sum]
      symm
      rw [Finset.sum_comm]
      refine Finset.sum_congr rfl fun a _ => ?_
      rw [Finset.sum_comm]
    rw [this, Finset.sum_eq_zero fun m hm => by rw [hw m (Finset.mem_range.1 hm), mul_zero]]
    ring
  unfold gridMean
  rw [hs]
  field_simp

private theorem full_zero (ny nx : ℕ) (p q : ℤ) (hp : 2 * |p| ≤ ny) (hq : 2 * |q| ≤ nx) (h0 : p ≠ 0 ∨ q ≠ 0) (hny : 0 < ny) (hnx : 0 < nx) (φ : ℝ) :
    ∑ a ∈ Finset.range ny, ∑ b ∈ Finset.range nx, cos (2 * π * (p * a / ny + q * b / nx) + φ) = 0 := by
  have hnd : ∀ (n : ℕ) (r : ℤ), 0 < n → 2 * |r| ≤ n → (n : ℤ) ∣ r → r = 0 := by
    intro n r hn hr hd
    by_contra hne
    have := Int.le_of_dvd (abs_pos.2 hne) ((dvd_abs _ _).2 hd)
    omega
  have := cos_full2 ny nx p q φ
  rw [if_neg (by
    rintro ⟨d1, d2⟩
    rcases h0 with h | h
    · exact h (hnd ny p hny hp d1)
    · exact h (hnd nx q hnx hq d2))] at this
  rw [← this]
  refine Finset.sum_congr rfl fun a _ => Finset.sum_congr rfl fun b _ => ?_
  congr 1
  ring

/-- What both theorems have in common: a relief of waves that fit the grid of `M × N` points. -/
private theorem relief_core (M N : ℕ) (hM : 0 < M) (hN : 0 < N) (dx dy drho dz z0 H : ℝ) (hdx : dx ≠ 0) (hdy : dy ≠ 0) (Z : ℝ → ℝ → ℝ)
    (hH : ∀ x y, |Z x y - z0| ≤ H) (hd : H < z0 + dz) (P B C : ℕ) (hB : 2 * (P * B) ≤ M) (hC : 2 * (P * C) ≤ N)
    (ht : (fun v : ℝ × ℝ => z0 - Z v.1 v.2) ∈ Submodule.span ℝ (gridRelief M N (1000 * dy) (1000 * dx) B C)) (h : ℕ → ℕ → ℝ)
    (hh : ∀ a < M, ∀ b < N, h a b = 100 * (z0 - Z (b * (1000 * dx)) (a * (1000 * dy)))) (i j : ℕ) :
    |parkerGrid M N (gridWavenumber M N (100000 * dy) (100000 * dx)) (100 * (z0 + dz)) (2 * π * 6.673e-8 * 1000 * drho) P h i j -
        6.673e-8 * 1e5 * drho * bodyPull (fun x y => Z x y + dz) (fun _ _ => z0 + dz) (j * (1000 * dx)) (i * (1000 * dy))| ≤
      2 * π * 6.673e-8 * 1e5 * |drho| * H * (H / (z0 + dz)) ^ P / (1 - H / (z0 + dz)) := by
  have hdx' : 1000 * dx ≠ 0 := mul_ne_zero (by norm_num) hdx
  have hdy' : 1000 * dy ≠ 0 := mul_ne_zero (by norm_num) hdy
  have hu := parkerGrid_units (M := M) (N := N) 100 (by norm_num) hM hN hdy' hdx' (z0 + dz) (2 * π * 6.673e-8 * 1000 * drho) P
    (fun a b => h a b / 100) i j
  have e1 : (fun a b => 100 * (h a b / 100)) = h := by ext a b; ring
  rw [e1, show (100 : ℝ) * (1000 * dy) = 100000 * dy by ring, show (100 : ℝ) * (1000 * dx) = 100000 * dx by ring,
    show 100 * (2 * π * 6.673e-8 * 1000 * drho) = 2 * π * (6.673e-8 * 1e5 * drho) by ring] at hu
  rw [hu]
  have hn := parker_newton (c := z0 + dz) hM hN hdy' hdx' (fun v : ℝ × ℝ => z0 - Z v.1 v.2) H (fun v => by rw [abs_sub_comm]; exact hH _ _) hd B C ht P hB hC
    (fun a b => h a b / 100) (fun a ha b hb => by rw [hh a ha b hb]; ring) (6.673e-8 * 1e5 * drho) i j
  rw [show (fun x y => z0 + dz - (fun v : ℝ × ℝ => z0 - Z v.1 v.2) (x, y)) = fun x y => Z x y + dz by ext x y; ring] at hn
  refine hn.trans (le_of_eq ?_)
  rw [abs_mul, abs_of_pos (by norm_num : (0 : ℝ) < 6.673e-8 * 1e5)]
  ring

/-- **C148.** A periodic grid without folding.  The depths are those of a surface of waves that repeats with the grid, at most `B` and `C` of them
over its two sides, so few that the grid resolves the highest power used.  Then the anomaly at each point (density contrast in g/cm³, depths
and heights in m, spacing in km, result in mGal) is the attraction by Newton's law of the mass between the surface and its mean depth, seen from
`dz` above the zero of depth; with relief `H` and mean depth `c` below the observer it is off by at most the attraction of a slab of thickness `H`
times `(H/c)^npower / (1 - H/c)`. -/
theorem C148_periodic (nx ny K : ℕ) (hx : Even nx ∨ nx = 1) (hy : Even ny ∨ ny = 1) (hnx : 0 < nx) (hny : 0 < ny) (p q : ℕ → ℤ) (A φ : ℕ → ℝ)
    (z0 dx dy drho dz H : ℝ) (hdx : dx ≠ 0) (hdy : dy ≠ 0) (npower B C : ℕ) (hB : 2 * (max 1 npower * B) ≤ ny) (hC : 2 * (max 1 npower * C) ≤ nx)
    (hpq : ∀ m < K, |p m| ≤ B ∧ |q m| ≤ C ∧ (p m ≠ 0 ∨ q m ≠ 0)) (Z : ℝ → ℝ → ℝ)
    (hZ : ∀ x y, Z x y = z0 + ∑ m ∈ Finset.range K, A m * cos (2 * π * (p m * y / (ny * (1000 * dy)) + q m * x / (nx * (1000 * dx))) + φ m))
    (hH : ∀ x y, |Z x y - z0| ≤ H) (hd : H < z0 + dz) :
    ∃ R, grav2dFolding nx ny ⟨ny, nx, fun a b => Z (b * (1000 * dx)) (a * (1000 * dy))⟩ dx dy drho dz false npower = .ok R ∧ ∀ i < ny, ∀ j < nx,
      |R.at' i j - 6.673e-8 * 1e5 * drho * bodyPull (fun x y => Z x y + dz) (fun _ _ => z0 + dz) (j * (1000 * dx)) (i * (1000 * dy))| ≤
        2 * π * 6.673e-8 * 1e5 * |drho| * H * (H / (z0 + dz)) ^ max 1 npower / (1 - H / (z0 + dz)) := by
  have hxr : (nx : ℝ) ≠ 0 := by exact_mod_cast hnx.ne'
  have hyr : (ny : ℝ) ≠ 0 := by exact_mod_cast hny.ne'
  obtain ⟨R, hR, _, _, hv⟩ := C71_value_unfolded nx ny hnx hny (fun a b => Z (b * (1000 * dx)) (a * (1000 * dy))) dx dy drho dz hdx hdy npower hx hy
  refine ⟨R, hR, fun i hi j hj => ?_⟩
  have e : (fun a b : ℕ => Z (b * (1000 * dx)) (a * (1000 * dy))) =
      fun a b : ℕ => z0 + ∑ m ∈ Finset.range K, A m * cos (2 * π * (p m * a / ny + q m * b / nx) + φ m) := by
    ext a b
    rw [hZ]
    congr 1
    refine Finset.sum_congr rfl fun m _ => ?_
    congr 3
    field_simp
  have hle : ∀ D : ℕ, D ≤ max 1 npower * D := fun D => Nat.le_mul_of_pos_left D (by omega)
  have hm : gridMean ny nx (fun a b => Z (b * (1000 * dx)) (a * (1000 * dy))) = z0 := by
    rw [e]
    refine mean_waves ny nx K hny hnx z0 A (fun m a b => cos (2 * π * (p m * a / ny + q m * b / nx) + φ m)) fun m hm => ?_
    obtain ⟨h1, h2, h3⟩ := hpq m hm
    have := hle B
    have := hle C
    exact full_zero ny nx (p m) (q m) (by omega) (by omega) h3 hny hnx (φ m)
  rw [hv i hi j hj, hm]
  refine relief_core ny nx hny hnx dx dy drho dz z0 H hdx hdy Z hH hd (max 1 npower) B C hB hC ?_ _ (fun a _ b _ => rfl) i j
  have et : (fun v : ℝ × ℝ => z0 - Z v.1 v.2) = ∑ m ∈ Finset.range K, (-A m) • gridWave ny nx (1000 * dy) (1000 * dx) (p m) (q m) (φ m) := by
    ext v
    rw [hZ, Finset.sum_apply]
    simp only [Pi.smul_apply, smul_eq_mul, neg_mul, Finset.sum_neg_distrib, gridWave]
    ring
  rw [et]
  refine Submodule.sum_mem _ fun m hm => Submodule.smul_mem _ _ (Submodule.subset_span ?_)
  obtain ⟨h1, h2, h3⟩ := hpq m (Finset.mem_range.1 hm)
  exact ⟨p m, q m, φ m, h1, h2, h3, rfl⟩

/-- **C148.** The same with folding, for a surface of waves that have their crests or troughs half a spacing outside the grid (`p m / 2` and `q m / 2`
waves over the sides), so that the mirror images continue it. -/
theorem C148_folded (nx ny K : ℕ) (p q : ℕ → ℕ) (A : ℕ → ℝ) (z0 dx dy drho dz H : ℝ) (hdx : dx ≠ 0) (hdy : dy ≠ 0) (npower B C : ℕ)
    (hB : max 1 npower * B < ny) (hC : max 1 npower * C < nx) (hpq : ∀ m < K, p m ≤ B ∧ q m ≤ C ∧ (p m ≠ 0 ∨ q m ≠ 0)) (Z : ℝ → ℝ → ℝ)
    (hZ : ∀ x y, Z x y = z0 + ∑ m ∈ Finset.range K, A m * (cos (π * p m * (y / (1000 * dy) + 1 / 2) / ny) * cos (π * q m * (x / (1000 * dx) + 1 / 2) / nx)))
    (hH : ∀ x y, |Z x y - z0| ≤ H) (hd : H < z0 + dz) :
    ∃ R, grav2dFolding nx ny ⟨ny, nx, fun a b => Z (b * (1000 * dx)) (a * (1000 * dy))⟩ dx dy drho dz true npower = .ok R ∧ ∀ i < ny, ∀ j < nx,
      |R.at' i j - 6.673e-8 * 1e5 * drho * bodyPull (fun x y => Z x y + dz) (fun _ _ => z0 + dz) (j * (1000 * dx)) (i * (1000 * dy))| ≤
        2 * π * 6.673e-8 * 1e5 * |drho| * H * (H / (z0 + dz)) ^ max 1 npower / (1 - H / (z0 + dz)) := by
  have hnx : 0 < nx := by omega
  have hny : 0 < ny := by omega
  have hxr : (nx : ℝ) ≠ 0 := by exact_mod_cast hnx.ne'
  have hyr : (ny : ℝ) ≠ 0 := by exact_mod_cast hny.ne'
  have hdx' : 1000 * dx ≠ 0 := mul_ne_zero (by norm_num) hdx
  have hdy' : 1000 * dy ≠ 0 := mul_ne_zero (by norm_num) hdy
  obtain ⟨R, hR, _, _, hv⟩ := C71_value_folded nx ny hnx hny (fun a b => Z (b * (1000 * dx)) (a * (1000 * dy))) dx dy drho dz hdx hdy npower
  refine ⟨R, hR, fun i hi j hj => ?_⟩
  have e : ∀ a b : ℕ, Z (b * (1000 * dx)) (a * (1000 * dy)) =
      z0 + ∑ m ∈ Finset.range K, A m * (cos (π * p m * (2 * a + 1) / (2 * ny)) * cos (π * q m * (2 * b + 1) / (2 * nx))) := by
    intro a b
    rw [hZ]
    congr 1
    refine Finset.sum_congr rfl fun m _ => ?_
    congr 3
    · field_simp
    · field_simp
  have hle : ∀ D : ℕ, D ≤ max 1 npower * D := fun D => Nat.le_mul_of_pos_left D (by omega)
  have hm : gridMean ny nx (fun a b => Z (b * (1000 * dx)) (a * (1000 * dy))) = z0 := by
    simp only [e]
    refine mean_waves ny nx K hny hnx z0 A (fun m a b => cos (π * p m * (2 * a + 1) / (2 * ny)) * cos (π * q m * (2 * b + 1) / (2 * nx))) fun m hm => ?_
    obtain ⟨h1, h2, h3⟩ := hpq m hm
    have := hle B
    have := hle C
    rw [← Finset.sum_mul_sum]
    rcases h3 with h3 | h3
    · rw [mode_half_sum ny (p m) hny h3 (by omega), zero_mul]
    · rw [mode_half_sum nx (q m) hnx h3 (by omega), mul_zero]
  rw [hv i hi j hj, hm]
  refine relief_core (2 * ny) (2 * nx) (by omega) (by omega) dx dy drho dz z0 H hdx hdy Z hH hd (max 1 npower) B C (by omega) (by omega) ?_ _ ?_ i j
  · have et : (fun v : ℝ × ℝ => z0 - Z v.1 v.2) = ∑ m ∈ Finset.range K, (-A m) •
        ((1 / 2 : ℝ) • gridWave (2 * ny) (2 * nx) (1000 * dy) (1000 * dx) (p m) (q m) (π * p m / (2 * ny) + π * q m / (2 * nx)) +
          (1 / 2 : ℝ) • gridWave (2 * ny) (2 * nx) (1000 * dy) (1000 * dx) (p m) (-(q m : ℤ)) (π * p m / (2 * ny) - π * q m / (2 * nx))) := by
      ext v
      rw [hZ, Finset.sum_apply, show z0 - (z0 + ∑ m ∈ Finset.range K, A m * (cos (π * p m * (v.2 / (1000 * dy) + 1 / 2) / ny) *
        cos (π * q m * (v.1 / (1000 * dx) + 1 / 2) / nx))) = ∑ m ∈ Finset.range K, -A m * (cos (π * p m * (v.2 / (1000 * dy) + 1 / 2) / ny) *
        cos (π * q m * (v.1 / (1000 * dx) + 1 / 2) / nx)) by simp only [neg_mul, Finset.sum_neg_distrib]; ring]
      refine Finset.sum_congr rfl fun m _ => ?_
      simp only [Pi.smul_apply, Pi.add_apply, smul_eq_mul, gridWave]
      have a1 : 2 * π * (((p m : ℤ) : ℝ) * v.2 / ((2 * ny : ℕ) * (1000 * dy)) + ((q m : ℤ) : ℝ) * v.1 / ((2 * nx : ℕ) * (1000 * dx))) +
          (π * p m / (2 * ny) + π * q m / (2 * nx)) =
          π * p m * (v.2 / (1000 * dy) + 1 / 2) / ny + π * q m * (v.1 / (1000 * dx) + 1 / 2) / nx := by
        push_cast
        field_simp
        ring
      have a2 : 2 * π * (((p m : ℤ) : ℝ) * v.2 / ((2 * ny : ℕ) * (1000 * dy)) + ((-(q m : ℤ) : ℤ) : ℝ) * v.1 / ((2 * nx : ℕ) * (1000 * dx))) +
          (π * p m / (2 * ny) - π * q m / (2 * nx)) =
          π * p m * (v.2 / (1000 * dy) + 1 / 2) / ny - π * q m * (v.1 / (1000 * dx) + 1 / 2) / nx := by
        push_cast
        field_simp
        ring
      rw [a1, a2]
      generalize π * p m * (v.2 / (1000 * dy) + 1 / 2) / ny = u
      generalize π * q m * (v.1 / (1000 * dx) + 1 / 2) / nx = w
      rw [cos_add, cos_sub]
      ring
    rw [et]
    refine Submodule.sum_mem _ fun m hm => Submodule.smul_mem _ _ ?_
    obtain ⟨h1, h2, h3⟩ := hpq m (Finset.mem_range.1 hm)
    refine Submodule.add_mem _ (Submodule.smul_mem _ _ (Submodule.subset_span ⟨p m, q m, _, ?_, ?_, ?_, rfl⟩))
      (Submodule.smul_mem _ _ (Submodule.subset_span ⟨p m, -(q m : ℤ), _, ?_, ?_, ?_, rfl⟩))
    all_goals first | (rw [abs_neg]; simpa using h2) | simpa using h1 | simpa using h2 | omega
  · intro a ha b hb
    have e2 : Z (b * (1000 * dx)) (a * (1000 * dy)) = z0 + ∑ m ∈ Finset.range K, A m *
        (cos (2 * π * p m * a / ((2 * ny : ℕ) : ℝ) + π * p m / (2 * ny)) * cos (2 * π * q m * b / ((2 * nx : ℕ) : ℝ) + π * q m / (2 * nx))) := by
      rw [e]
      congr 1
      refine Finset.sum_congr rfl fun m _ => ?_
      congr 3
      · push_cast
        field_simp
      · push_cast
        field_simp
    rw [e2]
    unfold mirrored
    simp only [e]
    congr 3
    refine Finset.sum_congr rfl fun m _ => ?_
    rw [mode_mirrored_cos ny (p m) a ha, mode_mirrored_cos nx (q m) b hb]

/-- **C148.** The attraction in the two theorems above is a convergent integral, for any continuous surface below the observer with bounded relief. -/
theorem C148_finite (Z : ℝ → ℝ → ℝ) (hZ : Continuous fun v : ℝ × ℝ => Z v.1 v.2) (z0 dz H : ℝ) (hH : ∀ x y, |Z x y - z0| ≤ H) (hd : H < z0 + dz)
    (X Y : ℝ) :
    Integrable (fun p : ℝ × ℝ => ∫ z in (Z p.1 p.2 + dz)..(z0 + dz), z / √((p.1 - X) ^ 2 + (p.2 - Y) ^ 2 + z ^ 2) ^ 3) ∧
    ∀ p : ℝ × ℝ, IntervalIntegrable (fun z => z / √((p.1 - X) ^ 2 + (p.2 - Y) ^ 2 + z ^ 2) ^ 3) volume (Z p.1 p.2 + dz) (z0 + dz) := by
  have hH0 : 0 ≤ H := (abs_nonneg _).trans (hH 0 0)
  have hlo : 0 < z0 + dz - H := by linarith
  have hz : ∀ x y, z0 + dz - H ≤ Z x y + dz ∧ Z x y + dz ≤ z0 + dz + H := fun x y => by
    have := abs_le.1 (hH x y)
    constructor <;> linarith [this.1, this.2]
  have hin : ∀ x y, ∀ z ∈ Set.uIcc (Z x y + dz) (z0 + dz), z0 + dz - H ≤ z ∧ z ≤ z0 + dz + H := by
    intro x y z hzm
    obtain ⟨h1, h2⟩ := hzm
    exact ⟨(le_inf (hz x y).1 (by linarith)).trans h1, h2.trans (sup_le (hz x y).2 (by linarith))⟩
  refine ⟨?_, fun p => ?_⟩
  · have hi : Integrable fun p : ℝ × ℝ => H * ((z0 + dz + H) / (z0 + dz - H)) * pull (z0 + dz - H) (p - (X, Y)) :=
      ((pull_integrable hlo).comp_sub_right (X, Y)).const_mul _
    refine hi.mono' ?_ (Filter.Eventually.of_forall fun p => ?_)
    · have e : (fun p : ℝ × ℝ => ∫ z in (Z p.1 p.2 + dz)..(z0 + dz), z / √((p.1 - X) ^ 2 + (p.2 - Y) ^ 2 + z ^ 2) ^ 3) =
          fun p : ℝ × ℝ => 1 / √((p.1 - X) ^ 2 + (p.2 - Y) ^ 2 + (Z p.1 p.2 + dz) ^ 2) - 1 / √((p.1 - X) ^ 2 + (p.2 - Y) ^ 2 + (z0 + dz) ^ 2) := by
        ext p
        exact column_pull (hlo.trans_le (hz p.1 p.2).1) (by linarith) (p - (X, Y))
      rw [e]
      refine Continuous.aestronglyMeasurable ?_
      have n1 : ∀ p : ℝ × ℝ, √((p.1 - X) ^ 2 + (p.2 - Y) ^ 2 + (Z p.1 p.2 + dz) ^ 2) ≠ 0 := fun p => by
        have := hlo.trans_le (hz p.1 p.2).1
        positivity
      have n2 : ∀ p : ℝ × ℝ, √((p.1 - X) ^ 2 + (p.2 - Y) ^ 2 + (z0 + dz) ^ 2) ≠ 0 := fun p => by
        have : 0 < z0 + dz := by linarith
        positivity
      exact (continuous_const.div (by fun_prop) n1).sub (continuous_const.div (by fun_prop) n2)
    · have hb : ∀ z ∈ Set.uIoc (Z p.1 p.2 + dz) (z0 + dz), ‖z / √((p.1 - X) ^ 2 + (p.2 - Y) ^ 2 + z ^ 2) ^ 3‖ ≤
          (z0 + dz + H) / (z0 + dz - H) * pull (z0 + dz - H) (p - (X, Y)) := by
        intro z hzm
        obtain ⟨h1, h2⟩ := hin p.1 p.2 z (Set.uIoc_subset_uIcc hzm)
        have hzp : 0 < z := hlo.trans_le h1
        rw [norm_eq_abs, abs_of_nonneg (by positivity)]
        have e : (z0 + dz + H) / (z0 + dz - H) * pull (z0 + dz - H) (p - (X, Y)) =
            (z0 + dz + H) / √((p.1 - X) ^ 2 + (p.2 - Y) ^ 2 + (z0 + dz - H) ^ 2) ^ 3 := by
          unfold pull
          simp only [Prod.fst_sub, Prod.snd_sub]
          field_simp
        rw [e]
        have hs : 0 < √((p.1 - X) ^ 2 + (p.2 - Y) ^ 2 + (z0 + dz - H) ^ 2) := by positivity
        have hl : √((p.1 - X) ^ 2 + (p.2 - Y) ^ 2 + (z0 + dz - H) ^ 2) ≤ √((p.1 - X) ^ 2 + (p.2 - Y) ^ 2 + z ^ 2) :=
          sqrt_le_sqrt (by nlinarith)
        exact div_le_div₀ (by linarith) h2 (by positivity) (pow_le_pow_left₀ hs.le hl 3)
      refine (intervalIntegral.norm_integral_le_of_norm_le_const hb).trans ?_
      have h0 : 0 ≤ (z0 + dz + H) / (z0 + dz - H) * pull (z0 + dz - H) (p - (X, Y)) := by
        unfold pull
        have : 0 ≤ z0 + dz + H := by linarith
        positivity
      rw [mul_assoc H, mul_comm H]
      refine mul_le_mul_of_nonneg_left ?_ h0
      rw [show z0 + dz - (Z p.1 p.2 + dz) = z0 - Z p.1 p.2 by ring, abs_sub_comm]
      exact hH _ _
  · refine ContinuousOn.intervalIntegrable fun z hzm => ContinuousAt.continuousWithinAt ?_
    have hzp : 0 < z := hlo.trans_le (hin p.1 p.2 z hzm).1
    refine continuousAt_id.div (by fun_prop) ?_
    positivity

-- a surface of one wave: 3000 m deep with 500 m relief, 6 waves over 64 points, five powers; the bound is below a hundredth of a mGal for a water-rock contrast
example : (Even 64 ∨ 64 = 1) ∧ 2 * (max 1 5 * 6) ≤ 64 ∧ 2 * (max 1 5 * 0) ≤ 64 ∧ |(6 : ℤ)| ≤ 6 ∧ |(0 : ℤ)| ≤ 0 ∧ ((6 : ℤ) ≠ 0 ∨ (0 : ℤ) ≠ 0) := by decide
example (x y : ℝ) : |(3000 + 500 * cos (x + y) : ℝ) - 3000| ≤ 500 := by
  rw [add_sub_cancel_left, abs_mul, abs_of_pos (by norm_num : (0 : ℝ) < 500)]
  linarith [abs_cos_le_one (x + y)]
example : 2 * π * 6.673e-8 * 1e5 * |(1.7 : ℝ)| * 500 * (500 / (3000 + 0)) ^ max 1 5 / (1 - 500 / (3000 + 0)) < 0.01 := by
  rw [abs_of_pos (by norm_num), show max 1 5 = 5 by rfl]
  have := pi_lt_d2
  norm_num at this ⊢
  linarith

end Shipgrav
