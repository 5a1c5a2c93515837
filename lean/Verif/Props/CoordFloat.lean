import Verif.Lemmas.CoordFloat
import Verif.Props.NavParse

/-! Property C127: positions from GGA sentences in double precision. -/

namespace Shipgrav
open Spec

/-- Both missing, or `y` within `(|x| + 2000)/2^51` of `x`: less than 10⁻¹² for degrees. -/
def NearCoord : Option ℚ → Option ℚ → Prop
  | none, none => True
  | some x, some y => |y - x| ≤ (|x| + 2000) / 2 ^ 51
  | _, _ => False

private theorem coordLineF_both (talker line : Str) :
    (∃ e, coordLine talker line = .error e ∧ coordLineF talker line = .error e) ∨
      ∃ a b, coordLine talker line = .ok a ∧ coordLineF talker line = .ok b ∧ NearCoord a.1 b.1 ∧ NearCoord a.2 b.2 := by
  unfold coordLine coordLineF
  rcases ggaFields talker line with e | post
  · exact Or.inl ⟨e, rfl, rfl⟩
  simp only [bind, Except.bind]
  rcases pyGet post 1 with e | f1
  · exact Or.inl ⟨e, rfl, rfl⟩
  simp only
  by_cases h1 : f1 = []
  · simp only [if_pos h1]
    exact Or.inr ⟨_, _, rfl, rfl, trivial, trivial⟩
  simp only [if_neg h1]
  rcases pyGet post 3 with e | f3
  · exact Or.inl ⟨e, rfl, rfl⟩
  simp only
  by_cases h3 : f3 = []
  · simp only [if_pos h3]
    exact Or.inr ⟨_, _, rfl, rfl, trivial, trivial⟩
  simp only [if_neg h3]
  generalize pyGet post 2 = f2
  have hlat : (∃ e, degMin 2 f1 f2 ['S'] = .error e ∧ degMinF 2 f1 f2 ['S'] = .error e) ∨
      ∃ x y, degMin 2 f1 f2 ['S'] = .ok x ∧ degMinF 2 f1 f2 ['S'] = .ok y ∧ NearCoord x y := by
    rcases degMinF_near 2 f1 f2 ['S'] (by norm_num) with h | ⟨a, b⟩ | ⟨x, y, a, b, c⟩
    · exact Or.inl h
    · exact Or.inr ⟨_, _, a, b, trivial⟩
    · exact Or.inr ⟨_, _, a, b, c⟩
  rcases hlat with ⟨e, a, b⟩ | ⟨x, y, a, b, c⟩
  · rw [a, b]; exact Or.inl ⟨e, rfl, rfl⟩
  rw [a, b]
  simp only
  generalize pyGet post 4 = f4
  have hlon : (∃ e, degMin 3 f3 f4 ['W'] = .error e ∧ degMinF 3 f3 f4 ['W'] = .error e) ∨
      ∃ x y, degMin 3 f3 f4 ['W'] = .ok x ∧ degMinF 3 f3 f4 ['W'] = .ok y ∧ NearCoord x y := by
    rcases degMinF_near 3 f3 f4 ['W'] (by norm_num) with h | ⟨a, b⟩ | ⟨x, y, a, b, c⟩
    · exact Or.inl h
    · exact Or.inr ⟨_, _, a, b, trivial⟩
    · exact Or.inr ⟨_, _, a, b, c⟩
  rcases hlon with ⟨e, a', b'⟩ | ⟨x', y', a', b', c'⟩
  · rw [a', b']; exact Or.inl ⟨e, rfl, rfl⟩
  rw [a', b']
  exact Or.inr ⟨_, _, rfl, rfl, c', c⟩

/-- **C127.** On every file and for every talker, position extraction in double precision raises where exact extraction does; otherwise it gives as many
positions, NaN in the same places, and every coordinate within `(|x| + 2000)/2^51` of the exact one. -/
theorem C127_every_file (allnav : List Str) (talker : Str) :
    (∃ e, navcoords allnav talker = .error e ∧ navcoordsF allnav talker = .error e) ∨
      ∃ out out', navcoords allnav talker = .ok out ∧ navcoordsF allnav talker = .ok out' ∧
        List.Forall₂ (fun a b => NearCoord a.1 b.1 ∧ NearCoord a.2 b.2) out out' := by
  unfold navcoords navcoordsF
  induction talkerLines talker allnav with
  | nil => exact Or.inr ⟨[], [], rfl, rfl, .nil⟩
  | cons l ls ih =>
    rw [List.mapM_cons, List.mapM_cons]
    rcases coordLineF_both talker l with ⟨e, h1, h2⟩ | ⟨a, b, h1, h2, h3⟩
    · rw [h1, h2]; exact Or.inl ⟨e, rfl, rfl⟩
    · rw [h1, h2]
      rcases ih with ⟨e, i1, i2⟩ | ⟨o, o', i1, i2, i3⟩
      · rw [i1, i2]; exact Or.inl ⟨e, rfl, rfl⟩
      · rw [i1, i2]; exact Or.inr ⟨a :: o, b :: o', rfl, rfl, .cons h3 i3⟩

/-- **C127.** A well-formed GGA line is decoded in double precision to within `2^-39` degrees — a quarter of a micrometre on the ground — of the
signed decimal degrees it states. -/
theorem C127_well_formed (pre talker time : Str) (rest : List Str) (south west : Bool)
    (ld lm lk lf gd gm gk gf : ℕ) (hld : ld < 100) (hlm : lm < 100) (hlf : lf < 10 ^ lk)
    (hgd : gd < 1000) (hgm : gm < 100) (hgf : gf < 10 ^ gk)
    (hwf : WellFormed pre talker ([time, degMinText 2 ld lm lk lf, nsText south, degMinText 3 gd gm gk gf, ewText west] ++ rest)) :
    ∃ lon lat, navcoordsF [ggaLine pre talker
        ([time, degMinText 2 ld lm lk lf, nsText south, degMinText 3 gd gm gk gf, ewText west] ++ rest)] talker = .ok [(some lon, some lat)] ∧
      |lon - signed west (degMinValue gd gm gk gf)| ≤ 1 / 2 ^ 39 ∧ |lat - signed south (degMinValue ld lm lk lf)| ≤ 1 / 2 ^ 39 := by
  have hx := C22_coordinates_decode pre talker time rest south west ld lm lk lf gd gm gk gf hld hlm hlf hgd hgm hgf hwf
  have bound : ∀ (b : Bool) (d m p f : ℕ), d < 1000 → m < 100 → f < 10 ^ p → |signed b (degMinValue d m p f)| < 1002 := by
    intro b d m p f h1 h2 h3
    have e : |signed b (degMinValue d m p f)| = |degMinValue d m p f| := by
      cases b
      · rfl
      · simp only [signed, if_true]; exact abs_neg _
    have h1' : (d : ℚ) ≤ 999 := by exact_mod_cast Nat.le_of_lt_succ h1
    have h2' : (m : ℚ) ≤ 99 := by exact_mod_cast Nat.le_of_lt_succ h2
    have h3' : (f : ℚ) / 10 ^ p < 1 := by
      rw [div_lt_one (by positivity)]
      exact_mod_cast h3
    have h4 : (0 : ℚ) ≤ (f : ℚ) / 10 ^ p := by positivity
    rw [e]
    unfold degMinValue
    rw [abs_of_nonneg (by positivity)]
    linarith
  rcases C127_every_file [ggaLine pre talker
        ([time, degMinText 2 ld lm lk lf, nsText south, degMinText 3 gd gm gk gf, ewText west] ++ rest)] talker with ⟨e, h1, -⟩ | ⟨out, out', h1, h2, h3⟩
  · rw [hx] at h1; cases h1
  rw [hx] at h1
  injection h1 with h1
  subst h1
  rcases h3 with _ | ⟨⟨hlon, hlat⟩, h3⟩
  cases h3
  rename_i b
  obtain ⟨_ | lon, _ | lat⟩ := b
  · exact hlon.elim
  · exact hlon.elim
  · exact hlat.elim
  refine ⟨lon, lat, h2, hlon.trans ?_, hlat.trans ?_⟩
  · have := bound west gd gm gk gf hgd hgm hgf
    norm_num at this ⊢
    linarith
  · have := bound south ld lm lk lf (by omega) hlm hlf
    norm_num at this ⊢
    linarith

private theorem written_apart (s t : Bool) (ad am af bd bm bf k : ℕ) (hk : k ≤ 9) (x y : ℚ)
    (hx : |x - signed s (degMinValue ad am k af)| ≤ 1 / 2 ^ 39) (hy : |y - signed t (degMinValue bd bm k bf)| ≤ 1 / 2 ^ 39)
    (h : signed s (degMinValue ad am k af) < signed t (degMinValue bd bm k bf)) : x < y := by
  have whole : ∀ (s : Bool) (d m f : ℕ), ∃ n : ℤ, signed s (degMinValue d m k f) * (60 * 10 ^ k) = n := by
    intro s d m f
    refine ⟨(if s then -1 else 1) * ((d * 60 + m) * 10 ^ k + f), ?_⟩
    have h10 : (10 : ℚ) ^ k ≠ 0 := by positivity
    cases s
    · simp only [signed, degMinValue, Bool.false_eq_true, if_false]
      push_cast
      field_simp
      ring
    · simp only [signed, degMinValue, if_true]
      push_cast
      field_simp
      ring
  obtain ⟨n, hn⟩ := whole s ad am af
  obtain ⟨n', hn'⟩ := whole t bd bm bf
  generalize signed s (degMinValue ad am k af) = a at *
  generalize signed t (degMinValue bd bm k bf) = b at *
  have h10 : (0 : ℚ) < 60 * 10 ^ k := by positivity
  have h1 : (n : ℚ) < n' := by rw [← hn, ← hn']; exact mul_lt_mul_of_pos_right h h10
  have h2 : (n : ℚ) + 1 ≤ n' := by
    have : n < n' := by exact_mod_cast h1
    exact_mod_cast this
  have h3 : 1 ≤ (b - a) * (60 * 10 ^ k) := by rw [sub_mul, hn, hn']; linarith
  have h4 : (60 : ℚ) * 10 ^ k ≤ 60 * 10 ^ 9 := mul_le_mul_of_nonneg_left (pow_le_pow_right₀ (by norm_num) hk) (by norm_num)
  have h5 : 1 ≤ (b - a) * (60 * 10 ^ 9) := h3.trans (mul_le_mul_of_nonneg_left h4 (by linarith))
  have h6 := abs_le.1 hx
  have h7 := abs_le.1 hy
  norm_num at h5 h6 h7
  linarith

/-- **C127.** Minutes written with at most nine decimals: two coordinates that are written differently are neither merged nor put in the wrong order by
rounding.  `(lon, lat)` and `(lon', lat')` are what the two lines are decoded to. -/
theorem C127_order_kept (pre talker time pre' time' : Str) (rest rest' : List Str) (south west south' west' : Bool)
    (ld lm lk lf gd gm gk gf ld' lm' lf' gd' gm' gf' : ℕ) (hld : ld < 100) (hlm : lm < 100) (hlf : lf < 10 ^ lk)
    (hgd : gd < 1000) (hgm : gm < 100) (hgf : gf < 10 ^ gk) (hld' : ld' < 100) (hlm' : lm' < 100) (hlf' : lf' < 10 ^ lk)
    (hgd' : gd' < 1000) (hgm' : gm' < 100) (hgf' : gf' < 10 ^ gk) (hlk : lk ≤ 9) (hgk : gk ≤ 9)
    (hwf : WellFormed pre talker ([time, degMinText 2 ld lm lk lf, nsText south, degMinText 3 gd gm gk gf, ewText west] ++ rest))
    (hwf' : WellFormed pre' talker ([time', degMinText 2 ld' lm' lk lf', nsText south', degMinText 3 gd' gm' gk gf', ewText west'] ++ rest')) :
    ∃ lon lat lon' lat',
      navcoordsF [ggaLine pre talker
        ([time, degMinText 2 ld lm lk lf, nsText south, degMinText 3 gd gm gk gf, ewText west] ++ rest)] talker = .ok [(some lon, some lat)] ∧
      navcoordsF [ggaLine pre' talker
        ([time', degMinText 2 ld' lm' lk lf', nsText south', degMinText 3 gd' gm' gk gf', ewText west'] ++ rest')] talker = .ok [(some lon', some lat')] ∧
      (signed west (degMinValue gd gm gk gf) < signed west' (degMinValue gd' gm' gk gf') → lon < lon') ∧
      (signed south (degMinValue ld lm lk lf) < signed south' (degMinValue ld' lm' lk lf') → lat < lat') := by
  obtain ⟨lon, lat, h1, h2, h3⟩ := C127_well_formed pre talker time rest south west ld lm lk lf gd gm gk gf hld hlm hlf hgd hgm hgf hwf
  obtain ⟨lon', lat', h1', h2', h3'⟩ := C127_well_formed pre' talker time' rest' south' west' ld' lm' lk lf' gd' gm' gk gf' hld' hlm' hlf' hgd' hgm' hgf' hwf'
  exact ⟨lon, lat, lon', lat', h1, h1', written_apart _ _ _ _ _ _ _ _ _ hgk _ _ h2 h2', written_apart _ _ _ _ _ _ _ _ _ hlk _ _ h3 h3'⟩

/-! ### Hypotheses met -/

-- a line of the example files, and the doubles it is decoded to
example : navcoordsF ["NAV 2022/07/01 12:17:33.537 GPS $GPGGA,121733.00,4131.403226,N,07040.311159,W,2,12,0.9,25.169,M,-30.062,M,4.0,0402*46\n".toList]
    "GPGGA".toList = .ok [(some (-621636189961177 / 2 ^ 43), some (5843897208460027 / 2 ^ 47))] := by decide +kernel
example : navcoords ["NAV 2022/07/01 12:17:33.537 GPS $GPGGA,121733.00,4131.403226,N,07040.311159,W,2,12,0.9,25.169,M,-30.062,M,4.0,0402*46\n".toList]
    "GPGGA".toList = .ok [(some (-(7067185265 / 100000000)), some (415233871 / 10000000))] := by decide +kernel
-- a decoded latitude need not be the double nearest to the exact one
example : toDouble ((0 : ℚ) + toDouble (toDouble (208988 / 10000) / 60)) ≠ toDouble (0 + 208988 / 10000 / 60) := by decide +kernel

end Shipgrav
