import Verif.Lemmas.NavParse
import Verif.Lemmas.MapM

/-! Properties C22–C24: decoding of positions and clock times from GGA sentences. -/

namespace Shipgrav
open Spec

/-- **C22.** For every well-formed GGA line — any logger prefix and any further fields — with `ld` degrees (2 digits),
`lm` minutes and `lf/10^lk` decimal minutes of latitude, and likewise 3-digit degrees of longitude, `_navcoords`
returns exactly the signed decimal degrees. -/
theorem C22_coordinates_decode (pre talker time : Str) (rest : List Str) (south west : Bool)
    (ld lm lk lf gd gm gk gf : ℕ) (hld : ld < 100) (hlm : lm < 100) (hlf : lf < 10 ^ lk)
    (hgd : gd < 1000) (hgm : gm < 100) (hgf : gf < 10 ^ gk)
    (hwf : WellFormed pre talker ([time, degMinText 2 ld lm lk lf, nsText south, degMinText 3 gd gm gk gf, ewText west] ++ rest)) :
    navcoords [ggaLine pre talker
        ([time, degMinText 2 ld lm lk lf, nsText south, degMinText 3 gd gm gk gf, ewText west] ++ rest)] talker
      = .ok [(some (signed west (degMinValue gd gm gk gf)), some (signed south (degMinValue ld lm lk lf)))] := by
  unfold navcoords
  rw [talkerLines_single (ggaLine_hasSub _ _ _), mapM_single]
  unfold coordLine
  rw [ggaLine_fields hwf]
  have n1 : degMinText 2 ld lm lk lf ≠ [] := by
    intro h
    have := congrArg List.length h
    simp [degMinText, zpad_length] at this
  have n2 : degMinText 3 gd gm gk gf ≠ [] := by
    intro h
    have := congrArg List.length h
    simp [degMinText, zpad_length] at this
  have b1 : (if nsText south = ['S'] then -(degMinValue ld lm lk lf) else degMinValue ld lm lk lf)
      = signed south (degMinValue ld lm lk lf) := by cases south <;> simp [nsText, signed]
  have b2 : (if ewText west = ['W'] then -(degMinValue gd gm gk gf) else degMinValue gd gm gk gf)
      = signed west (degMinValue gd gm gk gf) := by cases west <;> simp [ewText, signed]
  have d1 := degMin_text 2 ld lm lk lf (by norm_num) (by simpa using hld) hlm hlf (nsText south) ['S']
  have d2 := degMin_text 3 gd gm gk gf (by norm_num) (by simpa using hgd) hgm hgf (ewText west) ['W']
  rw [b1] at d1
  rw [b2] at d2
  show Except.map _ (if degMinText 2 ld lm lk lf = [] then .ok (none, none) else if degMinText 3 gd gm gk gf = [] then .ok (none, none) else (do
    let lat ← degMin 2 (degMinText 2 ld lm lk lf) (.ok (nsText south)) ['S']
    let lon ← degMin 3 (degMinText 3 gd gm gk gf) (.ok (ewText west)) ['W']
    return (lon, lat) : Except PyErr (Option ℚ × Option ℚ))) = _
  rw [if_neg n1, if_neg n2, d1, d2]
  rfl

private theorem talkerLines_eq (talker : Str) (a : List Str) :
    talkerLines talker a = a.filter (fun l => decide (talker <:+: l)) :=
  List.filter_congr (fun l _ => by simp [hasSub])

/-- **C23.** Position extraction gives exactly one position per line containing the talker, in file order, and the
position of a line is the one read from a file consisting of that line alone. -/
theorem C23_one_position_per_talker_line (allnav : List Str) (talker : Str) (out : List (Option ℚ × Option ℚ)) :
    navcoords allnav talker = .ok out ↔
      List.Forall₂ (fun line c => navcoords [line] talker = .ok [c]) (allnav.filter (fun l => decide (talker <:+: l))) out := by
  unfold navcoords
  rw [mapM_ok_iff]
  rw [talkerLines_eq]
  have key : ∀ line ∈ allnav.filter (fun l => decide (talker <:+: l)), ∀ c : Option ℚ × Option ℚ,
      (coordLine talker line = .ok c ↔ (talkerLines talker [line]).mapM (coordLine talker) = .ok [c]) := by
    intro line hl c
    have hs : hasSub talker line = true := by simpa [hasSub] using (List.mem_filter.1 hl).2
    rw [talkerLines_single hs, mapM_single]
    cases coordLine talker line with
    | error e => simp [Except.map]
    | ok v => simp [Except.map]
  revert key
  generalize allnav.filter (fun l => decide (talker <:+: l)) = ls
  intro key
  induction ls generalizing out with
  | nil => constructor <;> (intro h; cases h; exact .nil)
  | cons a l ih =>
    constructor
    · intro h
      cases h with
      | cons h1 h2 => exact .cons ((key a (by simp) _).1 h1) ((ih _ (fun x hx => key x (by simp [hx]))).1 h2)
    · intro h
      cases h with
      | cons h1 h2 => exact .cons ((key a (by simp) _).2 h1) ((ih _ (fun x hx => key x (by simp [hx]))).2 h2)

/-- **C23.** Lines without the talker have no influence at all. -/
theorem C23_other_lines_ignored (a b : List Str) (talker : Str)
    (h : a.filter (fun l => decide (talker <:+: l)) = b.filter (fun l => decide (talker <:+: l))) :
    navcoords a talker = navcoords b talker ∧ clockTime a talker = clockTime b talker := by
  have : talkerLines talker a = talkerLines talker b := by rw [talkerLines_eq, talkerLines_eq, h]
  unfold navcoords clockTime
  rw [this]
  exact ⟨rfl, rfl⟩

/-- **C23.** A talker line with an empty latitude or longitude field gives NaN for both coordinates. -/
theorem C23_dropout_is_nan (pre talker time lat ns lon : Str) (rest : List Str) (h : lat = [] ∨ lon = [])
    (hwf : WellFormed pre talker ([time, lat, ns, lon] ++ rest)) :
    navcoords [ggaLine pre talker ([time, lat, ns, lon] ++ rest)] talker = .ok [(none, none)] := by
  unfold navcoords
  rw [talkerLines_single (ggaLine_hasSub _ _ _), mapM_single]
  unfold coordLine
  rw [ggaLine_fields hwf]
  show Except.map _ (if lat = [] then _ else if lon = [] then _ else _ : Except PyErr (Option ℚ × Option ℚ)) = _
  by_cases h1 : lat = []
  · rw [if_pos h1]; rfl
  · rw [if_neg h1, if_pos (h.resolve_left h1)]; rfl

private theorem clockTime_single (talker line : Str) (h : hasSub talker line = true) :
    clockTime [line] talker = (clockLine talker line).map (fun c => [c]) := by
  unfold clockTime
  rw [talkerLines_single h, mapM_single]

private theorem digits15 {s f k : ℕ} (hs : s < 100) (hf : f < 10 ^ k) (hk : k ≤ 13) : s * 10 ^ k + f < 10 ^ 15 := by
  have h1 : 10 ^ k ≤ 10 ^ 13 := Nat.pow_le_pow_right (by norm_num) hk
  have h2 : s * 10 ^ k + f < 100 * 10 ^ k := by nlinarith
  calc s * 10 ^ k + f < 100 * 10 ^ k := h2
    _ ≤ 100 * 10 ^ 13 := Nat.mul_le_mul_left _ h1
    _ = 10 ^ 15 := by norm_num

/-- **C24 (whole seconds).** A time `hhmmss`, or `hhmmss.00…0`, is decoded to exactly these numbers. -/
theorem C24_whole_seconds (pre talker : Str) (rest : List Str) (h m s : ℕ) (hh : h < 100) (hm : m < 100) (hs : s < 100)
    (frac : Str) (hfrac : frac = [] ∨ ∃ z, frac = '.' :: List.replicate z '0')
    (hwf : WellFormed pre talker (clockText h m s frac :: rest)) :
    clockTime [ggaLine pre talker (clockText h m s frac :: rest)] talker = .ok [⟨h, m, s, 0⟩] := by
  have hx : parseFloat (zpad 2 s ++ frac) = some (.fin (s : ℚ)) := by
    rcases hfrac with rfl | ⟨z, rfl⟩
    · exact parse_seconds_nofrac s hs
    · have := parse_seconds s 0 0 z hs (by norm_num)
      simpa [fracText, zpad] using this
  have hstr : doubleStr (.fin (toDouble (s : ℚ))) = floatStr (.fin (s : ℚ)) := by
    have := doubleStr_seconds s 0 0 (by norm_num; omega)
    simpa using this
  rw [clockTime_single _ _ (ggaLine_hasSub _ _ _), clockLine_eq hwf h m s frac rest rfl hh hm _ (parseDouble_of hx), hstr, floatStr_nat s hs,
    splitC_point s _ (zpad_digits 1 0)]
  show Except.map _ ((do
    let ms ← msecOf (← pyInt (zpad 1 0))
    let sec ← pyInt (natStr s)
    return ⟨h, m, sec, ms⟩ : Except PyErr Clock)) = _
  have p1 : pyInt (zpad 1 0) = .ok 0 := by decide +kernel
  have p2 : pyInt (natStr s) = .ok (s : ℤ) := by unfold pyInt; rw [parseInt_natStr]
  have p3 : msecOf 0 = .ok 0 := by decide +kernel
  rw [p1, p2]
  show Except.map _ ((do
    let ms ← msecOf 0
    return ⟨h, m, s, ms⟩ : Except PyErr Clock)) = _
  rw [p3]
  rfl

/-- **C24 (what is decoded from a fraction).** Every fraction of a second other than zero is uniquely `f/10^k` with
`f < 10^k` not divisible by 10, written with `z` further zeros.  With up to 13 decimals (so many the reading in double precision keeps) the decoder returns `f·10⁴`
microseconds, whatever `k` is (unless the seconds are below 0.0001, see `C24_tiny_fraction_raises`). -/
theorem C24_fraction_decoded (pre talker : Str) (rest : List Str) (h m s k f z : ℕ) (hh : h < 100) (hm : m < 100)
    (hs : s < 100) (hk13 : k ≤ 13) (hf : f < 10 ^ k) (hf10 : f % 10 ≠ 0) (hbig : 1 ≤ s ∨ 10 ^ k ≤ 10000 * f)
    (hwf : WellFormed pre talker (clockText h m s (fracText k f z) :: rest)) :
    clockTime [ggaLine pre talker (clockText h m s (fracText k f z) :: rest)] talker = .ok [⟨h, m, s, f * 10000⟩] := by
  rw [clockTime_single _ _ (ggaLine_hasSub _ _ _),
    clockLine_eq hwf h m s (fracText k f z) rest rfl hh hm _ (parseDouble_of (parse_seconds s k f z hs hf)),
    doubleStr_seconds s f k (digits15 hs hf hk13), floatStr_frac s f k hs hf10 hf, if_pos hbig, splitC_point s _ (zpad_digits k f)]
  have hk : 0 < k := by
    rcases Nat.eq_zero_or_pos k with rfl | hk
    · simp at hf; subst hf; simp at hf10
    · exact hk
  show Except.map _ ((do
    let ms ← msecOf (← pyInt (zpad k f))
    let sec ← pyInt (natStr s)
    return ⟨h, m, sec, ms⟩ : Except PyErr Clock)) = _
  have p1 : pyInt (zpad k f) = .ok (f : ℤ) := by unfold pyInt; rw [parseInt_zpad k f hk hf]
  have p2 : pyInt (natStr s) = .ok (s : ℤ) := by unfold pyInt; rw [parseInt_natStr]
  rw [p1, p2]
  show Except.map _ ((do
    let ms ← msecOf (f : ℤ)
    return ⟨h, m, s, ms⟩ : Except PyErr Clock)) = _
  rw [msecOf_nat f (hf.trans_le (Nat.pow_le_pow_right (by norm_num) hk13))]
  rfl

/-- **C24 (tiny fractions raise).** Within the first 0.0001 s of a minute a non-zero fraction (of up to 15 significant digits) makes the decoder raise
`ValueError`, because `str` switches to scientific notation. -/
theorem C24_tiny_fraction_raises (pre talker : Str) (rest : List Str) (h m k f z : ℕ) (hh : h < 100) (hm : m < 100)
    (hf15 : f < 10 ^ 15) (hf : f < 10 ^ k) (hf10 : f % 10 ≠ 0) (hsmall : 10000 * f < 10 ^ k)
    (hwf : WellFormed pre talker (clockText h m 0 (fracText k f z) :: rest)) :
    clockTime [ggaLine pre talker (clockText h m 0 (fracText k f z) :: rest)] talker = .error .valueError := by
  rw [clockTime_single _ _ (ggaLine_hasSub _ _ _),
    clockLine_eq hwf h m 0 (fracText k f z) rest rfl hh hm _ (parseDouble_of (parse_seconds 0 k f z (by norm_num) hf)),
    doubleStr_seconds 0 f k (by simpa using hf15), floatStr_frac 0 f k (by norm_num) hf10 hf, if_neg (by omega)]
  have e := sciRepr_int_fails (((0 : ℕ) : ℚ) + (f : ℚ) / 10 ^ k)
  revert e
  cases pyLast (splitC '.' (sciRepr (((0 : ℕ) : ℚ) + (f : ℚ) / 10 ^ k))) with
  | error e => intro h; cases h; rfl
  | ok v =>
    intro e
    have e' : pyInt v = .error .valueError := e
    show Except.map _ ((do
      let ms ← msecOf (← pyInt v)
      let whole ← pyGet (splitC '.' (sciRepr (((0 : ℕ) : ℚ) + (f : ℚ) / 10 ^ k))) 0
      let sec ← pyInt whole
      return ⟨h, m, sec, ms⟩ : Except PyErr Clock)) = _
    rw [e']
    rfl

/-- **C24 (`_partial`).** The full claim "the decoded clock time is the time the sentence states" holds exactly for
fractions that are zero or have exactly two significant decimals: the stated fraction is `f/10^k` seconds and the decoded
one is `msec/10⁶`.  What is missing: fractions with one or more than two significant decimals, which are decoded wrongly
(`C24_half_second_refuted`). -/
theorem C24_fraction_correct_iff_partial (pre talker : Str) (rest : List Str) (h m s k f z : ℕ) (hh : h < 100)
    (hm : m < 100) (hs : s < 100) (hk13 : k ≤ 13) (hf : f < 10 ^ k) (hf10 : f % 10 ≠ 0) (hbig : 1 ≤ s ∨ 10 ^ k ≤ 10000 * f)
    (hwf : WellFormed pre talker (clockText h m s (fracText k f z) :: rest)) :
    (∃ us : ℤ, clockTime [ggaLine pre talker (clockText h m s (fracText k f z) :: rest)] talker = .ok [⟨h, m, s, us⟩] ∧
      (us : ℚ) / 10 ^ 6 = (f : ℚ) / 10 ^ k) ↔ k = 2 := by
  have hdec := C24_fraction_decoded pre talker rest h m s k f z hh hm hs hk13 hf hf10 hbig hwf
  rw [hdec]
  have hfp : (0 : ℚ) < f := by
    rcases Nat.eq_zero_or_pos f with rfl | h
    · simp at hf10
    · exact_mod_cast h
  constructor
  · rintro ⟨us, h1, h2⟩
    have hus : us = f * 10000 := by
      injection h1 with h1; injection h1 with h1 _; injection h1 with _ _ _ h1; exact h1.symm
    subst hus
    push_cast at h2
    rw [div_eq_div_iff (by positivity) (by positivity)] at h2
    have h3 : (f : ℚ) * (10 ^ 4 * 10 ^ k) = f * 10 ^ 6 := by linarith
    have h4 : (10 : ℚ) ^ (4 + k) = 10 ^ 6 := by rw [pow_add]; exact mul_left_cancel₀ hfp.ne' h3
    have h5 : (10 : ℕ) ^ (4 + k) = 10 ^ 6 := by exact_mod_cast h4
    have := Nat.pow_right_injective (le_refl 2 |>.trans (by norm_num : 2 ≤ 10)) h5
    omega
  · rintro rfl
    refine ⟨f * 10000, rfl, ?_⟩
    push_cast
    rw [div_eq_div_iff (by positivity) (by positivity)]
    ring

/-- **C24 refuted.** A sentence stating 12:00:00.50 is decoded as 12:00:00.05. -/
theorem C24_half_second_refuted :
    ∃ pre talker : Str, ∃ rest : List Str, WellFormed pre talker (clockText 12 0 0 (fracText 1 5 1) :: rest) ∧
      ggaLine pre talker (clockText 12 0 0 (fracText 1 5 1) :: rest)
        = "NAV 2022/07/01 12:00:00.537 GPS $GPGGA,120000.50,4131.4,N,07040.3,W\n".toList ∧
      clockTime [ggaLine pre talker (clockText 12 0 0 (fracText 1 5 1) :: rest)] talker = .ok [⟨12, 0, 0, 50000⟩] := by
  refine ⟨"NAV 2022/07/01 12:00:00.537 GPS $".toList, "GPGGA".toList,
    ["4131.4".toList, "N".toList, "07040.3".toList, "W\n".toList], ⟨by decide, by decide +kernel, by decide +kernel, by decide +kernel⟩,
    by decide +kernel, by decide +kernel⟩

/-! ### The hypotheses are satisfiable: lines of the example files -/

example : WellFormed "NAV 2022/07/01 12:17:33.537 GPS $".toList "GPGGA".toList
    ([clockText 12 17 33 (fracText 0 0 2), degMinText 2 41 31 6 403226, nsText false, degMinText 3 70 40 6 311159,
      ewText true] ++ ["2".toList, "12".toList, "0.9".toList, "25.169".toList, "M".toList, "-30.062".toList, "M".toList,
      "4.0".toList, "0402*46\n".toList]) ∧
    ggaLine "NAV 2022/07/01 12:17:33.537 GPS $".toList "GPGGA".toList
    ([clockText 12 17 33 (fracText 0 0 2), degMinText 2 41 31 6 403226, nsText false, degMinText 3 70 40 6 311159,
      ewText true] ++ ["2".toList, "12".toList, "0.9".toList, "25.169".toList, "M".toList, "-30.062".toList, "M".toList,
      "4.0".toList, "0402*46\n".toList])
    = "NAV 2022/07/01 12:17:33.537 GPS $GPGGA,121733.00,4131.403226,N,07040.311159,W,2,12,0.9,25.169,M,-30.062,M,4.0,0402*46\n".toList :=
  ⟨⟨by decide, by decide +kernel, by decide +kernel, by decide +kernel⟩, by decide +kernel⟩

example : WellFormed "$".toList "GPGGA".toList ["120000".toList, [], "N".toList, [], "\n".toList] :=
  ⟨by decide, by decide +kernel, by decide +kernel, by decide +kernel⟩

example : WellFormed "23+013:00:00:01.113 $".toList "GPGGA".toList [clockText 0 0 1 (fracText 2 81 0), "x".toList] :=
  ⟨by decide, by decide +kernel, by decide +kernel, by decide +kernel⟩

example : WellFormed "$".toList "GPGGA".toList [clockText 0 0 0 (fracText 5 3 0)] ∧ 10000 * 3 < 10 ^ 5 :=
  ⟨⟨by decide, by decide +kernel, by decide +kernel, by decide +kernel⟩, by norm_num⟩

end Shipgrav
