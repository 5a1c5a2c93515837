import Verif.Lemmas.TideNode
import Verif.Lemmas.FloatTime

/-! C134: the tide prediction in double precision. -/

namespace Shipgrav
open Spec Real

/-! ### Helpers -/

private theorem exact_time (t : ℤ) : tideTimeG exactTide (((t - tideOrigin) / 86400000000 : ℤ) : ℝ) (((t - tideOrigin) % 86400000000 / 1000000 : ℤ) : ℝ)
    ((t / 3600000000 % 24 : ℤ) : ℝ) ((t / 60000000 % 60 : ℤ) : ℝ) ((t / 1000000 % 60 : ℤ) : ℝ) = tideTime t := by
  unfold tideTimeG tideTime exactTide exactArith
  simp only
  norm_num

theorem days_range (y m d : ℕ) (hv : ValidDate y m d) (y1 : 1900 ≤ y) (y2 : y ≤ 2099) : 693596 ≤ dayNumber y m d ∧ dayNumber y m d ≤ 766644 := by
  obtain ⟨h1, h2, h3, h4, h5, h6⟩ := hv
  rw [← ymd2ord_eq y m d h1 h3 h4]
  have lo : 693595 ≤ daysBeforeYear y := by
    have e : daysBeforeYear 1900 = 693595 := by decide +kernel
    rcases Nat.lt_or_ge 1900 y with h | h
    · have := yearMono 1900 y (by norm_num) h
      omega
    · rw [show y = 1900 by omega, e]
  have hi : daysBeforeYear y + (if isLeap y then 366 else 365) ≤ 766644 := by
    have e : daysBeforeYear 2100 = 766644 := by decide +kernel
    rw [← e]
    exact yearMono y 2100 h1 (by omega)
  have := lastDay y m d h3 h4 (by rw [daysInMonth_eq]; exact h6)
  unfold ymd2ord at *
  omega

private theorem times (lm : TideLibm) (y m d : ℕ) (h mi s us : ℤ) (hv : ValidDate y m d) (ht : ValidTime h mi s us) (y1 : 1900 ≤ y) (y2 : y ≤ 2099) :
    Iv 0 (500007 / 250000) (1777 / 2000000000000000000) (centuries y m d h mi s) (tideTimeF lm (utcInstant y m d h mi s us)).1 ∧
      Iv 0 (2501667 / 100000) (567 / 50000000000000000) (hourOfDay h mi s) (tideHourF (tideTimeF lm (utcInstant y m d h mi s us)).2) ∧
      ∃ τ : ℤ, 0 ≤ τ ∧ τ ≤ 6311606400 ∧ centuries y m d h mi s = centurySec τ := by
  have hc := C47_time_arguments y m d h mi s us hv ht
  have he := exact_time (utcInstant y m d h mi s us)
  rw [hc] at he
  obtain ⟨d1, d2⟩ := days_range y m d hv y1 y2
  obtain ⟨t1, t2, t3, t4, t5, t6, t7, t8⟩ := ht
  have e1970 : dayNumber 1970 1 1 = 719163 := by rw [← ymd2ord_eq _ _ _ (by norm_num) (by norm_num) (by norm_num)]; decide +kernel
  have e1899 : dayNumber 1899 12 31 = 693595 := by rw [← ymd2ord_eq _ _ _ (by norm_num) (by norm_num) (by norm_num)]; decide +kernel
  have ho : tideOrigin = -2209032000000000 := by unfold tideOrigin; decide +kernel
  have hu : utcInstant y m d h mi s us = ((dayNumber y m d : ℤ) - 719163) * 86400000000 + (h * 3600000000 + mi * 60000000 + s * 1000000 + us) := by
    unfold utcInstant usOfDay dayUs
    rw [e1970]
    push_cast
    ring
  have iv : ∀ (n c : ℤ) (b : ℚ), (c : ℚ) ≤ b → 0 ≤ n → n ≤ c → Iv 0 b 0 ((n : ℤ) : ℝ) ((n : ℤ) : ℚ) := by
    intro n c b hb n0 n1
    have := iv_self (n : ℚ) (l := 0) (by exact_mod_cast n0) (le_trans (by exact_mod_cast n1) hb)
    rwa [Rat.cast_intCast] at this
  have key := iv_time lm (iv ((utcInstant y m d h mi s us - tideOrigin) / 86400000000) 73050 73050 (by norm_num) (by rw [ho, hu]; omega) (by rw [ho, hu]; omega))
    (iv ((utcInstant y m d h mi s us - tideOrigin) % 86400000000 / 1000000) 86400 86400 (by norm_num) (by omega) (by omega))
    (iv (utcInstant y m d h mi s us / 3600000000 % 24) 24 24 (by norm_num) (by omega) (by omega))
    (iv (utcInstant y m d h mi s us / 60000000 % 60) 60 60 (by norm_num) (by omega) (by omega))
    (iv (utcInstant y m d h mi s us / 1000000 % 60) 60 60 (by norm_num) (by omega) (by omega))
  rw [he] at key
  refine ⟨key.1, ?_, ?_⟩
  · have h0 : ¬ (tideTimeF lm (utcInstant y m d h mi s us)).2 < 0 := by
      rw [not_lt]
      have e : (tideTimeF lm (utcInstant y m d h mi s us)).2 = toDouble (toDouble (((utcInstant y m d h mi s us / 3600000000 % 24 : ℤ) : ℚ) +
          toDouble (((utcInstant y m d h mi s us / 60000000 % 60 : ℤ) : ℚ) / toDouble 60)) +
          toDouble (((utcInstant y m d h mi s us / 1000000 % 60 : ℤ) : ℚ) / toDouble 3600)) := rfl
      rw [e]
      have nn : ∀ n : ℤ, 0 ≤ n → (0 : ℚ) ≤ n := fun n hn => by exact_mod_cast hn
      have a1 := nn (utcInstant y m d h mi s us / 3600000000 % 24) (by omega)
      have a2 := nn (utcInstant y m d h mi s us / 60000000 % 60) (by omega)
      have a3 := nn (utcInstant y m d h mi s us / 1000000 % 60) (by omega)
      have b2 := toDouble_nonneg (x := 60) (by norm_num)
      have b3 := toDouble_nonneg (x := 3600) (by norm_num)
      exact toDouble_nonneg (add_nonneg (toDouble_nonneg (add_nonneg a1 (toDouble_nonneg (div_nonneg a2 b2)))) (toDouble_nonneg (div_nonneg a3 b3)))
    unfold tideHourF
    simp only [h0, if_false, ite_self]
    exact key.2
  · refine ⟨((dayNumber y m d : ℤ) - 693595) * 86400 + (h * 3600 + mi * 60 + s) - 43200, by omega, by omega, ?_⟩
    unfold centuries hourOfDay centurySec
    rw [e1899]
    push_cast
    ring

/-- The tide in double precision, for the arguments of the code. -/
theorem tideF_near (lm : TideLibm) (g : GoodTideLib lm.sin lm.cos lm.arctan lm.arcsin lm.arccos lm.arctanInf lm.sqrt lm.sqr lm.cube) (y m d : ℕ) (h mi s us : ℤ)
    (hv : ValidDate y m d) (ht : ValidTime h mi s us) (y1 : 1900 ≤ y) (y2 : y ≤ 2099) :
    ∀ lon lat alt : ℚ, |lon| ≤ 720 → |lat| ≤ 90 → |alt| ≤ 10000 →
      ∃ v, longmanF lm [lon] [lat] [utcInstant y m d h mi s us] alt = .ok [v] ∧ TideWithin (argsAt (centuries y m d h mi s)) lon lat alt (hourOfDay h mi s) v 1e-3 ∧
        (NodeAway (argsAt (centuries y m d h mi s)) 1e-6 → TideWithin (argsAt (centuries y m d h mi s)) lon lat alt (hourOfDay h mi s) v 1e-7) ∧ (NodeAway (argsAt (centuries y m d h mi s)) 2e-3 → TideWithin (argsAt (centuries y m d h mi s)) lon lat alt (hourOfDay h mi s) v 1e-9) := by
  obtain ⟨hT, hh, τ, τ0, τ1, hτ⟩ := times lm y m d h mi s us hv ht y1 y2
  obtain ⟨vs, vp, vh, vN, vp1, ve⟩ := iv_args lm hT
  have r := e1_range (centuries y m d h mi s) (by have := hT.1; push_cast at this; linarith) (by have := hT.2.1; push_cast at this; linarith)
  intro lon lat alt hlon hlat halt
  rw [abs_le] at hlon hlat
  have halt' := abs_le.1 halt
  refine ⟨_, rfl, ?_⟩
  simp only
  generalize (tideTimeF lm (utcInstant y m d h mi s us)).1 = T' at *
  generalize tideHourF (tideTimeF lm (utcInstant y m d h mi s us)).2 = b' at *
  have vlon := iv_self lon hlon.1 hlon.2
  have vlat := iv_self lat hlat.1 hlat.2
  have valt := iv_self alt halt'.1 halt'.2
  have eN := (exact_args (centuries y m d h mi s))
  generalize hour_eq : hourOfDay h mi s = hour at *
  have vN' := vN.2.2
  have vN1 := vN.1
  have vN2 := vN.2.1
  obtain ⟨q1, q2, q3, q4, q5, q6⟩ := eN
  rw [q4] at vN' vN1 vN2
  generalize hTT : centuries y m d h mi s = T at *
  unfold tidePointG
  have eta : ∀ A : ArgsOf ℚ, A = ⟨A.s, A.p, A.h, A.N, A.p1, A.e1⟩ := fun _ => rfl
  rw [eta (tideArgsG (doubleTide lm) T')]
  generalize (tideArgsG (doubleTide lm) T').N = N' at *
  push_cast at vN' vN1 vN2
  have n1 : -63 ≤ N' := by
    have := (abs_le.1 vN').1
    have : (-63 : ℝ) ≤ N' := by linarith
    exact_mod_cast this
  have n2 : N' ≤ 5 := by
    have := (abs_le.1 vN').2
    have : (N' : ℝ) ≤ 5 := by linarith
    exact_mod_cast this
  have ex := exact_fromArgs lon lat alt hour (withNode (argsAt T) N') (cos_ratCast_ne N') r.1 r.2
  have lip := lunar_lip (argsAt T) N' lon lat alt hour (by exact_mod_cast halt)
  have sol : solarTide (withNode (argsAt T) N') lon lat alt hour = solarTide (argsAt T) lon lat alt hour := rfl
  rw [sol] at ex
  have lip' : |lunarTide (withNode (argsAt T) N') lon lat alt hour - lunarTide (argsAt T) lon lat alt hour| ≤ 2e-12 := by
    refine lip.trans ?_
    have : |(N' : ℝ) - (argsAt T).N| ≤ 1553 / 20000000000000000 := vN'
    norm_num at *
    linarith
  have pack : ∀ {e1 e2 x : ℝ} {w : ℚ × ℚ × ℚ} {u : ℝ × ℝ × ℝ}, tideFromArgsG exactTide lon lat alt hour ⟨(tideArgsG exactTide T).s, (tideArgsG exactTide T).p,
      (tideArgsG exactTide T).h, N', (tideArgsG exactTide T).p1, (tideArgsG exactTide T).e1⟩ = u → |(w.1 : ℝ) - u.1| ≤ e1 → |(w.2.1 : ℝ) - u.2.1| ≤ e2 →
      |(w.2.2 : ℝ) - u.2.2| ≤ 1e-11 → e1 + 2e-12 ≤ x → e2 + 2e-12 ≤ x → TideWithin (argsAt T) lon lat alt hour w x := by
    intro e1 e2 x w u hu h1 h2 h3 h4 h5
    rw [q1, q2, q3, q5, q6] at hu
    have hu' := hu.symm.trans ex
    subst hu'
    refine ⟨?_, ?_, h3⟩
    · refine (abs_sub_le _ _ _).trans (le_trans (add_le_add h1 ?_) h4)
      rw [add_sub_add_right_eq_sub]
      exact lip'
    · exact (abs_sub_le _ _ _).trans (le_trans (add_le_add h2 lip') h5)
  have nd : ∀ δ : ℝ, NodeAway (argsAt T) δ → ∀ k : ℤ, δ - 1e-13 ≤ |(N' : ℝ) - (2 * k + 1) * π| := by
    intro δ hδ k
    have h1 := hδ k
    have h2 : (argsAt T).N = tideN T := rfl
    rw [h2] at h1
    have h3 := abs_sub_le (tideN T) N' ((2 * k + 1) * π)
    rw [abs_sub_comm] at vN'
    norm_num at *
    linarith
  have far : (1 / 1000 ≤ |sin (N' : ℝ)| ∨ 0 ≤ cos (N' : ℝ)) → TideWithin (argsAt T) lon lat alt hour
      (tideFromArgsG (doubleTide lm) lon lat alt b' ⟨(tideArgsG (doubleTide lm) T').s, (tideArgsG (doubleTide lm) T').p, (tideArgsG (doubleTide lm) T').h, N',
        (tideArgsG (doubleTide lm) T').p1, (tideArgsG (doubleTide lm) T').e1⟩) 1e-9 := by
    intro hc
    obtain ⟨w1, w2, w3⟩ := iv_point g vlon vlat valt hh vs vp vh vp1 ve n1 n2 hc
    refine pack rfl w1.2.2 w2.2.2 (w3.2.2.trans ?_) ?_ ?_ <;> norm_num
  have mid : (99 / 100000000 ≤ |sin (N' : ℝ)| ∨ 0 ≤ cos (N' : ℝ)) → TideWithin (argsAt T) lon lat alt hour
      (tideFromArgsG (doubleTide lm) lon lat alt b' ⟨(tideArgsG (doubleTide lm) T').s, (tideArgsG (doubleTide lm) T').p, (tideArgsG (doubleTide lm) T').h, N',
        (tideArgsG (doubleTide lm) T').p1, (tideArgsG (doubleTide lm) T').e1⟩) 1e-7 := by
    intro hc
    rcases le_or_gt (1 / 1000) |sin (N' : ℝ)| with hb | hb
    · obtain ⟨f1, f2, f3⟩ := far (Or.inl hb)
      exact ⟨f1.trans (by norm_num), f2.trans (by norm_num), f3⟩
    · have hb' := abs_lt.1 hb
      obtain ⟨w1, w2, w3⟩ := iv_pointMid g vlon vlat valt hh vs vp vh vp1 ve n1 n2 hc (by push_cast; linarith) (by push_cast; linarith)
      refine pack rfl w1.2.2 w2.2.2 (w3.2.2.trans ?_) ?_ ?_ <;> norm_num
  refine ⟨?_, fun ha => ?_, fun ha => ?_⟩
  · have ha : NodeAway (argsAt T) 3e-11 := by
      intro k
      show _ ≤ |tideN T - _|
      rw [hτ]
      exact node_away τ τ0 τ1 k
    have hc : 29 / 1000000000000 ≤ |sin (N' : ℝ)| ∨ 0 ≤ cos (N' : ℝ) :=
      (sin_away N' (by norm_num) (by norm_num) (nd _ ha)).imp (fun q => le_trans (by norm_num) q) id
    rcases le_or_gt (1 / 1000) |sin (N' : ℝ)| with hb | hb
    · obtain ⟨f1, f2, f3⟩ := far (Or.inl hb)
      exact ⟨f1.trans (by norm_num), f2.trans (by norm_num), f3⟩
    · have hb' := abs_lt.1 hb
      obtain ⟨w1, w2, w3⟩ := iv_pointClose g vlon vlat valt hh vs vp vh vp1 ve n1 n2 hc (by push_cast; linarith) (by push_cast; linarith)
      refine pack rfl w1.2.2 w2.2.2 (w3.2.2.trans ?_) ?_ ?_ <;> norm_num
  · exact mid ((sin_away N' (by norm_num) (by norm_num) (nd _ ha)).imp (fun q => le_trans (by norm_num) q) id)
  · exact far ((sin_away N' (by norm_num) (by norm_num) (nd _ ha)).imp (fun q => le_trans (by norm_num) q) id)

/-- C134.  For every second of the years 1900 to 2099 and every place, the tide prediction in double precision is the tide of Longman up to 1e-3 mGal; up to 1e-7 mGal
unless the moon's node is within 1e-6 radians of longitude 180° (about three minutes every 18.6 years), and up to 1e-9 mGal unless it is within 2e-3 radians (about four days). -/
theorem C134_tide (lm : TideLibm) (g : GoodTideLib lm.sin lm.cos lm.arctan lm.arcsin lm.arccos lm.arctanInf lm.sqrt lm.sqr lm.cube) (y m d : ℕ) (h mi s us : ℤ)
    (hv : ValidDate y m d) (ht : ValidTime h mi s us) (y1 : 1900 ≤ y) (y2 : y ≤ 2099) :
    ∃ a, NearSchureman (centuries y m d h mi s) a ∧ ∀ lon lat alt : ℚ, |lon| ≤ 720 → |lat| ≤ 90 → |alt| ≤ 10000 →
      ∃ v, longmanF lm [lon] [lat] [utcInstant y m d h mi s us] alt = .ok [v] ∧ TideWithin a lon lat alt (hourOfDay h mi s) v 1e-3 ∧
        (NodeAway a 1e-6 → TideWithin a lon lat alt (hourOfDay h mi s) v 1e-7) ∧ (NodeAway a 2e-3 → TideWithin a lon lat alt (hourOfDay h mi s) v 1e-9) :=
  ⟨_, near_schureman _, tideF_near lm g y m d h mi s us hv ht y1 y2⟩

/-- C134.  Inputs of different lengths raise `AssertionError`; otherwise there is one output per point, the output for that point alone. -/
theorem C134_pointwise (lm : TideLibm) (lon lat : List ℚ) (times : List ℤ) (alt : ℚ) :
    (¬ (lon.length = lat.length ∧ lon.length = times.length) → longmanF lm lon lat times alt = .error .assertionError) ∧
    (lon.length = lat.length ∧ lon.length = times.length → ∃ out, longmanF lm lon lat times alt = .ok out ∧ out.length = lon.length ∧
      ∀ (k : ℕ) (x y : ℚ) (t : ℤ), lon[k]? = some x → lat[k]? = some y → times[k]? = some t → ∃ v, out[k]? = some v ∧ longmanF lm [x] [y] [t] alt = .ok [v]) := by
  unfold longmanF
  constructor
  · intro h
    by_cases h1 : lon.length = lat.length
    · rw [if_neg (by simpa using h1), if_pos (fun h2 => h ⟨h1, h2⟩)]
    · rw [if_pos h1]
  · rintro ⟨h1, h2⟩
    rw [if_neg (by simpa using h1), if_neg (by simpa using h2)]
    refine ⟨_, rfl, ?_, ?_⟩
    · simp only [List.length_map, List.length_zip]
      omega
    · intro k x y t hx hy ht
      rw [if_neg (by simp), if_neg (by simp)]
      refine ⟨_, ?_, rfl⟩
      have : ((lon.zip lat).zip times)[k]? = some ((x, y), t) := by
        rw [List.getElem?_zip_eq_some]
        refine ⟨?_, ht⟩
        rw [List.getElem?_zip_eq_some]
        exact ⟨hx, hy⟩
      rw [List.getElem?_map, this]
      rfl

/-- C134.  The tide of a whole track is right to 1e-3 mGal at every point. -/
theorem C134_track (lm : TideLibm) (g : GoodTideLib lm.sin lm.cos lm.arctan lm.arcsin lm.arccos lm.arctanInf lm.sqrt lm.sqr lm.cube) (lon lat : List ℚ) (times : List ℤ)
    (alt : ℚ) (h1 : lon.length = lat.length) (h2 : lon.length = times.length) (hlon : ∀ x ∈ lon, |x| ≤ 720) (hlat : ∀ x ∈ lat, |x| ≤ 90) (halt : |alt| ≤ 10000) :
    ∃ out, longmanF lm lon lat times alt = .ok out ∧ out.length = lon.length ∧ ∀ (k : ℕ) (x y : ℚ) (t : ℤ) (Y M D : ℕ) (h mi s us : ℤ),
      lon[k]? = some x → lat[k]? = some y → times[k]? = some t → ValidDate Y M D → ValidTime h mi s us → 1900 ≤ Y → Y ≤ 2099 → t = utcInstant Y M D h mi s us →
      ∃ v a, out[k]? = some v ∧ NearSchureman (centuries Y M D h mi s) a ∧ TideWithin a x y alt (hourOfDay h mi s) v 1e-3 := by
  obtain ⟨out, ho, hl, hp⟩ := (C134_pointwise lm lon lat times alt).2 ⟨h1, h2⟩
  refine ⟨out, ho, hl, ?_⟩
  intro k x y t Y M D h mi s us hx hy htm hv ht y1 y2 hte
  obtain ⟨v, hv1, hv2⟩ := hp k x y t hx hy htm
  obtain ⟨a, ha, hq⟩ := C134_tide lm g Y M D h mi s us hv ht y1 y2
  obtain ⟨w, hw, hw2, -⟩ := hq x y alt (hlon x (List.mem_of_getElem? hx)) (hlat y (List.mem_of_getElem? hy)) halt
  rw [← hte, hv2] at hw
  have : v = w := by simpa using hw
  exact ⟨v, a, hv1, ha, this ▸ hw2⟩

/-! ### Non-vacuity -/

/-- The hypotheses on the library can be met. -/
theorem goodTideLib_exists : ∃ lm : TideLibm, GoodTideLib lm.sin lm.cos lm.arctan lm.arcsin lm.arccos lm.arctanInf lm.sqrt lm.sqr lm.cube := by
  have key : ∀ x : ℝ, ∃ r : ℚ, |(r : ℝ) - x| ≤ 1 / 2 ^ 51 := by
    intro x
    obtain ⟨r, h1, h2⟩ := exists_rat_btwn (show x < x + 1 / 2 ^ 51 by linarith [show (0 : ℝ) < 1 / 2 ^ 51 by positivity])
    exact ⟨r, by rw [abs_le]; constructor <;> linarith⟩
  have rel : ∀ x : ℝ, 0 ≤ x → ∃ r : ℚ, |(r : ℝ) - x| ≤ x / 2 ^ 52 := by
    intro x hx
    rcases hx.eq_or_lt with rfl | hx
    · exact ⟨0, by norm_num⟩
    · obtain ⟨r, h1, h2⟩ := exists_rat_btwn (show x < x + x / 2 ^ 52 by linarith [show (0 : ℝ) < x / 2 ^ 52 by positivity])
      exact ⟨r, by rw [abs_le]; constructor <;> linarith⟩
  choose sn hsn using fun q : ℚ => key (sin (q : ℝ))
  choose cs hcs using fun q : ℚ => key (cos (q : ℝ))
  choose ac hac using fun q : ℚ => key (arctan (q : ℝ))
  choose an han using fun q : ℚ => key (arcsin (q : ℝ))
  choose ao hao using fun q : ℚ => key (arccos (q : ℝ))
  obtain ⟨inf, hinf⟩ := key (π / 2)
  choose sq hsq using fun q : ℚ => rel (√(q : ℝ)) (sqrt_nonneg _)
  refine ⟨⟨⟨sn, cs, ac, fun q => q ^ 2⟩, an, ao, inf, sq, fun q => q ^ 3⟩, ⟨fun q _ => hsn q, fun q _ => hcs q, hac, hinf, fun q _ => han q, fun q _ => hao q,
    fun q _ => hsq q, fun q => ?_, fun q => ?_⟩⟩
  · push_cast
    rw [sub_self, abs_zero]
    positivity
  · push_cast
    rw [sub_self, abs_zero]
    positivity

example : ValidDate 1922 9 16 ∧ ValidTime 4 10 10 0 ∧ 1900 ≤ 1922 ∧ 1922 ≤ 2099 := by decide

/-- The node is away from longitude 180° at the epoch. -/
example (a : Astro) (h : NearSchureman 0 a) : NodeAway a 1 := by
  have h1 := h.N
  unfold dms at h1
  have p1 := pi_gt_d2
  have p2 := pi_lt_d2
  norm_num at h1
  rw [abs_le] at h1
  intro k
  rcases lt_or_ge 0 k with hk | hk
  · have hk' : (1 : ℝ) ≤ k := by exact_mod_cast hk
    refine le_trans ?_ (neg_le_abs _)
    nlinarith
  · have hk' : (k : ℝ) ≤ 0 := by exact_mod_cast hk
    refine le_trans ?_ (le_abs_self _)
    nlinarith

end Shipgrav
