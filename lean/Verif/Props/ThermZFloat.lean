import Verif.Props.ThermalFloat

/-! C162: isotherms of the plate in double precision. -/

namespace Shipgrav
open Spec Real

/-! ### Helpers -/

private theorem rel52 (x : ℚ) : |toDouble x - x| ≤ 1 / 2 ^ 52 * |x| := by
  have := toDouble_rounds.rel x
  have h := abs_nonneg x
  rw [abs_sub_comm] at this
  refine this.trans ?_
  norm_num
  linarith

private theorem rnd {s w e W : ℚ} (hs : |s - w| ≤ e) (hw : |w| ≤ W) : |toDouble s - w| ≤ e + 1 / 2 ^ 52 * (W + e) := by
  have h1 := rel52 s
  have h2 : |s| ≤ W + e := by
    have : s = w + (s - w) := by ring
    rw [this]
    exact (abs_add_le _ _).trans (add_le_add hw hs)
  have h3 : toDouble s - w = (toDouble s - s) + (s - w) := by ring
  rw [h3]
  refine (abs_add_le _ _).trans ?_
  have := mul_le_mul_of_nonneg_left h2 (show (0 : ℚ) ≤ 1 / 2 ^ 52 by positivity)
  linarith

private theorem grid_value {lo step : ℚ} (h0 : 0 ≤ lo) (hs : 0 < step) (r : ℕ) (hr : 1 ≤ r) :
    |toDouble (lo + toDouble (r * toDouble (toDouble (lo + step) - lo))) - (lo + r * step)| ≤ 7 * r * (lo + step) / 2 ^ 52 := by
  have hr' : (1 : ℚ) ≤ r := by exact_mod_cast hr
  have k1 : |toDouble (lo + step) - (lo + step)| ≤ 1 / 2 ^ 52 * (lo + step) := by
    have := rel52 (lo + step)
    rwa [abs_of_nonneg (by positivity : 0 ≤ lo + step)] at this
  have k2 := rnd (s := toDouble (lo + step) - lo) (w := step) (W := lo + step) (e := 1 / 2 ^ 52 * (lo + step))
    (by rwa [show toDouble (lo + step) - lo - step = toDouble (lo + step) - (lo + step) by ring]) (by rw [abs_of_pos hs]; linarith)
  obtain ⟨A, hA⟩ : ∃ A, A = (r : ℚ) * (lo + step) := ⟨_, rfl⟩
  have A0 : 0 ≤ A := by rw [hA]; positivity
  have loA : lo ≤ A := by rw [hA]; nlinarith
  have stA : (r : ℚ) * step ≤ A := by rw [hA]; nlinarith
  have k3 := rnd (s := r * toDouble (toDouble (lo + step) - lo)) (w := r * step) (W := A) (e := 3 / 2 ^ 52 * A) (by
    rw [← mul_sub, abs_mul, abs_of_nonneg (by positivity : (0 : ℚ) ≤ r)]
    refine (mul_le_mul_of_nonneg_left k2 (by positivity)).trans ?_
    rw [hA]
    have : (0 : ℚ) ≤ r * (lo + step) := by positivity
    norm_num
    linarith) (by rw [abs_of_nonneg (by positivity)]; exact stA)
  have k4 := rnd (s := lo + toDouble (r * toDouble (toDouble (lo + step) - lo))) (w := lo + r * step) (W := 2 * A) (by
    refine le_of_eq_of_le ?_ k3
    congr 1
    ring) (by rw [abs_of_nonneg (by positivity)]; linarith)
  refine k4.trans ?_
  rw [show 7 * (r : ℚ) * (lo + step) / 2 ^ 52 = 7 / 2 ^ 52 * A by rw [hA]; ring]
  norm_num
  linarith

private theorem grid_spec {lo hi step : ℚ} (h0 : 0 ≤ lo) (hd : IsDouble lo) (h : lo < hi) (hs : 0 < step) :
    (∀ r : ℕ, (r < (arangeF lo hi step).length → (r : ℚ) < (hi - lo) / step * (1 + 3 / 2 ^ 52)) ∧
      ((r : ℚ) < (hi - lo) / step * (1 - 3 / 2 ^ 52) → r < (arangeF lo hi step).length)) ∧ arangeF lo hi step ≠ [] ∧
    (∀ r < (arangeF lo hi step).length, |(arangeF lo hi step).getD r 0 - (lo + r * step)| ≤ 7 * r * (lo + step) / 2 ^ 52) ∧
    ∀ v ∈ arangeF lo hi step, 0 ≤ v := by
  have hD : 0 < (hi - lo) / step := div_pos (by linarith) hs
  obtain ⟨n, hn⟩ : ∃ n, n = ⌈toDouble (toDouble (hi - lo) / step)⌉₊ := ⟨_, rfl⟩
  have hl : (arangeF lo hi step).length = n := by rw [hn]; simp [arangeF]
  have e1 : |toDouble (hi - lo) / step - (hi - lo) / step| ≤ 1 / 2 ^ 52 * ((hi - lo) / step) := by
    rw [← sub_div, abs_div, abs_of_pos hs, ← mul_div_assoc]
    have := rel52 (hi - lo)
    rw [abs_of_pos (by linarith : 0 < hi - lo)] at this
    gcongr
  have e2 := abs_le.1 (rnd e1 (le_of_eq (abs_of_pos hD)))
  have hq : 0 < toDouble (toDouble (hi - lo) / step) := by
    have := e2.1
    norm_num at this
    linarith
  have hn0 : 0 < n := by rw [hn]; exact Nat.ceil_pos.2 hq
  have hsec : lo ≤ toDouble (lo + step) := by
    have := Spec.Rounds.mono toDouble_rounds (show lo ≤ lo + step by linarith)
    rwa [Spec.Rounds.exact toDouble_rounds hd] at this
  have td0 : toDouble 0 = 0 := toDouble_eq_zero.2 rfl
  have pos : ∀ q : ℚ, 0 ≤ q → 0 ≤ toDouble q := fun q hq => by
    have := Spec.Rounds.mono toDouble_rounds hq
    rwa [td0] at this
  refine ⟨fun r => ⟨fun hr => ?_, fun hr => ?_⟩, ?_, fun r hr => ?_, fun v hv => ?_⟩
  · rw [hl, hn, Nat.lt_ceil] at hr
    have := e2.2
    norm_num at this ⊢
    linarith
  · rw [hl, hn, Nat.lt_ceil]
    have := e2.1
    norm_num at this hr ⊢
    linarith
  · intro he
    rw [he] at hl
    simp at hl
    omega
  · rw [hl] at hr
    have hg : (arangeF lo hi step).getD r 0 = if r = 0 then lo else if r = 1 then toDouble (lo + step) else
        toDouble (lo + toDouble (r * toDouble (toDouble (lo + step) - lo))) := by
      unfold arangeF
      rw [List.getD_eq_getElem?_getD, List.getElem?_map, ← hn, List.getElem?_range hr]
      rfl
    rw [hg]
    split_ifs with c0 c1
    · subst c0
      simp
    · subst c1
      have := rel52 (lo + step)
      rw [abs_of_nonneg (by positivity : 0 ≤ lo + step)] at this
      push_cast
      rw [one_mul]
      refine this.trans ?_
      have : 0 ≤ lo + step := by positivity
      norm_num
      linarith
    · exact grid_value h0 hs r (by omega)
  · unfold arangeF at hv
    obtain ⟨r, -, rfl⟩ := List.mem_map.1 hv
    split_ifs
    · exact h0
    · exact h0.trans hsec
    · exact pos _ (add_nonneg h0 (pos _ (mul_nonneg (Nat.cast_nonneg _) (pos _ (by linarith)))))

private theorem argminF_spec (l : List ℚ) (h : l ≠ []) : ∃ v, l[argminF l]? = some v ∧ ∀ w ∈ l, v ≤ w := by
  have hex : ∃ m ∈ l, ∀ w ∈ l, m ≤ w := by
    induction l with
    | nil => exact absurd rfl h
    | cons a l ih =>
      rcases l with _ | ⟨b, l⟩
      · exact ⟨a, by simp, by simp⟩
      · obtain ⟨m, hm, hmin⟩ := ih (by simp)
        rcases le_total a m with ham | ham
        · refine ⟨a, by simp, fun w hw => ?_⟩
          rcases List.mem_cons.mp hw with rfl | hw
          · exact le_rfl
          · exact ham.trans (hmin w hw)
        · refine ⟨m, List.mem_cons_of_mem _ hm, fun w hw => ?_⟩
          rcases List.mem_cons.mp hw with rfl | hw
          · exact ham
          · exact hmin w hw
  obtain ⟨m, hm, hmin⟩ := hex
  unfold argminF
  have hlt : (l.findIdx fun v => decide (∀ w ∈ l, v ≤ w)) < l.length := List.findIdx_lt_length_of_exists ⟨m, hm, by simpa using hmin⟩
  exact ⟨_, List.getElem?_eq_getElem hlt, of_decide_eq_true (List.findIdx_getElem (w := hlt))⟩

private theorem mapM_some {α : Type} (f : ℕ → Option α) (g : ℕ → α) (n : ℕ) (h : ∀ r < n, f r = some (g r)) :
    (List.range n).mapM f = some ((List.range n).map g) := by
  have : ∀ l : List ℕ, (∀ r ∈ l, f r = some (g r)) → l.mapM f = some (l.map g) := by
    intro l
    induction l with
    | nil => intro _; rfl
    | cons a l ih =>
      intro hl
      rw [List.mapM_cons, hl a (by simp), ih fun r hr => hl r (List.mem_cons_of_mem _ hr)]
      rfl
  exact this _ fun r hr => h r (List.mem_range.mp hr)

/-- **C162.** `therm_Z_plate` in double precision.  The depths are those of a grid with the number of nodes and the spacing asked for, up to rounding; each
depth returned is that of a node, and the exact temperature there is as close to the isotherm as that of any other node, up to 2⁻⁴¹ of the mantle
temperature and 3 · 2⁻⁵² of the distance. -/
theorem C162_nearest_node (lm : ThermLibm) (g : GoodThermLib lm.exp lm.sin lm.erf lm.erfcinv lm.sqrt lm.sqr) (x T : List ℚ) (u zL0 Tm : ℚ) (time : Bool)
    (minz maxz zsp rhom rhow a k : ℚ) (hx : NoNegativeAges time u x) (hL : 0 < zL0) (hk : 0 ≤ k) (hr : rhom ≠ rhow) (h0 : 0 ≤ minz) (hd : IsDouble minz)
    (hz : minz < maxz) (hsp : 0 < zsp) :
    ∃ (z : List ℚ) (Tp : Mat (Option ℝ)) (W : List (Option ℝ)) (R : Mat (Option ℚ)),
      (∀ r : ℕ, (r < z.length → (r : ℚ) < (maxz - minz) / zsp * (1 + 3 / 2 ^ 52)) ∧ ((r : ℚ) < (maxz - minz) / zsp * (1 - 3 / 2 ^ 52) → r < z.length)) ∧
      (∀ r < z.length, |z.getD r 0 - (minz + r * zsp)| ≤ 7 * r * (minz + zsp) / 2 ^ 52) ∧
      thermPlate (x.map fun q : ℚ => (q : ℝ)) (z.map fun q : ℚ => (q : ℝ)) u zL0 Tm time rhom rhow a k = .ok (Tp, W) ∧
      thermZPlateF lm x T u zL0 Tm time minz maxz zsp rhom rhow a k = .ok R ∧ R.rows = T.length ∧ R.cols = x.length ∧
      ∀ i < T.length, ∀ j < x.length, ∃ r < z.length, R.at' i j = some (z.getD r 0) ∧ ∃ v, Tp.at' r j = some v ∧
        ∀ s < z.length, ∃ v', Tp.at' s j = some v' ∧
          |v - (T.getD i 0 : ℚ)| ≤ |v' - (T.getD i 0 : ℚ)| * (1 + 3 / 2 ^ 52) + |(Tm : ℝ)| / 2 ^ 41 := by
  obtain ⟨g1, g2, g3, g4⟩ := grid_spec h0 hd hz hsp
  obtain ⟨z, hzz⟩ : ∃ z, z = arangeF minz maxz zsp := ⟨_, rfl⟩
  rw [← hzz] at g1 g2 g3 g4
  obtain ⟨T', W', Tp, W, c1, c2, c3, c4, -, c5, -⟩ := C161_plate lm g x z u zL0 Tm time rhom rhow a k hx g4 g2 hL hk hr
  refine ⟨z, Tp, W, ?R162, g1, g3, c2, ?a162, ?b162, ?c162, ?d162⟩
  case a162 =>
    unfold thermZPlateF
    rw [if_neg hsp.ne']
    simp only [← hzz, c1]
    rfl
  · rfl
  · rfl
  · intro i hi j hj
    have hex : ∀ r, ∃ (q : ℚ) (y : ℝ), r < z.length → T'.at' r j = some q ∧ Tp.at' r j = some y ∧ |(q : ℝ) - y| ≤ |(Tm : ℝ)| / 2 ^ 43 := by
      intro r
      rcases lt_or_ge r z.length with h | h
      · obtain ⟨q, y, e⟩ := c5 r h j hj
        exact ⟨q, y, fun _ => e⟩
      · exact ⟨0, 0, fun h' => absurd h' (not_lt.2 h)⟩
    choose q y hqy using hex
    simp only
    rw [mapM_some _ q _ fun r hr' => (hqy r hr').1, Option.map_some, List.map_map]
    obtain ⟨l, hl⟩ : ∃ l, l = (List.range z.length).map ((fun v => |toDouble (v - T.getD i 0)|) ∘ q) := ⟨_, rfl⟩
    rw [← hl]
    have hll : l.length = z.length := by rw [hl]; simp
    have hlg : ∀ r < z.length, l[r]? = some |toDouble (q r - T.getD i 0)| := by
      intro r hr'
      rw [hl, List.getElem?_map, List.getElem?_range hr']; rfl
    obtain ⟨v, hv1, hv2⟩ := argminF_spec l (by
      intro h
      rw [h] at hll
      exact g2 (List.length_eq_zero_iff.1 hll.symm))
    have hidx : argminF l < z.length := by
      rw [← hll]
      exact (List.getElem?_eq_some_iff.mp hv1).1
    generalize argminF l = r at *
    have hve : v = |toDouble (q r - T.getD i 0)| := by
      rw [hlg _ hidx] at hv1
      injection hv1 with h; exact h.symm
    refine ⟨r, hidx, rfl, y r, (hqy r hidx).2.1, fun s hs => ⟨y s, (hqy s hs).2.1, ?_⟩⟩
    have hm := hv2 _ (List.mem_of_getElem? (hlg s hs))
    rw [hve] at hm
    generalize T.getD i 0 = τ at *
    have br := (hqy r hidx).2.2
    have bs := (hqy s hs).2.2
    have far : ∀ w : ℚ, |toDouble w| ≤ |w| * (1 + 1 / 2 ^ 52) := by
      intro w
      have := rel52 w
      have e : toDouble w = w + (toDouble w - w) := by ring
      rw [e]
      refine (abs_add_le _ _).trans ?_
      linarith
    have near : ∀ w : ℚ, |w| * (1 - 1 / 2 ^ 52) ≤ |toDouble w| := by
      intro w
      have := rel52 w
      have e : |w| ≤ |toDouble w| + |toDouble w - w| := by
        have : w = toDouble w - (toDouble w - w) := by ring
        rw [congrArg abs this]
        exact abs_sub _ _
      linarith
    have k := (near (q r - τ)).trans (hm.trans (far (q s - τ)))
    have k' : |(q r : ℝ) - τ| * (1 - 1 / 2 ^ 52) ≤ |(q s : ℝ) - τ| * (1 + 1 / 2 ^ 52) := by
      have := (Rat.cast_le (K := ℝ)).2 k
      push_cast at this
      exact this
    have a1 : |y r - τ| ≤ |(q r : ℝ) - τ| + |(Tm : ℝ)| / 2 ^ 43 := by
      have : y r - τ = ((q r : ℝ) - τ) - (q r - y r) := by ring
      rw [this]
      exact (abs_sub _ _).trans (by linarith)
    have a2 : |(q s : ℝ) - τ| ≤ |y s - τ| + |(Tm : ℝ)| / 2 ^ 43 := by
      have : (q s : ℝ) - τ = (y s - τ) + (q s - y s) := by ring
      rw [this]
      exact (abs_add_le _ _).trans (by linarith)
    have p1 := abs_nonneg ((q r : ℝ) - τ)
    have p2 := abs_nonneg (y s - (τ : ℝ))
    have p3 := abs_nonneg (Tm : ℝ)
    norm_num at k' a1 a2 ⊢
    linarith

/-- **C162.** A zero spacing, or an empty range of depths, raises as in exact arithmetic. -/
theorem C162_errors (lm : ThermLibm) (x T : List ℚ) (u zL0 Tm : ℚ) (time : Bool) (minz maxz zsp rhom rhow a k : ℚ) :
    thermZPlateF lm x T u zL0 Tm time minz maxz 0 rhom rhow a k = .error .zeroDivisionError ∧
    (0 < zsp → maxz ≤ minz → thermZPlateF lm x T u zL0 Tm time minz maxz zsp rhom rhow a k = .error .indexError) ∧
    (0 < zsp → minz < maxz → thermZPlateF lm x T u zL0 Tm time minz maxz zsp rhom rhom a k = .error .zeroDivisionError) := by
  have td0 : toDouble 0 = 0 := toDouble_eq_zero.2 rfl
  refine ⟨by simp [thermZPlateF], fun h1 h2 => ?_, fun h1 h2 => ?_⟩
  · have he : arangeF minz maxz zsp = [] := by
      have n1 : toDouble (maxz - minz) ≤ 0 := by
        have := Spec.Rounds.mono toDouble_rounds (show maxz - minz ≤ 0 by linarith)
        rwa [td0] at this
      have n2 : toDouble (toDouble (maxz - minz) / zsp) ≤ 0 := by
        have := Spec.Rounds.mono toDouble_rounds (div_nonpos_of_nonpos_of_nonneg n1 h1.le)
        rwa [td0] at this
      unfold arangeF
      simp only
      rw [Nat.ceil_eq_zero.2 n2]
      rfl
    unfold thermZPlateF
    rw [if_neg h1.ne']
    simp only [he]
    rfl
  · have hne : arangeF minz maxz zsp ≠ [] := by
      have p1 : 0 < toDouble (maxz - minz) := by
        refine lt_of_le_of_ne ?_ (Ne.symm (by rw [Ne, toDouble_eq_zero]; linarith))
        have := Spec.Rounds.mono toDouble_rounds (show 0 ≤ maxz - minz by linarith)
        rwa [td0] at this
      have p2 : 0 < toDouble (maxz - minz) / zsp := div_pos p1 h1
      have p3 : 0 < toDouble (toDouble (maxz - minz) / zsp) := by
        refine lt_of_le_of_ne ?_ (Ne.symm (by rw [Ne, toDouble_eq_zero]; exact p2.ne'))
        have := Spec.Rounds.mono toDouble_rounds p2.le
        rwa [td0] at this
      intro he
      have := congrArg List.length he
      simp [arangeF] at this
      linarith
    unfold thermZPlateF thermPlateF
    rw [if_neg h1.ne']
    simp [hne, td0]

/-! ### Non-vacuity -/

/-- The default grid meets the hypotheses. -/
example : (0 : ℚ) ≤ 0 ∧ IsDouble 0 ∧ (0 : ℚ) < 100000 ∧ (0 : ℚ) < 100 := ⟨le_rfl, ⟨0, 0, by norm_num, by norm_num⟩, by norm_num, by norm_num⟩

/-- It has a thousand nodes, which rounding does not move. -/
example : (arangeF 0 100000 100).length = 1000 ∧ (arangeF 0 100000 100).getD 7 0 = 700 := by decide +kernel

/-- With a tenth as spacing rounding does move the nodes. -/
example : (arangeF 0 1 (toDouble (1 / 10))).getD 3 0 ≠ toDouble (3 / 10) := by decide +kernel

end Shipgrav
