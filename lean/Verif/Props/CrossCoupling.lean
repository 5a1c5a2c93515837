import Verif.Lemmas.CrossCoupling
import Mathlib.Data.List.Sort
import Mathlib.LinearAlgebra.Vandermonde
import Mathlib.Tactic.FinCases

/-! Property theorems C59–C62 and C91: cross coupling. -/

namespace Shipgrav
open Spec Real

private theorem gapIdx_eq (t : ℕ → ℝ) (rate : ℝ) (n : ℕ) (gaps : List ℕ) (hs : gaps.Pairwise (· < ·))
    (hm : ∀ k, k ∈ gaps ↔ GapAfter t rate n k) : gapIdx (samples t n) rate = gaps := by
  have h1 : (gapIdx (samples t n) rate).Pairwise (· < ·) := List.Pairwise.filter _ List.pairwise_lt_range
  have hmem : ∀ k, k ∈ gapIdx (samples t n) rate ↔ k ∈ gaps := by
    intro k
    rw [hm k]
    unfold gapIdx GapAfter
    simp only [samples_length, List.mem_filter, List.mem_range, decide_eq_true_eq]
    constructor
    · rintro ⟨h, hk⟩
      rw [samples_getD _ _ _ (by omega), samples_getD _ _ _ (by omega)] at hk
      exact ⟨by omega, hk⟩
    · rintro ⟨h, hk⟩
      rw [samples_getD _ _ _ (by omega), samples_getD _ _ _ (by omega)]
      exact ⟨by omega, hk⟩
  exact List.Perm.eq_of_pairwise (fun a b _ _ h1 h2 => absurd h1 (by omega)) h1 hs
    ((List.perm_ext_iff_of_nodup (h1.imp (fun h => Nat.ne_of_lt h)) (hs.imp (fun h => Nat.ne_of_lt h))).mpr hmem)

private theorem endInds_eq (times : Option (ℕ → ℝ)) (rate : ℝ) (n : ℕ) (gaps : List ℕ) (hg : GapList times rate n gaps) :
    endInds n (times.map (samples · n)) rate = if gaps = [] then [n] else gaps := by
  obtain ⟨hs, hm⟩ := hg
  cases times with
  | none =>
    have : gaps = [] := List.eq_nil_iff_forall_not_mem.mpr (fun k hk => by simpa using (hm k).mp hk)
    simp [endInds, this]
  | some t =>
    have := gapIdx_eq t rate n gaps hs (fun k => by simpa using hm k)
    unfold endInds
    simp only [Option.map_some, this]
    by_cases h : gaps = [] <;> simp [h]

private theorem zip_stretches (s : ℕ) (gs : List ℕ) : (s :: gs.map (· + 1)).zip gs = stretchesTo s gs := by
  induction gs generalizing s with
  | nil => rfl
  | cons g gs ih => rw [List.map_cons, List.zip_cons_cons, ih]; rfl

private theorem stretchesTo_snd (s : ℕ) (gs : List ℕ) (p : ℕ × ℕ) (hp : p ∈ stretchesTo s gs) : p.2 ∈ gs := by
  induction gs generalizing s with
  | nil => simp [stretchesTo] at hp
  | cons g gs ih =>
    rcases List.mem_cons.mp hp with rfl | h
    · simp
    · exact List.mem_cons_of_mem _ (ih _ h)

private theorem ccSeries_eq (faa x : ℕ → ℝ) (n : ℕ) (ends : List ℕ) (he : ∀ e ∈ ends, e ≤ n) :
    ccSeries (samples faa n) (samples x n) ends =
      ((stretchesTo 0 ends).filter fun p => 1000 ≤ p.2 - p.1).flatMap (stretchRows x) := by
  unfold ccSeries spans
  rw [zip_stretches]
  have hf : (stretchesTo 0 ends).filter (fun s => ¬ (ccSlice (samples faa n) s).length < 1000) =
      (stretchesTo 0 ends).filter (fun p => 1000 ≤ p.2 - p.1) := by
    apply List.filter_congr
    intro p hp
    have h2 := he _ (stretchesTo_snd 0 ends p hp)
    obtain ⟨s, e⟩ := p
    rw [slice_samples _ _ _ _ h2, samples_length]
    simp
  rw [hf]
  apply List.flatMap_congr
  intro p hp
  have h2 := he _ (stretchesTo_snd 0 ends p (List.mem_filter.mp hp).1)
  obtain ⟨s, e⟩ := p
  exact ccProcess_slice x n s e h2

private theorem series_eq (faa x : ℕ → ℝ) (times : Option (ℕ → ℝ)) (rate : ℝ) (n : ℕ) (gaps : List ℕ)
    (hg : GapList times rate n gaps) :
    ccSeries (samples faa n) (samples x n) (endInds n (times.map (samples · n)) rate) =
      (usedStretches n gaps).flatMap (stretchRows x) := by
  rw [endInds_eq _ _ _ _ hg, ccSeries_eq]
  · unfold usedStretches
    by_cases h : gaps = []
    · simp [h, stretchesTo]
    · simp [h]
  · intro e h
    by_cases hn : gaps = []
    · simp [hn] at h; omega
    · rw [if_neg hn] at h
      obtain ⟨t, _, h1, _⟩ := (hg.2 e).mp h
      omega

private theorem rows_length (x : ℕ → ℝ) (l : List (ℕ × ℕ)) :
    (l.flatMap (stretchRows x)).length = (l.map fun p => p.2 - p.1 - 420).sum := by
  rw [List.length_flatMap]
  refine congrArg List.sum (List.map_congr_left fun p _ => ?_)
  simp [stretchRows]

private theorem used_rows_zero (n : ℕ) (gaps : List ℕ) :
    ((usedStretches n gaps).map fun p => p.2 - p.1 - 420).sum = 0 ↔ usedStretches n gaps = [] := by
  constructor
  · intro h
    by_contra hne
    obtain ⟨p, hp⟩ := List.exists_mem_of_ne_nil _ hne
    have h1 : p.2 - p.1 - 420 = 0 := by
      have := List.le_sum_of_mem (List.mem_map_of_mem (f := fun p : ℕ × ℕ => p.2 - p.1 - 420) hp)
      omega
    have h2 := (List.mem_filter.mp hp).2
    simp at h2
    omega
  · intro h; simp [h]

/-- **C60.** The table, for all series and gap patterns: each column holds, for each used stretch, the smoothed curvature of its series;
`g` is minus that of the anomaly.  Without a used stretch the call raises. -/
theorem C60_table (n : ℕ) (faa vcc ve al ax lev : ℕ → ℝ) (times : Option (ℕ → ℝ)) (rate : ℝ) (gaps : List ℕ)
    (hg : GapList times rate n gaps) :
    calcCC (samples faa n) (samples vcc n) (samples ve n) (samples al n) (samples ax n) (samples lev n)
        (times.map (samples · n)) rate =
      if usedStretches n gaps = [] then .error .valueError
      else
        let col := fun x => (usedStretches n gaps).flatMap (stretchRows x)
        .ok ⟨col ve, col vcc, col al, col ax, col lev, (col faa).map (-·)⟩ := by
  unfold calcCC
  simp only [samples_length, series_eq _ _ _ _ _ _ hg, rows_length, and_self, if_true, used_rows_zero]

/-- **C60.** Sizes of the table. -/
theorem C60_sizes (n : ℕ) (faa vcc ve al ax lev : ℕ → ℝ) (times : Option (ℕ → ℝ)) (rate : ℝ) (gaps : List ℕ) (T : CCTable)
    (hg : GapList times rate n gaps)
    (hT : calcCC (samples faa n) (samples vcc n) (samples ve n) (samples al n) (samples ax n) (samples lev n)
        (times.map (samples · n)) rate = .ok T) :
    T.g.length = ((usedStretches n gaps).map fun p => p.2 - p.1 - 420).sum ∧ T.ve.length = T.g.length ∧
      T.vcc.length = T.g.length ∧ T.al.length = T.g.length ∧ T.ax.length = T.g.length ∧ T.lev.length = T.g.length := by
  rw [C60_table _ _ _ _ _ _ _ _ _ _ hg] at hT
  by_cases hu : usedStretches n gaps = []
  · simp [hu] at hT
  · rw [if_neg hu] at hT
    injection hT with hT
    subst hT
    simp only [List.length_map, rows_length, and_self]

/-- **C60.** Without timestamps, and 1000 samples or more, the table has `n - 420` rows. -/
theorem C60_no_times (n : ℕ) (hn : 1000 ≤ n) (faa vcc ve al ax lev : ℕ → ℝ) (rate : ℝ) :
    calcCC (samples faa n) (samples vcc n) (samples ve n) (samples al n) (samples ax n) (samples lev n) none rate =
      .ok ⟨samples (smoothCurvature ve) (n - 420), samples (smoothCurvature vcc) (n - 420), samples (smoothCurvature al) (n - 420),
        samples (smoothCurvature ax) (n - 420), samples (smoothCurvature lev) (n - 420),
        samples (fun i => -smoothCurvature faa i) (n - 420)⟩ := by
  have hg : GapList none rate n [] := ⟨List.Pairwise.nil, fun k => by simp⟩
  have hu : usedStretches n [] = [(0, n)] := by simp [usedStretches, hn]
  have h := C60_table n faa vcc ve al ax lev none rate [] hg
  rw [Option.map_none] at h
  rw [h, hu]
  simp [stretchRows, samples]

/-- **C59, refuted.** Two stretches; the second has any number of samples.  If the first one is short the call raises. -/
theorem C59_last_stretch_refuted (n e : ℕ) (he : e < 1000) (hn : e + 1001 ≤ n) (faa vcc ve al ax lev : ℕ → ℝ) :
    calcCC (samples faa n) (samples vcc n) (samples ve n) (samples al n) (samples ax n) (samples lev n)
        (some (samples (fun k => if k ≤ e then (k : ℝ) else k + 10) n)) 1 = .error .valueError := by
  have hg : GapList (some (fun k => if k ≤ e then (k : ℝ) else k + 10)) 1 n [e] := by
    refine ⟨by simp, fun k => ?_⟩
    simp only [List.mem_singleton, Option.some.injEq, exists_eq_left', GapAfter]
    constructor
    · rintro rfl
      refine ⟨by omega, ?_⟩
      rw [if_neg (by omega), if_pos (le_refl _)]
      push_cast; linarith
    · rintro ⟨h1, h2⟩
      by_contra hne
      rcases lt_or_gt_of_ne hne with h | h
      · rw [if_pos (by omega), if_pos (by omega)] at h2
        push_cast at h2; linarith
      · rw [if_neg (by omega), if_neg (by omega)] at h2
        push_cast at h2; linarith
  have h := C60_table n faa vcc ve al ax lev _ 1 [e] hg
  rw [Option.map_some] at h
  rw [h, if_pos]
  simp [usedStretches, stretchesTo, he]

/-- **C59, refuted.** After the last gap nothing is used: series that agree before it give the same table. -/
theorem C59_after_last_gap_ignored (n e : ℕ) (x y : Fin 6 → ℕ → ℝ) (t : ℕ → ℝ) (rate : ℝ)
    (hgap : GapAfter t rate n e) (hlast : ∀ k, e < k → ¬ GapAfter t rate n k) (hxy : ∀ k i, i < e → x k i = y k i) :
    calcCC (samples (x 0) n) (samples (x 1) n) (samples (x 2) n) (samples (x 3) n) (samples (x 4) n) (samples (x 5) n)
        (some (samples t n)) rate =
      calcCC (samples (y 0) n) (samples (y 1) n) (samples (y 2) n) (samples (y 3) n) (samples (y 4) n) (samples (y 5) n)
        (some (samples t n)) rate := by
  obtain ⟨gaps, hg⟩ : ∃ gaps, GapList (some t) rate n gaps := by
    classical
    refine ⟨(List.range n).filter (fun k => GapAfter t rate n k), List.Pairwise.filter _ List.pairwise_lt_range, fun k => ?_⟩
    simp only [List.mem_filter, List.mem_range, decide_eq_true_eq, Option.some.injEq, exists_eq_left']
    exact ⟨fun h => h.2, fun h => ⟨by have := h.1; omega, h⟩⟩
  have hmem : e ∈ gaps := (hg.2 e).mpr ⟨t, rfl, hgap⟩
  have hcol : ∀ k, (usedStretches n gaps).flatMap (stretchRows (x k)) = (usedStretches n gaps).flatMap (stretchRows (y k)) := by
    intro k
    apply List.flatMap_congr
    intro p hp
    have hp1 := (List.mem_filter.mp hp).1
    rw [if_neg (List.ne_nil_of_mem hmem)] at hp1
    have hp2 := stretchesTo_snd 0 gaps p hp1
    have hle : p.2 ≤ e := by
      by_contra hlt
      obtain ⟨t', ht', h'⟩ := (hg.2 _).mp hp2
      injection ht' with ht'
      subst ht'
      exact hlast _ (by omega) h'
    unfold stretchRows
    apply samples_congr
    intro i hi
    unfold smoothCurvature
    apply Finset.sum_congr rfl
    intro j hj
    have hj' := Finset.mem_range.mp hj
    congr 1
    unfold curvature
    apply centralDiff10_congr _ _ _ _ (by omega)
    intro a h1 h2
    apply centralDiff10_congr _ _ _ _ (by omega)
    intro b h3 h4
    exact hxy k b (by omega)
  have hx := C60_table n (x 0) (x 1) (x 2) (x 3) (x 4) (x 5) (some t) rate gaps hg
  have hy := C60_table n (y 0) (y 1) (y 2) (y 3) (y 4) (y 5) (some t) rate gaps hg
  rw [Option.map_some] at hx hy
  rw [hx, hy]
  simp only [hcol]

private theorem stretchesTo_mem (s : ℕ) (l₁ l₂ : List ℕ) (g g' : ℕ) :
    (g + 1, g') ∈ stretchesTo s (l₁ ++ g :: g' :: l₂) := by
  induction l₁ generalizing s with
  | nil => simp [stretchesTo]
  | cons a l ih => exact List.mem_cons_of_mem _ (ih _)

/-- **C59, part.** A stretch between two gaps contributes its samples except the last one, if that leaves at least 1000. -/
theorem C59_between_gaps_partial (n : ℕ) (faa vcc ve al ax lev : ℕ → ℝ) (t : ℕ → ℝ) (rate : ℝ) (g g' : ℕ)
    (h1 : GapAfter t rate n g) (h2 : GapAfter t rate n g') (hnone : ∀ k, g < k → k < g' → ¬ GapAfter t rate n k)
    (hlen : 1001 ≤ g' - g) :
    ∃ T, calcCC (samples faa n) (samples vcc n) (samples ve n) (samples al n) (samples ax n) (samples lev n)
        (some (samples t n)) rate = .ok T ∧
      ∃ r, (∀ i < g' - g - 421, T.g[r + i]? = some (-smoothCurvature faa (g + 1 + i)) ∧
        T.ve[r + i]? = some (smoothCurvature ve (g + 1 + i)) ∧ T.vcc[r + i]? = some (smoothCurvature vcc (g + 1 + i)) ∧
        T.al[r + i]? = some (smoothCurvature al (g + 1 + i)) ∧ T.ax[r + i]? = some (smoothCurvature ax (g + 1 + i)) ∧
        T.lev[r + i]? = some (smoothCurvature lev (g + 1 + i))) := by
  classical
  obtain ⟨gaps, hgaps⟩ : ∃ gaps, gaps = (List.range n).filter (fun k => GapAfter t rate n k) := ⟨_, rfl⟩
  have hs : gaps.Pairwise (· < ·) := by rw [hgaps]; exact List.Pairwise.filter _ List.pairwise_lt_range
  have hm : ∀ k, k ∈ gaps ↔ GapAfter t rate n k := by
    intro k
    simp only [hgaps, List.mem_filter, List.mem_range, decide_eq_true_eq]
    exact ⟨fun h => h.2, fun h => ⟨by have := h.1; omega, h⟩⟩
  have hg : GapList (some t) rate n gaps := ⟨hs, fun k => by simp [hm k]⟩
  obtain ⟨l₁, l₂, hsplit⟩ := List.append_of_mem ((hm g).mpr h1)
  have hg'2 : g' ∈ l₂ := by
    have hmem := (hm g').mpr h2
    rw [hsplit, List.mem_append, List.mem_cons] at hmem
    rw [hsplit, List.pairwise_append] at hs
    rcases hmem with h | h | h
    · have := hs.2.2 g' h g (by simp); omega
    · omega
    · exact h
  cases l₂ with
  | nil => simp at hg'2
  | cons a l₃ =>
    have ha : a = g' := by
      rw [hsplit, List.pairwise_append] at hs
      have hp2 := hs.2.1
      rw [List.pairwise_cons, List.pairwise_cons] at hp2
      have hga : g < a := hp2.1 a (by simp)
      rcases List.mem_cons.mp hg'2 with h | h
      · exact h.symm
      · have hlt := hp2.2.1 g' h
        exact absurd ((hm a).mp (by rw [hsplit]; simp)) (hnone a hga hlt)
    subst ha
    have hin : (g + 1, a) ∈ usedStretches n gaps := by
      unfold usedStretches
      rw [if_neg (List.ne_nil_of_mem ((hm g).mpr h1)), List.mem_filter]
      refine ⟨?_, by simp; omega⟩
      rw [hsplit]; exact stretchesTo_mem 0 l₁ l₃ g a
    obtain ⟨u₁, u₂, hu⟩ := List.append_of_mem hin
    have hT := C60_table n faa vcc ve al ax lev (some t) rate gaps hg
    rw [Option.map_some, if_neg (List.ne_nil_of_mem hin)] at hT
    refine ⟨_, hT, (u₁.map fun p => p.2 - p.1 - 420).sum, fun i hi => ?_⟩
    have hi' : i < a - (g + 1) - 420 := by rw [← Nat.sub_sub, Nat.sub_sub _ 1 420]; exact hi
    have hcol : ∀ x, ((usedStretches n gaps).flatMap (stretchRows x))[(u₁.map fun p => p.2 - p.1 - 420).sum + i]? =
        some (smoothCurvature x (g + 1 + i)) := by
      intro x
      rw [hu, List.flatMap_append, List.flatMap_cons, List.getElem?_append_right (by rw [rows_length]; omega), rows_length,
        Nat.add_sub_cancel_left, List.getElem?_append_left (by rw [stretchRows, samples_length]; exact hi')]
      simp only [stretchRows, samples]
      rw [List.getElem?_map, List.getElem?_range hi']
      rfl
    simp only [hcol, List.getElem?_map, Option.map_some, and_self]

/-- **C59, part.** Without gaps everything is used. -/
theorem C59_no_gaps_partial (n : ℕ) (faa vcc ve al ax lev : ℕ → ℝ) (t : ℕ → ℝ) (rate : ℝ)
    (hno : ∀ k, ¬ GapAfter t rate n k) :
    calcCC (samples faa n) (samples vcc n) (samples ve n) (samples al n) (samples ax n) (samples lev n) (some (samples t n)) rate =
      calcCC (samples faa n) (samples vcc n) (samples ve n) (samples al n) (samples ax n) (samples lev n) none rate := by
  have hg : GapList (some t) rate n [] := ⟨List.Pairwise.nil, fun k => by simp [hno k]⟩
  have hg0 : GapList none rate n [] := ⟨List.Pairwise.nil, fun k => by simp⟩
  have h := C60_table n faa vcc ve al ax lev (some t) rate [] hg
  have h0 := C60_table n faa vcc ve al ax lev none rate [] hg0
  rw [Option.map_some] at h
  rw [Option.map_none] at h0
  rw [h, h0]

private theorem rows_add (f g : ℕ → ℝ) (c : ℝ) (hg : ∀ i, smoothCurvature g i = c) (p : ℕ × ℕ) :
    stretchRows (fun i => f i + g i) p = (stretchRows f p).map (· + c) := by
  unfold stretchRows samples
  rw [List.map_map]
  apply List.map_congr_left
  intro i _
  simp [smoothCurvature_add, hg]

private theorem flat_add (f g : ℕ → ℝ) (c : ℝ) (hg : ∀ i, smoothCurvature g i = c) (l : List (ℕ × ℕ)) :
    l.flatMap (stretchRows (fun i => f i + g i)) = (l.flatMap (stretchRows f)).map (· + c) := by
  rw [List.map_flatMap]
  apply List.flatMap_congr
  intro p _
  exact rows_add f g c hg p

/-- **C61.** Adding a quadratic trend `a + b i + q i²` to each series adds `2 q` to each column (`-2 q` to `g`) and changes nothing else. -/
theorem C61_quadratic_trends (n : ℕ) (x : Fin 6 → ℕ → ℝ) (a b q : Fin 6 → ℝ) (times : Option (ℕ → ℝ)) (rate : ℝ) :
    let y : Fin 6 → ℕ → ℝ := fun k i => x k i + (a k + b k * i + q k * (i : ℝ) ^ 2)
    calcCC (samples (y 0) n) (samples (y 1) n) (samples (y 2) n) (samples (y 3) n) (samples (y 4) n) (samples (y 5) n)
        (times.map (samples · n)) rate =
      (calcCC (samples (x 0) n) (samples (x 1) n) (samples (x 2) n) (samples (x 3) n) (samples (x 4) n) (samples (x 5) n)
        (times.map (samples · n)) rate).map fun T =>
          ⟨T.ve.map (· + 2 * q 2), T.vcc.map (· + 2 * q 1), T.al.map (· + 2 * q 3), T.ax.map (· + 2 * q 4), T.lev.map (· + 2 * q 5),
            T.g.map (· - 2 * q 0)⟩ := by
  classical
  intro y
  obtain ⟨gaps, hg⟩ : ∃ gaps, GapList times rate n gaps := by
    refine ⟨(List.range n).filter (fun k => ∃ t, times = some t ∧ GapAfter t rate n k),
      List.Pairwise.filter _ List.pairwise_lt_range, fun k => ?_⟩
    simp only [List.mem_filter, List.mem_range, decide_eq_true_eq]
    exact ⟨fun h => h.2, fun h => ⟨by obtain ⟨t, _, h, _⟩ := h; omega, h⟩⟩
  rw [C60_table _ _ _ _ _ _ _ _ _ gaps hg, C60_table _ _ _ _ _ _ _ _ _ gaps hg]
  have hq : ∀ k i, smoothCurvature (fun i => a k + b k * i + q k * (i : ℝ) ^ 2) i = 2 * q k :=
    fun k i => smoothCurvature_quad _ _ _ _
  have hcol : ∀ k, (usedStretches n gaps).flatMap (stretchRows (y k)) =
      ((usedStretches n gaps).flatMap (stretchRows (x k))).map (· + 2 * q k) := fun k => flat_add (x k) _ _ (hq k) _
  by_cases hu : usedStretches n gaps = []
  · simp [hu, Except.map]
  · rw [if_neg hu, if_neg hu]
    simp only [hcol, Except.map, List.map_map]
    congr 2
    apply List.map_congr_left
    intro v _
    simp only [Function.comp_apply]
    ring

/-- **C61.** Linear trends leave the table unchanged. -/
theorem C61_linear_trends (n : ℕ) (x : Fin 6 → ℕ → ℝ) (a b : Fin 6 → ℝ) (times : Option (ℕ → ℝ)) (rate : ℝ) :
    let y : Fin 6 → ℕ → ℝ := fun k i => x k i + (a k + b k * i)
    calcCC (samples (y 0) n) (samples (y 1) n) (samples (y 2) n) (samples (y 3) n) (samples (y 4) n) (samples (y 5) n)
        (times.map (samples · n)) rate =
      calcCC (samples (x 0) n) (samples (x 1) n) (samples (x 2) n) (samples (x 3) n) (samples (x 4) n) (samples (x 5) n)
        (times.map (samples · n)) rate := by
  intro y
  have h := C61_quadratic_trends n x a b 0 times rate
  simp only [Pi.zero_apply, zero_mul, add_zero, mul_zero, sub_zero, List.map_id'] at h
  refine h.trans ?_
  generalize calcCC (samples (x 0) n) _ _ _ _ _ _ _ = r
  cases r <;> rfl

/-- Least squares with an exact fit and independent columns. -/
private theorem ls_unique (n : ℕ) (g : ℕ → ℝ) (x : Fin 5 → ℕ → ℝ) (c₀ : ℝ) (β₀ : Fin 5 → ℝ)
    (hfit : ∀ i < n, g i = c₀ + ∑ k, β₀ k * x k i) (hi : Independent n x) (c : ℝ) (β : Fin 5 → ℝ) :
    LeastSquares n g x c β ↔ c = c₀ ∧ β = β₀ := by
  have h0 : ssr n g x c₀ β₀ = 0 := by
    unfold ssr
    apply Finset.sum_eq_zero
    intro i hi
    rw [hfit i (Finset.mem_range.mp hi)]; ring
  constructor
  · intro h
    have h1 := h c₀ β₀
    rw [h0] at h1
    have hz : ssr n g x c β = 0 := le_antisymm h1 (Finset.sum_nonneg (fun i _ => sq_nonneg _))
    have hr : ∀ i < n, g i - (c + ∑ k, β k * x k i) = 0 := by
      intro i hin
      have := (Finset.sum_eq_zero_iff_of_nonneg (fun i _ => sq_nonneg _)).mp hz i (Finset.mem_range.mpr hin)
      exact pow_eq_zero_iff (by norm_num) |>.mp this
    have := hi (c - c₀) (β - β₀) (by
      intro i hin
      have e1 := hr i hin
      rw [hfit i hin] at e1
      have e2 : ∑ k, (β - β₀) k * x k i = ∑ k, β k * x k i - ∑ k, β₀ k * x k i := by
        rw [← Finset.sum_sub_distrib]
        exact Finset.sum_congr rfl (fun k _ => by rw [Pi.sub_apply]; ring)
      rw [e2]; linarith)
    exact ⟨sub_eq_zero.mp this.1, sub_eq_zero.mp this.2⟩
  · rintro ⟨rfl, rfl⟩ c' β'
    rw [h0]
    exact Finset.sum_nonneg (fun i _ => sq_nonneg _)

/-- The columns of the regression matrix without the constant. -/
noncomputable def CCTable.regressors (T : CCTable) : Fin 5 → ℕ → ℝ :=
  ![fun i => T.ve.getD i 0, fun i => T.vcc.getD i 0, fun i => T.al.getD i 0, fun i => T.ax.getD i 0, fun i => T.lev.getD i 0]

private theorem flat_lin (faa : ℕ → ℝ) (m : Fin 5 → ℕ → ℝ) (c₀ : ℝ) (κ : Fin 5 → ℝ)
    (h : ∀ i, -smoothCurvature faa i = c₀ + ∑ k, κ k * smoothCurvature (m k) i) (l : List (ℕ × ℕ)) (i : ℕ)
    (hi : i < (l.map fun p => p.2 - p.1 - 420).sum) :
    ((l.flatMap (stretchRows faa)).map (-·)).getD i 0 = c₀ + ∑ k, κ k * (l.flatMap (stretchRows (m k))).getD i 0 := by
  induction l generalizing i with
  | nil => simp at hi
  | cons p l ih =>
    simp only [List.flatMap_cons, List.map_append]
    have hlen : ∀ x, (stretchRows x p).length = p.2 - p.1 - 420 := fun x => by simp [stretchRows]
    by_cases hlt : i < p.2 - p.1 - 420
    · rw [List.getD_append _ _ _ _ (by rw [List.length_map, hlen]; exact hlt)]
      have e1 : ((stretchRows faa p).map (-·)).getD i 0 = -smoothCurvature faa (p.1 + i) := by
        unfold stretchRows
        rw [List.getD_eq_getElem?_getD, List.getElem?_map]
        unfold samples
        rw [List.getElem?_map, List.getElem?_range hlt]; rfl
      rw [e1, h]
      refine congrArg (c₀ + ·) (Finset.sum_congr rfl fun k _ => ?_)
      rw [List.getD_append _ _ _ _ (by rw [hlen]; exact hlt)]
      unfold stretchRows
      rw [samples_getD _ _ _ hlt]
    · rw [List.getD_append_right _ _ _ _ (by rw [List.length_map, hlen]; omega), List.length_map, hlen]
      rw [List.map_cons, List.sum_cons] at hi
      rw [ih _ (by omega)]
      refine congrArg (c₀ + ·) (Finset.sum_congr rfl fun k _ => ?_)
      rw [List.getD_append_right _ _ _ _ (by rw [hlen]; omega), hlen]

/-- **C62.** If the anomaly is a quadratic trend minus a combination of the monitors, ordinary least squares on the table has exactly one
solution: the coefficients of the combination, and `-2 q` for the constant. -/
theorem C62_coefficients_recovered (n : ℕ) (ve vcc al ax lev faa : ℕ → ℝ) (κ : Fin 5 → ℝ) (a b q : ℝ) (times : Option (ℕ → ℝ)) (rate : ℝ)
    (T : CCTable)
    (hfaa : ∀ i, faa i = (a + b * i + q * (i : ℝ) ^ 2)
      - (κ 0 * ve i + κ 1 * vcc i + κ 2 * al i + κ 3 * ax i + κ 4 * lev i))
    (hT : calcCC (samples faa n) (samples vcc n) (samples ve n) (samples al n) (samples ax n) (samples lev n)
        (times.map (samples · n)) rate = .ok T)
    (hind : Independent T.g.length T.regressors) (c : ℝ) (β : Fin 5 → ℝ) :
    LeastSquares T.g.length (fun i => T.g.getD i 0) T.regressors c β ↔ c = -(2 * q) ∧ β = κ := by
  classical
  apply ls_unique _ _ _ _ _ _ hind
  obtain ⟨gaps, hg⟩ : ∃ gaps, GapList times rate n gaps := by
    refine ⟨(List.range n).filter (fun k => ∃ t, times = some t ∧ GapAfter t rate n k),
      List.Pairwise.filter _ List.pairwise_lt_range, fun k => ?_⟩
    simp only [List.mem_filter, List.mem_range, decide_eq_true_eq]
    exact ⟨fun h => h.2, fun h => ⟨by obtain ⟨t, _, h, _⟩ := h; omega, h⟩⟩
  intro i hi
  rw [(C60_sizes n faa vcc ve al ax lev times rate gaps T hg hT).1] at hi
  rw [C60_table _ _ _ _ _ _ _ _ _ gaps hg] at hT
  by_cases hu : usedStretches n gaps = []
  · simp [hu] at hT
  · rw [if_neg hu] at hT
    injection hT with hT
    subst hT
    have hlin : ∀ i, -smoothCurvature faa i = -(2 * q) + ∑ k, κ k * smoothCurvature ((![ve, vcc, al, ax, lev] : Fin 5 → ℕ → ℝ) k) i := by
      intro i
      have e : faa = fun (i : ℕ) => (a + b * (i : ℝ) + q * (i : ℝ) ^ 2) + ((-κ 0) * ve i + ((-κ 1) * vcc i + ((-κ 2) * al i + ((-κ 3) * ax i + (-κ 4) * lev i)))) := by
        funext i; rw [hfaa]; ring
      rw [e, smoothCurvature_add, smoothCurvature_quad, smoothCurvature_add, smoothCurvature_add, smoothCurvature_add, smoothCurvature_add,
        smoothCurvature_smul, smoothCurvature_smul, smoothCurvature_smul, smoothCurvature_smul, smoothCurvature_smul]
      simp [Fin.sum_univ_five]
      ring
    have := flat_lin faa ![ve, vcc, al, ax, lev] _ κ hlin (usedStretches n gaps) i hi
    refine this.trans ?_
    simp [Fin.sum_univ_five, CCTable.regressors]

/-- **C91.** The low-pass filter is an average: its 200 weights are non-negative, symmetric and add up to one. -/
theorem C91_weights : (firwin 200 (1 / (200 : ℕ))).length = 200 ∧ (∀ w ∈ firwin 200 (1 / (200 : ℕ)), 0 ≤ w) ∧
    (firwin 200 (1 / (200 : ℕ))).sum = 1 ∧ (firwin 200 (1 / (200 : ℕ))).reverse = firwin 200 (1 / (200 : ℕ)) := by
  rw [firwin_eq]
  refine ⟨samples_length _ _, ?_, ?_, ?_⟩
  · intro w hw
    obtain ⟨j, hj, rfl⟩ := List.mem_map.mp hw
    exact lowpass_nonneg j (by simpa using hj)
  · unfold samples
    rw [sum_map_range, lowpass_sum]
  · apply List.ext_getElem
    · simp
    · intro i h1 h2
      rw [List.getElem_reverse]
      have h2' : i < 200 := by rwa [samples_length] at h2
      have he : ∀ k (hk : k < (samples lowpass 200).length), (samples lowpass 200)[k] = lowpass k := by
        intro k hk; simp [samples]
      rw [he, he, samples_length]
      unfold lowpass
      rw [show 200 - 1 - i = 199 - i by omega, taper_symm i h2']

/-- **C91.** So the processed values never leave the range of the curvatures they are made of. -/
theorem C91_range (n : ℕ) (x : ℕ → ℝ) (lo hi : ℝ) (h : ∀ i, 10 ≤ i → i + 10 < n → lo ≤ curvature x i ∧ curvature x i ≤ hi) :
    ∀ v ∈ ccProcess (samples x n), lo ≤ v ∧ v ≤ hi := by
  rw [ccProcess_samples]
  intro v hv
  obtain ⟨t, ht, rfl⟩ := List.mem_map.mp hv
  have ht' : t < n - 420 := by simpa using ht
  unfold smoothCurvature
  constructor
  · calc lo = ∑ j ∈ Finset.range 200, lowpass j * lo := by rw [← Finset.sum_mul, lowpass_sum, one_mul]
      _ ≤ _ := Finset.sum_le_sum fun j hj => by
        have := Finset.mem_range.mp hj
        exact mul_le_mul_of_nonneg_left (h _ (by omega) (by omega)).1 (lowpass_nonneg j this)
  · calc _ ≤ ∑ j ∈ Finset.range 200, lowpass j * hi := Finset.sum_le_sum fun j hj => by
          have := Finset.mem_range.mp hj
          exact mul_le_mul_of_nonneg_left (h _ (by omega) (by omega)).2 (lowpass_nonneg j this)
      _ = hi := by rw [← Finset.sum_mul, lowpass_sum, one_mul]

/-! ## Non-vacuity -/

example : GapList (some fun k => if k ≤ 1200 then (k : ℝ) else k + 10) 1 3000 [1200] := by
  refine ⟨by simp, fun k => ?_⟩
  simp only [List.mem_singleton, Option.some.injEq, exists_eq_left', GapAfter]
  constructor
  · rintro rfl; norm_num
  · rintro ⟨h1, h2⟩
    by_contra hne
    rcases lt_or_gt_of_ne hne with h | h
    · rw [if_pos (by omega), if_pos (by omega)] at h2; push_cast at h2; linarith
    · rw [if_neg (by omega), if_neg (by omega)] at h2; push_cast at h2; linarith

example : usedStretches 3000 [1200, 1500, 2900] = [(0, 1200), (1501, 2900)] := by decide

private theorem cd_geom (r : ℝ) (hr : r ≠ 0) (i : ℕ) (hi : 5 ≤ i) :
    centralDiff10 (fun t => r ^ t) i = (5/6 * (r - r⁻¹) - 5/21 * (r^2 - (r^2)⁻¹) + 5/84 * (r^3 - (r^3)⁻¹)
      - 5/504 * (r^4 - (r^4)⁻¹) + 1/1260 * (r^5 - (r^5)⁻¹)) * r ^ i := by
  obtain ⟨m, rfl⟩ : ∃ m, i = m + 5 := ⟨i - 5, by omega⟩
  unfold centralDiff10
  simp only [show m + 5 - 1 = m + 4 by omega, show m + 5 - 2 = m + 3 by omega, show m + 5 - 3 = m + 2 by omega,
    show m + 5 - 4 = m + 1 by omega, show m + 5 - 5 = m by omega, pow_add]
  field_simp

/-- Geometric series are eigenfunctions of the processing. -/
private theorem smooth_geom (r : ℝ) (hr : 1 < r) (d : ℝ) (hd0 : d ≠ 0)
    (hd : 5/6 * (r - r⁻¹) - 5/21 * (r^2 - (r^2)⁻¹) + 5/84 * (r^3 - (r^3)⁻¹) - 5/504 * (r^4 - (r^4)⁻¹) + 1/1260 * (r^5 - (r^5)⁻¹) = d) :
    ∃ w, w ≠ 0 ∧ ∀ i, smoothCurvature (fun t => r ^ t) i = w * r ^ i := by
  refine ⟨∑ j ∈ Finset.range 200, lowpass j * (d ^ 2 * r ^ (210 - j)), ?_, ?_⟩
  · apply ne_of_gt
    calc (0 : ℝ) < d ^ 2 := by positivity
      _ = ∑ j ∈ Finset.range 200, lowpass j * d ^ 2 := by rw [← Finset.sum_mul, lowpass_sum, one_mul]
      _ ≤ _ := Finset.sum_le_sum fun j hj => mul_le_mul_of_nonneg_left
          (le_mul_of_one_le_right (by positivity) (one_le_pow₀ hr.le)) (lowpass_nonneg j (Finset.mem_range.mp hj))
  · intro i
    unfold smoothCurvature
    rw [Finset.sum_mul]
    apply Finset.sum_congr rfl
    intro j hj
    have := Finset.mem_range.mp hj
    have hc : curvature (fun t => r ^ t) (i + 210 - j) = d ^ 2 * r ^ (i + 210 - j) := by
      unfold curvature
      rw [centralDiff10_congr _ (fun t => d * r ^ t) _ _ (by omega), centralDiff10_smul, cd_geom r (by linarith) _ (by omega), hd]
      · ring
      · intro k h1 h2
        rw [cd_geom r (by linarith) _ (by omega), hd]
    rw [hc, show i + 210 - j = (210 - j) + i by omega, pow_add]
    ring

/-- Monitors `2^i, …, 6^i` are independent. -/
theorem geometric_independent (faa : ℕ → ℝ) :
    ∃ T, calcCC (samples faa 1000) (samples (fun i => 3 ^ i) 1000) (samples (fun i => 2 ^ i) 1000) (samples (fun i => 4 ^ i) 1000)
      (samples (fun i => 5 ^ i) 1000) (samples (fun i => 6 ^ i) 1000) none 1 = .ok T ∧ Independent T.g.length T.regressors := by
  refine ⟨_, C60_no_times 1000 (le_refl _) _ _ _ _ _ _ 1, ?_⟩
  intro c β h
  simp only [samples_length] at h
  obtain ⟨w0, hw0, e0⟩ := smooth_geom 2 (by norm_num) _ (by norm_num) rfl
  obtain ⟨w1, hw1, e1⟩ := smooth_geom 3 (by norm_num) _ (by norm_num) rfl
  obtain ⟨w2, hw2, e2⟩ := smooth_geom 4 (by norm_num) _ (by norm_num) rfl
  obtain ⟨w3, hw3, e3⟩ := smooth_geom 5 (by norm_num) _ (by norm_num) rfl
  obtain ⟨w4, hw4, e4⟩ := smooth_geom 6 (by norm_num) _ (by norm_num) rfl
  have hv : (![c, β 0 * w0, β 1 * w1, β 2 * w2, β 3 * w3, β 4 * w4] : Fin 6 → ℝ) = 0 := by
    have hinj : Function.Injective (![1, 2, 3, 4, 5, 6] : Fin 6 → ℝ) := by
      intro i j hij
      fin_cases i <;> fin_cases j <;> first | rfl | (exfalso; simp at hij; try norm_num at hij)
    have hdet := Matrix.det_vandermonde_ne_zero_iff.mpr hinj
    refine Matrix.eq_zero_of_vecMul_eq_zero hdet ?_
    funext i
    have hi := h i (by omega)
    simp only [CCTable.regressors, Fin.sum_univ_five, Matrix.cons_val] at hi
    rw [samples_getD _ _ _ (by omega), samples_getD _ _ _ (by omega), samples_getD _ _ _ (by omega), samples_getD _ _ _ (by omega),
      samples_getD _ _ _ (by omega), e0, e1, e2, e3, e4] at hi
    simp only [Matrix.vecMul, dotProduct, Matrix.vandermonde_apply, Fin.sum_univ_six, Matrix.cons_val, Pi.zero_apply, one_pow]
    linarith
  have hk := fun k => congrFun hv k
  have h0 := hk 0; have h1 := hk 1; have h2 := hk 2; have h3 := hk 3; have h4 := hk 4; have h5 := hk 5
  simp only [Matrix.cons_val, Pi.zero_apply] at h0 h1 h2 h3 h4 h5
  refine ⟨h0, ?_⟩
  funext k
  fin_cases k
  · exact (mul_eq_zero.mp h1).resolve_right hw0
  · exact (mul_eq_zero.mp h2).resolve_right hw1
  · exact (mul_eq_zero.mp h3).resolve_right hw2
  · exact (mul_eq_zero.mp h4).resolve_right hw3
  · exact (mul_eq_zero.mp h5).resolve_right hw4

/-- The hypotheses of `C62_coefficients_recovered` hold. -/
example : ∃ T, calcCC (samples (fun i => 0 - ((1 : ℝ) * 2 ^ i + 2 * 3 ^ i + 3 * 4 ^ i + 4 * 5 ^ i + 5 * 6 ^ i)) 1000) (samples (fun i => 3 ^ i) 1000)
      (samples (fun i => 2 ^ i) 1000) (samples (fun i => 4 ^ i) 1000) (samples (fun i => 5 ^ i) 1000) (samples (fun i => 6 ^ i) 1000) none 1 = .ok T ∧
    Independent T.g.length T.regressors := geometric_independent _

end Shipgrav
