import Verif.Model.Cursor
import Verif.Lemmas.Np
import Mathlib.Tactic.Linarith
import Mathlib.Data.List.Induction

/-! Properties C14–C16 and C97 of `_SnappingCursor` (utils.py 178–278). -/

namespace Shipgrav
open Spec

private theorem nearestRow_spec (d : CurData) (hd : d.rows ≠ []) (x : ℚ) :
    ∃ i r, nearestRow d x = .ok i ∧ d.rows[i]? = some r ∧ IsNearest (d.rows.map CurRow.tsec) x i := by
  obtain ⟨i, hi⟩ := argmin_ne_nil (d.rows.map (fun r => |x - r.tsec|)) (by simpa using hd)
  obtain ⟨v, h1, h2, h3⟩ := argmin_spec _ _ hi
  rw [List.getElem?_map] at h1
  obtain ⟨r, hr, rfl⟩ := Option.map_eq_some_iff.1 h1
  refine ⟨i, r, by unfold nearestRow; rw [hi], hr, r.tsec, by simp [hr], ?_, ?_⟩
  · intro j u hj
    rw [List.getElem?_map] at hj
    obtain ⟨r', hr', rfl⟩ := Option.map_eq_some_iff.1 hj
    exact h2 j _ (by simp [hr'])
  · intro j u hji hj
    rw [List.getElem?_map] at hj
    obtain ⟨r', hr', rfl⟩ := Option.map_eq_some_iff.1 hj
    exact h3 j _ hji (by simp [hr'])

private theorem move_segs (d : CurData) (s : CurState) (x : Option ℚ) :
    (onMouseMove d s x).1.xSeg = s.xSeg ∧ (onMouseMove d s x).1.ySeg = s.ySeg ∧ (onMouseMove d s x).1.iSeg = s.iSeg ∧
      (onMouseMove d s x).1.scatter = s.scatter := by
  cases x with
  | none => exact ⟨rfl, rfl, rfl, rfl⟩
  | some x =>
    unfold onMouseMove
    simp only
    repeat' split
    all_goals exact ⟨rfl, rfl, rfl, rfl⟩

/-- The coordinates recorded for a list of picked rows. -/
def lonsOf (rows : List CurRow) (picks : List ℕ) : List ℚ := picks.filterMap (fun i => (rows[i]?).map CurRow.lon)
/-- See `lonsOf`. -/
def latsOf (rows : List CurRow) (picks : List ℕ) : List ℚ := picks.filterMap (fun i => (rows[i]?).map CurRow.lat)

private def Good (d : CurData) (s : CurState) : Prop :=
  (∀ i ∈ s.iSeg, i < d.rows.length) ∧ s.xSeg = lonsOf d.rows s.iSeg ∧ s.ySeg = latsOf d.rows s.iSeg ∧
    s.scatter = (s.xSeg, s.ySeg)

private theorem lonsOf_length (rows : List CurRow) (p : List ℕ) (h : ∀ i ∈ p, i < rows.length) :
    (lonsOf rows p).length = p.length ∧ (latsOf rows p).length = p.length := by
  induction p with
  | nil => exact ⟨rfl, rfl⟩
  | cons i p ih =>
    have hi := h i (by simp)
    obtain ⟨h1, h2⟩ := ih (fun j hj => h j (by simp [hj]))
    unfold lonsOf latsOf at *
    simp [List.getElem?_eq_getElem hi, h1, h2]

private theorem dropLast_lons (rows : List CurRow) (p : List ℕ) (h : ∀ i ∈ p, i < rows.length) :
    (lonsOf rows p).dropLast = lonsOf rows p.dropLast ∧ (latsOf rows p).dropLast = latsOf rows p.dropLast := by
  rcases List.eq_nil_or_concat p with rfl | ⟨q, i, rfl⟩
  · exact ⟨rfl, rfl⟩
  · have hi := h i (by simp)
    unfold lonsOf latsOf
    simp [List.getElem?_eq_getElem hi]

private theorem step_good (d : CurData) (hd : d.rows ≠ []) (s : CurState) (hs : Good d s) (hist : List Event)
    (hp : Picks (d.rows.map CurRow.tsec) hist s.iSeg) (e : Event) :
    Good d (curStep d s e).1 ∧ Picks (d.rows.map CurRow.tsec) (hist ++ [e]) (curStep d s e).1.iSeg := by
  obtain ⟨g1, g2, g3, g4⟩ := hs
  have hmove : ∀ x, Good d (onMouseMove d s x).1 := by
    intro x
    obtain ⟨m1, m2, m3, m4⟩ := move_segs d s x
    refine ⟨by rw [m3]; exact g1, by rw [m1, m3]; exact g2, by rw [m2, m3]; exact g3, by rw [m4, m1, m2]; exact g4⟩
  cases e with
  | moveIn x => exact ⟨hmove _, by simp only [curStep, (move_segs d s (some x)).2.2.1]; exact .moveIn x hp⟩
  | moveOut => exact ⟨hmove _, by simp only [curStep, (move_segs d s none).2.2.1]; exact .moveOut hp⟩
  | click b x =>
    simp only [curStep, onMouseClick]
    by_cases hb1 : b = 1
    · subst hb1
      rw [if_pos rfl]
      cases x with
      | none => exact ⟨⟨g1, g2, g3, g4⟩, .leftOutside hp⟩
      | some x =>
        obtain ⟨i, r, h1, h2, h3⟩ := nearestRow_spec d hd x
        have hi : i < d.rows.length := by
          by_contra hc
          rw [List.getElem?_eq_none (by omega)] at h2; cases h2
        simp only [h1, h2]
        refine ⟨⟨?_, ?_, ?_, rfl⟩, .left x i hp h3⟩
        · intro j hj
          rcases List.mem_append.1 hj with hj | hj
          · exact g1 j hj
          · simp at hj; rw [hj]; exact hi
        · simp only [g2, lonsOf, List.filterMap_append]; simp [h2]
        · simp only [g3, latsOf, List.filterMap_append]; simp [h2]
    · rw [if_neg hb1]
      by_cases hb3 : b = 3
      · subst hb3
        rw [if_pos rfl]
        obtain ⟨l1, l2⟩ := lonsOf_length d.rows s.iSeg g1
        by_cases hx : s.xSeg = []
        · rw [if_pos hx]
          have : s.iSeg = [] := by
            rw [g2] at hx
            rw [hx] at l1
            exact List.length_eq_zero_iff.1 l1.symm
          refine ⟨⟨g1, g2, g3, g4⟩, ?_⟩
          have := Picks.right x hp
          rw [‹s.iSeg = []›] at this ⊢
          exact this
        · rw [if_neg hx]
          have hi : s.iSeg ≠ [] := by
            intro h; apply hx; rw [g2, h]; rfl
          have hy : s.ySeg ≠ [] := by
            intro h; rw [g3] at h; rw [h] at l2
            exact hi (List.length_eq_zero_iff.1 l2.symm)
          simp only [hy, hi, if_false]
          obtain ⟨d1, d2⟩ := dropLast_lons d.rows s.iSeg g1
          exact ⟨⟨fun j hj => g1 j (List.dropLast_subset _ hj), by simp only [g2, d1], by simp only [g3, d2], rfl⟩,
            .right x hp⟩
      · rw [if_neg hb3]
        exact ⟨⟨g1, g2, g3, g4⟩, .otherButton b x hb1 hb3 hp⟩

private theorem run_good (d : CurData) (hd : d.rows ≠ []) (h v : ℚ) (dot : ℚ × ℚ) (hist : List Event) :
    Good d (curRun d (curInit h v dot) hist) ∧
      Picks (d.rows.map CurRow.tsec) hist (curRun d (curInit h v dot) hist).iSeg := by
  induction hist using List.reverseRecOn with
  | nil => exact ⟨⟨by simp [curRun, curInit], rfl, rfl, rfl⟩, .start⟩
  | append_singleton hist e ih =>
    have : curRun d (curInit h v dot) (hist ++ [e]) = (curStep d (curRun d (curInit h v dot) hist) e).1 := by
      simp [curRun]
    rw [this]
    exact step_good d hd _ ih.1 hist ih.2 e

/-! ## C14 -/

/-- C14: after any history, the picked indices are the stack of picks, the three lists and the drawn markers are in
step with it. -/
theorem C14_stack_of_picks (d : CurData) (hd : d.rows ≠ []) (h v : ℚ) (dot : ℚ × ℚ) (hist : List Event) :
    let s := curRun d (curInit h v dot) hist
    Picks (d.rows.map CurRow.tsec) hist s.iSeg ∧ s.xSeg = lonsOf d.rows s.iSeg ∧ s.ySeg = latsOf d.rows s.iSeg ∧
      s.xSeg.length = s.iSeg.length ∧ s.ySeg.length = s.iSeg.length ∧ s.scatter = (s.xSeg, s.ySeg) := by
  obtain ⟨⟨g1, g2, g3, g4⟩, hp⟩ := run_good d hd h v dot hist
  obtain ⟨l1, l2⟩ := lonsOf_length d.rows _ g1
  exact ⟨hp, g2, g3, by rw [g2]; exact l1, by rw [g3]; exact l2, g4⟩

/-- C14: the stack of a history is unique, so C14 determines the picked indices. -/
theorem C14_picks_unique (ts : List ℚ) (h : List Event) (s s' : List ℕ) (hs : Picks ts h s) (hs' : Picks ts h s') :
    s = s' := by
  have hnear : ∀ x i j, IsNearest ts x i → IsNearest ts x j → i = j := by
    intro x i j ⟨t, a1, a2, a3⟩ ⟨u, b1, b2, b3⟩
    rcases lt_trichotomy i j with hij | hij | hij
    · have := b3 i t hij a1; have := a2 j u b1; linarith
    · exact hij
    · have := a3 j u hij b1; have := b2 i t a1; linarith
  have key : ∀ n, ∀ h s s', h.length = n → Picks ts h s → Picks ts h s' → s = s' := by
    intro n
    induction n with
    | zero =>
      intro h s s' hl hs hs'
      obtain rfl := List.length_eq_zero_iff.1 hl
      have nil : ∀ s, Picks ts [] s → s = [] := by
        intro s hs
        generalize hh : ([] : List Event) = h at hs
        cases hs <;> first | rfl | simp at hh
      rw [nil _ hs, nil _ hs']
    | succ n ih =>
      intro h s s' hl hs hs'
      cases hs with
      | start => simp at hl
      | @left h0 s0 x i p q =>
        generalize hh : h0 ++ [Event.click 1 (some x)] = h' at hs'
        cases hs' with
        | start => simp at hh
        | @left h1 s1 x' i' p' q' =>
          obtain ⟨rfl, e⟩ := List.append_inj' hh rfl
          cases e
          rw [ih h0 s0 s1 (by simpa using hl) p p', hnear _ _ _ q q']
        | leftOutside p' => have := (List.append_inj' hh rfl).2; cases this
        | right x' p' => have := (List.append_inj' hh rfl).2; cases this
        | otherButton b x' hb _ p' => have := (List.append_inj' hh rfl).2; cases this; exact absurd rfl hb
        | moveIn x' p' => have := (List.append_inj' hh rfl).2; cases this
        | moveOut p' => have := (List.append_inj' hh rfl).2; cases this
      | @leftOutside h0 s0 p =>
        generalize hh : h0 ++ [Event.click 1 none] = h' at hs'
        cases hs' with
        | start => simp at hh
        | left x' i' p' q' => have := (List.append_inj' hh rfl).2; cases this
        | @leftOutside h1 s1 p' =>
          obtain ⟨rfl, e⟩ := List.append_inj' hh rfl
          exact ih h0 _ _ (by simpa using hl) p p'
        | right x' p' => have := (List.append_inj' hh rfl).2; cases this
        | otherButton b x' hb _ p' => have := (List.append_inj' hh rfl).2; cases this; exact absurd rfl hb
        | moveIn x' p' => have := (List.append_inj' hh rfl).2; cases this
        | moveOut p' => have := (List.append_inj' hh rfl).2; cases this
      | @right h0 s0 x p =>
        generalize hh : h0 ++ [Event.click 3 x] = h' at hs'
        cases hs' with
        | start => simp at hh
        | left x' i' p' q' => have := (List.append_inj' hh rfl).2; cases this
        | leftOutside p' => have := (List.append_inj' hh rfl).2; cases this
        | @right h1 s1 x' p' =>
          obtain ⟨rfl, e⟩ := List.append_inj' hh rfl
          rw [ih h0 s0 s1 (by simpa using hl) p p']
        | otherButton b x' _ hb p' => have := (List.append_inj' hh rfl).2; cases this; exact absurd rfl hb
        | moveIn x' p' => have := (List.append_inj' hh rfl).2; cases this
        | moveOut p' => have := (List.append_inj' hh rfl).2; cases this
      | @otherButton h0 s0 b x hb1 hb3 p =>
        generalize hh : h0 ++ [Event.click b x] = h' at hs'
        cases hs' with
        | start => simp at hh
        | left x' i' p' q' => have := (List.append_inj' hh rfl).2; cases this; exact absurd rfl hb1
        | leftOutside p' => have := (List.append_inj' hh rfl).2; cases this; exact absurd rfl hb1
        | right x' p' => have := (List.append_inj' hh rfl).2; cases this; exact absurd rfl hb3
        | @otherButton h1 s1 b' x' _ _ p' =>
          obtain ⟨rfl, e⟩ := List.append_inj' hh rfl
          exact ih h0 _ _ (by simpa using hl) p p'
        | moveIn x' p' => have := (List.append_inj' hh rfl).2; cases this
        | moveOut p' => have := (List.append_inj' hh rfl).2; cases this
      | @moveIn h0 s0 x p =>
        generalize hh : h0 ++ [Event.moveIn x] = h' at hs'
        cases hs' with
        | start => simp at hh
        | left x' i' p' q' => have := (List.append_inj' hh rfl).2; cases this
        | leftOutside p' => have := (List.append_inj' hh rfl).2; cases this
        | right x' p' => have := (List.append_inj' hh rfl).2; cases this
        | otherButton b' x' _ _ p' => have := (List.append_inj' hh rfl).2; cases this
        | @moveIn h1 s1 x' p' =>
          obtain ⟨rfl, e⟩ := List.append_inj' hh rfl
          exact ih h0 _ _ (by simpa using hl) p p'
        | moveOut p' => have := (List.append_inj' hh rfl).2; cases this
      | @moveOut h0 s0 p =>
        generalize hh : h0 ++ [Event.moveOut] = h' at hs'
        cases hs' with
        | start => simp at hh
        | left x' i' p' q' => have := (List.append_inj' hh rfl).2; cases this
        | leftOutside p' => have := (List.append_inj' hh rfl).2; cases this
        | right x' p' => have := (List.append_inj' hh rfl).2; cases this
        | otherButton b' x' _ _ p' => have := (List.append_inj' hh rfl).2; cases this
        | moveIn x' p' => have := (List.append_inj' hh rfl).2; cases this
        | @moveOut h1 s1 p' =>
          obtain ⟨rfl, e⟩ := List.append_inj' hh rfl
          exact ih h0 _ _ (by simpa using hl) p p'
  exact key h.length h s s' rfl hs hs'

/-- C14: a right click with nothing picked raises `IndexError` and changes nothing. -/
theorem C14_right_click_empty (d : CurData) (hd : d.rows ≠ []) (h v : ℚ) (dot : ℚ × ℚ) (hist : List Event)
    (x : Option ℚ) (he : (curRun d (curInit h v dot) hist).iSeg = []) :
    curStep d (curRun d (curInit h v dot) hist) (.click 3 x)
      = (curRun d (curInit h v dot) hist, some .indexError) := by
  obtain ⟨⟨g1, g2, g3, g4⟩, -⟩ := run_good d hd h v dot hist
  have hx : (curRun d (curInit h v dot) hist).xSeg = [] := by rw [g2, he]; rfl
  simp [curStep, onMouseClick, hx]

/-! ## C15 -/

/-- C15: every picked index is a valid row, is the nearest row (earliest among ties) to the time of some left click of
the history, and position `k` of the coordinate lists holds that row's coordinates. -/
theorem C15_picks_are_nearest (d : CurData) (hd : d.rows ≠ []) (h v : ℚ) (dot : ℚ × ℚ) (hist : List Event)
    (k i : ℕ) (hk : (curRun d (curInit h v dot) hist).iSeg[k]? = some i) :
    ∃ x r, Event.click 1 (some x) ∈ hist ∧ IsNearest (d.rows.map CurRow.tsec) x i ∧ d.rows[i]? = some r ∧
      (curRun d (curInit h v dot) hist).xSeg[k]? = some r.lon ∧
      (curRun d (curInit h v dot) hist).ySeg[k]? = some r.lat := by
  obtain ⟨⟨g1, g2, g3, g4⟩, hp⟩ := run_good d hd h v dot hist
  have hmem : ∀ (hh : List Event) (s : List ℕ), Picks (d.rows.map CurRow.tsec) hh s → ∀ i ∈ s,
      ∃ x, Event.click 1 (some x) ∈ hh ∧ IsNearest (d.rows.map CurRow.tsec) x i := by
    intro hh s hp
    induction hp with
    | start => simp
    | left x j _ hn ih =>
      intro i hi
      rcases List.mem_append.1 hi with hi | hi
      · obtain ⟨x', h1, h2⟩ := ih i hi; exact ⟨x', by simp [h1], h2⟩
      · simp at hi; subst hi; exact ⟨x, by simp, hn⟩
    | leftOutside _ ih => intro i hi; obtain ⟨x', h1, h2⟩ := ih i hi; exact ⟨x', by simp [h1], h2⟩
    | right x _ ih =>
      intro i hi; obtain ⟨x', h1, h2⟩ := ih i (List.dropLast_subset _ hi); exact ⟨x', by simp [h1], h2⟩
    | otherButton b x _ _ _ ih => intro i hi; obtain ⟨x', h1, h2⟩ := ih i hi; exact ⟨x', by simp [h1], h2⟩
    | moveIn x _ ih => intro i hi; obtain ⟨x', h1, h2⟩ := ih i hi; exact ⟨x', by simp [h1], h2⟩
    | moveOut _ ih => intro i hi; obtain ⟨x', h1, h2⟩ := ih i hi; exact ⟨x', by simp [h1], h2⟩
  have hi := List.mem_of_getElem? hk
  obtain ⟨x, h1, h2⟩ := hmem hist _ hp i hi
  have hr := List.getElem?_eq_getElem (g1 i hi)
  refine ⟨x, d.rows[i]'(g1 i hi), h1, h2, hr, ?_, ?_⟩
  · rw [g2]
    have e : lonsOf d.rows (curRun d (curInit h v dot) hist).iSeg
        = (curRun d (curInit h v dot) hist).iSeg.map (fun i => (d.rows.map CurRow.lon).getD i 0) := by
      unfold lonsOf
      rw [← List.filterMap_eq_map]
      apply List.filterMap_congr
      intro j hj
      have := g1 j hj
      simp [List.getElem?_eq_getElem this]
    rw [e, List.getElem?_map, hk]
    simp [hr]
  · rw [g3]
    have e : latsOf d.rows (curRun d (curInit h v dot) hist).iSeg
        = (curRun d (curInit h v dot) hist).iSeg.map (fun i => (d.rows.map CurRow.lat).getD i 0) := by
      unfold latsOf
      rw [← List.filterMap_eq_map]
      apply List.filterMap_congr
      intro j hj
      have := g1 j hj
      simp [List.getElem?_eq_getElem this]
    rw [e, List.getElem?_map, hk]
    simp [hr]

/-! ## C16 -/

/-- The cross-hair is where `lastIndex` says. -/
private def Hair (d : CurData) (s : CurState) : Prop :=
  ∀ i, s.lastIndex = some i → pyIdx d.lineX i = .ok s.vLine ∧ pyIdx d.lineY i = .ok s.hLine

private theorem hair_run (d : CurData) (hxy : d.lineX.length = d.lineY.length) (hx : d.lineX ≠ [])
    (h v : ℚ) (dot : ℚ × ℚ) (hist : List Event) : Hair d (curRun d (curInit h v dot) hist) := by
  induction hist using List.reverseRecOn with
  | nil => intro i hi; simp [curRun, curInit] at hi
  | append_singleton hist e ih =>
    have : curRun d (curInit h v dot) (hist ++ [e]) = (curStep d (curRun d (curInit h v dot) hist) e).1 := by
      simp [curRun]
    rw [this]
    generalize curRun d (curInit h v dot) hist = s at ih
    cases e with
    | moveOut => intro i hi; simp [curStep, onMouseMove] at hi
    | moveIn x =>
      simp only [curStep, onMouseMove]
      have hl : 0 < d.lineX.length := List.length_pos_of_ne_nil hx
      have hok : ∀ l : List ℚ, l.length = d.lineX.length →
          ∃ u, pyIdx l (min (searchsorted d.lineX x : ℤ) (d.lineX.length - 1)) = .ok u := by
        intro l hll
        unfold pyIdx pyGet
        rw [if_pos (by omega), List.getElem?_eq_getElem (by omega)]
        exact ⟨_, rfl⟩
      obtain ⟨u, hu⟩ := hok d.lineX rfl
      obtain ⟨w, hw⟩ := hok d.lineY hxy.symm
      rw [hu, hw]
      split
      · exact ih
      · simp only
        repeat' split
        all_goals
          intro i hi
          simp only [Option.some.injEq] at hi
          subst hi
          exact ⟨hu, hw⟩
    | click b x =>
      have hsame : ∀ s', s' = (curStep d s (.click b x)).1 → s'.lastIndex = s.lastIndex ∧ s'.vLine = s.vLine ∧
          s'.hLine = s.hLine := by
        intro s' hs'
        rw [hs']
        simp only [curStep, onMouseClick]
        repeat' split
        all_goals exact ⟨rfl, rfl, rfl⟩
      obtain ⟨h1, h2, h3⟩ := hsame _ rfl
      intro i hi
      rw [h1] at hi
      rw [h2, h3]
      exact ih i hi

/-- C16, what the code does (`_partial`): after any history, moving to `x` puts the cross-hair on the *first point at or
after* `x` (on the last point when there is none), with its `y`. Missing from C16: that this point is the closest one;
see the refutation. -/
theorem C16_snaps_to_next_point_partial (d : CurData) (hs : d.lineX.Pairwise (· ≤ ·)) (hx : d.lineX ≠ [])
    (hxy : d.lineX.length = d.lineY.length) (h v : ℚ) (dot : ℚ × ℚ) (hist : List Event) (x : ℚ) :
    let s := (curStep d (curRun d (curInit h v dot) hist) (.moveIn x)).1
    ∃ k : ℕ, d.lineX[k]? = some s.vLine ∧ d.lineY[k]? = some s.hLine ∧ s.visible = true ∧
      (∀ j u, j < k → d.lineX[j]? = some u → u < x) ∧ (x ≤ s.vLine ∨ k + 1 = d.lineX.length) := by
  intro s
  have hl : 0 < d.lineX.length := List.length_pos_of_ne_nil hx
  have hH : Hair d s := by
    have := hair_run d hxy hx h v dot (hist ++ [.moveIn x])
    have e : curRun d (curInit h v dot) (hist ++ [.moveIn x]) = s := by simp [s, curRun]
    rwa [e] at this
  have hli : s.lastIndex = some (min (searchsorted d.lineX x : ℤ) (d.lineX.length - 1)) ∧ s.visible = true := by
    show ((curStep d _ (.moveIn x)).1).lastIndex = _ ∧ _
    simp only [s, curStep, onMouseMove]
    split
    · rename_i h; exact ⟨h, rfl⟩
    · repeat' split
      all_goals exact ⟨rfl, rfl⟩
  obtain ⟨h1, h2⟩ := hH _ hli.1
  obtain ⟨s1, s2, s3⟩ := searchsorted_spec d.lineX hs x
  generalize hk : searchsorted d.lineX x = m at *
  obtain ⟨k, hkk⟩ : ∃ k : ℕ, (min (m : ℤ) (d.lineX.length - 1)) = k := ⟨(min (m : ℤ) (d.lineX.length - 1)).toNat, by omega⟩
  rw [hkk] at h1 h2
  have get : ∀ (l : List ℚ) (u : ℚ), pyIdx l (k : ℤ) = .ok u → l[k]? = some u := by
    intro l u hu
    unfold pyIdx pyGet at hu
    rw [if_pos (by omega), Int.toNat_natCast] at hu
    cases hlk : l[k]? with
    | none => rw [hlk] at hu; cases hu
    | some a => rw [hlk] at hu; cases hu; rfl
  refine ⟨k, get _ _ h1, get _ _ h2, hli.2, ?_, ?_⟩
  · intro j u hj hu; exact s2 j u (by omega) hu
  · by_cases hm : m < d.lineX.length
    · left; exact s3 k _ (by omega) (get _ _ h1)
    · right; omega

/-- C16 refuted, in general: between two consecutive points the cross-hair jumps to the later one even when the mouse
is closer to the earlier one. -/
theorem C16_not_closest (d : CurData) (hs : d.lineX.Pairwise (· ≤ ·)) (hxy : d.lineX.length = d.lineY.length)
    (h v : ℚ) (dot : ℚ × ℚ) (hist : List Event) (x a b : ℚ) (i : ℕ) (ha : d.lineX[i]? = some a)
    (hb : d.lineX[i + 1]? = some b) (hax : a < x) (hcl : x - a < b - x) :
    let s := (curStep d (curRun d (curInit h v dot) hist) (.moveIn x)).1
    s.vLine = b ∧ |x - a| < |x - s.vLine| := by
  intro s
  have hx : d.lineX ≠ [] := by intro e; rw [e] at ha; simp at ha
  obtain ⟨k, k1, _, _, k2, k3⟩ := C16_snaps_to_next_point_partial d hs hx hxy h v dot hist x
  have hbx : x < b := by linarith
  have hlen : i + 1 < d.lineX.length := by
    by_contra hc; rw [List.getElem?_eq_none (by omega)] at hb; cases hb
  have hk : k = i + 1 := by
    have h1 : k ≤ i + 1 := by
      by_contra hc
      have := k2 (i + 1) b (by omega) hb
      linarith
    rcases Nat.lt_or_ge k (i + 1) with hlt | hge
    · exfalso
      rcases k3 with h3 | h3
      · have hka : (curStep d (curRun d (curInit h v dot) hist) (.moveIn x)).1.vLine ≤ a := by
          rcases Nat.lt_or_ge k i with hki | hki
          · have hk' : k < d.lineX.length := by omega
            have hi' : i < d.lineX.length := by omega
            have := List.pairwise_iff_getElem.1 hs k i hk' hi' hki
            rw [List.getElem?_eq_getElem hk'] at k1
            rw [List.getElem?_eq_getElem hi'] at ha
            rw [← Option.some.inj k1, ← Option.some.inj ha]; exact this
          · obtain rfl : k = i := by omega
            rw [ha] at k1; cases k1; exact le_rfl
        linarith
      · omega
    · omega
  rw [hk, hb] at k1
  have e : b = s.vLine := Option.some.inj k1
  refine ⟨e.symm, ?_⟩
  rw [← e, abs_of_pos (by linarith), abs_of_neg (by linarith)]
  linarith

/-! ## C97 -/

/-- The marker is where `lastIndex` says. -/
private def Marker (d : CurData) (s : CurState) : Prop :=
  ∀ i, s.lastIndex = some i → ∃ k r, IsNearest (d.rows.map CurRow.tsec) s.vLine k ∧ d.rows[k]? = some r ∧ s.dot = (r.lon, r.lat)

private theorem marker_run (d : CurData) (hd : d.rows ≠ []) (hxy : d.lineX.length = d.lineY.length) (hx : d.lineX ≠ [])
    (h v : ℚ) (dot : ℚ × ℚ) (hist : List Event) : Marker d (curRun d (curInit h v dot) hist) := by
  induction hist using List.reverseRecOn with
  | nil => intro i hi; simp [curRun, curInit] at hi
  | append_singleton hist e ih =>
    have : curRun d (curInit h v dot) (hist ++ [e]) = (curStep d (curRun d (curInit h v dot) hist) e).1 := by
      simp [curRun]
    rw [this]
    generalize curRun d (curInit h v dot) hist = s at ih
    cases e with
    | moveOut => intro i hi; simp [curStep, onMouseMove] at hi
    | moveIn x =>
      simp only [curStep, onMouseMove]
      have hl : 0 < d.lineX.length := List.length_pos_of_ne_nil hx
      have hok : ∀ l : List ℚ, l.length = d.lineX.length →
          ∃ u, pyIdx l (min (searchsorted d.lineX x : ℤ) (d.lineX.length - 1)) = .ok u := by
        intro l hll
        unfold pyIdx pyGet
        rw [if_pos (by omega), List.getElem?_eq_getElem (by omega)]
        exact ⟨_, rfl⟩
      obtain ⟨u, hu⟩ := hok d.lineX rfl
      obtain ⟨w, hw⟩ := hok d.lineY hxy.symm
      obtain ⟨k, r, h1, h2, h3⟩ := nearestRow_spec d hd u
      rw [hu, hw]
      split
      · exact ih
      · simp only [h1, h2]
        intro i _
        exact ⟨k, r, h3, h2, rfl⟩
    | click b x =>
      have hsame : ∀ s', s' = (curStep d s (.click b x)).1 → s'.lastIndex = s.lastIndex ∧ s'.vLine = s.vLine ∧
          s'.dot = s.dot := by
        intro s' hs'
        rw [hs']
        simp only [curStep, onMouseClick]
        repeat' split
        all_goals exact ⟨rfl, rfl, rfl⟩
      obtain ⟨h1, h2, h3⟩ := hsame _ rfl
      intro i hi
      rw [h1] at hi
      rw [h2, h3]
      exact ih i hi

/-- **C97.** After any history, moving to `x` puts the marker on the map at the position of the row whose time is nearest to the
cross-hair. -/
theorem C97_marker (d : CurData) (hd : d.rows ≠ []) (hx : d.lineX ≠ []) (hxy : d.lineX.length = d.lineY.length)
    (h v : ℚ) (dot : ℚ × ℚ) (hist : List Event) (x : ℚ) :
    let s := (curStep d (curRun d (curInit h v dot) hist) (.moveIn x)).1
    ∃ k r, IsNearest (d.rows.map CurRow.tsec) s.vLine k ∧ d.rows[k]? = some r ∧ s.dot = (r.lon, r.lat) := by
  intro s
  have hM : Marker d s := by
    have := marker_run d hd hxy hx h v dot (hist ++ [.moveIn x])
    have e : curRun d (curInit h v dot) (hist ++ [.moveIn x]) = s := by simp [s, curRun]
    rwa [e] at this
  have hli : s.lastIndex = some (min (searchsorted d.lineX x : ℤ) (d.lineX.length - 1)) := by
    show ((curStep d _ (.moveIn x)).1).lastIndex = _
    simp only [curStep, onMouseMove]
    split
    · rename_i h; exact h
    · repeat' split
      all_goals rfl
  exact hM _ hli

/-- **C97.** Leaving the axes hides the cross-hair and moves nothing; clicks neither move nor hide anything. -/
theorem C97_leave_and_click (d : CurData) (s : CurState) :
    (let s' := (curStep d s .moveOut).1
     s'.visible = false ∧ s'.vLine = s.vLine ∧ s'.hLine = s.hLine ∧ s'.dot = s.dot ∧ (curStep d s .moveOut).2 = none) ∧
    ∀ b x, let s' := (curStep d s (.click b x)).1
      s'.visible = s.visible ∧ s'.vLine = s.vLine ∧ s'.hLine = s.hLine ∧ s'.dot = s.dot := by
  refine ⟨⟨rfl, rfl, rfl, rfl, rfl⟩, fun b x => ?_⟩
  simp only [curStep, onMouseClick]
  repeat' split
  all_goals exact ⟨rfl, rfl, rfl, rfl⟩

/-! ## Non-vacuity -/

def exCur : CurData := ⟨[⟨0, 5, 6⟩, ⟨10, 7, 8⟩, ⟨20, 9, 1⟩], [0, 10, 20], [3, 4, 5]⟩

example : exCur.rows ≠ [] ∧
    (curRun exCur (curInit 0 0 (0, 0)) [.click 1 (some 11), .moveIn 3, .click 1 (some 18), .click 2 none,
      .click 3 (some 0), .click 1 (some 2)]).iSeg = [1, 0] := by decide +kernel

/-- C16's refutation on a concrete line: mouse at 1, cross-hair at 10. -/
example : (curStep exCur (curInit 0 0 (0, 0)) (.moveIn 1)).1.vLine = 10 := by decide +kernel

example : (curStep exCur (curRun exCur (curInit 0 0 (0, 0)) [.moveIn 3, .moveOut, .click 1 (some 4)]) (.moveIn 12)).1.dot = (9, 1) := by decide +kernel

end Shipgrav
