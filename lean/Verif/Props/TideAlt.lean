import Verif.Model.TideAlt
import Verif.Props.TideNewton

/-! C151: the tide prediction with an array of altitudes (grav.py 42–187). -/

namespace Shipgrav
open Spec

private theorem len3 (lon lat : List ℝ) (times : List ℤ) (h : lon.length = lat.length ∧ lon.length = times.length) :
    ((lon.zip lat).zip times).length = lon.length := by
  rw [List.length_zip, List.length_zip]; omega

/-- **C151.** One altitude for each point of the track: every point gets the tide at its own altitude. -/
theorem C151_pointwise (lon lat : List ℝ) (times : List ℤ) (alt : List ℝ) (hl : lon.length = lat.length ∧ lon.length = times.length)
    (ha : alt.length = lon.length) :
    ∃ out, longmanAlt lon lat times alt = .ok out ∧ out.length = lon.length ∧
      ∀ (k : ℕ) (x y : ℝ) (t : ℤ) (z : ℝ), lon[k]? = some x → lat[k]? = some y → times[k]? = some t → alt[k]? = some z →
        ∃ v, out[k]? = some v ∧ longman [x] [y] [t] z = .ok [v] := by
  unfold longmanAlt
  rw [if_neg (by simp [hl.1]), if_neg (by simp [hl.2])]
  unfold broadcastPairs
  rw [if_pos (by rw [len3 _ _ _ hl, ha])]
  refine ⟨_, rfl, ?_, ?_⟩
  · rw [List.length_map, List.length_zip, len3 _ _ _ hl, ha, min_self]
  · intro k x y t z hx hy ht hz
    have : (((lon.zip lat).zip times).zip alt)[k]? = some (((x, y), t), z) := by
      rw [List.getElem?_zip_eq_some, List.getElem?_zip_eq_some, List.getElem?_zip_eq_some]
      exact ⟨⟨⟨hx, hy⟩, ht⟩, hz⟩
    rw [List.getElem?_map, this]
    refine ⟨_, rfl, ?_⟩
    unfold longman
    rw [if_neg (by simp), if_neg (by simp)]
    rfl

/-- **C151.** An array with one altitude is the same as that altitude for the whole track, and so is an array that repeats it. -/
theorem C151_constant (lon lat : List ℝ) (times : List ℤ) (z : ℝ) :
    longmanAlt lon lat times [z] = longman lon lat times z ∧ longmanAlt lon lat times (List.replicate lon.length z) = longman lon lat times z := by
  by_cases h1 : lon.length = lat.length
  · by_cases h2 : lon.length = times.length
    · unfold longmanAlt longman
      rw [if_neg (not_not.2 h1), if_neg (not_not.2 h2), if_neg (not_not.2 h1), if_neg (not_not.2 h2), if_neg (not_not.2 h1), if_neg (not_not.2 h2)]
      have hl := len3 lon lat times ⟨h1, h2⟩
      generalize (lon.zip lat).zip times = L at hl
      have hb : broadcastPairs L [z] = .ok (L.map fun x => (x, z)) := by
        unfold broadcastPairs
        match L with
        | [] => rfl
        | [x] => rfl
        | x :: y :: L => rw [if_neg (by simp)]
      have hb' : broadcastPairs L (List.replicate lon.length z) = .ok (L.map fun x => (x, z)) := by
        unfold broadcastPairs
        rw [if_pos (by rw [List.length_replicate, hl]), ← hl]
        congr 1
        clear hl hb
        induction L with
        | nil => rfl
        | cons a L ih => rw [List.length_cons, List.replicate_succ, List.zip_cons_cons, ih, List.map_cons]
      rw [hb, hb']
      constructor
      all_goals
        show Except.ok _ = Except.ok _
        rw [List.map_map]
        rfl
    · unfold longmanAlt longman
      rw [if_neg (not_not.2 h1), if_pos h2, if_neg (not_not.2 h1), if_pos h2, if_neg (not_not.2 h1), if_pos h2]
      exact ⟨rfl, rfl⟩
  · unfold longmanAlt longman
    rw [if_pos h1, if_pos h1, if_pos h1]
    exact ⟨rfl, rfl⟩

/-- **C151.** One place and instant with several altitudes gives the tide at each of them. -/
theorem C151_profile (x y : ℝ) (t : ℤ) (alt : List ℝ) :
    ∃ out, longmanAlt [x] [y] [t] alt = .ok out ∧ out.length = alt.length ∧
      ∀ (k : ℕ) (z : ℝ), alt[k]? = some z → ∃ v, out[k]? = some v ∧ longman [x] [y] [t] z = .ok [v] := by
  have hb : broadcastPairs [((x, y), t)] alt = .ok (alt.map fun z => (((x, y), t), z)) := by
    unfold broadcastPairs
    match alt with
    | [] => rfl
    | [z] => rfl
    | z :: w :: L => rw [if_neg (by simp)]
  unfold longmanAlt
  rw [if_neg (by simp), if_neg (by simp)]
  simp only [List.zip_cons_cons, List.zip_nil_right, hb]
  refine ⟨_, rfl, by simp, fun k z hz => ?_⟩
  rw [List.getElem?_map, List.getElem?_map, hz]
  refine ⟨_, rfl, ?_⟩
  unfold longman
  rw [if_neg (by simp), if_neg (by simp)]
  rfl

/-- **C151.** Any other number of altitudes raises `ValueError`, and tracks of unequal lengths raise `AssertionError` as before. -/
theorem C151_raises (lon lat : List ℝ) (times : List ℤ) (alt : List ℝ) :
    (¬ (lon.length = lat.length ∧ lon.length = times.length) → longmanAlt lon lat times alt = .error .assertionError) ∧
    (lon.length = lat.length → lon.length = times.length → alt.length ≠ lon.length → alt.length ≠ 1 → lon.length ≠ 1 →
      longmanAlt lon lat times alt = .error .valueError) := by
  constructor
  · intro h
    unfold longmanAlt
    by_cases h1 : lon.length = lat.length
    · rw [if_neg (by simp [h1]), if_pos (by tauto)]
    · rw [if_pos h1]
  · intro h1 h2 h3 h4 h5
    have hl := len3 lon lat times ⟨h1, h2⟩
    unfold longmanAlt
    rw [if_neg (by simp [h1]), if_neg (by simp [h2])]
    have hb : broadcastPairs ((lon.zip lat).zip times) alt = .error .valueError := by
      generalize (lon.zip lat).zip times = L at hl
      unfold broadcastPairs
      rw [if_neg (by omega)]
      match L, alt, hl with
      | [a], _, hl => exact absurd hl.symm h5
      | [], [], hl => exact absurd hl h3
      | [], [y], _ => exact absurd rfl h4
      | [], y :: w :: alt, _ => rfl
      | a :: b :: L, [], _ => rfl
      | a :: b :: L, [y], _ => exact absurd rfl h4
      | a :: b :: L, y :: w :: alt, _ => rfl
    rw [hb]
    rfl

-- two points at two altitudes; three altitudes for two points
example : ([1, 2] : List ℝ).length = ([3, 4] : List ℝ).length ∧ ([1, 2] : List ℝ).length = ([0, 5000000] : List ℤ).length ∧
    ([0, 100] : List ℝ).length = ([1, 2] : List ℝ).length := ⟨rfl, rfl, rfl⟩
example : longmanAlt [1, 2] [3, 4] [0, 5000000] [0, 1, 2] = .error .valueError :=
  (C151_raises _ _ _ _).2 rfl rfl (by decide) (by decide) (by decide)

end Shipgrav
