import Verif.Spec.DateLine
import Verif.Model.ReadNav
import Mathlib.Tactic.Linarith
import Mathlib.Tactic.Ring
import Mathlib.Tactic.NormNum
import Mathlib.Data.List.Count

/-! Properties C33 and C34: `_clean_180cross`. -/

namespace Shipgrav
open Spec

private theorem jumps_iff (a b : Option ℚ) : jumps a b = true ↔ ∃ x y, a = some x ∧ b = some y ∧ 1 < |y - x| := by
  cases a <;> cases b <;> simp [jumps]

private theorem jumpAt_cons (a : Option ℚ) (t : List (Option ℚ)) (i : ℕ) : JumpAt (a :: t) (i + 1) ↔ JumpAt t i := by
  simp [JumpAt]

private theorem jumpAt_zero (a b : Option ℚ) (t : List (Option ℚ)) : JumpAt (a :: b :: t) 0 ↔ jumps a b = true := by
  rw [jumps_iff]
  simp [JumpAt]

private theorem jumpGo_spec (t : List (Option ℚ)) : ∀ i,
    (jumpGo i t).Pairwise (· < ·) ∧ ∀ j, j ∈ jumpGo i t ↔ ∃ k, j = i + k ∧ JumpAt t k := by
  induction t with
  | nil => intro i; simp [jumpGo, JumpAt]
  | cons a t ih =>
    intro i
    cases t with
    | nil => simp [jumpGo, JumpAt]
    | cons b t =>
      obtain ⟨h1, h2⟩ := ih (i + 1)
      have hlt : ∀ j ∈ jumpGo (i + 1) (b :: t), i < j := by
        intro j hj; obtain ⟨k, rfl, _⟩ := (h2 j).1 hj; omega
      have hmem : ∀ j, (j ∈ jumpGo (i + 1) (b :: t) ↔ ∃ k, j = i + (k + 1) ∧ JumpAt (a :: b :: t) (k + 1)) := by
        intro j
        rw [h2]
        constructor
        · rintro ⟨k, rfl, hk⟩; exact ⟨k, by omega, (jumpAt_cons _ _ _).2 hk⟩
        · rintro ⟨k, rfl, hk⟩; exact ⟨k, by omega, (jumpAt_cons _ _ _).1 hk⟩
      rw [jumpGo]
      split
      · rename_i hj
        refine ⟨List.pairwise_cons.2 ⟨hlt, h1⟩, ?_⟩
        intro j
        rw [List.mem_cons, hmem]
        constructor
        · rintro (rfl | ⟨k, rfl, hk⟩)
          · exact ⟨0, by omega, (jumpAt_zero _ _ _).2 hj⟩
          · exact ⟨k + 1, rfl, hk⟩
        · rintro ⟨k, rfl, hk⟩
          cases k with
          | zero => left; rfl
          | succ k => right; exact ⟨k, rfl, hk⟩
      · rename_i hj
        refine ⟨h1, ?_⟩
        intro j
        rw [hmem]
        constructor
        · rintro ⟨k, rfl, hk⟩; exact ⟨k + 1, rfl, hk⟩
        · rintro ⟨k, rfl, hk⟩
          cases k with
          | zero => exact absurd ((jumpAt_zero _ _ _).1 hk) hj
          | succ k => exact ⟨k, rfl, hk⟩

theorem jumpIdx_sorted (x : List (Option ℚ)) : (jumpIdx x).Pairwise (· < ·) := (jumpGo_spec x 0).1

theorem mem_jumpIdx (x : List (Option ℚ)) (j : ℕ) : j ∈ jumpIdx x ↔ JumpAt x j := by
  unfold jumpIdx
  rw [(jumpGo_spec x 0).2]
  simp

theorem jumpIdx_nil_iff (x : List (Option ℚ)) : jumpIdx x = [] ↔ ∀ i, ¬ JumpAt x i := by
  rw [List.eq_nil_iff_forall_not_mem]
  simp only [mem_jumpIdx]

/-- Every other element of a list, starting with the first. -/
def evens : List ℕ → List ℕ
  | [] => []
  | [a] => [a]
  | a :: _ :: t => a :: evens t

theorem strideGo_two : ∀ l : List ℕ, strideGo 2 0 l = evens l
  | [] => rfl
  | [a] => rfl
  | a :: b :: t => by
    rw [evens, strideGo, strideGo, strideGo_two t]

private theorem fixPairs_spec : ∀ (is : List ℕ) (x : List (Option ℚ)), is.Pairwise (fun a b => a + 2 ≤ b) →
    (∀ i ∈ is, i + 2 < x.length) → ∃ y, fixPairs is x = .ok y ∧ MiddlesReplaced is x y := by
  intro is
  induction is with
  | nil => intro x _ _; exact ⟨x, rfl, rfl, fun _ _ => rfl, by simp⟩
  | cons i is ih =>
    intro x hp hl
    obtain ⟨hp1, hp2⟩ := List.pairwise_cons.1 hp
    have h2 := hl i (by simp)
    have e0 : x[i]? = some x[i] := List.getElem?_eq_getElem (by omega)
    have e2 : x[i + 2]? = some x[i + 2] := List.getElem?_eq_getElem h2
    obtain ⟨y, hy, hlen, hkeep, hmid⟩ := ih (x.set (i + 1) (midpoint x[i] x[i + 2])) hp2
      (fun j hj => by rw [List.length_set]; exact hl j (by simp [hj]))
    refine ⟨y, ?_, ?_, ?_, ?_⟩
    · rw [fixPairs]
      simp only [pyGet, e0, e2]
      exact hy
    · rw [hlen, List.length_set]
    · intro m hm
      rw [hkeep m (fun j hj => hm j (by simp [hj])), List.getElem?_set_ne]
      exact (hm i (by simp)).symm
    · intro j hj
      rcases List.mem_cons.1 hj with rfl | hj
      · refine ⟨x[j], x[j + 2], e0, e2, ?_⟩
        rw [hkeep (j + 1) (fun k hk => by have := hp1 k hk; omega), List.getElem?_set_self (by omega)]
        cases x[j] <;> cases x[j + 2] <;> rfl
      · obtain ⟨a, b, ha, hb, hm⟩ := hmid j hj
        have := hp1 j hj
        rw [List.getElem?_set_ne (by omega)] at ha hb
        exact ⟨a, b, ha, hb, hm⟩

theorem evens_spacing : ∀ l : List ℕ, l.Pairwise (· < ·) → l.length % 2 = 0 →
    (evens l).Pairwise (fun a b => a + 2 ≤ b) ∧ ∀ a ∈ evens l, a ∈ l ∧ ∃ b ∈ l, a < b
  | [], _, _ => by simp [evens]
  | [a], _, h => by simp at h
  | a :: b :: t, hp, hl => by
    obtain ⟨h1, h2⟩ := List.pairwise_cons.1 hp
    obtain ⟨h3, h4⟩ := List.pairwise_cons.1 h2
    obtain ⟨i1, i2⟩ := evens_spacing t h4 (by simp only [List.length_cons] at hl; omega)
    refine ⟨?_, ?_⟩
    · rw [evens, List.pairwise_cons]
      refine ⟨fun c hc => ?_, i1⟩
      have := h3 c (i2 c hc).1
      have := h1 b (by simp)
      omega
    · intro c hc
      rw [evens, List.mem_cons] at hc
      rcases hc with rfl | hc
      · exact ⟨by simp, b, by simp, h1 b (by simp)⟩
      · obtain ⟨m1, d, m2, m3⟩ := i2 c hc
        exact ⟨by simp [m1], d, by simp [m2], m3⟩

theorem pyMod_neg (v : ℚ) (h1 : -180 ≤ v) (h2 : v < 0) : 180 + pyMod v 180 = v + 360 := by
  have : ⌊v / 180⌋ = -1 := by
    rw [Int.floor_eq_iff]; push_cast; constructor <;> linarith
  unfold pyMod; rw [this]; push_cast; ring

theorem pyMod_pos (v : ℚ) (h1 : v ≤ 180) (h2 : 0 < v) : -180 + pyMod v (-180) = v - 360 := by
  have : ⌊v / (-180)⌋ = -1 := by
    rw [Int.floor_eq_iff]; push_cast
    rw [div_neg]
    constructor <;> linarith
  unfold pyMod; rw [this]; push_cast; ring

theorem unwrap_eq (lon : List (Option ℚ)) (h : ∀ v, some v ∈ lon → -180 ≤ v ∧ v ≤ 180) :
    unwrapSides lon = oneSided lon := by
  unfold unwrapSides oneSided
  have e1 : lon.filter isNeg = lon.filter (fun x => x.any (· < 0)) :=
    List.filter_congr (fun x _ => by cases x <;> simp [isNeg])
  have e2 : lon.filter isPos = lon.filter (fun x => x.any (0 < ·)) :=
    List.filter_congr (fun x _ => by cases x <;> simp [isPos])
  rw [e1, e2, ← List.countP_eq_length_filter, ← List.countP_eq_length_filter]
  split
  · apply List.map_congr_left
    intro x hx
    cases x with
    | none => simp [isNeg]
    | some v =>
      obtain ⟨b1, b2⟩ := h v hx
      by_cases hv : v < 0
      · simp only [isNeg, hv, decide_true, if_true, Option.map_some]
        rw [pyMod_neg v b1 hv]
      · simp [isNeg, hv]
  · apply List.map_congr_left
    intro x hx
    cases x with
    | none => simp [isPos]
    | some v =>
      obtain ⟨b1, b2⟩ := h v hx
      by_cases hv : 0 < v
      · simp only [isPos, hv, decide_true, if_true, Option.map_some]
        rw [pyMod_pos v b2 hv]
      · simp [isPos, hv]

/-- The repair of a column after its sides have been joined. -/
private theorem clean_of (lon x : List (Option ℚ)) (hx : unwrapSides lon = x) :
    ∃ y, cleanLon lon = .ok y ∧
      ((jumpIdx x).length % 2 = 1 → y = x) ∧
      ((jumpIdx x).length % 2 = 0 → MiddlesReplaced (evens (jumpIdx x)) x y) := by
  unfold cleanLon
  simp only [hx]
  by_cases hodd : (jumpIdx x).length % 2 ≠ 0
  · rw [if_pos hodd]
    exact ⟨x, rfl, fun _ => rfl, fun h => absurd h hodd⟩
  · rw [if_neg hodd, strideGo_two]
    have hev : (jumpIdx x).length % 2 = 0 := not_not.1 hodd
    obtain ⟨s1, s2⟩ := evens_spacing _ (jumpIdx_sorted x) hev
    obtain ⟨y, h1, h2⟩ := fixPairs_spec _ x s1 (by
      intro i hi
      obtain ⟨_, b, hb, hlt⟩ := s2 i hi
      obtain ⟨_, v, _, hv, _⟩ := (mem_jumpIdx x b).1 hb
      have := (List.getElem?_eq_some_iff.1 hv).1
      omega)
    exact ⟨y, h1, fun h => absurd h (by omega), fun _ => h2⟩

/-- **C34.** The repair raises on no column of longitudes, whatever their values, and keeps the number of samples. -/
theorem C34_never_raises (lon : List (Option ℚ)) : ∃ lon', cleanLon lon = .ok lon' ∧ lon'.length = lon.length := by
  obtain ⟨y, h1, h2, h3⟩ := clean_of lon _ rfl
  refine ⟨y, h1, ?_⟩
  have hlen : (unwrapSides lon).length = lon.length := by unfold unwrapSides; split <;> simp
  rcases Nat.mod_two_eq_zero_or_one (jumpIdx (unwrapSides lon)).length with h | h
  · rw [(h3 h).1, hlen]
  · rw [h2 h, hlen]

/-- **C34.** What the repair returns, for every column with longitudes in [-180, 180] or NaN: the minority side is moved by a
full turn; if the remaining jumps (steps over one degree) pair up, the sample after the first jump of each consecutive pair
is replaced by the mean of its neighbours, and everything else is left alone. -/
theorem C34_repair (lon : List (Option ℚ)) (hr : ∀ v, some v ∈ lon → -180 ≤ v ∧ v ≤ 180) :
    ∃ (lon' : List (Option ℚ)) (J : List ℕ), cleanLon lon = .ok lon' ∧
      J.Pairwise (· < ·) ∧ (∀ i, i ∈ J ↔ JumpAt (oneSided lon) i) ∧
      if J.length % 2 = 1 then lon' = oneSided lon
      else ∃ pairs : List ℕ, (∀ k : ℕ, pairs[k]? = J[2 * k]?) ∧ MiddlesReplaced pairs (oneSided lon) lon' := by
  obtain ⟨y, h1, h2, h3⟩ := clean_of lon _ (unwrap_eq lon hr)
  refine ⟨y, jumpIdx (oneSided lon), h1, jumpIdx_sorted _, mem_jumpIdx _, ?_⟩
  split
  · rename_i h; exact h2 h
  · rename_i h
    refine ⟨evens (jumpIdx (oneSided lon)), ?_, h3 (by omega)⟩
    have key : ∀ (l : List ℕ) (k : ℕ), (evens l)[k]? = l[2 * k]? := by
      intro l
      induction l using evens.induct with
      | case1 => intro k; simp [evens]
      | case2 a => intro k; cases k <;> simp [evens, Nat.mul_succ]
      | case3 a b t ih =>
        intro k
        cases k with
        | zero => simp [evens]
        | succ k => rw [evens, List.getElem?_cons_succ, ih, show 2 * (k + 1) = 2 * k + 1 + 1 by ring]; simp
    exact key _

/-- **C34.** Longitudes that are not the middle of a repaired pair keep their value up to one full turn, and NaN stays NaN. -/
theorem C34_modulo_a_turn (lon : List (Option ℚ)) (hr : ∀ v, some v ∈ lon → -180 ≤ v ∧ v ≤ 180) :
    ∃ (lon' : List (Option ℚ)) (middles : List ℕ), cleanLon lon = .ok lon' ∧
      (∀ m ∈ middles, JumpAt (oneSided lon) (m - 1) ∧ 0 < m) ∧
      ∀ m : ℕ, m ∉ middles →
        (lon[m]? = none ∧ lon'[m]? = none) ∨ (lon[m]? = some none ∧ lon'[m]? = some none) ∨
          ∃ v w : ℚ, lon[m]? = some (some v) ∧ lon'[m]? = some (some w) ∧ (w = v ∨ w = v + 360 ∨ w = v - 360) := by
  obtain ⟨y, J, h1, _, h3, h4⟩ := C34_repair lon hr
  have hone : ∀ m : ℕ, (lon[m]? = none ∧ (oneSided lon)[m]? = none) ∨ (lon[m]? = some none ∧ (oneSided lon)[m]? = some none) ∨
      ∃ v w : ℚ, lon[m]? = some (some v) ∧ (oneSided lon)[m]? = some (some w) ∧ (w = v ∨ w = v + 360 ∨ w = v - 360) := by
    intro m
    unfold oneSided
    split <;>
    · rw [List.getElem?_map]
      rcases hm : lon[m]? with _ | _ | v
      · exact Or.inl ⟨rfl, rfl⟩
      · exact Or.inr (Or.inl ⟨rfl, rfl⟩)
      · refine Or.inr (Or.inr ⟨v, _, rfl, rfl, ?_⟩)
        beta_reduce
        split <;> simp
  split at h4
  · subst h4
    exact ⟨_, [], h1, by simp, fun m _ => hone m⟩
  · obtain ⟨pairs, hp, hlen, hkeep, _⟩ := h4
    refine ⟨y, pairs.map (· + 1), h1, ?_, ?_⟩
    · intro m hm
      obtain ⟨i, hi, rfl⟩ := List.mem_map.1 hm
      obtain ⟨k, hk⟩ := List.mem_iff_getElem?.1 hi
      refine ⟨?_, by omega⟩
      rw [Nat.add_sub_cancel, ← h3]
      rw [hp] at hk
      exact List.mem_of_getElem? hk
    · intro m hm
      have : y[m]? = (oneSided lon)[m]? := by
        apply hkeep
        rintro i hi rfl
        exact hm (List.mem_map.2 ⟨i, hi, rfl⟩)
      rw [this]
      exact hone m

theorem wrap_range (v : ℚ) (h1 : 0 < v) (h2 : v < 360) : -180 ≤ wrapLon v ∧ wrapLon v ≤ 180 := by
  unfold wrapLon; split <;> constructor <;> linarith

theorem wrap_oneSided (L : List (Option ℚ)) (hr : ∀ v, some v ∈ L → 0 < v ∧ v < 360) :
    oneSided (L.map (Option.map wrapLon)) = L ∨ oneSided (L.map (Option.map wrapLon)) = L.map (Option.map (· - 360)) := by
  unfold oneSided
  split
  · left
    rw [List.map_map]
    conv_rhs => rw [← List.map_id L]
    apply List.map_congr_left
    intro x hx
    cases x with
    | none => rfl
    | some v =>
      obtain ⟨b1, b2⟩ := hr v hx
      simp only [Function.comp, Option.map_some, id]
      unfold wrapLon
      congr 1
      by_cases hv : v ≤ 180
      · rw [if_pos hv, if_neg (by linarith)]
      · rw [if_neg hv, if_pos (by linarith)]; ring
  · right
    rw [List.map_map]
    apply List.map_congr_left
    intro x hx
    cases x with
    | none => rfl
    | some v =>
      obtain ⟨b1, b2⟩ := hr v hx
      simp only [Function.comp, Option.map_some]
      unfold wrapLon
      congr 1
      by_cases hv : v ≤ 180
      · rw [if_pos hv, if_pos b1]
      · rw [if_neg hv, if_neg (by linarith)]

/-- **C33.** Take any track of continuous longitudes in (0, 360) (NaN for drop-outs), with steps of at most one degree, as
recorded in (-180, 180].  However many times it crosses the date line, the repair gives back the continuous track, up to
one full turn for the whole track. -/
theorem C33_repair_is_continuous (L : List (Option ℚ)) (hr : ∀ v, some v ∈ L → 0 < v ∧ v < 360)
    (hs : ∀ i, ¬ JumpAt L i) :
    cleanLon (L.map (Option.map wrapLon)) = .ok L ∨
      cleanLon (L.map (Option.map wrapLon)) = .ok (L.map (Option.map (· - 360))) := by
  have hw : ∀ v, some v ∈ L.map (Option.map wrapLon) → -180 ≤ v ∧ v ≤ 180 := by
    intro v hv
    obtain ⟨x, hx, he⟩ := List.mem_map.1 hv
    cases x with
    | none => cases he
    | some u =>
      simp only [Option.map_some, Option.some.injEq] at he
      rw [← he]
      exact wrap_range u (hr u hx).1 (hr u hx).2
  have hs' : ∀ i, ¬ JumpAt (L.map (Option.map (· - 360))) i := by
    rintro i ⟨a, b, ha, hb, hab⟩
    rw [List.getElem?_map] at ha hb
    rcases h1 : L[i]? with _ | _ | u <;> rw [h1] at ha <;> simp at ha
    rcases h2 : L[i + 1]? with _ | _ | w <;> rw [h2] at hb <;> simp at hb
    refine hs i ⟨u, w, h1, h2, ?_⟩
    rw [← ha, ← hb] at hab
    rwa [show w - 360 - (u - 360) = w - u by ring] at hab
  obtain ⟨y, h1, h2, h3⟩ := clean_of _ _ (unwrap_eq _ hw)
  have fin : ∀ z, oneSided (L.map (Option.map wrapLon)) = z → (∀ i, ¬ JumpAt z i) → y = z := by
    intro z hz hj
    rw [hz] at h3
    have h0 := (jumpIdx_nil_iff z).2 hj
    rw [h0] at h3
    obtain ⟨_, hk, _⟩ := h3 rfl
    exact List.ext_getElem? (fun m => hk m (by simp [evens]))
  rcases wrap_oneSided L hr with hz | hz
  · left; rw [h1, fin _ hz hs]
  · right; rw [h1, fin _ hz hs']

/-- **C33.** Without drop-outs the same holds for what `read_nav` does with the column, which calls the repair only when it
sees a step over one degree. -/
theorem C33_column_is_continuous (L : List ℚ) (hr : ∀ v ∈ L, 0 < v ∧ v < 360)
    (hs : ∀ i a b, L[i]? = some a → L[i + 1]? = some b → |b - a| ≤ 1) :
    let lon := L.map (fun v => some (wrapLon v))
    let out := if jumpIdx lon = [] then .ok lon else cleanLon lon
    out = .ok (L.map some) ∨ out = .ok (L.map (fun v => some (v - 360))) := by
  intro lon out
  have hlon : lon = (L.map some).map (Option.map wrapLon) := by simp [lon]
  by_cases hj : jumpIdx lon = []
  · have hout : out = .ok lon := if_pos hj
    rw [hout]
    rw [jumpIdx_nil_iff] at hj
    -- all samples on one side
    have key : ∀ (M : List ℚ), (∀ v ∈ M, 0 < v ∧ v < 360) → (∀ i a b, M[i]? = some a → M[i + 1]? = some b → |b - a| ≤ 1) →
        (∀ i, ¬ JumpAt (M.map (fun v => some (wrapLon v))) i) →
        (∀ v ∈ M, v ≤ 180) ∨ (∀ v ∈ M, 180 < v) := by
      intro M
      induction M with
      | nil => intro _ _ _; left; simp
      | cons a t ih =>
        intro h1 h2 h3
        have ih' := ih (fun v hv => h1 v (by simp [hv])) (fun i x y hx hy => h2 (i + 1) x y (by simpa using hx) (by simpa using hy))
          (fun i hi => h3 (i + 1) (by rw [List.map_cons, jumpAt_cons]; exact hi))
        cases t with
        | nil =>
          rcases le_or_gt a 180 with h | h
          · left; simpa using h
          · right; simpa using h
        | cons b t =>
          have hab := h2 0 a b rfl rfl
          have hnj : |wrapLon b - wrapLon a| ≤ 1 := by
            by_contra hc
            exact h3 0 ⟨wrapLon a, wrapLon b, rfl, rfl, not_le.1 hc⟩
          have side : a ≤ 180 ↔ b ≤ 180 := by
            unfold wrapLon at hnj
            rw [abs_le] at hab hnj
            by_cases ha : a ≤ 180 <;> by_cases hb : b ≤ 180
            · simp [ha, hb]
            · rw [if_neg hb, if_pos ha] at hnj; exfalso; linarith [hab.1, hab.2, hnj.1, hnj.2]
            · rw [if_pos hb, if_neg ha] at hnj; exfalso; linarith [hab.1, hab.2, hnj.1, hnj.2]
            · simp [ha, hb]
          rcases ih' with h | h
          · left
            intro v hv
            rcases List.mem_cons.1 hv with rfl | hv
            · exact side.2 (h b (by simp))
            · exact h v hv
          · right
            intro v hv
            rcases List.mem_cons.1 hv with rfl | hv
            · by_contra hc
              exact absurd (side.1 (not_lt.1 hc)) (not_le.2 (h b (by simp)))
            · exact h v hv
    rcases key L hr hs hj with h | h
    · left
      congr 1
      apply List.map_congr_left
      intro v hv
      rw [wrapLon, if_pos (h v hv)]
    · right
      congr 1
      apply List.map_congr_left
      intro v hv
      rw [wrapLon, if_neg (not_le.2 (h v hv))]
  · have hout : out = cleanLon lon := if_neg hj
    rw [hout, hlon]
    have := C33_repair_is_continuous (L.map some) (by
        intro v hv
        obtain ⟨u, hu, he⟩ := List.mem_map.1 hv
        simp only [Option.some.injEq] at he
        rw [← he]; exact hr u hu) (by
        rintro i ⟨a, b, ha, hb, hab⟩
        rw [List.getElem?_map] at ha hb
        rcases h1 : L[i]? with _ | u <;> rw [h1] at ha <;> simp at ha
        rcases h2 : L[i + 1]? with _ | w <;> rw [h2] at hb <;> simp at hb
        subst ha hb
        exact absurd (hs i _ _ h1 h2) (not_le.2 hab))
    rcases this with h | h
    · left; exact h
    · right; rw [h]; simp

-- a track that crosses the date line twice
example : cleanLon ([179, 1795/10, 180, 1803/10, 1799/10].map (fun v => some (wrapLon v)))
    = .ok ([179, 1795/10, 180, 1803/10, 1799/10].map some) := by decide +kernel
-- a spike that is repaired, one jump that is not
example : cleanLon [some 10, some (-10), some 11] = .ok [some 10, some (21/2), some 11] := by decide +kernel
example : cleanLon [some 10, some 20] = .ok [some 10, some 20] := by decide +kernel
example : JumpAt (oneSided [some 10, some (-10), some 11]) 0 := ⟨10, 350, by decide +kernel, by decide +kernel, by norm_num⟩
example : oneSided [some 10, none, some (-10), some 11] = [some 10, none, some 350, some 11] := by decide +kernel

end Shipgrav
