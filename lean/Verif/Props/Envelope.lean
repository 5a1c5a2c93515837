import Verif.Model.Envelope
import Verif.Spec.Nav
import Mathlib.Tactic.Linarith
import Mathlib.Tactic.FieldSimp
import Mathlib.Tactic.Ring
import Mathlib.Tactic.NormNum
import Mathlib.Order.Monotone.Basic

/-! C114: the series of a motion sensor that is compared with the monitors of the gravimeter. -/

namespace Shipgrav
open Spec

/-- `M` is the largest of the thousand values up to sample `i`, all of which exist. -/
def Spec.WindowMax (f : ℕ → Option ℚ) (i : ℕ) (M : ℚ) : Prop :=
  999 ≤ i ∧ (∃ k, k ≤ i ∧ i ≤ k + 999 ∧ f k = some M) ∧ ∀ k, k ≤ i → i ≤ k + 999 → ∃ v, f k = some v ∧ v ≤ M

private theorem samples_get {α : Type} (f : ℕ → α) (n k : ℕ) (hk : k < n) : (samples f n)[k]? = some (f k) := by
  unfold samples
  rw [List.getElem?_map, List.getElem?_range hk]
  rfl

private theorem window_mem (f : ℕ → Option ℚ) (n i : ℕ) (hi : i < n) (h9 : 999 ≤ i) (x : Option ℚ) :
    x ∈ ((samples f n).take (i + 1)).drop (i + 1 - 1000) ↔ ∃ k, k ≤ i ∧ i ≤ k + 999 ∧ f k = x := by
  constructor
  · intro hx
    obtain ⟨j, hj⟩ := List.mem_iff_getElem?.1 hx
    rw [List.getElem?_drop, List.getElem?_take] at hj
    split at hj
    · rename_i hlt
      rw [samples_get f n _ (by omega)] at hj
      refine ⟨i + 1 - 1000 + j, ?_, ?_, Option.some.inj hj⟩ <;> omega
    · cases hj
  · rintro ⟨k, h1, h2, rfl⟩
    rw [List.mem_iff_getElem?]
    refine ⟨k - (i + 1 - 1000), ?_⟩
    rw [List.getElem?_drop, List.getElem?_take, if_pos (by omega), show i + 1 - 1000 + (k - (i + 1 - 1000)) = k by omega]
    exact samples_get f n k (by omega)

private theorem rolling_get (f : ℕ → Option ℚ) (n i : ℕ) (hi : i < n) (r : Option ℚ) (hr : (rollingMax 1000 (samples f n)).getD i none = r) :
    (∀ M, r = some M ↔ WindowMax f i M) ∧ (r = none ↔ i < 999 ∨ ∃ k, k ≤ i ∧ i ≤ k + 999 ∧ f k = none) := by
  have hl : (samples f n).length = n := by simp [samples]
  have hget : (rollingMax 1000 (samples f n)).getD i none = if i + 1 < 1000 then none else
      if (((samples f n).take (i + 1)).drop (i + 1 - 1000)).any Option.isNone then none
      else ((((samples f n).take (i + 1)).drop (i + 1 - 1000)).filterMap id).max? := by
    unfold rollingMax
    rw [List.getD_eq_getElem?_getD, List.getElem?_map, hl, List.getElem?_range hi]
    rfl
  rw [hget] at hr
  by_cases h9 : i + 1 < 1000
  · rw [if_pos h9] at hr
    subst hr
    refine ⟨fun M => ⟨fun h => (by cases h), fun h => absurd h.1 (by omega)⟩, fun _ => Or.inl (by omega), fun _ => rfl⟩
  · rw [if_neg h9] at hr
    have h9' : 999 ≤ i := by omega
    have hw := window_mem f n i hi h9'
    generalize ((samples f n).take (i + 1)).drop (i + 1 - 1000) = W at hw hr
    by_cases hn : W.any Option.isNone = true
    · rw [if_pos hn] at hr
      subst hr
      obtain ⟨x, hx, hx'⟩ := List.any_eq_true.1 hn
      obtain ⟨k, h1, h2, h3⟩ := (hw x).1 hx
      have hxn : f k = none := by rw [h3]; simpa using hx'
      refine ⟨fun M => ⟨fun h => (by cases h), fun h => ?_⟩, fun _ => Or.inr ⟨k, h1, h2, hxn⟩, fun _ => rfl⟩
      obtain ⟨v, hv, -⟩ := h.2.2 k h1 h2
      rw [hxn] at hv
      cases hv
    · rw [if_neg hn] at hr
      have hall : ∀ k, k ≤ i → i ≤ k + 999 → f k ≠ none := by
        intro k h1 h2 h3
        exact hn (List.any_eq_true.2 ⟨none, (hw none).2 ⟨k, h1, h2, h3⟩, rfl⟩)
      have hmem : ∀ v, v ∈ W.filterMap id ↔ ∃ k, k ≤ i ∧ i ≤ k + 999 ∧ f k = some v := by
        intro v
        rw [List.mem_filterMap, ← hw]
        simp
      constructor
      · intro M
        rw [← hr, List.max?_eq_some_iff]
        constructor
        · rintro ⟨h1, h2⟩
          refine ⟨h9', (hmem M).1 h1, ?_⟩
          intro k hk1 hk2
          obtain ⟨v, hv⟩ := Option.ne_none_iff_exists'.1 (hall k hk1 hk2)
          exact ⟨v, hv, h2 v ((hmem v).2 ⟨k, hk1, hk2, hv⟩)⟩
        · rintro ⟨-, h1, h2⟩
          refine ⟨(hmem M).2 h1, ?_⟩
          intro b hb
          obtain ⟨k, hk1, hk2, hk⟩ := (hmem b).1 hb
          obtain ⟨v, hv, hle⟩ := h2 k hk1 hk2
          rw [hk, Option.some.injEq] at hv
          rw [hv]; exact hle
      · constructor
        · intro h
          rw [h, List.max?_eq_none_iff] at hr
          obtain ⟨v, hv⟩ := Option.ne_none_iff_exists'.1 (hall i le_rfl (by omega))
          have := (hmem v).2 ⟨i, le_rfl, by omega, hv⟩
          rw [hr] at this
          cases this
        · rintro (h | ⟨k, h1, h2, h3⟩)
          · omega
          · exact absurd h3 (hall k h1 h2)

private theorem count_le (T : ℕ → ℚ) (n c : ℕ) (t : ℚ) (hc : c ≤ n) (h1 : ∀ k, k < c → T k ≤ t) (h2 : ∀ k, c ≤ k → k < n → t < T k) :
    (samples T n).countP (· ≤ t) = c := by
  unfold samples
  rw [List.countP_map]
  obtain ⟨m, rfl⟩ : ∃ m, n = c + m := ⟨n - c, by omega⟩
  rw [List.range_add, List.countP_append, List.countP_map]
  have e1 : (List.range c).countP ((fun x => decide (x ≤ t)) ∘ T) = c := by
    have := (List.countP_eq_length (p := (fun x => decide (x ≤ t)) ∘ T) (l := List.range c)).2 ?_
    · rwa [List.length_range] at this
    intro k hk
    have := h1 k (by simpa using hk)
    simpa using this
  have e2 : (List.range m).countP (((fun x => decide (x ≤ t)) ∘ T) ∘ fun x => c + x) = 0 := by
    rw [List.countP_eq_zero]
    intro k hk
    have := h2 (c + k) (by omega) (by have : k < m := by simpa using hk
                                      omega)
    simpa using this
  rw [e1, e2]
  rfl

/-- Where `t` is among the times. -/
private theorem locate (T : ℕ → ℚ) (hT : StrictMono T) (n : ℕ) (hn : 0 < n) (t : ℚ) :
    t < T 0 ∨ (∃ j, j + 1 < n ∧ T j ≤ t ∧ t < T (j + 1)) ∨ T (n - 1) ≤ t := by
  by_cases h0 : t < T 0
  · exact Or.inl h0
  by_cases h1 : T (n - 1) ≤ t
  · exact Or.inr (Or.inr h1)
  right; left
  have hex : ∃ k, t < T k := ⟨n - 1, lt_of_not_ge h1⟩
  classical
  have hs := Nat.find_spec hex
  have hm := fun k (hk : k < Nat.find hex) => Nat.find_min hex hk
  have hle := Nat.find_min' hex (lt_of_not_ge h1)
  obtain ⟨j, hj⟩ : ∃ j, Nat.find hex = j + 1 := by
    cases hf : Nat.find hex with
    | zero => rw [hf] at hs; exact absurd hs h0
    | succ j => exact ⟨j, rfl⟩
  rw [hj] at hs hm hle
  exact ⟨j, by omega, le_of_not_gt (hm j (by omega)), hs⟩

private theorem interp_between (T : ℕ → ℚ) (hT : StrictMono T) (n : ℕ) (fp : List (Option ℚ)) (j : ℕ) (hj : j + 1 < n) (t : ℚ) (h1 : T j ≤ t)
    (h2 : t < T (j + 1)) :
    npInterp (samples T n) fp t = if T j = t then fp.getD j none else match fp.getD j none, fp.getD (j + 1) none with
      | some a, some b => some ((b - a) / (T (j + 1) - T j) * (t - T j) + a)
      | _, _ => none := by
  have hc : (samples T n).countP (· ≤ t) = j + 1 := by
    apply count_le T n (j + 1) t (by omega)
    · intro k hk; exact le_trans (hT.monotone (by omega)) h1
    · intro k hk _; exact lt_of_lt_of_le h2 (hT.monotone hk)
  have hg : ∀ k, k < n → (samples T n).getD k 0 = T k := by
    intro k hk
    rw [List.getD_eq_getElem?_getD, samples_get T n k hk]
    rfl
  unfold npInterp
  simp only [hc]
  rw [if_neg (by omega), if_neg (by simp [samples]; omega), Nat.add_sub_cancel, hg j (by omega), hg (j + 1) hj]
  rfl

private theorem interp_left (T : ℕ → ℚ) (hT : StrictMono T) (n : ℕ) (fp : List (Option ℚ)) (t : ℚ) (h : t < T 0) :
    npInterp (samples T n) fp t = fp.getD 0 none := by
  have hc : (samples T n).countP (· ≤ t) = 0 := by
    apply count_le T n 0 t (by omega)
    · intro k hk; omega
    · intro k _ _; exact lt_of_lt_of_le h (hT.monotone (by omega))
  unfold npInterp
  simp only [hc, if_true]

private theorem interp_right (T : ℕ → ℚ) (hT : StrictMono T) (n : ℕ) (hn : 0 < n) (fp : List (Option ℚ)) (t : ℚ) (h : T (n - 1) ≤ t) :
    npInterp (samples T n) fp t = fp.getD (n - 1) none := by
  have hc : (samples T n).countP (· ≤ t) = n := by
    apply count_le T n n t le_rfl
    · intro k hk; exact le_trans (hT.monotone (by omega)) h
    · intro k _ _; omega
  unfold npInterp
  simp only [hc]
  rw [if_neg (by omega), if_pos (by simp [samples])]
  simp [samples]

private theorem mru_get (tsec mruT : List ℚ) (motion : List (Option ℚ)) (i : ℕ) (t : ℚ) (ht : tsec[i]? = some t) :
    (mruInterp tsec mruT motion)[i]? = some ((npInterp mruT (rollingMax 1000 motion) t).getD 0) := by
  unfold mruInterp
  rw [List.getElem?_map, ht]
  rfl

/-- C114.  At a time between two samples of the sensor whose last thousand values are all there, the result is on the straight line between the
largest of the last thousand values at the one sample and at the other one. -/
theorem C114_between (T : ℕ → ℚ) (hT : StrictMono T) (f : ℕ → Option ℚ) (n : ℕ) (tsec : List ℚ) (i : ℕ) (t : ℚ) (ht : tsec[i]? = some t)
    (j : ℕ) (hj : j + 1 < n) (h1 : T j ≤ t) (h2 : t < T (j + 1)) (a b : ℚ) (ha : WindowMax f j a) (hb : WindowMax f (j + 1) b) :
    (mruInterp tsec (samples T n) (samples f n))[i]? = some (a + (b - a) * ((t - T j) / (T (j + 1) - T j))) := by
  have e1 := ((rolling_get f n j (by omega) _ rfl).1 a).2 ha
  have e2 := ((rolling_get f n (j + 1) hj _ rfl).1 b).2 hb
  rw [mru_get _ _ _ i t ht, interp_between T hT n _ j hj t h1 h2, e1, e2]
  by_cases h : T j = t
  · rw [if_pos h, h, sub_self, zero_div, mul_zero, add_zero]
    rfl
  · rw [if_neg h]
    simp only [Option.getD_some, Option.some.injEq]
    ring

/-- C114.  From the last sample on the result is the largest of the last thousand values. -/
theorem C114_after (T : ℕ → ℚ) (hT : StrictMono T) (f : ℕ → Option ℚ) (n : ℕ) (hn : 0 < n) (tsec : List ℚ) (i : ℕ) (t : ℚ) (ht : tsec[i]? = some t)
    (h : T (n - 1) ≤ t) (a : ℚ) (ha : WindowMax f (n - 1) a) :
    (mruInterp tsec (samples T n) (samples f n))[i]? = some a := by
  have e1 := ((rolling_get f n (n - 1) (by omega) _ rfl).1 a).2 ha
  rw [mru_get _ _ _ i t ht, interp_right T hT n hn _ t h, e1]
  rfl

/-- C114.  Before the thousandth sample, and for ever if there are fewer, the result is 0, whatever the sensor says. -/
theorem C114_start (T : ℕ → ℚ) (hT : StrictMono T) (f : ℕ → Option ℚ) (n : ℕ) (hn : 0 < n) (tsec : List ℚ) (i : ℕ) (t : ℚ) (ht : tsec[i]? = some t)
    (h : n < 1000 ∨ t < T 999) : (mruInterp tsec (samples T n) (samples f n))[i]? = some 0 := by
  rw [mru_get _ _ _ i t ht]
  have hnone : ∀ k, k < 999 → (rollingMax 1000 (samples f n)).getD k none = none := by
    intro k hk
    by_cases hkn : k < n
    · exact (rolling_get f n k hkn _ rfl).2.2 (Or.inl hk)
    · rw [List.getD_eq_getElem?_getD, List.getElem?_eq_none (by simp [rollingMax, samples]; omega)]
      rfl
  rcases locate T hT n hn t with h' | ⟨j, hj, h1, h2⟩ | h'
  · rw [interp_left T hT n _ t h', hnone 0 (by norm_num)]
    rfl
  · have hj9 : j < 999 := by
      rcases h with h | h
      · omega
      · exact hT.lt_iff_lt.1 (lt_of_le_of_lt h1 h)
    rw [interp_between T hT n _ j hj t h1 h2, hnone j hj9]
    split <;> rfl
  · have : n - 1 < 999 := by
      rcases h with h | h
      · omega
      · exact hT.lt_iff_lt.1 (lt_of_le_of_lt h' h)
    rw [interp_right T hT n hn _ t h', hnone _ this]
    rfl

/-- C114.  One missing value of the sensor makes the result 0 for as long as it is among the last thousand. -/
theorem C114_gap (T : ℕ → ℚ) (hT : StrictMono T) (f : ℕ → Option ℚ) (n : ℕ) (tsec : List ℚ) (i : ℕ) (t : ℚ) (ht : tsec[i]? = some t)
    (k : ℕ) (hk : k < n) (hgap : f k = none) (h1 : T k ≤ t) (h2 : t ≤ T (k + 999)) :
    (mruInterp tsec (samples T n) (samples f n))[i]? = some 0 := by
  rw [mru_get _ _ _ i t ht]
  have hnone : ∀ m, k ≤ m → m ≤ k + 999 → m < n → (rollingMax 1000 (samples f n)).getD m none = none := by
    intro m hm1 hm2 hm3
    exact (rolling_get f n m hm3 _ rfl).2.2 (Or.inr ⟨k, hm1, by omega, hgap⟩)
  rcases locate T hT n (by omega) t with h' | ⟨j, hj, h3, h4⟩ | h'
  · exact absurd (lt_of_le_of_lt h1 h') (not_lt.2 (hT.monotone (Nat.zero_le k)))
  · have hkj : k ≤ j := by
      by_contra hlt
      exact absurd (lt_of_lt_of_le h4 (hT.monotone (by omega : j + 1 ≤ k))) (not_lt.2 h1)
    have hj9 : j ≤ k + 999 := hT.le_iff_le.1 (le_trans h3 h2)
    rw [interp_between T hT n _ j hj t h3 h4, hnone j hkj hj9 (by omega)]
    split <;> rfl
  · by_cases h9 : n - 1 ≤ k + 999
    · rw [interp_right T hT n (by omega) _ t h', hnone _ (by omega) h9 (by omega)]
      rfl
    · exact absurd (le_trans h' h2) (not_le.2 (hT (by omega)))

private theorem windowMax_exists (f : ℕ → Option ℚ) (i : ℕ) (h9 : 999 ≤ i) (h : ∀ k, k ≤ i → f k ≠ none) : ∃ M, WindowMax f i M := by
  obtain ⟨r, hr⟩ : ∃ r, (rollingMax 1000 (samples f (i + 1))).getD i none = r := ⟨_, rfl⟩
  obtain ⟨h1, h2⟩ := rolling_get f (i + 1) i (by omega) r hr
  cases r with
  | some M => exact ⟨M, (h1 M).1 rfl⟩
  | none =>
    rcases h2.1 rfl with h' | ⟨k, hk, -, hf⟩
    · omega
    · exact absurd hf (h k hk)

/-- C114.  From the thousandth sample on the result stays within the range of the values of the sensor (if none is missing). -/
theorem C114_range (T : ℕ → ℚ) (hT : StrictMono T) (f : ℕ → ℚ) (n : ℕ) (hn : 1000 ≤ n) (lo hi : ℚ) (hf : ∀ k < n, lo ≤ f k ∧ f k ≤ hi)
    (tsec : List ℚ) (i : ℕ) (t : ℚ) (ht : tsec[i]? = some t) (h : T 999 ≤ t) :
    ∃ v, (mruInterp tsec (samples T n) (samples (fun k => some (f k)) n))[i]? = some v ∧ lo ≤ v ∧ v ≤ hi := by
  have hM : ∀ j M, j < n → WindowMax (fun k => some (f k)) j M → lo ≤ M ∧ M ≤ hi := by
    rintro j M hj ⟨-, ⟨k, hk, -, e⟩, -⟩
    rw [Option.some.injEq] at e
    rw [← e]
    exact hf k (by omega)
  rcases locate T hT n (by omega) t with h' | ⟨j, hj, h1, h2⟩ | h'
  · exact absurd (lt_of_le_of_lt h h') (not_lt.2 (hT.monotone (by omega)))
  · have hj9 : 999 ≤ j := by
      by_contra hlt
      exact absurd (lt_of_lt_of_le h2 (hT.monotone (by omega : j + 1 ≤ 999))) (not_lt.2 h)
    obtain ⟨a, ha⟩ := windowMax_exists (fun k => some (f k)) j hj9 (by simp)
    obtain ⟨b, hb⟩ := windowMax_exists (fun k => some (f k)) (j + 1) (by omega) (by simp)
    refine ⟨_, C114_between T hT _ n tsec i t ht j hj h1 h2 a b ha hb, ?_⟩
    obtain ⟨a1, a2⟩ := hM j a (by omega) ha
    obtain ⟨b1, b2⟩ := hM (j + 1) b hj hb
    have hd : 0 < T (j + 1) - T j := sub_pos.2 (hT (by omega))
    have r0 : 0 ≤ (t - T j) / (T (j + 1) - T j) := div_nonneg (sub_nonneg.2 h1) hd.le
    have r1 : (t - T j) / (T (j + 1) - T j) ≤ 1 := by rw [div_le_one hd]; linarith
    generalize (t - T j) / (T (j + 1) - T j) = r at r0 r1
    constructor <;> nlinarith
  · obtain ⟨a, ha⟩ := windowMax_exists (fun k => some (f k)) (n - 1) (by omega) (by simp)
    exact ⟨a, C114_after T hT _ n (by omega) tsec i t ht h' a ha, hM _ a (by omega) ha⟩

/-! ### The hypotheses can be met -/

private theorem exMono : StrictMono fun k : ℕ => (k : ℚ) := fun a b h => by simpa using h

private theorem exMax (i : ℕ) (h : 999 ≤ i) : WindowMax (fun k => some (k : ℚ)) i i :=
  ⟨h, ⟨i, le_rfl, by omega, rfl⟩, fun k hk _ => ⟨k, rfl, by simpa using hk⟩⟩

example : (mruInterp [1000 + 1 / 2] (samples (fun k : ℕ => (k : ℚ)) 2000) (samples (fun k => some (k : ℚ)) 2000))[0]? = some (1000 + 1 / 2) := by
  rw [C114_between _ exMono _ 2000 [1000 + 1 / 2] 0 _ rfl 1000 (by norm_num) (by norm_num) (by norm_num) _ _ (exMax 1000 (by norm_num))
    (exMax 1001 (by norm_num))]
  norm_num

example := C114_gap _ exMono (fun k => if k = 1500 then none else some (k : ℚ)) 3000 [1600] 0 1600 rfl 1500 (by norm_num) (by simp) (by norm_num)
  (by norm_num)

end Shipgrav
