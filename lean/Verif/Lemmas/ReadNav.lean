import Verif.Spec.ReadNav
import Verif.Model.ReadNav
import Verif.Lemmas.MapM
import Mathlib.Tactic.Linarith
import Mathlib.Tactic.NormNum

/-! Facts about the numpy primitives used by `read_nav`. -/

namespace Shipgrav
open Spec

/-! ### `np.unique` -/

private def UInv (done : List ℚ) (acc : List (ℚ × ℕ)) : Prop :=
  acc.Pairwise (fun a b => a.1 < b.1) ∧ ∀ v j, (v, j) ∈ acc ↔ done[j]? = some v ∧ ∀ k < j, done[k]? ≠ some v

private theorem insert_mem (v : ℚ) (i : ℕ) (acc : List (ℚ × ℕ)) (hs : acc.Pairwise (fun a b => a.1 < b.1)) :
    (uniqueInsert v i acc).Pairwise (fun a b => a.1 < b.1) ∧
      ∀ w j, (w, j) ∈ uniqueInsert v i acc ↔ (w, j) ∈ acc ∨ (w = v ∧ j = i ∧ ∀ j', (v, j') ∉ acc) := by
  induction acc with
  | nil => simp [uniqueInsert]
  | cons p t ih =>
    obtain ⟨x, m⟩ := p
    obtain ⟨h1, h2⟩ := List.pairwise_cons.1 hs
    obtain ⟨i1, i2⟩ := ih h2
    rw [uniqueInsert]
    split
    · rename_i hv
      have hno : ∀ j', (v, j') ∉ (x, m) :: t := by
        intro j' hj
        rcases List.mem_cons.1 hj with h | h
        · simp only [Prod.mk.injEq] at h; linarith [h.1]
        · have := h1 _ h; simp only at this; linarith
      refine ⟨?_, ?_⟩
      · rw [List.pairwise_cons]
        refine ⟨?_, hs⟩
        intro b hb
        rcases List.mem_cons.1 hb with rfl | hb
        · exact hv
        · exact lt_trans hv (h1 b hb)
      · intro w j
        rw [List.mem_cons]
        constructor
        · rintro (h | h)
          · right; simp only [Prod.mk.injEq] at h; exact ⟨h.1, h.2, hno⟩
          · left; exact h
        · rintro (h | ⟨rfl, rfl, _⟩)
          · right; exact h
          · left; rfl
    · rename_i hv
      split
      · rename_i he
        refine ⟨hs, ?_⟩
        intro w j
        constructor
        · intro h; left; exact h
        · rintro (h | ⟨_, _, h⟩)
          · exact h
          · exact absurd (by rw [he]; simp) (h m)
      · rename_i hne
        have hxv : x < v := lt_of_le_of_ne (not_lt.1 hv) (Ne.symm hne)
        refine ⟨?_, ?_⟩
        · rw [List.pairwise_cons]
          refine ⟨?_, i1⟩
          rintro ⟨w, j⟩ hb
          rcases (i2 w j).1 hb with h | ⟨rfl, _, _⟩
          · exact h1 _ h
          · exact hxv
        · intro w j
          rw [List.mem_cons, List.mem_cons, i2]
          constructor
          · rintro (h | h | ⟨a, b, c⟩)
            · left; left; exact h
            · left; right; exact h
            · right
              refine ⟨a, b, ?_⟩
              intro j' hj
              rcases List.mem_cons.1 hj with h | h
              · simp only [Prod.mk.injEq] at h; exact hne h.1
              · exact c j' h
          · rintro ((h | h) | ⟨a, b, c⟩)
            · left; exact h
            · right; left; exact h
            · right; right
              exact ⟨a, b, fun j' hj => c j' (List.mem_cons_of_mem _ hj)⟩

private theorem UInv.step (done : List ℚ) (acc : List (ℚ × ℕ)) (v : ℚ) (h : UInv done acc) :
    UInv (done ++ [v]) (uniqueInsert v done.length acc) := by
  obtain ⟨h1, h2⟩ := h
  obtain ⟨i1, i2⟩ := insert_mem v done.length acc h1
  refine ⟨i1, ?_⟩
  intro w j
  rw [i2, h2]
  constructor
  · rintro (⟨a, b⟩ | ⟨rfl, rfl, c⟩)
    · have hj : j < done.length := (List.getElem?_eq_some_iff.1 a).1
      refine ⟨by rw [List.getElem?_append_left hj]; exact a, ?_⟩
      intro k hk
      rw [List.getElem?_append_left (by omega)]
      exact b k hk
    · refine ⟨by simp, ?_⟩
      intro k hk
      rw [List.getElem?_append_left hk]
      induction k using Nat.strong_induction_on with
      | _ k ihk =>
        intro hd
        exact c k ((h2 w k).2 ⟨hd, fun k' hk' => ihk k' hk' (by omega)⟩)
  · rintro ⟨a, b⟩
    by_cases hj : j < done.length
    · left
      rw [List.getElem?_append_left hj] at a
      refine ⟨a, ?_⟩
      intro k hk
      have := b k hk
      rwa [List.getElem?_append_left (by omega)] at this
    · right
      have hlt := (List.getElem?_eq_some_iff.1 a).1
      simp only [List.length_append, List.length_singleton] at hlt
      have hje : j = done.length := by omega
      subst hje
      have hw : w = v := by simpa [eq_comm] using a
      subst hw
      refine ⟨rfl, rfl, ?_⟩
      intro j' hj'
      have h3 := ((h2 w j').1 hj').1
      have hlt' := (List.getElem?_eq_some_iff.1 h3).1
      have := b j' hlt'
      rw [List.getElem?_append_left hlt'] at this
      exact this h3

private theorem uniqueGo_inv (vs : List ℚ) : ∀ (done : List ℚ) (acc : List (ℚ × ℕ)), UInv done acc →
    UInv (done ++ vs) (uniqueGo done.length vs acc) := by
  induction vs with
  | nil => intro done acc h; simpa [uniqueGo] using h
  | cons v vs ih =>
    intro done acc h
    have := ih (done ++ [v]) _ (h.step done acc v)
    rw [uniqueGo]
    simpa using this

private theorem isFirst_iff {α : Type} (f : α → ℚ) (l : List α) (r : α) :
    IsFirst f l r ↔ ∃ j : ℕ, l[j]? = some r ∧ ∀ k < j, (l.map f)[k]? ≠ some (f r) := by
  constructor
  · rintro ⟨pre, post, rfl, h⟩
    refine ⟨pre.length, by simp, ?_⟩
    intro k hk
    rw [List.getElem?_map, List.getElem?_append_left hk, List.getElem?_eq_getElem hk]
    simp only [Option.map_some, ne_eq, Option.some.injEq]
    exact h _ (List.getElem_mem hk)
  · rintro ⟨j, hj, h⟩
    obtain ⟨hlt, he⟩ := List.getElem?_eq_some_iff.1 hj
    refine ⟨l.take j, l.drop (j + 1), ?_, ?_⟩
    · rw [← he, List.cons_getElem_drop_succ, List.take_append_drop]
    · intro x hx
      obtain ⟨k, hk, rfl⟩ := List.mem_iff_getElem.1 hx
      have hk' : k < j := by simp at hk; omega
      have := h k hk'
      rw [List.getElem?_map, List.getElem?_eq_getElem (by omega)] at this
      simp only [Option.map_some, ne_eq, Option.some.injEq] at this
      rwa [List.getElem_take]

/-- Selecting the `np.unique` indices of a key yields the track: sorted by key, first occurrence of each. -/
theorem takeIdx_unique {α : Type} (f : α → ℚ) (l : List α) :
    ∃ out, takeIdx l (uniqueIdx (l.map f)) = .ok out ∧ IsTrack f l out := by
  obtain ⟨h1, h2⟩ := uniqueGo_inv (l.map f) [] [] ⟨.nil, by simp⟩
  simp only [List.nil_append, List.length_nil] at h1 h2
  unfold takeIdx uniqueIdx
  generalize uniqueGo 0 (l.map f) [] = U at h1 h2
  have hget : ∀ p ∈ U, ∃ r, l[p.2]? = some r ∧ f r = p.1 ∧ IsFirst f l r := by
    rintro ⟨v, j⟩ hp
    obtain ⟨a, b⟩ := (h2 v j).1 hp
    rw [List.getElem?_map] at a
    rcases hr : l[j]? with _ | r
    · rw [hr] at a; cases a
    · rw [hr] at a
      simp only [Option.map_some, Option.some.injEq] at a
      exact ⟨r, rfl, a, (isFirst_iff f l r).2 ⟨j, hr, by rw [a]; exact b⟩⟩
  have hmem : ∀ r, IsFirst f l r → ∃ p ∈ U, l[p.2]? = some r := by
    intro r hr
    obtain ⟨j, hj, hk⟩ := (isFirst_iff f l r).1 hr
    refine ⟨(f r, j), (h2 _ _).2 ⟨by rw [List.getElem?_map, hj]; rfl, hk⟩, hj⟩
  have build : ∀ V : List (ℚ × ℕ), V.Pairwise (fun a b => a.1 < b.1) →
      (∀ p ∈ V, ∃ r, l[p.2]? = some r ∧ f r = p.1 ∧ IsFirst f l r) →
      ∃ out, (V.map Prod.snd).mapM (pyGet l) = .ok out ∧ out.Pairwise (fun a b => f a < f b) ∧
        ∀ r, r ∈ out ↔ ∃ p ∈ V, l[p.2]? = some r := by
    intro V
    induction V with
    | nil => intro _ _; exact ⟨[], rfl, .nil, by simp⟩
    | cons p V ih =>
      intro hp hg
      obtain ⟨hp1, hp2⟩ := List.pairwise_cons.1 hp
      obtain ⟨out, e1, e2, e3⟩ := ih hp2 (fun q hq => hg q (by simp [hq]))
      obtain ⟨r, hr, hfr, _⟩ := hg p (by simp)
      refine ⟨r :: out, ?_, ?_, ?_⟩
      · rw [List.map_cons, List.mapM_cons, e1]
        simp only [pyGet, hr]
        rfl
      · rw [List.pairwise_cons]
        refine ⟨?_, e2⟩
        intro x hx
        obtain ⟨q, hq, hqx⟩ := (e3 x).1 hx
        obtain ⟨x', hx', hfx, _⟩ := hg q (by simp [hq])
        rw [hqx] at hx'
        injection hx' with hx'
        rw [hfr, hx', hfx]
        exact hp1 q hq
      · intro x
        rw [List.mem_cons, e3]
        constructor
        · rintro (rfl | ⟨q, hq, h⟩)
          · exact ⟨p, by simp, hr⟩
          · exact ⟨q, by simp [hq], h⟩
        · rintro ⟨q, hq, h⟩
          rcases List.mem_cons.1 hq with rfl | hq
          · left; rw [hr] at h; injection h with h; exact h.symm
          · right; exact ⟨q, hq, h⟩
  obtain ⟨out, e1, e2, e3⟩ := build U h1 hget
  refine ⟨out, e1, e2, ?_⟩
  intro r
  rw [e3]
  constructor
  · rintro ⟨p, hp, h⟩
    obtain ⟨r', hr', _, hf⟩ := hget p hp
    rw [h] at hr'
    injection hr' with hr'
    rw [hr']; exact hf
  · exact hmem r

theorem takeIdx_map {α β : Type} (g : α → β) (l : List α) (idx : List ℕ) :
    takeIdx (l.map g) idx = (takeIdx l idx).map (List.map g) := by
  unfold takeIdx
  induction idx with
  | nil => rfl
  | cons i idx ih =>
    rw [List.mapM_cons, List.mapM_cons, ih]
    simp only [pyGet, List.getElem?_map]
    cases l[i]? with
    | none => rfl
    | some a => cases idx.mapM (fun i => pyGet l i) <;> rfl

/-! ### `np.interp` at its own knots -/

theorem interp1_knot (xp : List ℚ) (fp : List (Option ℚ)) (hs : xp.Pairwise (· < ·)) (j : ℕ) (x : ℚ)
    (hj : xp[j]? = some x) : interp1 xp fp x = (fp[j]?).join := by
  have key : ∀ (l : List ℚ) (j : ℕ), l.Pairwise (· < ·) → l[j]? = some x → (l.takeWhile (· ≤ x)).length = j + 1 := by
    intro l
    induction l with
    | nil => intro j _ h; simp at h
    | cons a l ih =>
      intro j hp h
      obtain ⟨h1, h2⟩ := List.pairwise_cons.1 hp
      cases j with
      | zero =>
        simp only [List.getElem?_cons_zero, Option.some.injEq] at h
        subst h
        have : l.takeWhile (· ≤ a) = [] := by
          cases l with
          | nil => rfl
          | cons b l =>
            have := h1 b (by simp)
            rw [List.takeWhile_cons, if_neg]
            simpa using this
        rw [List.takeWhile_cons]
        simp [this]
      | succ j =>
        rw [List.getElem?_cons_succ] at h
        have hax : a < x := h1 x (List.mem_of_getElem? h)
        rw [List.takeWhile_cons, if_pos (by simpa using hax.le), List.length_cons, ih j h2 h]
  have hidx : interpIndex xp x = some j := by
    unfold interpIndex
    rw [key xp j hs hj]
  unfold interp1
  rw [hidx]
  simp only [hj, if_true]
  split <;> rfl

/-! ### Slicing with a step -/

theorem strideGo_get {α : Type} (d : ℕ) (hd : 1 ≤ d) (l : List α) : ∀ (s i : ℕ), (strideGo d s l)[i]? = l[s + i * d]? := by
  induction l with
  | nil => intro s i; cases s <;> simp [strideGo]
  | cons a l ih =>
    intro s i
    cases s with
    | zero =>
      rw [strideGo]
      cases i with
      | zero => simp
      | succ i =>
        rw [List.getElem?_cons_succ, ih]
        have : 0 + (i + 1) * d = (d - 1 + i * d) + 1 := by rw [Nat.add_mul]; omega
        rw [this, List.getElem?_cons_succ]
    | succ s =>
      rw [strideGo, ih, show s + 1 + i * d = (s + i * d) + 1 by omega, List.getElem?_cons_succ]

theorem everyNth_stride {α : Type} (d : ℕ) (hd : 1 ≤ d) (l : List α) : EveryNth d l (stride (d : ℤ) l) := by
  intro i
  unfold stride
  rw [if_pos (by exact_mod_cast hd), Int.toNat_natCast, strideGo_get d hd l 0 i, Nat.zero_add]

theorem EveryNth.unique {α : Type} {d : ℕ} {l k k' : List α} (h : EveryNth d l k) (h' : EveryNth d l k') : k = k' :=
  List.ext_getElem? (fun i => by rw [h i, h' i])

theorem EveryNth.length {α : Type} {d : ℕ} (hd : 1 ≤ d) {l k : List α} (h : EveryNth d l k) :
    k.length = (l.length + d - 1) / d := by
  have hiff : ∀ i, i < k.length ↔ i * d < l.length := by
    intro i
    have := h i
    constructor
    · intro hi
      rw [List.getElem?_eq_getElem hi] at this
      exact (List.getElem?_eq_some_iff.1 this.symm).1
    · intro hi
      rw [List.getElem?_eq_getElem hi] at this
      exact (List.getElem?_eq_some_iff.1 this).1
  have hiff2 : ∀ i, i * d < l.length ↔ i < (l.length + d - 1) / d := by
    intro i
    rw [Nat.lt_iff_add_one_le, Nat.lt_iff_add_one_le, Nat.le_div_iff_mul_le hd, Nat.add_mul]
    omega
  apply le_antisymm
  · by_contra hc
    exact absurd ((hiff2 _).1 ((hiff _).1 (not_le.1 hc))) (lt_irrefl _)
  · by_contra hc
    exact absurd ((hiff _).2 ((hiff2 _).2 (not_le.1 hc))) (lt_irrefl _)

/-! ### One file -/

/-- A fix as read from a file: instant in microseconds, longitude, latitude. -/
abbrev Fix := ℤ × Coord

def Fix.row (x : Fix) : Row := ⟨timestamp x.1, x.2.1, x.2.2⟩

theorem timestamp_lt (a b : ℤ) : timestamp a < timestamp b ↔ a < b := by
  unfold timestamp
  rw [div_lt_div_iff_of_pos_right (by norm_num)]
  exact Int.cast_lt

theorem timestamp_inj (a b : ℤ) : timestamp a = timestamp b ↔ a = b := by
  constructor
  · intro h
    rcases lt_trichotomy a b with h1 | h1 | h1
    · have := (timestamp_lt a b).2 h1; rw [h] at this; exact absurd this (lt_irrefl _)
    · exact h1
    · have := (timestamp_lt b a).2 h1; rw [h] at this; exact absurd this (lt_irrefl _)
  · rintro rfl; rfl

theorem isFirst_timestamp (l : List Fix) (r : Fix) :
    IsFirst (fun x : Fix => timestamp x.1) l r ↔ IsFirst Prod.fst l r := by
  unfold IsFirst
  simp only [ne_eq, timestamp_inj]

theorem isTrack_timestamp (l out : List Fix) :
    IsTrack (fun x : Fix => timestamp x.1) l out ↔ IsTrack Prod.fst l out := by
  unfold IsTrack
  simp only [timestamp_lt, isFirst_timestamp]

theorem secTimes_some (fx : List Fix) : secTimes (fx.map (fun x => some x.1)) = .ok (fx.map (fun x => timestamp x.1)) := by
  unfold secTimes
  rw [mapM_ok_iff]
  induction fx with
  | nil => exact .nil
  | cons a l ih => exact .cons rfl ih

theorem secTimes_none (ts : List (Option ℤ)) (h : none ∈ ts) : secTimes ts = .error .attributeError := by
  unfold secTimes
  induction ts with
  | nil => simp at h
  | cons a l ih =>
    rw [List.mapM_cons]
    cases a with
    | none => rfl
    | some t =>
      have h' : none ∈ l := by simpa using h
      rw [ih h']
      rfl

theorem isTrack_exists_of_mem {κ α : Type} [DecidableEq κ] (f : α → κ) (l : List α) (a : α) (ha : a ∈ l) :
    ∃ r, IsFirst f l r ∧ f r = f a := by
  induction l with
  | nil => simp at ha
  | cons b l ih =>
    by_cases h : f b = f a
    · exact ⟨b, ⟨[], l, rfl, by simp⟩, h⟩
    · rcases List.mem_cons.1 ha with rfl | ha
      · exact absurd rfl h
      · obtain ⟨r, ⟨pre, post, he, hp⟩, hr⟩ := ih ha
        refine ⟨r, ⟨b :: pre, post, by rw [he]; rfl, ?_⟩, hr⟩
        intro x hx
        rcases List.mem_cons.1 hx with rfl | hx
        · rw [hr]; exact h
        · exact hp x hx

theorem fileRows_ok (sampling : ℚ) (d : ℤ) (fx : List Fix) (hne : fx ≠ []) (hs : sampling ≠ 0) :
    ∃ l : List Fix, FirstOfTime Prod.fst fx l ∧
      fileRows sampling d (fx.map Prod.snd) (fx.map (fun x => some x.1))
        = .ok (if d = 0 then l.map Fix.row else stride d (l.map Fix.row)) := by
  obtain ⟨U, hU, hT⟩ := takeIdx_unique (fun x : Fix => timestamp x.1) fx
  obtain ⟨hT1, hT2⟩ := hT
  have hx : takeIdx (fx.map (fun x => timestamp x.1)) (uniqueIdx (fx.map (fun x : Fix => timestamp x.1)))
      = .ok (U.map (fun x => timestamp x.1)) := by rw [takeIdx_map, hU]; rfl
  have hlo : takeIdx ((fx.map Prod.snd).map Prod.fst) (uniqueIdx (fx.map (fun x : Fix => timestamp x.1)))
      = .ok (U.map (fun x => x.2.1)) := by rw [List.map_map, takeIdx_map, hU]; rfl
  have hla : takeIdx ((fx.map Prod.snd).map Prod.snd) (uniqueIdx (fx.map (fun x : Fix => timestamp x.1)))
      = .ok (U.map (fun x => x.2.2)) := by rw [List.map_map, takeIdx_map, hU]; rfl
  have hknot : ∀ a ∈ fx, ∃ r : Fix, (r.1 = a.1 ∧ IsFirst Prod.fst fx r) ∧
      Row.mk (timestamp a.1) (interp1 (U.map (fun x => timestamp x.1)) (U.map (fun x => x.2.1)) (timestamp a.1))
        (interp1 (U.map (fun x => timestamp x.1)) (U.map (fun x => x.2.2)) (timestamp a.1)) = r.row := by
    intro a ha
    obtain ⟨r, hr, hra⟩ := isTrack_exists_of_mem Prod.fst fx a ha
    have hrU := (hT2 r).2 ((isFirst_timestamp fx r).2 hr)
    obtain ⟨j, hj⟩ := List.mem_iff_getElem?.1 hrU
    refine ⟨r, ⟨hra, hr⟩, ?_⟩
    have hk : (U.map (fun x : Fix => timestamp x.1))[j]? = some (timestamp a.1) := by
      rw [List.getElem?_map, hj, ← hra]; rfl
    have hsort : (U.map (fun x : Fix => timestamp x.1)).Pairwise (· < ·) := List.pairwise_map.2 hT1
    rw [interp1_knot _ _ hsort j _ hk, interp1_knot _ _ hsort j _ hk, List.getElem?_map, List.getElem?_map, hj]
    unfold Fix.row
    rw [hra]
    rfl
  have hl : ∃ l : List Fix, FirstOfTime Prod.fst fx l ∧ fx.map (fun a => Row.mk (timestamp a.1)
      (interp1 (U.map (fun x => timestamp x.1)) (U.map (fun x => x.2.1)) (timestamp a.1))
        (interp1 (U.map (fun x => timestamp x.1)) (U.map (fun x => x.2.2)) (timestamp a.1))) = l.map Fix.row := by
    have gen : ∀ fx' : List Fix, (∀ a ∈ fx', a ∈ fx) → ∃ l : List Fix,
        List.Forall₂ (fun a b => b.1 = a.1 ∧ IsFirst Prod.fst fx b) fx' l ∧ fx'.map (fun a => Row.mk (timestamp a.1)
      (interp1 (U.map (fun x => timestamp x.1)) (U.map (fun x => x.2.1)) (timestamp a.1))
        (interp1 (U.map (fun x => timestamp x.1)) (U.map (fun x => x.2.2)) (timestamp a.1))) = l.map Fix.row := by
      intro fx'
      induction fx' with
      | nil => intro _; exact ⟨[], .nil, rfl⟩
      | cons a t ih =>
        intro h
        obtain ⟨l, h1, h2⟩ := ih (fun b hb => h b (by simp [hb]))
        obtain ⟨r, h3, h4⟩ := hknot a (h a (by simp))
        exact ⟨r :: l, .cons h3 h1, by rw [List.map_cons, List.map_cons, h2, h4]⟩
    exact gen fx (fun _ h => h)
  obtain ⟨l, hl1, hl2⟩ := hl
  refine ⟨l, hl1, ?_⟩
  have hne' : fx.map (fun x : Fix => timestamp x.1) ≠ [] := by simpa using hne
  unfold fileRows
  rw [secTimes_some]
  simp only [bind, Except.bind, pure, Except.pure, if_neg hne', if_neg hs]
  rw [hx, hlo, hla]
  simp only
  rw [List.map_map]
  have e : (fx.map ((fun x => Row.mk x (interp1 (U.map (fun x => timestamp x.1)) (U.map (fun x => x.2.1)) x)
      (interp1 (U.map (fun x => timestamp x.1)) (U.map (fun x => x.2.2)) x)) ∘ (fun x : Fix => timestamp x.1)))
        = l.map Fix.row := hl2
  rw [e]

theorem stride_map {α β : Type} (d : ℕ) (hd : 1 ≤ d) (g : α → β) (l : List α) :
    stride (d : ℤ) (l.map g) = (stride (d : ℤ) l).map g := by
  apply List.ext_getElem?
  intro i
  rw [everyNth_stride d hd, List.getElem?_map, List.getElem?_map, everyNth_stride d hd]

end Shipgrav
