import Verif.Py.Pandas
import Verif.Spec.Bgm
import Verif.Props.Calendar
import Verif.Lemmas.Fmt
import Verif.Lemmas.Str
import Verif.Lemmas.MapM
import Mathlib.Data.List.Induction

/-! Lemmas about the pandas primitives. -/

namespace Shipgrav
open Spec

theorem optMapM_some_iff {α β : Type} (f : α → Option β) (l : List α) (out : List β) :
    l.mapM f = some out ↔ List.Forall₂ (fun a b => f a = some b) l out := by
  induction l generalizing out with
  | nil =>
    constructor
    · intro h; cases h; exact .nil
    · intro h; cases h; rfl
  | cons a l ih =>
    rw [List.mapM_cons]
    cases ha : f a with
    | none =>
      constructor
      · intro h; cases h
      · intro h; cases h with | cons h1 _ => rw [ha] at h1; cases h1
    | some b =>
      cases hl : l.mapM f with
      | none =>
        constructor
        · intro h; cases h
        · intro h; cases h with | cons h1 h2 => rw [(ih _).2 h2] at hl; cases hl
      | some bs =>
        constructor
        · intro h
          have : out = b :: bs := by cases h; rfl
          rw [this]
          exact .cons ha ((ih _).1 hl)
        · intro h
          cases h with
          | cons h1 h2 =>
            rw [ha] at h1
            injection h1 with h1
            rw [(ih _).2 h2] at hl
            injection hl with hl
            rw [h1, hl]; rfl

theorem optMapM_map {α β γ : Type} (g : γ → α) (f : α → Option β) (v : γ → β) (l : List γ) (h : ∀ a ∈ l, f (g a) = some (v a)) :
    (l.map g).mapM f = some (l.map v) := by
  rw [optMapM_some_iff]
  induction l with
  | nil => exact .nil
  | cons a l ih => exact .cons (h a (by simp)) (ih (fun b hb => h b (by simp [hb])))

theorem mapM_map_ok {α β γ : Type} (g : γ → α) (f : α → Except PyErr β) (v : γ → β) (l : List γ)
    (h : ∀ a ∈ l, f (g a) = .ok (v a)) : (l.map g).mapM f = .ok (l.map v) := by
  rw [mapM_ok_iff]
  induction l with
  | nil => exact .nil
  | cons a l ih => exact .cons (h a (by simp)) (ih (fun b hb => h b (by simp [hb])))

theorem fixedNat_zpad (w n : ℕ) (h : n < 10 ^ w) : fixedNat w (zpad w n) = some n := by
  unfold fixedNat
  rw [if_pos ⟨zpad_length _ _, by rw [List.all_eq_true]; exact zpad_digits w n⟩, runVal_zpad_lt w n h]

theorem zpad_no (c : Char) (hc : isDigit c = false) (k n : ℕ) : c ∉ zpad k n := digits_notMem (zpad_digits k n) hc

theorem clockFields_stamp (h mi s k f : ℕ) (hh : h < 24) (hmi : mi < 60) (hs : s < 60) (hk : 1 ≤ k ∧ k ≤ 6) (hf : f < 10 ^ k) :
    clockFields (clockStamp h mi s k f) = some (h, mi, s, f * 10 ^ (6 - k)) := by
  unfold clockFields clockStamp
  rw [splitC_append _ _ _ (zpad_no ':' (by decide) _ _), splitC_append _ _ _ (zpad_no ':' (by decide) _ _), splitC_notMem]
  · simp only
    rw [splitC_append _ _ _ (zpad_no '.' (by decide) _ _), splitC_notMem _ _ (zpad_no '.' (by decide) _ _)]
    simp only [zpad_length]
    rw [if_pos ⟨hk.1, hk.2, by rw [List.all_eq_true]; exact zpad_digits k f⟩, fixedNat_zpad 2 h (by norm_num; omega),
      fixedNat_zpad 2 mi (by norm_num; omega), fixedNat_zpad 2 s (by norm_num; omega), runVal_zpad_lt k f hf]
    rfl
  · simp [zpad_no ':' (by decide)]

theorem stampOf_ok (x : Sample) (hx : x.Valid) :
    stampOf (some x.y) (some x.m) (some x.d) (clockStamp x.h x.mi x.s x.k x.f) = some x.instant := by
  have hus : x.f * 10 ^ (6 - x.k) < 1000000 := by
    calc x.f * 10 ^ (6 - x.k) < 10 ^ x.k * 10 ^ (6 - x.k) := Nat.mul_lt_mul_of_pos_right hx.fraction (by positivity)
      _ = 1000000 := by rw [← pow_add, Nat.add_sub_cancel' hx.decimals.2]; norm_num
  have h1 := hx.hour
  have h2 := hx.minute
  have h3 := hx.second
  unfold stampOf
  rw [clockFields_stamp _ _ _ _ _ hx.hour hx.minute hx.second hx.decimals hx.fraction]
  show (if 1678 ≤ x.y ∧ x.y ≤ 2261 then _ else _) = _
  rw [if_pos hx.year, C35_utc_instant, if_pos]
  · rfl
  · refine ⟨hx.date, ?_⟩
    unfold ValidTime
    refine ⟨by omega, by omega, by omega, by omega, by omega, by omega, Int.natCast_nonneg _, ?_⟩
    exact_mod_cast hus

theorem sample_bounds {x : Sample} (hx : x.Valid) : x.y < 10 ^ 4 ∧ x.m < 10 ^ 2 ∧ x.d < 10 ^ 2 := by
  obtain ⟨h1, h2, h3, h4, h5, h6⟩ := hx.date
  have hl : monthLen x.y x.m ≤ 31 := by
    unfold monthLen
    split
    · omega
    · have : ∀ n ∈ monthLengths x.y, n ≤ 31 := by
        intro n hn
        unfold monthLengths at hn
        simp only [List.mem_cons, List.not_mem_nil, or_false] at hn
        split at hn <;> omega
      rw [List.getD_eq_getElem?_getD]
      cases hg : (monthLengths x.y)[x.m - 1]? with
      | none => simp
      | some n => exact this n (List.mem_of_getElem? hg)
  norm_num
  omega

theorem stampYmd_ok (x : Sample) (hx : x.Valid) :
    stampYmd (slashYmd x.y x.m x.d ++ ' ' :: clockStamp x.h x.mi x.s x.k x.f) = some x.instant := by
  obtain ⟨b1, b2, b3⟩ := sample_bounds hx
  have n := fun c hc => zpad_no c hc
  unfold stampYmd
  rw [splitC_append, splitC_notMem]
  · simp only [slashYmd]
    rw [splitC_append _ _ _ (zpad_no '/' (by decide) _ _), splitC_append _ _ _ (zpad_no '/' (by decide) _ _),
      splitC_notMem _ _ (zpad_no '/' (by decide) _ _)]
    simp only
    rw [fixedNat_zpad 4 _ b1, fixedNat_zpad 2 _ b2, fixedNat_zpad 2 _ b3, stampOf_ok x hx]
  · simp [clockStamp, zpad_no ' ' (by decide)]
  · simp [slashYmd, zpad_no ' ' (by decide)]

theorem stampMdy_ok (x : Sample) (hx : x.Valid) :
    stampMdy (slashMdy x.y x.m x.d ++ ' ' :: clockStamp x.h x.mi x.s x.k x.f) = some x.instant := by
  obtain ⟨b1, b2, b3⟩ := sample_bounds hx
  unfold stampMdy
  rw [splitC_append, splitC_notMem]
  · simp only [slashMdy]
    rw [splitC_append _ _ _ (zpad_no '/' (by decide) _ _), splitC_append _ _ _ (zpad_no '/' (by decide) _ _),
      splitC_notMem _ _ (zpad_no '/' (by decide) _ _)]
    simp only
    rw [fixedNat_zpad 4 _ b1, fixedNat_zpad 2 _ b2, fixedNat_zpad 2 _ b3, stampOf_ok x hx]
  · simp [clockStamp, zpad_no ' ' (by decide)]
  · simp [slashMdy, zpad_no ' ' (by decide)]

theorem stampOf_none (m d : Option ℕ) (c : Str) : stampOf none m d c = none := by
  unfold stampOf
  cases clockFields c <;> rfl

theorem stampYmd_mdy (y m d h mi s k f : ℕ) :
    stampYmd (slashMdy y m d ++ ' ' :: clockStamp h mi s k f) = none := by
  unfold stampYmd
  rw [splitC_append, splitC_notMem]
  · simp only [slashMdy]
    rw [splitC_append _ _ _ (zpad_no '/' (by decide) _ _), splitC_append _ _ _ (zpad_no '/' (by decide) _ _),
      splitC_notMem _ _ (zpad_no '/' (by decide) _ _)]
    simp only
    have : fixedNat 4 (zpad 2 m) = none := by unfold fixedNat; rw [if_neg]; rw [zpad_length]; simp
    rw [this, stampOf_none]
  · simp [clockStamp, zpad_no ' ' (by decide)]
  · simp [slashMdy, zpad_no ' ' (by decide)]

theorem isoStamp_eq (y m d h mi s k f : ℕ) : isoStamp y m d h mi s k f =
    (zpad 4 y ++ ('-' :: (zpad 2 m ++ ('-' :: zpad 2 d)))) ++ 'T' :: clockStamp h mi s k f ++ ['Z'] := by
  simp [isoStamp, isoDate, clockStamp]

theorem stampIso_ok (x : Sample) (hx : x.Valid) : stampIso (isoStamp x.y x.m x.d x.h x.mi x.s x.k x.f) = some x.instant := by
  obtain ⟨b1, b2, b3⟩ := sample_bounds hx
  unfold stampIso
  rw [isoStamp_eq, splitC_append]
  · simp only [splitC]
    rw [splitC_append, splitC_notMem]
    · simp only
      rw [splitC_append _ _ _ (zpad_no '-' (by decide) _ _), splitC_append _ _ _ (zpad_no '-' (by decide) _ _),
        splitC_notMem _ _ (zpad_no '-' (by decide) _ _)]
      simp only
      rw [fixedNat_zpad 4 _ b1, fixedNat_zpad 2 _ b2, fixedNat_zpad 2 _ b3, stampOf_ok x hx]
    · simp [clockStamp, zpad_no 'T' (by decide)]
    · simp [zpad_no 'T' (by decide)]
  · simp [clockStamp, zpad_no 'Z' (by decide)]

theorem stamp_iso_no_blank (y m d h mi s k f : ℕ) : ' ' ∉ isoStamp y m d h mi s k f := by
  rw [isoStamp_eq]
  simp [clockStamp, zpad_no ' ' (by decide)]

theorem stampYmd_no_blank (t : Str) (h : ' ' ∉ t) : stampYmd t = none := by
  unfold stampYmd
  rw [splitC_notMem _ _ h]

theorem stampMdy_no_blank (t : Str) (h : ' ' ∉ t) : stampMdy t = none := by
  unfold stampMdy
  rw [splitC_notMem _ _ h]

theorem stampColumn_none (stamp : Str → Option ℤ) (t : Str) (l : List (Option Str)) (h : stamp t = none) :
    stampColumn stamp (some t :: l) = none := by
  unfold stampColumn
  rw [List.mapM_cons]
  simp only [h]
  rfl

/-- Columns of texts in one of the three forms are converted exactly. -/
theorem toDatetime_ymd (other : OtherTimes) (xs : List Sample) (hx : ∀ x ∈ xs, x.Valid) :
    toDatetime other (xs.map fun x => some (slashYmd x.y x.m x.d ++ ' ' :: clockStamp x.h x.mi x.s x.k x.f))
      = .ok (xs.map fun x => .time x.instant) := by
  unfold toDatetime
  have : stampColumn stampYmd (xs.map fun x => some (slashYmd x.y x.m x.d ++ ' ' :: clockStamp x.h x.mi x.s x.k x.f))
      = some (xs.map fun x => .time x.instant) := by
    unfold stampColumn
    apply optMapM_map
    intro x h
    simp only [stampYmd_ok x (hx x h)]
    rfl
  rw [this]

theorem toDatetime_mdy (other : OtherTimes) (xs : List Sample) (hx : ∀ x ∈ xs, x.Valid) :
    toDatetime other (xs.map fun x => some (slashMdy x.y x.m x.d ++ ' ' :: clockStamp x.h x.mi x.s x.k x.f))
      = .ok (xs.map fun x => .time x.instant) := by
  cases xs with
  | nil => rfl
  | cons a xs =>
    have h1 : stampColumn stampYmd ((a :: xs).map fun x =>
        some (slashMdy x.y x.m x.d ++ ' ' :: clockStamp x.h x.mi x.s x.k x.f)) = none := by
      rw [List.map_cons]
      exact stampColumn_none _ _ _ (stampYmd_mdy _ _ _ _ _ _ _ _)
    have h2 : stampColumn stampMdy ((a :: xs).map fun x =>
        some (slashMdy x.y x.m x.d ++ ' ' :: clockStamp x.h x.mi x.s x.k x.f))
        = some ((a :: xs).map fun x => .time x.instant) := by
      unfold stampColumn
      apply optMapM_map
      intro x h
      simp only [stampMdy_ok x (hx x h)]
      rfl
    unfold toDatetime
    rw [h1]
    simp only
    rw [h2]

theorem toDatetime_iso (other : OtherTimes) (xs : List Sample) (hx : ∀ x ∈ xs, x.Valid) :
    toDatetime other (xs.map fun x => some (isoStamp x.y x.m x.d x.h x.mi x.s x.k x.f))
      = .ok (xs.map fun x => .time x.instant) := by
  cases xs with
  | nil => rfl
  | cons a xs =>
    have h1 : stampColumn stampYmd ((a :: xs).map fun x => some (isoStamp x.y x.m x.d x.h x.mi x.s x.k x.f)) = none := by
      rw [List.map_cons]
      exact stampColumn_none _ _ _ (stampYmd_no_blank _ (stamp_iso_no_blank _ _ _ _ _ _ _ _))
    have h3 : stampColumn stampMdy ((a :: xs).map fun x => some (isoStamp x.y x.m x.d x.h x.mi x.s x.k x.f)) = none := by
      rw [List.map_cons]
      exact stampColumn_none _ _ _ (stampMdy_no_blank _ (stamp_iso_no_blank _ _ _ _ _ _ _ _))
    have h2 : stampColumn stampIso ((a :: xs).map fun x => some (isoStamp x.y x.m x.d x.h x.mi x.s x.k x.f))
        = some ((a :: xs).map fun x => .time x.instant) := by
      unfold stampColumn
      apply optMapM_map
      intro x h
      simp only [stampIso_ok x (hx x h)]
      rfl
    unfold toDatetime
    rw [h1]
    simp only
    rw [h3]
    simp only
    rw [h2]

/-! ### Missing-value texts -/

theorem not_na (a b : Char) (t : Str) (ha : isDigit a = true) (hb : isDigit b = true) : (a :: b :: t) ∉ naTexts := by
  have h1 : ∀ c, isDigit c = false → a ≠ c := fun c hc => ne_of_isDigit ha hc
  have h2 : ∀ c, isDigit c = false → b ≠ c := fun c hc => ne_of_isDigit hb hc
  have e1 := h1 '#' (by decide)
  have e2 := h1 '-' (by decide)
  have e3 := h1 '<' (by decide)
  have e4 := h1 'N' (by decide)
  have e5 := h1 'n' (by decide)
  have e6 := h2 '.' (by decide)
  unfold naTexts
  simp [e1, e2, e3, e4, e5, e6]

theorem zpad_two (k n : ℕ) (hk : 2 ≤ k) : ∃ a b t, zpad k n = a :: b :: t ∧ isDigit a = true ∧ isDigit b = true := by
  obtain ⟨a, t, h, ha⟩ := (zpad_Digits' k n (by omega)).head
  cases t with
  | nil => have := zpad_length k n; rw [h] at this; simp at this; omega
  | cons b t => exact ⟨a, b, t, h, ha, zpad_digits k n b (by rw [h]; simp)⟩

theorem textField_zpad (k n : ℕ) (hk : 2 ≤ k) (rest : Str) :
    textField (some (zpad k n ++ rest)) = .text (zpad k n ++ rest) := by
  obtain ⟨a, b, t, h, ha, hb⟩ := zpad_two k n hk
  unfold textField
  simp only
  rw [if_neg]
  rw [h]
  exact not_na a b _ ha hb

/-! ### Tables -/

theorem zipWith_update (rows : List (Str → Val)) (c : Str) (v : List Val) (hv : v.length = rows.length) (c' : Str) :
    (List.zipWith (fun r x => Function.update r c x) rows v).map (· c')
      = if c' = c then v else rows.map (· c') := by
  induction rows generalizing v with
  | nil =>
    have : v = [] := by simpa using hv
    subst this
    simp
  | cons r rows ih =>
    cases v with
    | nil => simp at hv
    | cons x v =>
      have := ih v (by simpa using hv)
      rw [List.zipWith_cons_cons, List.map_cons, this]
      by_cases h : c' = c
      · subst h; simp
      · simp [h, Function.update_of_ne]

theorem Table.set_col (t : Table) (c : Str) (v : List Val) (hv : v.length = t.rows.length) (c' : Str) :
    (t.set c v).col c' = if c' = c then v else t.col c' := zipWith_update t.rows c v hv c'

theorem Table.set_rows_length (t : Table) (c : Str) (v : List Val) (hv : v.length = t.rows.length) :
    (t.set c v).rows.length = t.rows.length := by simp [Table.set, hv]

theorem map_range_getD (v : List Val) (n : ℕ) (h : v.length = n) : (List.range n).map (fun i => v.getD i .nan) = v := by
  apply List.ext_getElem?
  intro i
  by_cases hi : i < n
  · simp [List.getElem?_map, hi, h, List.getD_eq_getElem?_getD]
  · rw [List.getElem?_eq_none (by simp; omega), List.getElem?_eq_none (by omega)]

theorem Table.ofCols_col (n : ℕ) (cs : List (Str × List Val)) (c : Str) (v : List Val) (h : cs.lookup c = some v)
    (hv : v.length = n) : (Table.ofCols n cs).col c = v := by
  unfold Table.col Table.ofCols
  simp only [List.map_map, Function.comp_def, h]
  exact map_range_getD v n hv

theorem Table.ofCols_length (n : ℕ) (cs : List (Str × List Val)) : (Table.ofCols n cs).rows.length = n := by
  simp [Table.ofCols]

theorem unionCols_append (ts : List Table) (t : Table) :
    unionCols (ts ++ [t]) = unionCols ts ++ t.cols.filter (fun c => c ∉ unionCols ts) := by
  simp [unionCols, List.foldl_append]

theorem unionCols_single (t : Table) : unionCols [t] = t.cols := by simp [unionCols]

theorem mem_unionCols (ts : List Table) (c : Str) : c ∈ unionCols ts ↔ ∃ t ∈ ts, c ∈ t.cols := by
  induction ts using List.reverseRecOn with
  | nil => simp [unionCols]
  | append_singleton ts t ih =>
    rw [unionCols_append, List.mem_append, List.mem_filter, decide_eq_true_eq]
    simp only [ih]
    constructor
    · rintro (⟨u, hu, hc⟩ | ⟨hc, _⟩)
      · exact ⟨u, by simp [hu], hc⟩
      · exact ⟨t, by simp, hc⟩
    · rintro ⟨u, hu, hc⟩
      by_cases h : ∃ t ∈ ts, c ∈ t.cols
      · left; exact h
      · right
        rcases List.mem_append.1 hu with hu | hu
        · exact absurd ⟨u, hu, hc⟩ h
        · have : u = t := by simpa using hu
          subst this
          exact ⟨hc, h⟩

theorem concat_isConcat (ts : List Table) (F : Table) : concat ts = .ok F → ts ≠ [] ∧ IsConcat ts F := by
  intro h
  unfold concat at h
  split at h
  · cases h
  · rename_i hne
    injection h with h
    subst h
    refine ⟨hne, rfl, mem_unionCols ts, ?_, ?_⟩
    · clear hne
      intro t ht
      show t.cols <+: unionCols ts
      induction ts using List.reverseRecOn with
      | nil => simp at ht
      | append_singleton ts u ih =>
        rw [unionCols_append]
        cases ts with
        | nil =>
          have : u = t := by simpa using ht
          subst this
          simp [unionCols]
        | cons a ts => exact (ih (by simpa using ht)).trans (List.prefix_append _ _)
    · intro hne' cs hcs
      clear hne'
      show unionCols ts = cs
      induction ts using List.reverseRecOn with
      | nil => exact absurd rfl hne
      | append_singleton ts u ih =>
        rw [unionCols_append]
        have hu : u.cols = cs := hcs u (by simp)
        by_cases hts : ts = []
        · subst hts; simp [unionCols, hu]
        · rw [ih hts (fun t ht => hcs t (by simp [ht])), hu]
          rw [List.filter_eq_nil_iff.2 (by intro c hc; simpa using hc), List.append_nil]

theorem concat_single (t : Table) : concat [t] = .ok t := by
  unfold concat
  rw [if_neg (by simp), unionCols_single]
  simp

theorem concat_ok (ts : List Table) (h : ts ≠ []) : ∃ F, concat ts = .ok F := by
  unfold concat
  rw [if_neg h]
  exact ⟨_, rfl⟩

theorem Table.col_length (t : Table) (c : Str) : (t.col c).length = t.rows.length := by simp [Table.col]

end Shipgrav
