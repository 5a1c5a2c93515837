import Verif.Lemmas.Pandas
import Verif.Props.NavStamp

/-! Lemmas about `read_fwf`. -/

namespace Shipgrav
open Spec

theorem fwfGo_run (mask : ℕ → Bool) (a : ℕ) : ∀ n fuel i, n ≤ fuel → (∀ p, i ≤ p → p < i + n → mask p = true) →
    fwfGo mask fuel i (some a) = fwfGo mask (fuel - n) (i + n) (some a) := by
  intro n
  induction n with
  | zero => intro fuel i _ _; rfl
  | succ n ih =>
    intro fuel i hf hm
    obtain ⟨fuel, rfl⟩ : ∃ g, fuel = g + 1 := ⟨fuel - 1, by omega⟩
    rw [fwfGo, if_pos (hm i (le_refl _) (by omega)), ih fuel (i + 1) (by omega) (fun p h1 h2 => hm p (by omega) (by omega))]
    congr 1
    · omega
    · omega

/-- A run of `n ≥ 1` covered positions followed by an uncovered one inside the line. -/
theorem fwfGo_field (mask : ℕ → Bool) (n fuel i : ℕ) (hn : 1 ≤ n) (hf : n + 1 ≤ fuel)
    (hm : ∀ p, i ≤ p → p < i + n → mask p = true) (he : mask (i + n) = false) :
    fwfGo mask fuel i none = (i, i + n) :: fwfGo mask (fuel - n - 1) (i + n + 1) none := by
  obtain ⟨fuel, rfl⟩ : ∃ g, fuel = g + 1 := ⟨fuel - 1, by omega⟩
  obtain ⟨n, rfl⟩ : ∃ g, n = g + 1 := ⟨n - 1, by omega⟩
  rw [fwfGo, if_pos (hm i (le_refl _) (by omega)),
    fwfGo_run mask i n fuel (i + 1) (by omega) (fun p h1 h2 => hm p (by omega) (by omega))]
  obtain ⟨r, hr⟩ : ∃ r, fuel - n = r + 1 := ⟨fuel - n - 1, by omega⟩
  have e1 : fuel + 1 - (n + 1) - 1 = r := by omega
  have e2 : i + 1 + n = i + (n + 1) := by omega
  rw [hr, fwfGo, e2, he, e1]
  simp

/-- The last of the fields looked at: it may also end with the lines. -/
theorem fwfGo_last (mask : ℕ → Bool) (n fuel i : ℕ) (hn : 1 ≤ n) (hf : n ≤ fuel)
    (hm : ∀ p, i ≤ p → p < i + n → mask p = true) (he : mask (i + n) = false) :
    ∃ rest, fwfGo mask fuel i none = (i, i + n) :: rest := by
  rcases Nat.lt_or_ge n fuel with h | h
  · exact ⟨_, fwfGo_field mask n fuel i hn h hm he⟩
  · obtain ⟨fuel, rfl⟩ : ∃ g, fuel = g + 1 := ⟨fuel - 1, by omega⟩
    obtain ⟨n, rfl⟩ : ∃ g, n = g + 1 := ⟨n - 1, by omega⟩
    refine ⟨[], ?_⟩
    rw [fwfGo, if_pos (hm i (le_refl _) (by omega)),
      fwfGo_run mask i n fuel (i + 1) (by omega) (fun p h1 h2 => hm p (by omega) (by omega))]
    have : fuel - n = 0 := by omega
    rw [this, fwfGo]
    congr 2
    omega

theorem fwfMask_true (rows : List Str) (hne : rows ≠ []) (i : ℕ)
    (h : ∀ r ∈ rows, ∃ c, r[i]? = some c ∧ fwfBlank c = false) : fwfMask rows i = true := by
  unfold fwfMask
  rw [List.any_eq_true]
  obtain ⟨r, hr⟩ := List.exists_mem_of_ne_nil rows hne
  obtain ⟨c, h1, h2⟩ := h r hr
  exact ⟨r, hr, by rw [h1]; simp [h2]⟩

theorem fwfMask_false (rows : List Str) (i : ℕ) (h : ∀ r ∈ rows, ∀ c, r[i]? = some c → fwfBlank c = true) :
    fwfMask rows i = false := by
  unfold fwfMask
  rw [List.any_eq_false]
  intro r hr
  cases hc : r[i]? with
  | none => simp
  | some c => simp [h r hr c hc]

theorem le_foldl_max (l : List ℕ) : ∀ a, (a ≤ l.foldl max a) ∧ ∀ n ∈ l, n ≤ l.foldl max a := by
  induction l with
  | nil => intro a; simp
  | cons x l ih =>
    intro a
    rw [List.foldl_cons]
    obtain ⟨h1, h2⟩ := ih (max a x)
    refine ⟨le_trans (le_max_left _ _) h1, ?_⟩
    intro n hn
    rcases List.mem_cons.1 hn with rfl | hn
    · exact le_trans (le_max_right _ _) h1
    · exact h2 n hn

/-- The text of a line has three fields `u`, `v`, `w` of the given lengths, separated by one blank character each, and what
follows `w` starts with a blank character. -/
structure ThreeFields (a b c : ℕ) (line u v w : Str) : Prop where
  text : ∃ s1 s2 rest, line = u ++ (s1 :: (v ++ (s2 :: (w ++ rest)))) ∧ fwfBlank s1 = true ∧ fwfBlank s2 = true ∧
    ∀ ch, rest.head? = some ch → fwfBlank ch = true
  lenU : u.length = a
  lenV : v.length = b
  lenW : w.length = c
  noU : ∀ ch ∈ u, fwfBlank ch = false
  noV : ∀ ch ∈ v, fwfBlank ch = false
  noW : ∀ ch ∈ w, fwfBlank ch = false

theorem ThreeFields.at {a b c : ℕ} {line u v w : Str} (h : ThreeFields a b c line u v w) :
    (∀ p, p < a → ∃ ch, line[p]? = some ch ∧ fwfBlank ch = false) ∧
    (∀ ch, line[a]? = some ch → fwfBlank ch = true) ∧
    (∀ p, a + 1 ≤ p → p < a + 1 + b → ∃ ch, line[p]? = some ch ∧ fwfBlank ch = false) ∧
    (∀ ch, line[a + 1 + b]? = some ch → fwfBlank ch = true) ∧
    (∀ p, a + 1 + b + 1 ≤ p → p < a + 1 + b + 1 + c → ∃ ch, line[p]? = some ch ∧ fwfBlank ch = false) ∧
    (∀ ch, line[a + 1 + b + 1 + c]? = some ch → fwfBlank ch = true) ∧
    a + 1 + b + 1 + c ≤ line.length := by
  obtain ⟨⟨s1, s2, rest, rfl, h1, h2, h3⟩, lu, lv, lw, nu, nv, nw⟩ := h
  subst lu lv lw
  refine ⟨?_, ?_, ?_, ?_, ?_, ?_, ?_⟩
  · intro p hp
    refine ⟨u[p], ?_, nu _ (List.getElem_mem hp)⟩
    rw [List.getElem?_append_left hp, List.getElem?_eq_getElem hp]
  · intro ch hch
    rw [List.getElem?_append_right (le_refl _), Nat.sub_self] at hch
    simp at hch
    rw [← hch]; exact h1
  · intro p hp1 hp2
    obtain ⟨q, rfl⟩ : ∃ q, p = u.length + (q + 1) := ⟨p - u.length - 1, by omega⟩
    have hq : q < v.length := by omega
    refine ⟨v[q], ?_, nv _ (List.getElem_mem hq)⟩
    rw [List.getElem?_append_right (by omega), Nat.add_sub_cancel_left, List.getElem?_cons_succ,
      List.getElem?_append_left hq, List.getElem?_eq_getElem hq]
  · intro ch hch
    rw [List.getElem?_append_right (by omega), show u.length + 1 + v.length - u.length = v.length + 1 by omega,
      List.getElem?_cons_succ, List.getElem?_append_right (le_refl _), Nat.sub_self] at hch
    simp at hch
    rw [← hch]; exact h2
  · intro p hp1 hp2
    obtain ⟨q, rfl⟩ : ∃ q, p = u.length + (v.length + (q + 1) + 1) := ⟨p - u.length - 1 - v.length - 1, by omega⟩
    have hq : q < w.length := by omega
    refine ⟨w[q], ?_, nw _ (List.getElem_mem hq)⟩
    rw [List.getElem?_append_right (by omega), Nat.add_sub_cancel_left, List.getElem?_cons_succ,
      List.getElem?_append_right (by omega), Nat.add_sub_cancel_left, List.getElem?_cons_succ,
      List.getElem?_append_left hq, List.getElem?_eq_getElem hq]
  · intro ch hch
    rw [List.getElem?_append_right (by omega),
      show u.length + 1 + v.length + 1 + w.length - u.length = (v.length + 1 + w.length) + 1 by omega,
      List.getElem?_cons_succ, List.getElem?_append_right (by omega),
      show v.length + 1 + w.length - v.length = w.length + 1 by omega, List.getElem?_cons_succ,
      List.getElem?_append_right (le_refl _), Nat.sub_self] at hch
    apply h3
    rw [List.head?_eq_getElem?]
    exact hch
  · simp
    omega

/-- When every line has the same layout, the fields are found. -/
theorem fwfEdges_three (a b c : ℕ) (recs : List Str) (hne : recs ≠ []) (ha : 1 ≤ a) (hb : 1 ≤ b) (hc : 1 ≤ c)
    (h : ∀ r ∈ recs, ∃ u v w, ThreeFields a b c r u v w) :
    ∃ more, fwfEdges recs = (0, a) :: (a + 1, a + 1 + b) :: (a + 1 + b + 1, a + 1 + b + 1 + c) :: more := by
  have hne' : recs.take 100 ≠ [] := by
    cases recs with
    | nil => exact absurd rfl hne
    | cons r t => simp
  have h' : ∀ r ∈ recs.take 100, ∃ u v w, ThreeFields a b c r u v w := fun r hr => h r (List.mem_of_mem_take hr)
  unfold fwfEdges
  simp only
  generalize recs.take 100 = rows at hne' h'
  have hfuel : a + 1 + b + 1 + c ≤ (rows.map List.length).foldl max 0 := by
    obtain ⟨r, hr⟩ := List.exists_mem_of_ne_nil rows hne'
    obtain ⟨u, v, w, hf⟩ := h' r hr
    exact le_trans hf.at.2.2.2.2.2.2 ((le_foldl_max _ 0).2 _ (List.mem_map.2 ⟨r, hr, rfl⟩))
  generalize (rows.map List.length).foldl max 0 = fuel at hfuel
  have e1 := fwfGo_field (fwfMask rows) a fuel 0 ha (by omega)
    (fun p _ h2 => fwfMask_true rows hne' p (fun r hr => by
      obtain ⟨u, v, w, hf⟩ := h' r hr; exact hf.at.1 p (by omega)))
    (by
      rw [Nat.zero_add]
      exact fwfMask_false rows a (fun r hr ch hch => by
        obtain ⟨u, v, w, hf⟩ := h' r hr; exact hf.at.2.1 ch hch))
  have e2 := fwfGo_field (fwfMask rows) b (fuel - a - 1) (a + 1) hb (by omega)
    (fun p h1 h2 => fwfMask_true rows hne' p (fun r hr => by
      obtain ⟨u, v, w, hf⟩ := h' r hr; exact hf.at.2.2.1 p h1 h2))
    (fwfMask_false rows _ (fun r hr ch hch => by
        obtain ⟨u, v, w, hf⟩ := h' r hr; exact hf.at.2.2.2.1 ch hch))
  obtain ⟨more, e3⟩ := fwfGo_last (fwfMask rows) c (fuel - a - 1 - b - 1) (a + 1 + b + 1) hc (by omega)
    (fun p h1 h2 => fwfMask_true rows hne' p (fun r hr => by
      obtain ⟨u, v, w, hf⟩ := h' r hr; exact hf.at.2.2.2.2.1 p h1 h2))
    (fwfMask_false rows _ (fun r hr ch hch => by
        obtain ⟨u, v, w, hf⟩ := h' r hr; exact hf.at.2.2.2.2.2.1 ch hch))
  refine ⟨more, ?_⟩
  rw [Nat.zero_add] at e1
  rw [e1, e2, e3]

theorem stripChars_id (s : Str) (h : ∀ ch ∈ s, fwfBlank ch = false) : stripChars ['\n', '\r', '\t', ' '] s = s := by
  have hb : ∀ ch, fwfBlank ch = false → (['\n', '\r', '\t', ' '] : Str).contains ch = false := by
    intro ch hch
    unfold fwfBlank at hch
    simp at hch ⊢
    tauto
  have hd : ∀ l : Str, (∀ ch ∈ l, fwfBlank ch = false) → l.dropWhile (fun x => (['\n', '\r', '\t', ' '] : Str).contains x) = l := by
    intro l hl
    cases l with
    | nil => rfl
    | cons c t => rw [List.dropWhile_cons, hb c (hl c (by simp))]; rfl
  unfold stripChars rstripChars
  rw [hd s h, hd s.reverse (by simpa using h), List.reverse_reverse]

theorem ThreeFields.fields {a b c : ℕ} {line u v w : Str} (h : ThreeFields a b c line u v w) :
    fwfField (a + 1, a + 1 + b) line = v ∧ fwfField (a + 1 + b + 1, a + 1 + b + 1 + c) line = w := by
  obtain ⟨⟨s1, s2, rest, rfl, h1, h2, h3⟩, lu, lv, lw, nu, nv, nw⟩ := h
  subst lu lv lw
  unfold fwfField
  constructor
  · have := slice_mid (u.length + 1) (u.length + 1 + v.length) (u ++ [s1]) v (s2 :: (w ++ rest)) (by simp) (by omega)
    rw [List.append_assoc] at this
    simp only [List.singleton_append] at this
    rw [this, stripChars_id v nv]
  · have := slice_mid (u.length + 1 + v.length + 1) (u.length + 1 + v.length + 1 + w.length) (u ++ (s1 :: (v ++ [s2]))) w rest
      (by simp; omega) (by omega)
    rw [List.append_assoc, List.cons_append, List.append_assoc] at this
    simp only [List.singleton_append] at this
    rw [this, stripChars_id w nw]

end Shipgrav
