import Verif.Model.BgmFloat
import Verif.Spec.BgmFloat
import Verif.Lemmas.Float64
import Verif.Props.Bgm

/-! C145: gravity from counts, in double precision. -/

namespace Shipgrav
open Spec

private theorem exact_int {n : ℤ} (h : |n| < 2 ^ 53) : toDouble (n : ℚ) = n :=
  toDouble_rounds.exact ⟨n, 0, h, by simp⟩

private theorem near (sc : ℚ) {n : ℤ} (h : |n| < 2 ^ 53) :
    |toDouble (toDouble sc * toDouble n) - sc * n| ≤ |sc * n| / 2 ^ 51 := by
  rw [exact_int h]
  have h1 := toDouble_rounds.rel sc
  have h2 := toDouble_rounds.rel (toDouble sc * n)
  have h3 : |sc * n - toDouble sc * n| ≤ |sc * n| / 2 ^ 53 := by
    rw [← sub_mul, abs_mul, abs_mul, mul_div_right_comm]
    exact mul_le_mul_of_nonneg_right h1 (abs_nonneg _)
  have h4 : |toDouble sc * n| ≤ |sc * n| + |sc * n| / 2 ^ 53 := by
    have := abs_sub_abs_le_abs_sub (toDouble sc * n) (sc * n)
    rw [abs_sub_comm] at this
    linarith
  have h5 := abs_sub_le (toDouble (toDouble sc * n)) (toDouble sc * n) (sc * n)
  rw [abs_sub_comm] at h2
  rw [abs_sub_comm (toDouble sc * n)] at h5
  have h0 := abs_nonneg (sc * n)
  linarith

private theorem mulValF_num (sc q : ℚ) : mulValF sc (.num q) = .ok (.num (toDouble (toDouble sc * toDouble q))) := rfl

/-! ### The table -/

private def RelE {α : Type} (R : α → α → Prop) : Except PyErr α → Except PyErr α → Prop
  | .ok a, .ok b => R a b
  | .error e, .error e' => e = e'
  | _, _ => False

private theorem RelE.map₂ {α β : Type} {R : α → α → Prop} {S : β → β → Prop} {x y : Except PyErr α} {f g : α → Except PyErr β}
    (h : RelE R x y) (hf : ∀ a b, R a b → RelE S (f a) (g b)) : RelE S (x >>= f) (y >>= g) := by
  cases x <;> cases y
  · exact h
  · exact h.elim
  · exact h.elim
  · exact hf _ _ h

private theorem relE_mapM {α β : Type} {S : β → β → Prop} {f g : α → Except PyErr β} (h : ∀ a, RelE S (f a) (g a)) (l : List α) :
    RelE (List.Forall₂ S) (l.mapM f) (l.mapM g) := by
  induction l with
  | nil => exact List.Forall₂.nil
  | cons a l ih =>
    rw [List.mapM_cons, List.mapM_cons]
    exact (h a).map₂ fun x y hxy => ih.map₂ fun xs ys hs => List.Forall₂.cons hxy hs

private structure RelT (sc : ℚ) (t t' : Table) : Prop where
  cols : t'.cols = t.cols
  rows : List.Forall₂ (RowNear sc) t.rows t'.rows

private theorem rowNear_of (sc : ℚ) (r : Str → Val) (g g' : Val) (h : mulVal sc (r "counts".toList) = .ok g) (h' : mulValF sc (r "counts".toList) = .ok g') :
    RowNear sc (Function.update r "rgrav".toList g) (Function.update r "rgrav".toList g') := by
  have hc : ∀ x : Val, Function.update r "rgrav".toList x "counts".toList = r "counts".toList := fun x => Function.update_of_ne (by decide) _ _
  constructor
  · intro c hc
    rw [Function.update_of_ne hc, Function.update_of_ne hc]
  · intro n hn hb
    rw [hc] at hn
    rw [hn, mulValF_num] at h'
    injection h' with h'
    rw [Function.update_self]
    exact ⟨_, h'.symm, toDouble_rounds.double _, near sc hb⟩
  · intro n hn hb h1 h2
    rw [hc] at hn
    rw [hn, mulValF_num, exact_int hb, toDouble_rounds.exact h1, toDouble_rounds.exact h2] at h'
    injection h' with h'
    rw [Function.update_self, h']
  · intro hn
    rw [hc] at hn
    rw [hn] at h'
    rw [Function.update_self]
    injection h' with h'
    exact h'.symm

private theorem relE_gravity (sc : ℚ) (t : Table) : RelE (RelT sc) (addGravity sc t) (addGravityF sc t) := by
  unfold addGravity addGravityF Table.get
  split
  swap
  · rfl
  simp only [bind, Except.bind]
  have key : RelE (fun gs gs' => List.Forall₂ (RowNear sc) (List.zipWith (fun r x => Function.update r "rgrav".toList x) t.rows gs)
      (List.zipWith (fun r x => Function.update r "rgrav".toList x) t.rows gs')) ((t.col "counts".toList).mapM (mulVal sc))
      ((t.col "counts".toList).mapM (mulValF sc)) := by
    unfold Table.col
    generalize t.rows = rows
    induction rows with
    | nil => exact List.Forall₂.nil
    | cons r rows ih =>
      rw [List.map_cons, List.mapM_cons, List.mapM_cons]
      cases hv : r "counts".toList with
      | num q =>
        refine RelE.map₂ (R := fun g g' => mulVal sc (r "counts".toList) = .ok g ∧ mulValF sc (r "counts".toList) = .ok g') ⟨by rw [hv]; rfl, by rw [hv]; rfl⟩ ?_
        exact fun g g' hg => ih.map₂ fun gs gs' hs => List.Forall₂.cons (rowNear_of sc r g g' hg.1 hg.2) hs
      | nan =>
        refine RelE.map₂ (R := fun g g' => mulVal sc (r "counts".toList) = .ok g ∧ mulValF sc (r "counts".toList) = .ok g') ⟨by rw [hv]; rfl, by rw [hv]; rfl⟩ ?_
        exact fun g g' hg => ih.map₂ fun gs gs' hs => List.Forall₂.cons (rowNear_of sc r g g' hg.1 hg.2) hs
      | text s => rfl
      | time s => rfl
  revert key
  cases (t.col "counts".toList).mapM (mulVal sc) <;> cases (t.col "counts".toList).mapM (mulValF sc)
  · exact id
  · exact id
  · exact id
  · exact fun h => ⟨rfl, h⟩

private theorem unionCols_rel {sc : ℚ} {ts ts' : List Table} (h : List.Forall₂ (RelT sc) ts ts') : unionCols ts' = unionCols ts := by
  unfold unionCols
  generalize ([] : List Str) = acc
  induction h generalizing acc with
  | nil => rfl
  | cons h1 _ ih => rw [List.foldl_cons, List.foldl_cons, h1.cols, ih]

private theorem relE_concat {sc : ℚ} {ts ts' : List Table} (h : List.Forall₂ (RelT sc) ts ts') : RelE (RelT sc) (concat ts) (concat ts') := by
  unfold concat
  cases h with
  | nil => rfl
  | @cons a b l l' h1 h2 =>
    rw [if_neg (by simp), if_neg (by simp)]
    refine ⟨unionCols_rel (.cons h1 h2), ?_⟩
    have : ∀ {ts ts' : List Table}, List.Forall₂ (RelT sc) ts ts' →
        List.Forall₂ (RowNear sc) (ts.map Table.rows).flatten (ts'.map Table.rows).flatten := by
      intro ts ts' h
      induction h with
      | nil => exact .nil
      | cons h1 _ ih =>
        simp only [List.map_cons, List.flatten_cons]
        exact List.rel_append h1.rows ih
    exact this (.cons h1 h2)

private theorem bgmLoopF_eq (read : TableReader) (scale : ℚ) (files : List (List Str)) : ∀ dats,
    bgmLoopF (some read) scale files dats = (do
      let ts ← files.mapM (fun f => read f >>= addGravityF scale)
      (concat (dats ++ ts)).map Ret.val) := by
  induction files with
  | nil =>
    intro dats
    rw [bgmLoopF]
    simp only [List.mapM_nil, pure_bind, List.append_nil]
  | cons f fs ih =>
    intro dats
    rw [bgmLoopF, List.mapM_cons]
    cases h : read f with
    | error e => rfl
    | ok t =>
      show (addGravityF scale t >>= fun dat => _) = _
      simp only [bind_assoc]
      show _ = (addGravityF scale t >>= fun dat => _)
      congr 1
      funext dat
      rw [ih]
      simp only [pure_bind, List.append_assoc, List.singleton_append]

/-- C145.  The scaling in double precision changes nothing but the gravity: `-999` is returned in the same cases, the same calls raise the same
exceptions, and a table that is returned has the rows and columns of the exact one in the same order; for every count below 2^53 the gravity is a
double precision number within a few parts in 10^16 of scale factor times count (scale factor times count itself if factor and product are double
precision numbers, as with the factor 5 of the Langseth), and a missing count gives a missing gravity. -/
theorem C145_rows (other : OtherTimes) (files : List (List Str)) (ship : Str) (scale : Option ℚ) (fn : Option TableReader) :
    (readBgmRawF other files ship scale fn = .ok .sentinel ↔ readBgmRaw other files ship scale fn = .ok .sentinel) ∧
    (∀ e, readBgmRawF other files ship scale fn = .error e ↔ readBgmRaw other files ship scale fn = .error e) ∧
    ∀ F', readBgmRawF other files ship scale fn = .ok (.val F') → ∃ F sc, ScaleInForce scale ship sc ∧
      readBgmRaw other files ship scale fn = .ok (.val F) ∧ F'.cols = F.cols ∧ List.Forall₂ (RowNear sc) F.rows F'.rows := by
  have hsame : ∀ x : Except PyErr (Ret Table), readBgmRawF other files ship scale fn = x → readBgmRaw other files ship scale fn = x →
      (∀ F, x ≠ .ok (.val F)) →
      (readBgmRawF other files ship scale fn = .ok .sentinel ↔ readBgmRaw other files ship scale fn = .ok .sentinel) ∧
      (∀ e, readBgmRawF other files ship scale fn = .error e ↔ readBgmRaw other files ship scale fn = .error e) ∧
      ∀ F', readBgmRawF other files ship scale fn = .ok (.val F') → ∃ F sc, ScaleInForce scale ship sc ∧
        readBgmRaw other files ship scale fn = .ok (.val F) ∧ F'.cols = F.cols ∧ List.Forall₂ (RowNear sc) F.rows F'.rows := by
    intro x h1 h2 hx
    rw [h1, h2]
    exact ⟨Iff.rfl, fun _ => Iff.rfl, fun F' h => absurd h (hx F')⟩
  cases hs : scale.or (bgmScales.lookup ship) with
  | none =>
    exact hsame (.ok .sentinel) (by unfold readBgmRawF; rw [hs]) (by unfold readBgmRaw; rw [hs]) (by intro F h; cases h)
  | some sc =>
    have hsc : ScaleInForce scale ship sc := (scale_iff _ _ _).1 hs
    cases hr : fn.or (bgmBuiltin other ship) with
    | none =>
      cases files with
      | nil =>
        exact hsame (.error .valueError) (by unfold readBgmRawF; rw [hs, hr]; rfl) (by unfold readBgmRaw; rw [hs, hr]; rfl) (by intro F h; cases h)
      | cons f fs =>
        exact hsame (.ok .sentinel) (by unfold readBgmRawF; rw [hs, hr]; rfl) (by unfold readBgmRaw; rw [hs, hr]; rfl) (by intro F h; cases h)
    | some read =>
      have e1 : readBgmRaw other files ship scale fn = (files.mapM (fun f => read f >>= addGravity sc) >>= concat).map Ret.val := by
        unfold readBgmRaw
        rw [hs, hr]
        simp only
        rw [bgmLoop_eq]
        cases files.mapM (fun f => read f >>= addGravity sc) <;> rfl
      have e2 : readBgmRawF other files ship scale fn = (files.mapM (fun f => read f >>= addGravityF sc) >>= concat).map Ret.val := by
        unfold readBgmRawF
        rw [hs, hr]
        simp only
        rw [bgmLoopF_eq]
        cases files.mapM (fun f => read f >>= addGravityF sc) <;> rfl
      have key : RelE (RelT sc) (files.mapM (fun f => read f >>= addGravity sc) >>= concat)
          (files.mapM (fun f => read f >>= addGravityF sc) >>= concat) := by
        refine RelE.map₂ (relE_mapM (S := RelT sc) (fun f => ?_) files) fun ts ts' h => relE_concat h
        cases read f with
        | error e => rfl
        | ok t => exact relE_gravity sc t
      revert e1 e2 key
      cases (files.mapM (fun f => read f >>= addGravity sc) >>= concat) <;>
        cases (files.mapM (fun f => read f >>= addGravityF sc) >>= concat) <;> intro e1 e2 key
      · rename_i a b
        have : a = b := key
        subst this
        exact hsame _ e2 e1 (by intro F h; cases h)
      · exact key.elim
      · exact key.elim
      · rename_i F F'
        rw [e1, e2]
        refine ⟨⟨(fun h => by cases h), (fun h => by cases h)⟩, fun e => ⟨(fun h => by cases h), (fun h => by cases h)⟩, ?_⟩
        intro G hG
        injection hG with hG
        injection hG with hG
        subst hG
        exact ⟨F, sc, hsc, rfl, key.cols, key.rows⟩

/-! ### Consequences -/

private theorem gravity_close (sc : ℚ) (hsc : 0 < sc) (n : ℤ) (hn : |n| ≤ 2 ^ 49) (g : ℚ) (hg : |g - sc * n| ≤ |sc * n| / 2 ^ 51) : |g / sc - n| ≤ 1 / 4 := by
  have e : g / sc - n = (g - sc * n) / sc := by field_simp
  rw [e, abs_div, abs_of_pos hsc, div_le_iff₀ hsc]
  refine hg.trans ?_
  rw [abs_mul, abs_of_pos hsc]
  have : |(n : ℚ)| ≤ 2 ^ 49 := by exact_mod_cast hn
  rw [div_le_iff₀ (by positivity)]
  nlinarith

/-- C145.  Nothing is lost: with a positive scale factor and counts up to 2^49 the count is the whole number nearest to gravity over scale factor, and
a row with a larger count has a larger gravity. -/
theorem C145_counts_recovered (other : OtherTimes) (files : List (List Str)) (ship : Str) (scale : Option ℚ) (fn : Option TableReader) (F : Table)
    (h : readBgmRawF other files ship scale fn = .ok (.val F)) (sc : ℚ) (hs : ScaleInForce scale ship sc) (hsc : 0 < sc)
    (r : Str → Val) (hr : r ∈ F.rows) (n : ℤ) (hn : r "counts".toList = .num n) (hb : |n| ≤ 2 ^ 49) :
    ∃ g, r "rgrav".toList = .num g ∧ |g / sc - n| ≤ 1 / 4 ∧
      ∀ r' ∈ F.rows, ∀ n' : ℤ, r' "counts".toList = .num n' → |n'| ≤ 2 ^ 49 → n < n' → ∃ g', r' "rgrav".toList = .num g' ∧ g < g' := by
  obtain ⟨F0, sc', hs', -, -, hrel⟩ := (C145_rows other files ship scale fn).2.2 F h
  have hsame : sc' = sc := by
    have h1 := (scale_iff _ _ _).2 hs
    have h2 := (scale_iff _ _ _).2 hs'
    rw [h1] at h2
    injection h2 with h2
    exact h2.symm
  subst hsame
  have key : ∀ r ∈ F.rows, ∀ n : ℤ, r "counts".toList = .num n → |n| ≤ 2 ^ 49 → ∃ g, r "rgrav".toList = .num g ∧ |g / sc' - n| ≤ 1 / 4 := by
    intro r hr n hn hb
    have : ∀ (l l' : List (Str → Val)), List.Forall₂ (RowNear sc') l l' → ∀ r ∈ l', ∃ r0, RowNear sc' r0 r := by
      intro l l' hl
      induction hl with
      | nil => simp
      | cons h1 _ ih =>
        intro r hr
        rcases List.mem_cons.1 hr with rfl | hr
        · exact ⟨_, h1⟩
        · exact ih r hr
    obtain ⟨r0, h0⟩ := this _ _ hrel r hr
    rw [h0.same _ (by decide)] at hn
    obtain ⟨g, hg, -, hd⟩ := h0.gravity n hn (lt_of_le_of_lt hb (by norm_num))
    exact ⟨g, hg, gravity_close sc' hsc n hb g hd⟩
  obtain ⟨g, hg, hd⟩ := key r hr n hn hb
  refine ⟨g, hg, hd, ?_⟩
  intro r' hr' n' hn' hb' hlt
  obtain ⟨g', hg', hd'⟩ := key r' hr' n' hn' hb'
  refine ⟨g', hg', ?_⟩
  have h1 := (abs_le.1 hd).2
  have h2 := (abs_le.1 hd').1
  have h3 : (n : ℚ) + 1 ≤ n' := by exact_mod_cast hlt
  have h4 : g / sc' < g' / sc' := by linarith
  exact (div_lt_div_iff_of_pos_right hsc).1 h4

/-- C145.  The gravity of the Langseth, whose scale factor is 5, is not rounded at all. -/
theorem C145_langseth (other : OtherTimes) (files : List (List Str)) (fn : Option TableReader) (F : Table)
    (h : readBgmRawF other files "Langseth".toList none fn = .ok (.val F)) (r : Str → Val) (hr : r ∈ F.rows) (n : ℤ)
    (hn : r "counts".toList = .num n) (hb : |n| ≤ 2 ^ 50) : r "rgrav".toList = .num (5 * n) := by
  obtain ⟨F0, sc, hs, -, -, hrel⟩ := (C145_rows other files "Langseth".toList none fn).2.2 F h
  have hsc : sc = 5 := by
    have h2 := (scale_iff _ _ _).2 hs
    rw [show bgmScales.lookup "Langseth".toList = some 5 by decide +kernel] at h2
    injection h2 with h2
    exact h2.symm
  subst hsc
  have : ∀ (l l' : List (Str → Val)), List.Forall₂ (RowNear 5) l l' → ∀ r ∈ l', ∃ r0, RowNear 5 r0 r := by
    intro l l' hl
    induction hl with
    | nil => simp
    | cons h1 _ ih =>
      intro r hr
      rcases List.mem_cons.1 hr with rfl | hr
      · exact ⟨_, h1⟩
      · exact ih r hr
  obtain ⟨r0, h0⟩ := this _ _ hrel r hr
  rw [h0.same _ (by decide)] at hn
  refine h0.exact n hn (lt_of_le_of_lt hb (by norm_num)) ⟨5, 0, by norm_num, by norm_num⟩ ⟨5 * n, 0, ?_, by push_cast; ring⟩
  rw [abs_mul, abs_of_pos (by norm_num : (0 : ℤ) < 5)]
  omega

/-! ## Non-vacuity -/

private def exTable : Table := Table.ofCols 3 [("counts".toList, [.num 24993, .nan, .num 24994])]

example : ∃ F, readBgmRawF (fun _ => .error .valueError) [[]] "Atlantis".toList none (some fun _ => .ok exTable) = .ok (.val F) ∧ F.rows.length = 3 ∧
    ∃ r ∈ F.rows, r "counts".toList = .num (24993 : ℤ) := by
  refine ⟨⟨["counts".toList, "rgrav".toList], _⟩, rfl, rfl, ?_⟩
  exact ⟨_, List.mem_cons_self, by decide +kernel⟩

example : ScaleInForce none "Atlantis".toList 4.994070552 ∧ (0 : ℚ) < 4.994070552 := ⟨Or.inr ⟨rfl, .atlantis⟩, by norm_num⟩

end Shipgrav
