import Verif.Lemmas.FloatSum
import Verif.Lemmas.Gaussian
import Verif.Model.GaussianFloat
import Verif.Spec.FloatExp

/-! The Gaussian filter in double precision stays near the exact one. -/

namespace Shipgrav
open Spec

/-- `u` is `x` up to a factor within `c`. -/
def Near (c : ℝ) (u : ℚ) (x : ℝ) : Prop := ∃ t, Within c t ∧ (u : ℝ) = x * t

theorem near_toDouble {c : ℝ} {u : ℚ} {x : ℝ} (h : Near c u x) : Near (c + 1 / 2 ^ 52) (toDouble u) x := by
  obtain ⟨t, ht, e⟩ := h
  obtain ⟨s, hs, e'⟩ := rounds_factor toDouble_rounds u
  exact ⟨t * s, ht.mul hs, by rw [e', e]; ring⟩

theorem Near.mul {c d : ℝ} {u v : ℚ} {x y : ℝ} (h : Near c u x) (h' : Near d v y) : Near (c + d) (u * v) (x * y) := by
  obtain ⟨t, ht, e⟩ := h
  obtain ⟨s, hs, e'⟩ := h'
  exact ⟨t * s, ht.mul hs, by push_cast; rw [e', e]; ring⟩

theorem Near.div {c d : ℝ} {u v : ℚ} {x y : ℝ} (h : Near c u x) (h' : Near d v y) : Near (c + d) (u / v) (x / y) := by
  obtain ⟨t, ht, e⟩ := h
  obtain ⟨s, hs, e'⟩ := h'
  exact ⟨t * s⁻¹, ht.mul hs.inv, by push_cast; rw [e', e, mul_div_mul_comm, div_eq_mul_inv t s]⟩

theorem near_self (u : ℚ) : Near 0 u (u : ℝ) := ⟨1, within_zero, by ring⟩

theorem Near.mono {c d : ℝ} {u : ℚ} {x : ℝ} (h : Near c u x) (hcd : c ≤ d) : Near d u x := by
  obtain ⟨t, ht, e⟩ := h
  exact ⟨t, ht.mono hcd, e⟩

/-- Sums of positive numbers each up to a factor. -/
theorem within_sum {c : ℝ} (l : List ℝ) (t : List ℝ) (hl : t.length = l.length) (hp : ∀ x ∈ l, 0 < x) (ht : ∀ x ∈ t, Within c x) :
    Real.exp (-c) * l.sum ≤ (List.zipWith (· * ·) l t).sum ∧ (List.zipWith (· * ·) l t).sum ≤ Real.exp c * l.sum := by
  induction l generalizing t with
  | nil => simp
  | cons a l ih =>
    cases t with
    | nil => simp at hl
    | cons b t =>
      obtain ⟨h1, h2⟩ := ih t (by simpa using hl) (fun x hx => hp x (by simp [hx])) (fun x hx => ht x (by simp [hx]))
      have hb := ht b (by simp)
      have ha := hp a (by simp)
      rw [List.zipWith_cons_cons, List.sum_cons, List.sum_cons, mul_add, mul_add]
      have h3 := mul_le_mul_of_nonneg_left hb.1 ha.le
      have h4 := mul_le_mul_of_nonneg_left hb.2 ha.le
      constructor <;> linarith

theorem near_fsum {c : ℝ} (l : List ℚ) (w : List ℝ) (hne : w ≠ []) (hp : ∀ x ∈ w, 0 < x) (h : List.Forall₂ (Near c) l w) :
    Near (c + l.length * (1 / 2 ^ 52)) (fsum l) w.sum := by
  obtain ⟨s, t, -, h2, h3, h4⟩ := foldl_factor toDouble_rounds l 0
  have hs : 0 < w.sum := by
    cases w with
    | nil => exact absurd rfl hne
    | cons a w =>
      rw [List.sum_cons]
      have := List.sum_nonneg (l := w) (fun x hx => (hp x (by simp [hx])).le)
      have := hp a (by simp)
      linarith
  have key : ∃ q : List ℝ, q.length = w.length ∧ (∀ x ∈ q, Within (c + l.length * (1 / 2 ^ 52)) x) ∧
      List.zipWith (fun (x : ℚ) t => (x : ℝ) * t) l t = List.zipWith (· * ·) w q := by
    clear h4 hs hne hp
    generalize ((l.length : ℕ) : ℝ) * (1 / 2 ^ 52) = d at h3 ⊢
    induction h generalizing t with
    | nil => exact ⟨[], rfl, by simp, by simp⟩
    | @cons a b l w hab _ ih =>
      cases t with
      | nil => simp at h2
      | cons x t =>
        obtain ⟨q, i1, i2, i3⟩ := ih t (by simpa using h2) (fun x hx => h3 x (by simp [hx]))
        obtain ⟨p, hp, e⟩ := hab
        refine ⟨(p * x) :: q, by simp [i1], ?_, ?_⟩
        · intro y hy
          rcases List.mem_cons.1 hy with rfl | hy
          · exact hp.mul (h3 x (by simp))
          · exact i2 y hy
        · rw [List.zipWith_cons_cons, List.zipWith_cons_cons, i3, e, mul_assoc]
  obtain ⟨q, q1, q2, q3⟩ := key
  have hb := within_sum w q q1 hp q2
  refine ⟨(List.zipWith (· * ·) w q).sum / w.sum, ⟨?_, ?_⟩, ?_⟩
  · rw [le_div_iff₀ hs]; exact hb.1
  · rw [div_le_iff₀ hs]; exact hb.2
  · rw [mul_div_cancel₀ _ hs.ne']
    unfold fsum
    rw [h4, q3]
    simp

theorem near_ex {ex : ℚ → ℚ} (he : GoodExp ex) (q : ℚ) : Near (4 * (1 / 2 ^ 52)) (ex q) (Real.exp q) := by
  have hp := Real.exp_pos (q : ℝ)
  refine ⟨(ex q : ℝ) / Real.exp q, ?_, by field_simp⟩
  have e : (4 : ℝ) * (1 / 2 ^ 52) = 2 * (1 / 2 ^ 51) := by norm_num
  rw [e]
  refine within_of_near (by norm_num) ?_
  have e2 : (ex q : ℝ) / Real.exp q - 1 = ((ex q : ℝ) - Real.exp q) / Real.exp q := by field_simp
  rw [e2, abs_div, abs_of_pos hp, div_le_iff₀ hp]
  refine (he q).trans (le_of_eq ?_)
  ring

theorem near_gaussTerm {ex : ℚ → ℚ} (he : GoodExp ex) (fl : ℕ) (k : ℤ) (hfl : 1 ≤ fl) (hk : |k| ≤ fl) :
    Near (130 * (1 / 2 ^ 52)) (gaussTermF ex fl k) (Real.exp (-(1 / 2) * ((k : ℝ) * (6 / (fl : ℝ))) ^ 2)) := by
  unfold gaussTermF
  simp only
  obtain ⟨v, hv⟩ : ∃ v : ℝ, v = 1 / 2 ^ 52 := ⟨_, rfl⟩
  have hv0 : 0 < v := by rw [hv]; positivity
  have h1 : Near v (toDouble (6 / ((fl : ℤ) : ℚ))) (6 / (fl : ℝ)) := by
    have := near_toDouble (near_self (6 / ((fl : ℤ) : ℚ)))
    rw [zero_add, ← hv] at this
    convert this using 1
    push_cast; rfl
  have h2 : Near (2 * v) (toDouble (k * toDouble (6 / ((fl : ℤ) : ℚ)))) ((k : ℝ) * (6 / (fl : ℝ))) := by
    have hk0 := near_self (k : ℚ)
    have := near_toDouble (hk0.mul h1)
    rw [← hv] at this
    have e : 0 + v + v = 2 * v := by ring
    rw [e] at this
    simpa using this
  generalize toDouble (k * toDouble (6 / ((fl : ℤ) : ℚ))) = xq at h2 ⊢
  have hX : |(k : ℝ) * (6 / (fl : ℝ))| ≤ 6 := by
    have hf : (0 : ℝ) < fl := by exact_mod_cast hfl
    have hk' : (|(k : ℝ)|) ≤ fl := by exact_mod_cast hk
    rw [abs_mul, abs_of_pos (by positivity : (0 : ℝ) < 6 / fl), mul_div_assoc', div_le_iff₀ hf]
    linarith
  generalize (k : ℝ) * (6 / (fl : ℝ)) = X at h2 hX ⊢
  have h3 : Near (6 * v) (toDouble (-(1 / 2) * toDouble (xq ^ 2))) (-(1 / 2) * X ^ 2) := by
    have a1 := near_toDouble (h2.mul h2)
    have a2 := near_self (-(1 / 2) : ℚ)
    have a3 := near_toDouble (a2.mul a1)
    rw [← hv] at a3
    have e : 0 + (2 * v + 2 * v + v) + v = 6 * v := by ring
    rw [e] at a3
    convert a3 using 1
    · rw [pow_two]
    · push_cast; ring
  generalize toDouble (-(1 / 2) * toDouble (xq ^ 2)) = a at h3 ⊢
  obtain ⟨t, ht, e⟩ := h3
  have hz : |(-(1 / 2) * X ^ 2)| ≤ 18 := by
    have h6 := abs_le.1 hX
    rw [abs_mul, abs_neg, abs_of_pos (by norm_num : (0 : ℝ) < 1 / 2), abs_of_nonneg (sq_nonneg _)]
    nlinarith
  have hexp : Real.exp (6 * v) - 1 ≤ 7 * v := by
    have hs : |6 * v| ≤ 1 := by rw [abs_of_pos (by positivity), hv]; norm_num
    have := Real.abs_exp_sub_one_sub_id_le hs
    have := (abs_le.1 this).2
    have h36 : (6 * v) ^ 2 ≤ v := by
      rw [hv]; norm_num
    linarith
  have hd : |(a : ℝ) - (-(1 / 2) * X ^ 2)| ≤ 126 * v := by
    have e2 : (a : ℝ) - (-(1 / 2) * X ^ 2) = (-(1 / 2) * X ^ 2) * (t - 1) := by rw [e]; ring
    rw [e2, abs_mul]
    have := ht.abs_sub_one
    calc |(-(1 / 2) * X ^ 2)| * |t - 1| ≤ 18 * (7 * v) := mul_le_mul hz (this.trans hexp) (abs_nonneg _) (by norm_num)
      _ = 126 * v := by ring
  obtain ⟨s, hs, e3⟩ := near_ex he a
  rw [← hv] at hs ⊢
  refine ⟨Real.exp (a - (-(1 / 2) * X ^ 2)) * s, ?_, ?_⟩
  · have h5 : Within (126 * v) (Real.exp (a - (-(1 / 2) * X ^ 2))) :=
      ⟨Real.exp_le_exp.2 (abs_le.1 hd).1, Real.exp_le_exp.2 (abs_le.1 hd).2⟩
    refine (h5.mul hs).mono (le_of_eq (by ring))
  · rw [e3, ← mul_assoc, ← Real.exp_add]
    congr 2
    ring


/-- The coefficients in double precision are the exact ones, each up to a factor. -/
theorem near_coeffs {ex : ℚ → ℚ} (he : GoodExp ex) (fl : ℕ) (hfl : 1 ≤ fl) :
    ∃ (c : List ℚ) (w : List ℝ), gaussianCoeffsF ex fl = .ok c ∧ gaussianCoeffs fl = .ok w ∧ c.length = 2 * (fl / 2) + 1 ∧
      List.Forall₂ (Near ((fl + 262) * (1 / 2 ^ 52))) c w := by
  have h0 : ¬((fl : ℤ) = 0) := by omega
  have h1 : ¬((fl : ℤ) / 2 + 1 < 0) := by omega
  unfold gaussianCoeffsF gaussianCoeffs
  simp only [if_neg h0, if_neg h1]
  have hlen : ((fl : ℤ) / 2 + 1).toNat = fl / 2 + 1 := by omega
  rw [hlen]
  obtain ⟨v, hv⟩ : ∃ v : ℝ, v = 1 / 2 ^ 52 := ⟨_, rfl⟩
  have hv0 : 0 < v := by rw [hv]; positivity
  have hall : List.Forall₂ (fun (u : ℚ) (x : ℝ) => Near (130 * v) u x ∧ 0 < x)
      ((List.range (fl / 2 + 1)).map fun (m : ℕ) => gaussTermF ex fl ((fl : ℤ) / 2 - ((fl : ℤ) / 2 + 1 - m)))
      ((List.range (fl / 2 + 1)).map fun (m : ℕ) =>
        Real.exp (-(1 / 2) * ((((fl : ℤ) / 2 - ((fl : ℤ) / 2 + 1 - m) : ℤ) : ℝ) * (6 / (((fl : ℤ)) : ℝ))) ^ 2)) := by
    rw [List.forall₂_map_left_iff, List.forall₂_map_right_iff, List.forall₂_same]
    intro m hm
    rw [List.mem_range] at hm
    have := near_gaussTerm he fl ((fl : ℤ) / 2 - ((fl : ℤ) / 2 + 1 - m)) hfl (by rw [abs_le]; omega)
    rw [← hv] at this
    exact ⟨this, Real.exp_pos _⟩
  revert hall
  generalize hA : ((List.range (fl / 2 + 1)).map fun (m : ℕ) => gaussTermF ex fl ((fl : ℤ) / 2 - ((fl : ℤ) / 2 + 1 - m))) = A
  generalize ((List.range (fl / 2 + 1)).map fun (m : ℕ) =>
        Real.exp (-(1 / 2) * ((((fl : ℤ) / 2 - ((fl : ℤ) / 2 + 1 - m) : ℤ) : ℝ) * (6 / (((fl : ℤ)) : ℝ))) ^ 2)) = B
  intro hall
  have hAl : A.length = fl / 2 + 1 := by rw [← hA]; simp
  cases hall with
  | nil => simp at hAl
  | @cons a b as bs hab hs =>
    simp only
    have hr : List.Forall₂ (fun (u : ℚ) (x : ℝ) => Near (130 * v) u x ∧ 0 < x) (as.reverse ++ [a] ++ as) (bs.reverse ++ [b] ++ bs) :=
      List.rel_append (List.rel_append (List.rel_reverse hs) (.cons hab .nil)) hs
    have hrl : (as.reverse ++ [a] ++ as).length = 2 * (fl / 2) + 1 := by
      simp only [List.length_cons] at hAl
      simp only [List.length_append, List.length_reverse, List.length_cons, List.length_nil]
      omega
    have hne : bs.reverse ++ [b] ++ bs ≠ [] := by simp
    generalize as.reverse ++ [a] ++ as = R at hr hrl ⊢
    generalize bs.reverse ++ [b] ++ bs = S at hr hne ⊢
    refine ⟨_, _, rfl, rfl, by rw [List.length_map]; exact hrl, ?_⟩
    have hpos : ∀ x ∈ S, 0 < x := by
      intro x hx
      obtain ⟨i, hi, rfl⟩ := List.mem_iff_getElem.1 hx
      have hl := hr.length_eq
      exact ((List.forall₂_iff_get.1 hr).2 i (by omega) hi).2
    have hsum := near_fsum R S hne hpos (hr.imp (fun _ _ h => h.1))
    rw [← hv] at hsum ⊢
    rw [List.forall₂_map_left_iff, List.forall₂_map_right_iff]
    refine hr.imp ?_
    rintro u x ⟨hu, -⟩
    have := near_toDouble (hu.div hsum)
    rw [← hv] at this
    refine this.mono ?_
    rw [hrl]
    have : (((2 * (fl / 2) + 1 : ℕ)) : ℝ) ≤ fl + 1 := by
      have : 2 * (fl / 2) + 1 ≤ fl + 1 := by omega
      exact_mod_cast this
    nlinarith

/-- One output sample. -/
theorem dot_error {c : ℝ} (hc : 0 ≤ c) (co buf : List ℚ) (w : List ℝ) (M : ℝ) (hco : List.Forall₂ (Near c) co w) (hl : buf.length = co.length)
    (hw : ∀ x ∈ w, 0 < x) (hb : ∀ x ∈ buf, |(x : ℝ)| ≤ M) :
    |(fsum (List.zipWith (fun a b => toDouble (a * b)) buf co) : ℝ) - (List.zipWith (· * ·) (buf.map (fun q : ℚ => (q : ℝ))) w).sum|
      ≤ (Real.exp (c + (co.length + 1) * (1 / 2 ^ 52)) - 1) * M * w.sum := by
  obtain ⟨s, t, -, h2, h3, h4⟩ := foldl_factor toDouble_rounds (List.zipWith (fun a b => toDouble (a * b)) buf co) 0
  have hzl : (List.zipWith (fun a b => toDouble (a * b)) buf co).length = co.length := by simp [hl]
  rw [hzl] at h2 h3
  unfold fsum
  rw [h4, Rat.cast_zero, zero_mul, zero_add]
  clear h4
  obtain ⟨d, hd⟩ : ∃ d : ℝ, d = (co.length : ℝ) * (1 / 2 ^ 52) := ⟨_, rfl⟩
  have e : c + ((co.length : ℝ) + 1) * (1 / 2 ^ 52) = c + 1 / 2 ^ 52 + d := by rw [hd]; ring
  rw [e]
  rw [← hd] at h3
  clear hd e hzl
  induction hco generalizing buf t with
  | nil => simp at hl; subst hl; simp
  | @cons a b co w hab _ ih =>
    cases buf with
    | nil => simp at hl
    | cons x buf =>
      cases t with
      | nil => simp at h2
      | cons p t =>
        have ih' := ih buf (by simpa using hl) (fun x hx => hw x (by simp [hx])) (fun x hx => hb x (by simp [hx])) t
          (by simpa using h2) (fun x hx => h3 x (by simp [hx]))
        simp only [List.zipWith_cons_cons, List.sum_cons, List.map_cons]
        have hprod := near_toDouble ((near_self x).mul hab)
        rw [zero_add] at hprod
        obtain ⟨q, hq, e⟩ := hprod
        have hqp := hq.mul (h3 p (by simp))
        rw [e]
        have hb' := hw b (by simp)
        have hx := hb x (by simp)
        have hone := hqp.abs_sub_one
        have hterm : |(x : ℝ) * b * q * p - x * b| ≤ (Real.exp (c + 1 / 2 ^ 52 + d) - 1) * M * b := by
          have e2 : (x : ℝ) * b * q * p - x * b = x * b * (q * p - 1) := by ring
          rw [e2, abs_mul, abs_mul, abs_of_pos hb']
          have := mul_le_mul hone hx (abs_nonneg _) ((abs_nonneg _).trans hone)
          have := mul_le_mul_of_nonneg_right this hb'.le
          linarith
        have e3 : ∀ A B C D : ℝ, A + B - (C + D) = (A - C) + (B - D) := by intros; ring
        rw [e3, mul_add]
        exact (abs_add_le _ _).trans (add_le_add hterm ih')

theorem ringLoop_error {c : ℝ} (hc : 0 ≤ c) (co : List ℚ) (w : List ℝ) (M : ℝ) (hco : List.Forall₂ (Near c) co w) (hne : w ≠ [])
    (hw : ∀ x ∈ w, 0 < x) (x : List ℚ) : ∀ buf : List ℚ, buf.length = co.length → (∀ q ∈ buf, |(q : ℝ)| ≤ M) → (∀ q ∈ x, |(q : ℝ)| ≤ M) →
      List.Forall₂ (fun (u : ℚ) (y : ℝ) => |(u : ℝ) - y| ≤ (Real.exp (c + (co.length + 1) * (1 / 2 ^ 52)) - 1) * M * w.sum)
        (ringLoopF co buf x) (ringLoop w (buf.map (fun q : ℚ => (q : ℝ))) (x.map (fun q : ℚ => (q : ℝ)))) := by
  have hcl : 0 < co.length := by
    rw [hco.length_eq]; exact List.length_pos_of_ne_nil hne
  induction x with
  | nil => intro buf _ _ _; exact .nil
  | cons a x ih =>
    intro buf hl hb hx
    rw [List.map_cons, ringLoopF, ringLoop]
    have e : (buf.map (fun q : ℚ => (q : ℝ))).tail ++ [(a : ℝ)] = (buf.tail ++ [a]).map (fun q : ℚ => (q : ℝ)) := by
      rw [List.map_append, List.map_tail]; rfl
    rw [e]
    have hl' : (buf.tail ++ [a]).length = co.length := by simp; omega
    have hb' : ∀ q ∈ buf.tail ++ [a], |(q : ℝ)| ≤ M := by
      intro q hq
      rcases List.mem_append.1 hq with h | h
      · exact hb q (List.mem_of_mem_tail h)
      · rw [List.mem_singleton.1 h]; exact hx a (by simp)
    exact .cons (dot_error hc co _ w M hco hl' hw hb') (ih _ hl' hb' (fun q hq => hx q (by simp [hq])))

end Shipgrav
