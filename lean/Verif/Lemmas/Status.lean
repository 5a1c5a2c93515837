import Verif.Model.Status
import Verif.Spec.Status
import Mathlib.Data.Nat.Digits.Lemmas
import Mathlib.Data.Nat.Size
import Mathlib.Tactic.Ring

namespace Shipgrav
open Spec

theorem binDigits_length (n : ℕ) (h : n ≠ 0) : (binDigits n).length = Nat.log 2 n + 1 := by
  unfold binDigits
  rw [if_neg h]
  simp [Nat.digits_len 2 n (by norm_num) h]

theorem bitChar_eq (n b : ℕ) : bitChar n b = if n / 2 ^ b % 2 = 1 then '1' else '0' := by
  unfold bitChar
  rw [Nat.testBit_eq_decide_div_mod_eq]
  simp

theorem binDigits_get (n k : ℕ) (h : n ≠ 0) (hk : k ≤ Nat.log 2 n) :
    (binDigits n)[k]? = some (bitChar n (Nat.log 2 n - k)) := by
  have hl := binDigits_length n h
  have hk' : k < (binDigits n).length := by omega
  rw [List.getElem?_eq_getElem hk']
  congr 1
  have hd : (Nat.digits 2 n).length = Nat.log 2 n + 1 := Nat.digits_len 2 n (by norm_num) h
  have : ∀ (h' : k < (((Nat.digits 2 n).map (fun d => if d = 1 then '1' else '0')).reverse).length),
      (((Nat.digits 2 n).map (fun d => if d = 1 then '1' else '0')).reverse)[k] = bitChar n (Nat.log 2 n - k) := by
    intro h'
    rw [List.getElem_reverse, List.getElem_map]
    have hidx : ((Nat.digits 2 n).map (fun d => if d = 1 then '1' else '0')).length - 1 - k = Nat.log 2 n - k := by
      simp [hd]
    have hg := Nat.getD_digits n (Nat.log 2 n - k) (b := 2) (by norm_num)
    rw [List.getD_eq_getElem _ _ (by omega)] at hg
    simp only [hidx]
    rw [hg, bitChar_eq]
  simp only [binDigits, if_neg h]
  exact this _

theorem testBit_eq_false_of_log (n b : ℕ) (h : n ≠ 0) (hb : Nat.log 2 n < b) : n.testBit b = false := by
  apply Nat.testBit_lt_two_pow
  exact Nat.lt_of_lt_of_le (Nat.lt_pow_succ_log_self (by norm_num) n) (Nat.pow_le_pow_right (by norm_num) hb)

/-- Character `k` of the zero-padded digits, for words below `2^w`. -/
theorem zfill_get (w n k : ℕ) (hn : n < 2 ^ w) (hk : k < w) :
    (zfill w (binDigits n))[k]? = some (bitChar n (w - 1 - k)) := by
  unfold zfill
  by_cases h0 : n = 0
  · subst h0
    have hb : binDigits 0 = ['0'] := rfl
    have hbc : bitChar 0 (w - 1 - k) = '0' := by simp [bitChar]
    rw [hb, hbc]
    simp only [List.length_singleton]
    by_cases hlast : k < w - 1
    · rw [List.getElem?_append_left (by simpa using hlast), List.getElem?_replicate_of_lt hlast]
    · rw [List.getElem?_append_right (by simp; omega)]
      have : k - (List.replicate (w - 1) '0').length = 0 := by simp; omega
      rw [this]; rfl
  · have hl := binDigits_length n h0
    have hlog : Nat.log 2 n < w := Nat.log_lt_of_lt_pow h0 hn
    by_cases hlead : k < w - (Nat.log 2 n + 1)
    · rw [List.getElem?_append_left (by simp [hl]; omega), hl, List.getElem?_replicate_of_lt hlead]
      have : n.testBit (w - 1 - k) = false := testBit_eq_false_of_log n _ h0 (by omega)
      simp [bitChar, this]
    · rw [List.getElem?_append_right (by simp [hl]; omega), List.length_replicate, hl,
        binDigits_get n _ h0 (by omega)]
      congr 2
      omega

theorem zfill_get_big (w n k : ℕ) (hn : 2 ^ w ≤ n) (hk : k < w) :
    (zfill w (binDigits n))[k]? = some (bitChar n (Nat.log 2 n - k)) := by
  have h0 : n ≠ 0 := by have := Nat.two_pow_pos w; omega
  have hlog : w ≤ Nat.log 2 n := Nat.le_log_of_pow_le (by norm_num) hn
  have hl := binDigits_length n h0
  unfold zfill
  rw [hl, show w - (Nat.log 2 n + 1) = 0 by omega]
  simp only [List.replicate_zero, List.nil_append]
  exact binDigits_get n k h0 (by omega)

theorem format016b_length (z : ℤ) : 16 ≤ (format016b z).length := by
  unfold format016b zfill
  cases z <;> simp <;> omega

theorem pickBits_eq (bt : Str) (g : ℕ → Char) : ∀ (fs : List Str) (i : ℕ),
    (∀ k, i ≤ k → k < i + fs.length → bt[k]? = some (g k)) →
    pickBits bt i fs = .ok ((fs.zipIdx i).map (fun p => (p.1, g p.2))) := by
  intro fs
  induction fs with
  | nil => intro i _; rfl
  | cons f fs ih =>
    intro i h
    have h0 := h i le_rfl (by simp)
    unfold pickBits pyGet
    rw [h0, ih (i + 1) (by intro k hk hk'; exact h k (by omega) (by simp; omega))]
    rfl

theorem mapM_ok {α β : Type} (f : α → Except PyErr β) (g : α → β) (l : List α) (h : ∀ a ∈ l, f a = .ok (g a)) :
    l.mapM f = .ok (l.map g) := by
  induction l with
  | nil => rfl
  | cons a l ih =>
    rw [List.mapM_cons, h a (by simp), ih (fun b hb => h b (by simp [hb]))]
    rfl

end Shipgrav

namespace Shipgrav
open Spec

/-- Character `k` of the padded digits. -/
def fchar (z : ℤ) (k : ℕ) : Char := (format016b z).getD k ' '

theorem decodeInt_eq (z : ℤ) : decodeInt z = .ok (flags.zipIdx.map (fun p => (p.1, fchar z p.2))) := by
  unfold decodeInt
  apply pickBits_eq
  intro k _ hk
  have hlen := format016b_length z
  have : k < (format016b z).length := by
    have : flags.length = 16 := rfl
    omega
  rw [List.getElem?_eq_getElem this, fchar, List.getD_eq_getElem _ _ this]

theorem decodeStatus_int (z : ℤ) (key : Str) :
    decodeStatus (.int z) key = .ok (.dict (flags.zipIdx.map (fun p => (p.1, fchar z p.2)))) := by
  show (decodeInt z).map StatOut.dict = _
  rw [decodeInt_eq]; rfl

def flagCol (zs : List ℤ) (p : Str × ℕ) : Col := ⟨p.1, zs.map (fun z => Cell.chr (fchar z p.2))⟩

theorem bts_mapM (zs : List ℤ) (i : ℕ) (hi : i < 16) :
    (zs.map format016b).mapM (fun b => pyGet b i) = .ok (zs.map (fun z => fchar z i)) := by
  rw [mapM_ok _ (fun b => b.getD i ' ')]
  · simp [fchar, Function.comp_def]
  · intro b hb
    obtain ⟨z, _, rfl⟩ := List.mem_map.1 hb
    have : i < (format016b z).length := by have := format016b_length z; omega
    unfold pyGet
    rw [List.getElem?_eq_getElem this, List.getD_eq_getElem _ _ this]

theorem insertFlags_step (zs : List ℤ) (i : ℕ) (hi : i < 16) (f : Str) (fs : List Str) (pre rest : Frame)
    (hp : pre.length = i + 1) (hf : ∀ c ∈ pre ++ rest, c.name ≠ f) :
    insertFlags (zs.map format016b) i (f :: fs) (pre ++ rest)
      = insertFlags (zs.map format016b) (i + 1) fs ((pre ++ [flagCol zs (f, i)]) ++ rest) := by
  rw [insertFlags, bts_mapM zs i hi]
  have h1 : (pre ++ rest).any (fun c => c.name == f) = false := by
    rw [List.any_eq_false]
    intro c hc
    simpa using hf c hc
  have h2 : ¬ (pre ++ rest).length < i + 1 := by simp; omega
  simp only [insertCol, h1, h2, if_false, Bool.false_eq_true]
  congr 1
  rw [← hp]
  have hins : ∀ (l : Frame) (c : Col), (l ++ rest).insertIdx l.length c = l ++ c :: rest := by
    intro l c
    induction l with
    | nil => simp
    | cons a l ih => simp [ih]
  rw [hins]
  simp [flagCol, Function.comp_def]

theorem insertFlags_ok (zs : List ℤ) : ∀ (fs : List Str) (i : ℕ) (pre rest : Frame), i + fs.length ≤ 16 →
    pre.length = i + 1 → fs.Nodup → (∀ c ∈ pre ++ rest, c.name ∉ fs) →
    ∀ gs, insertFlags (zs.map format016b) i (fs ++ gs) (pre ++ rest)
      = insertFlags (zs.map format016b) (i + fs.length) gs (pre ++ (fs.zipIdx i).map (flagCol zs) ++ rest) := by
  intro fs
  induction fs with
  | nil => intro i pre rest _ _ _ _ gs; simp
  | cons f fs ih =>
    intro i pre rest hi hp hnd hn gs
    rw [List.cons_append, insertFlags_step zs i (by simp at hi; omega) f _ pre rest hp
      (fun c hc h => hn c hc (by simp [h]))]
    rw [ih (i + 1) (pre ++ [flagCol zs (f, i)]) rest (by simp at hi; omega) (by simp [hp]) (List.nodup_cons.1 hnd).2]
    · rw [show i + 1 + fs.length = i + (f :: fs).length by simp; omega]
      simp [List.zipIdx_cons]
    · intro c hc hmem
      rcases List.mem_append.1 hc with hc | hc
      · rcases List.mem_append.1 hc with hc | hc
        · exact hn c (by simp [hc]) (by simp [hmem])
        · simp only [List.mem_singleton] at hc
          subst hc
          exact (List.nodup_cons.1 hnd).1 hmem
      · exact hn c (by simp [hc]) (by simp [hmem])

end Shipgrav
