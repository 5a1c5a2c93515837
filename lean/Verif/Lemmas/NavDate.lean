import Verif.Lemmas.NavParse
import Verif.Lemmas.MapM
import Verif.Lemmas.Calendar

namespace Shipgrav
open Spec

/-! ### Fixed-width patterns -/

theorem matchP_digP (k : ℕ) (ps : Pat) (ds rest : Str) (hk : ds.length = k) (hd : ∀ c ∈ ds, isDigit c = true) :
    matchP (digP k ++ ps) (ds ++ rest) = (matchP ps rest).map (ds ++ ·) := by
  subst hk
  induction ds with
  | nil => simp [digP]
  | cons c ds ih =>
    have h1 : digP (c :: ds).length ++ ps = isDigit :: (digP ds.length ++ ps) := rfl
    rw [h1, List.cons_append, matchP, if_pos (hd c (by simp)), ih (fun x hx => hd x (by simp [hx]))]
    cases matchP ps rest <;> rfl

theorem matchP_litP (l : String) (ps : Pat) (rest : Str) :
    matchP (litP l ++ ps) (l.toList ++ rest) = (matchP ps rest).map (l.toList ++ ·) := by
  unfold litP
  induction l.toList with
  | nil => simp
  | cons c l ih =>
    rw [List.map_cons, List.cons_append, List.cons_append, matchP, if_pos (by simp), ih]
    cases matchP ps rest <;> rfl

theorem matchP_get (ps : Pat) : ∀ (s m : Str), matchP ps s = some m → ∀ (i : ℕ) p, ps[i]? = some p →
    ∃ c, s[i]? = some c ∧ p c = true := by
  induction ps with
  | nil => intro s m _ i p hp; simp at hp
  | cons q ps ih =>
    intro s m h i p hp
    cases s with
    | nil => simp [matchP] at h
    | cons c cs =>
      rw [matchP] at h
      split at h
      · rename_i hq
        cases hm : matchP ps cs with
        | none => rw [hm] at h; cases h
        | some m' =>
          cases i with
          | zero => simp at hp; subst hp; exact ⟨c, rfl, hq⟩
          | succ i => exact ih cs m' hm i p (by simpa using hp)
      · cases h

theorem findP_skip (ps : Pat) (a rest : Str)
    (h : ∀ a1 x a2, a = a1 ++ x :: a2 → matchP ps (x :: a2 ++ rest) = none) : findP ps (a ++ rest) = findP ps rest := by
  induction a with
  | nil => rfl
  | cons x a ih =>
    have h0 := h [] x a rfl
    rw [List.cons_append] at h0
    rw [List.cons_append, findP, h0]
    exact ih (fun a1 y a2 e => h (x :: a1) y a2 (by rw [e]; rfl))

theorem findP_here (ps : Pat) (s m : Str) (h : matchP ps s = some m) : findP ps s = some m := by
  cases s with
  | nil => exact h
  | cons c cs => rw [findP, h]

theorem slice_mid (a b : ℕ) (x y z : Str) (hx : x.length = a) (hy : a + y.length = b) : slice a b (x ++ (y ++ z)) = y := by
  unfold slice
  rw [← List.append_assoc, List.take_left' (by simp [hx, hy]), List.drop_left' hx]

theorem slice_end (a b : ℕ) (x y : Str) (hx : x.length = a) (hy : a + y.length = b) : slice a b (x ++ y) = y := by
  have := slice_mid a b x y [] hx hy
  simpa using this

/-! ### The three logger dates -/

theorem atlantis_find (a b : Str) (y m d : ℕ) (ha : ¬ "NAV ".toList <:+: a ++ "NAV".toList) :
    findP (litP "NAV " ++ digP 4 ++ litP "/" ++ digP 2 ++ litP "/" ++ digP 2) (a ++ (atlantisDate y m d ++ b))
      = some (atlantisDate y m d) := by
  rw [findP_skip]
  · apply findP_here
    unfold atlantisDate
    have e : litP "NAV " ++ digP 4 ++ litP "/" ++ digP 2 ++ litP "/" ++ digP 2
        = litP "NAV " ++ (digP 4 ++ (litP "/" ++ (digP 2 ++ (litP "/" ++ (digP 2 ++ []))))) := by simp
    have e2 : "NAV ".toList ++ (zpad 4 y ++ '/' :: (zpad 2 m ++ '/' :: zpad 2 d)) ++ b
        = "NAV ".toList ++ (zpad 4 y ++ ("/".toList ++ (zpad 2 m ++ ("/".toList ++ (zpad 2 d ++ b))))) := by simp
    rw [e, e2, matchP_litP, matchP_digP _ _ _ _ (zpad_length _ _) (zpad_digits _ _), matchP_litP,
      matchP_digP _ _ _ _ (zpad_length _ _) (zpad_digits _ _), matchP_litP,
      matchP_digP _ _ _ _ (zpad_length _ _) (zpad_digits _ _)]
    simp [matchP]
  · intro a1 x a2 ha2
    cases hm : matchP (litP "NAV " ++ digP 4 ++ litP "/" ++ digP 2 ++ litP "/" ++ digP 2)
        (x :: a2 ++ (atlantisDate y m d ++ b)) with
    | none => rfl
    | some v =>
      exfalso
      apply ha
      have g := matchP_get _ _ _ hm
      obtain ⟨c0, h0, p0⟩ := g 0 (fun x => x == 'N') rfl
      obtain ⟨c1, h1, p1⟩ := g 1 (fun x => x == 'A') rfl
      obtain ⟨c2, h2, p2⟩ := g 2 (fun x => x == 'V') rfl
      obtain ⟨c3, h3, p3⟩ := g 3 (fun x => x == ' ') rfl
      simp only [beq_iff_eq] at p0 p1 p2 p3
      subst p0 p1 p2 p3
      have e : x :: a2 ++ (atlantisDate y m d ++ b)
          = (x :: a2 ++ "NAV".toList) ++ (' ' :: (zpad 4 y ++ ('/' :: (zpad 2 m ++ ('/' :: zpad 2 d))) ++ b)) := by
        simp [atlantisDate]
      have hpre : "NAV ".toList <+: x :: a2 ++ (atlantisDate y m d ++ b) := by
        rw [List.prefix_iff_eq_take]
        show _ = List.take 4 _
        apply List.ext_getElem?
        intro i
        rcases i with _ | _ | _ | _ | i
        · rw [List.getElem?_take_of_lt (by omega), h0]; rfl
        · rw [List.getElem?_take_of_lt (by omega), h1]; rfl
        · rw [List.getElem?_take_of_lt (by omega), h2]; rfl
        · rw [List.getElem?_take_of_lt (by omega), h3]; rfl
        · rw [List.getElem?_eq_none (by simp), List.getElem?_eq_none (by simp)]
      rw [e] at hpre
      have h4 : "NAV ".toList <+: x :: a2 ++ "NAV".toList :=
        List.prefix_of_prefix_length_le hpre (List.prefix_append _ _) (by simp)
      have h5 : x :: a2 ++ "NAV".toList <:+ a ++ "NAV".toList := ⟨a1, by rw [ha2]; simp⟩
      exact h4.isInfix.trans h5.isInfix

/-- A pattern whose third character is a literal `sep` cannot match inside or across a prefix without `sep`, when two
digits follow it. -/
theorem skip_sep (ps : Pat) (sep : Char) (hps : ps[2]? = some (fun x => x == sep)) (hsep : isDigit sep = false)
    (a : Str) (ha : sep ∉ a) (k n : ℕ) (rest : Str) (hk : 2 ≤ k) :
    ∀ a1 x a2, a = a1 ++ x :: a2 → matchP ps (x :: a2 ++ (zpad k n ++ rest)) = none := by
  intro a1 x a2 e
  cases hm : matchP ps (x :: a2 ++ (zpad k n ++ rest)) with
  | none => rfl
  | some v =>
    exfalso
    obtain ⟨c, h, p⟩ := matchP_get _ _ _ hm 2 _ hps
    simp only [beq_iff_eq] at p
    subst p
    rcases Nat.lt_or_ge 2 (x :: a2).length with hl | hl
    · rw [List.getElem?_append_left hl] at h
      apply ha
      rw [e]
      exact List.mem_append_right _ (List.mem_of_getElem? h)
    · have hlen : (x :: a2).length = a2.length + 1 := rfl
      rw [List.getElem?_append_right hl, List.getElem?_append_left (by rw [zpad_length]; omega)] at h
      have := zpad_digits k n c (List.mem_of_getElem? h)
      rw [hsep] at this; cases this

theorem thompson_find (a b : Str) (y m d : ℕ) (ha : '/' ∉ a) :
    findP (digP 2 ++ litP "/" ++ digP 2 ++ litP "/" ++ digP 4) (a ++ (thompsonDate y m d ++ b))
      = some (thompsonDate y m d) := by
  have e0 : a ++ (thompsonDate y m d ++ b) = a ++ (zpad 2 m ++ (('/' :: (zpad 2 d ++ ('/' :: zpad 4 y))) ++ b)) := by
    simp [thompsonDate]
  rw [e0, findP_skip _ _ _ (skip_sep _ '/' rfl (by decide) a ha 2 m _ le_rfl)]
  apply findP_here
  unfold thompsonDate
  have e : digP 2 ++ litP "/" ++ digP 2 ++ litP "/" ++ digP 4
      = digP 2 ++ (litP "/" ++ (digP 2 ++ (litP "/" ++ (digP 4 ++ [])))) := by simp
  have e2 : zpad 2 m ++ (('/' :: (zpad 2 d ++ ('/' :: zpad 4 y))) ++ b)
      = zpad 2 m ++ ("/".toList ++ (zpad 2 d ++ ("/".toList ++ (zpad 4 y ++ b)))) := by simp
  rw [e, e2, matchP_digP _ _ _ _ (zpad_length _ _) (zpad_digits _ _), matchP_litP,
    matchP_digP _ _ _ _ (zpad_length _ _) (zpad_digits _ _), matchP_litP,
    matchP_digP _ _ _ _ (zpad_length _ _) (zpad_digits _ _)]
  simp [matchP]

theorem nbp_find (a b : Str) (yy doy : ℕ) (ha : '+' ∉ a) :
    findNBP (a ++ (nbpDate yy doy ++ b)) = some (zpad 2 yy, zpad 3 doy) := by
  have e0 : nbpDate yy doy ++ b = zpad 2 yy ++ (('+' :: (zpad 3 doy ++ [':'])) ++ b) := by simp [nbpDate]
  have s1 := skip_sep (digP 2 ++ litP "+" ++ digP 3 ++ litP ":") '+' rfl (by decide) a ha 2 yy
    (('+' :: (zpad 3 doy ++ [':'])) ++ b) le_rfl
  have s2 := skip_sep (digP 2 ++ litP "+" ++ digP 2 ++ litP ":") '+' rfl (by decide) a ha 2 yy
    (('+' :: (zpad 3 doy ++ [':'])) ++ b) le_rfl
  rw [← e0] at s1 s2
  have hskip : findNBP (a ++ (nbpDate yy doy ++ b)) = findNBP (nbpDate yy doy ++ b) := by
    clear ha
    induction a with
    | nil => rfl
    | cons x a ih =>
      have h1 := s1 [] x a rfl
      have h2 := s2 [] x a rfl
      rw [List.cons_append] at h1 h2
      rw [List.cons_append, findNBP, h1, h2]
      exact ih (fun a1 y a2 e => s1 (x :: a1) y a2 (by rw [e]; rfl)) (fun a1 y a2 e => s2 (x :: a1) y a2 (by rw [e]; rfl))
  rw [hskip]
  have hm : matchP (digP 2 ++ litP "+" ++ digP 3 ++ litP ":") (nbpDate yy doy ++ b) = some (nbpDate yy doy) := by
    have e : digP 2 ++ litP "+" ++ digP 3 ++ litP ":" = digP 2 ++ (litP "+" ++ (digP 3 ++ (litP ":" ++ []))) := by simp
    have e2 : nbpDate yy doy ++ b = zpad 2 yy ++ ("+".toList ++ (zpad 3 doy ++ (":".toList ++ b))) := by simp [nbpDate]
    rw [e, e2, matchP_digP _ _ _ _ (zpad_length _ _) (zpad_digits _ _), matchP_litP,
      matchP_digP _ _ _ _ (zpad_length _ _) (zpad_digits _ _), matchP_litP]
    simp [matchP, nbpDate]
  have hs1 : slice 0 2 (nbpDate yy doy) = zpad 2 yy := by
    have := slice_mid 0 2 [] (zpad 2 yy) ('+' :: (zpad 3 doy ++ [':'])) rfl (by simp [zpad_length])
    simpa [nbpDate] using this
  have hs2 : slice 3 6 (nbpDate yy doy) = zpad 3 doy := by
    have := slice_mid 3 6 (zpad 2 yy ++ ['+']) (zpad 3 doy) [':'] (by simp [zpad_length]) (by simp [zpad_length])
    simpa [nbpDate] using this
  cases hn : nbpDate yy doy ++ b with
  | nil => simp [nbpDate] at hn
  | cons c cs =>
    rw [findNBP, ← hn, hm]
    simp [hs1, hs2]

/-! ### Stamps over a file -/

theorem stampFile (clock : Str → Except PyErr Clock) (stamp : Str → Clock → Except PyErr ℤ) (lines : List Str)
    (out : List (Option ℤ)) :
    (do
      let cs ← lines.mapM clock
      stampLines stamp lines cs) = .ok out ↔
    List.Forall₂ (fun l t => ∃ c u, clock l = .ok c ∧ stamp l c = .ok u ∧ t = some u) lines out := by
  constructor
  · intro h
    cases hc : lines.mapM clock with
    | error e => rw [hc] at h; cases h
    | ok cs =>
      rw [hc] at h
      have h' : stampLines stamp lines cs = .ok out := h
      rw [mapM_ok_iff] at hc
      unfold stampLines at h'
      rw [mapM_ok_iff] at h'
      clear h
      induction hc generalizing out with
      | nil => simp only [List.zip_nil_left] at h'; cases h'; exact .nil
      | cons h1 _ ih =>
        rw [List.zip_cons_cons] at h'
        cases h' with
        | cons h2 h3 =>
          refine .cons ?_ (ih _ h3)
          rename_i a c _ _ _ _ _
          revert h2
          cases hs : stamp a c with
          | error e => intro h2; cases h2
          | ok u => intro h2; cases h2; exact ⟨c, u, h1, hs, rfl⟩
  · intro h
    have : ∃ cs, lines.mapM clock = .ok cs ∧ stampLines stamp lines cs = .ok out := by
      induction h with
      | nil => exact ⟨[], rfl, rfl⟩
      | cons h1 _ ih =>
        obtain ⟨c, u, hc, hs, rfl⟩ := h1
        obtain ⟨cs, e1, e2⟩ := ih
        refine ⟨c :: cs, ?_, ?_⟩
        · rw [List.mapM_cons, hc, e1]; rfl
        · unfold stampLines at e2 ⊢
          rw [List.zip_cons_cons, List.mapM_cons, e2]
          simp only [hs]
          rfl
    obtain ⟨cs, e1, e2⟩ := this
    rw [e1]; exact e2

end Shipgrav
