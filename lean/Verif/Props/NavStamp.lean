import Verif.Lemmas.FloatTime
import Verif.Spec.NavStamp
import Verif.Props.NavDate

/-! Properties C86 and C87: timestamps taken from one complete stamp on the line (Langseth, Ride, Sikuliaq). -/

namespace Shipgrav
open Spec

private theorem allDigits (k n : ℕ) : (zpad k n).all isDigit = true := by
  rw [List.all_eq_true]; exact zpad_digits k n

private theorem field_ok (hi n : ℕ) (h : n ≤ hi) (h' : n < 100) : strptimeField hi (zpad 2 n) = some n := by
  unfold strptimeField
  rw [if_pos, runVal_zpad_lt 2 n (by simpa using h')]
  refine ⟨Or.inr (zpad_length _ _), allDigits _ _, ?_⟩
  rw [runVal_zpad_lt 2 n (by simpa using h')]
  exact h

theorem strptime_stamp (y m d h mi s k f : ℕ) (hd : ValidDate y m d) (hh : h < 24) (hmi : mi < 60) (hs : s < 60)
    (hk : 1 ≤ k) (hk6 : k ≤ 6) (hf : f < 10 ^ k) :
    strptimeJulian (julianStamp y (dayOfYear y m d) h mi s k f)
      = .ok (utcInstant y m d h mi s ((f * 10 ^ (6 - k) : ℕ) : ℤ)) := by
  have hb : y < 10000 := by have := hd.2.1; omega
  have hdoy1 : 1 ≤ dayOfYear y m d := by unfold dayOfYear; have := hd.2.2.2.2.1; omega
  have hdoy : dayOfYear y m d ≤ 366 := by
    obtain ⟨_, _, a3, a4, _, a6⟩ := hd
    have hl := lastDay y m d a3 a4 (by rw [daysInMonth_eq]; exact a6)
    unfold dayOfYear
    rw [← daysBeforeMonth_eq_sum _ m a3 a4]
    split at hl <;> omega
  have nc : ∀ k n, ':' ∉ zpad k n := fun k n => digits_notMem (zpad_digits k n) (by decide)
  have np : ∀ k n, '.' ∉ zpad k n := fun k n => digits_notMem (zpad_digits k n) (by decide)
  have hus : f * 10 ^ (6 - k) < 1000000 := by
    calc f * 10 ^ (6 - k) < 10 ^ k * 10 ^ (6 - k) := Nat.mul_lt_mul_of_pos_right hf (by positivity)
      _ = 1000000 := by rw [← pow_add, Nat.add_sub_cancel' hk6]; norm_num
  unfold strptimeJulian julianStamp
  rw [splitC_append _ _ _ (nc _ _), splitC_append _ _ _ (nc _ _), splitC_append _ _ _ (nc _ _),
    splitC_append _ _ _ (nc _ _), splitC_notMem]
  · simp only
    rw [splitC_append _ _ _ (np _ _), splitC_notMem _ _ (np _ _)]
    simp only
    rw [if_pos]
    · rw [field_ok 23 h (by omega) (by omega), field_ok 59 mi (by omega) (by omega), field_ok 61 s (by omega) (by omega)]
      simp only
      rw [runVal_zpad_lt 4 y hb, runVal_zpad_lt 3 _ (by norm_num; omega), runVal_zpad_lt k f hf, zpad_length,
        C35_day_of_year_agrees _ _ _ _ _ _ _ hd, C35_utc_instant, if_pos]
      refine ⟨hd, ?_⟩
      unfold ValidTime
      refine ⟨by omega, by omega, by omega, by omega, by omega, by omega, by omega, ?_⟩
      exact_mod_cast hus
    · simp only [zpad_length, allDigits]
      rw [runVal_zpad_lt 3 _ (by norm_num; omega)]
      exact ⟨trivial, trivial, by omega, by omega, trivial, hdoy1, hdoy, hk, hk6, trivial⟩
  · intro hm
    rcases List.mem_append.1 hm with hm | hm
    · exact nc _ _ hm
    · rcases List.mem_cons.1 hm with hm | hm
      · exact absurd hm (by decide)
      · exact nc _ _ hm

/-- **C86.** A Langseth fix has the instant its logger wrote between the first pair of tabs after `seapath`, with one to
six decimals of a second, whatever the clock inside the sentence says. -/
theorem C86_langseth_stamp (a b0 b talker : Str) (fields : List Str) (y m d h mi s k f : ℕ) (hd : ValidDate y m d)
    (hh : h < 24) (hmi : mi < 60) (hs : s < 60) (hk : 1 ≤ k) (hk6 : k ≤ 6) (hf : f < 10 ^ k)
    (ha : ¬ "seapath".toList <:+: a ++ "seapat".toList) (hb0 : '\t' ∉ b0)
    (hrest : ¬ "seapath".toList <:+: b0 ++ '\t' :: (julianStamp y (dayOfYear y m d) h mi s k f ++ '\t' :: b))
    (hwf : WellFormed (a ++ "seapath".toList ++ (b0 ++ '\t' :: (julianStamp y (dayOfYear y m d) h mi s k f ++ '\t' :: b)))
      talker fields) :
    navdateLangseth [ggaLine (a ++ "seapath".toList ++
        (b0 ++ '\t' :: (julianStamp y (dayOfYear y m d) h mi s k f ++ '\t' :: b))) talker fields] talker
      = .ok [some (utcInstant y m d h mi s ((f * 10 ^ (6 - k) : ℕ) : ℤ))] := by
  have hst := strptime_stamp y m d h mi s k f hd hh hmi hs hk hk6 hf
  have htab : '\t' ∉ julianStamp y (dayOfYear y m d) h mi s k f := by
    have nt : ∀ k n, '\t' ∉ zpad k n := fun k n => digits_notMem (zpad_digits k n) (by decide)
    unfold julianStamp
    simp [nt]
  revert hst htab hrest hwf
  generalize julianStamp y (dayOfYear y m d) h mi s k f = st
  intro hrest hwf hst htab
  unfold navdateLangseth
  rw [talkerLines_single (ggaLine_hasSub _ _ _), mapM_single]
  unfold langsethStamp
  rw [ggaLine_split hwf]
  have e1 : splitS "seapath".toList (a ++ "seapath".toList ++ (b0 ++ '\t' :: (st ++ '\t' :: b)))
      = [a, b0 ++ '\t' :: (st ++ '\t' :: b)] := by
    rw [splitS_first "seapath".toList a _ (by decide) ha, splitS_none _ _ hrest]
  have e2 : splitC '\t' (b0 ++ '\t' :: (st ++ '\t' :: b)) = b0 :: st :: splitC '\t' b := by
    rw [splitC_append _ _ _ hb0, splitC_append _ _ _ htab]
  show (do
    let tail ← pyGet (splitS "seapath".toList (a ++ "seapath".toList ++ (b0 ++ '\t' :: (st ++ '\t' :: b)))) 1
    let date ← pyGet (splitC '\t' tail) 1
    return some (← strptimeJulian date) : Except PyErr (Option ℤ)).map _ = _
  rw [e1]
  show (do
    let date ← pyGet (splitC '\t' (b0 ++ '\t' :: (st ++ '\t' :: b))) 1
    return some (← strptimeJulian date) : Except PyErr (Option ℤ)).map _ = _
  rw [e2]
  show (do return some (← strptimeJulian st) : Except PyErr (Option ℤ)).map _ = _
  rw [hst]
  rfl

/-- **C86.** One Langseth timestamp per talker line, in order; each depends on its own line only. -/
theorem C86_one_stamp_per_talker_line (allnav : List Str) (talker : Str) (out : List (Option ℤ)) :
    navdateLangseth allnav talker = .ok out ↔
      List.Forall₂ (fun l t => navdateLangseth [l] talker = .ok [t])
        (allnav.filter (fun l => decide (talker <:+: l))) out := by
  have e : talkerLines talker allnav = allnav.filter (fun l => decide (talker <:+: l)) :=
    List.filter_congr (fun l _ => by simp [hasSub])
  unfold navdateLangseth
  rw [mapM_ok_iff, e]
  have hall : ∀ l ∈ allnav.filter (fun l => decide (talker <:+: l)), hasSub talker l = true := by
    intro l hl; simpa [hasSub] using (List.mem_filter.1 hl).2
  have hone : ∀ l, hasSub talker l = true → ∀ t,
      (langsethStamp talker l = .ok t ↔ (talkerLines talker [l]).mapM (langsethStamp talker) = .ok [t]) := by
    intro l hl t
    rw [talkerLines_single hl, mapM_single]
    cases langsethStamp talker l <;> simp [Except.map]
  revert hall
  generalize allnav.filter (fun l => decide (talker <:+: l)) = ls
  intro hall
  induction ls generalizing out with
  | nil => constructor <;> (intro h; cases h; exact .nil)
  | cons a l ih =>
    have hi := fun o => ih o (fun x hx => hall x (by simp [hx]))
    constructor <;>
    · intro h
      cases h with
      | cons h1 h2 =>
        first
        | exact .cons ((hone a (hall a (by simp)) _).1 h1) ((hi _).1 h2)
        | exact .cons ((hone a (hall a (by simp)) _).2 h1) ((hi _).2 h2)

/-! ### Ride and Sikuliaq -/

private theorem posix_find (talker rest : Str) (i k f : ℕ) :
    findPosix (" $".toList ++ talker) (posixStamp i k f ++ (" $".toList ++ talker ++ rest)) = some (posixStamp i k f) := by
  obtain ⟨c, t, hc, hcd⟩ := (natStr_Digits i).head
  have hd : ∀ c ∈ natStr i, isDigit c = true := (natStr_Digits i).2
  have key : matchPosix (" $".toList ++ talker) (posixStamp i k f ++ (" $".toList ++ talker ++ rest)) = some (posixStamp i k f) := by
    have e : posixStamp i k f ++ (" $".toList ++ talker ++ rest)
        = natStr i ++ ('.' :: (zpad k f ++ (' ' :: ('$' :: (talker ++ rest))))) := by simp [posixStamp]
    have t1 : (natStr i ++ ('.' :: (zpad k f ++ (' ' :: ('$' :: (talker ++ rest)))))).takeWhile isDigit = natStr i := by
      rw [List.takeWhile_append_of_pos hd]
      simp [List.takeWhile_cons, show isDigit '.' = false by decide]
    have d1 : (natStr i ++ ('.' :: (zpad k f ++ (' ' :: ('$' :: (talker ++ rest)))))).dropWhile isDigit
        = '.' :: (zpad k f ++ (' ' :: ('$' :: (talker ++ rest)))) := by
      rw [List.dropWhile_append_of_pos hd]
      simp [List.dropWhile_cons, show isDigit '.' = false by decide]
    have t2 : (zpad k f ++ (' ' :: ('$' :: (talker ++ rest)))).takeWhile isDigit = zpad k f := by
      rw [List.takeWhile_append_of_pos (zpad_digits k f)]
      simp [List.takeWhile_cons, show isDigit ' ' = false by decide]
    have d2 : (zpad k f ++ (' ' :: ('$' :: (talker ++ rest)))).dropWhile isDigit = ' ' :: ('$' :: (talker ++ rest)) := by
      rw [List.dropWhile_append_of_pos (zpad_digits k f)]
      simp [List.dropWhile_cons, show isDigit ' ' = false by decide]
    rw [e]
    unfold matchPosix
    simp only [t1, d1]
    rw [if_neg (natStr_Digits i).1, t2, d2, if_pos]
    · rfl
    · rw [List.isPrefixOf_iff_prefix]
      exact ⟨rest, by simp⟩
  have e2 : posixStamp i k f ++ (" $".toList ++ talker ++ rest)
      = c :: (t ++ ('.' :: zpad k f) ++ (" $".toList ++ talker ++ rest)) := by
    simp [posixStamp, hc]
  rw [e2] at key ⊢
  rw [findPosix, key]

private theorem no_tail (talker q X : Str) (hq : q ≠ []) (h : '$' ∉ q) (hX : X.head? ≠ some '$') : (" $".toList ++ talker).isPrefixOf (q ++ X) = false := by
  rw [Bool.eq_false_iff]
  intro hp
  rw [List.isPrefixOf_iff_prefix] at hp
  obtain ⟨t, ht⟩ := hp
  match q, hq with
  | [a], _ =>
    have : (' ' : Char) :: '$' :: (talker ++ t) = a :: X := by simpa using ht
    injection this with _ h2
    rw [← h2] at hX
    exact hX rfl
  | a :: b :: q, _ =>
    have : (' ' : Char) :: '$' :: (talker ++ t) = a :: b :: (q ++ X) := by simpa using ht
    injection this with _ h2
    injection h2 with h3 _
    exact h (by rw [← h3]; simp)

private theorem dropWhile_last {p : Char → Bool} (l X : Str) (hl : ∃ c ∈ l.getLast?, p c = false) :
    l.dropWhile p ≠ [] ∧ (l ++ X).dropWhile p = l.dropWhile p ++ X ∧ (∃ c ∈ (l.dropWhile p).getLast?, c ∈ l.getLast?) := by
  obtain ⟨c, hc, hp⟩ := hl
  have hmem : c ∈ l := List.mem_of_getLast? hc
  have hne : l.dropWhile p ≠ [] := by
    intro h0
    rw [List.dropWhile_eq_nil_iff] at h0
    have := h0 c hmem
    rw [hp] at this
    cases this
  refine ⟨hne, ?_, ?_⟩
  · rw [List.dropWhile_append, if_neg (by simpa using hne)]
  · have hs : l.dropWhile p <:+ l := List.dropWhile_suffix p
    obtain ⟨t, ht⟩ := hs
    refine ⟨c, ?_, hc⟩
    rw [← ht, List.getLast?_append] at hc
    cases hg : (l.dropWhile p).getLast? with
    | none => exact absurd (List.getLast?_eq_none_iff.1 hg) hne
    | some d => rw [hg] at hc; exact hc

private theorem matchPosix_pre (talker p X : Str) (hp : p ≠ []) (hd : '$' ∉ p) (hl : ∀ c, p.getLast? = some c → isDigit c = false ∧ c ≠ '.') (hX : X.head? ≠ some '$') :
    matchPosix (" $".toList ++ talker) (p ++ X) = none := by
  obtain ⟨c, hc⟩ : ∃ c, p.getLast? = some c := by
    cases h : p.getLast? with
    | none => exact absurd (List.getLast?_eq_none_iff.1 h) hp
    | some c => exact ⟨c, rfl⟩
  obtain ⟨d1, d2, e, he, he'⟩ := dropWhile_last (p := isDigit) p X ⟨c, hc, (hl c hc).1⟩
  have hsub : ∀ x ∈ p.dropWhile isDigit, x ∈ p := fun x hx => (List.dropWhile_suffix _).subset hx
  unfold matchPosix
  simp only [d2]
  split
  · rfl
  · match hq : p.dropWhile isDigit, d1 with
    | a :: q, _ =>
      rw [hq] at hsub he
      by_cases ha : a = '.'
      · subst ha
        have hq0 : q ≠ [] := by
          rintro rfl
          simp only [List.getLast?_singleton, Option.mem_def, Option.some.injEq] at he
          exact (hl e he').2 he.symm
        have hlast : q.getLast? = some e := by
          obtain ⟨b, t, rfl⟩ := List.exists_cons_of_ne_nil hq0
          simpa using he
        obtain ⟨f1, f2, -⟩ := dropWhile_last (p := isDigit) q X ⟨e, hlast, (hl e he').1⟩
        simp only [List.cons_append, f2]
        rw [no_tail talker _ X f1 (fun h => hd (hsub _ (List.mem_cons_of_mem _ ((List.dropWhile_suffix _).subset h)))) hX]
        rfl
      · have := no_tail talker (a :: q) X (by simp) (fun h => hd (hsub _ h)) hX
        rw [List.cons_append] at this ⊢
        split
        · rename_i r2 heq
          injection heq with h1 _
          exact absurd h1 ha
        · rw [this]
          rfl

private theorem findPosix_pre (talker X : Str) (hX : X.head? ≠ some '$') : ∀ (p : Str), '$' ∉ p → (∀ c, p.getLast? = some c → isDigit c = false ∧ c ≠ '.') →
    findPosix (" $".toList ++ talker) (p ++ X) = findPosix (" $".toList ++ talker) X
  | [], _, _ => rfl
  | a :: p, hd, hl => by
    have h1 := matchPosix_pre talker (a :: p) X (by simp) hd hl hX
    rw [List.cons_append] at h1 ⊢
    rw [findPosix, h1]
    refine findPosix_pre talker X hX p (fun h => hd (by simp [h])) fun c hc => hl c ?_
    cases p with
    | nil => cases hc
    | cons b p => simpa using hc

/-- **C87 (Ride, talker INGGA).** A line with POSIX seconds `i.f…f` before the sentence, whatever else stands before them as long as it has no `$` and does not end in a
digit or a point, gives an instant less than a microsecond away from
them, although they pass through double precision on the way; with at most six decimals it is exact.  (Up to 2^33 seconds, the year 2242.) -/
theorem C87_posix_stamp (pre rest : Str) (i k f : ℕ) (hf : f < 10 ^ k) (hi : i < 2 ^ 33) (hp : '$' ∉ pre) (hl : ∀ c, pre.getLast? = some c → isDigit c = false ∧ c ≠ '.') :
    ∃ t : ℤ, navdateRide [pre ++ (posixStamp i k f ++ (" $".toList ++ "INGGA".toList ++ rest))] "INGGA".toList
        = .ok (.val [some t]) ∧
      |(t : ℚ) - 1000000 * (i + f / 10 ^ k)| < 1 ∧
      (k ≤ 6 → t = i * 1000000 + ((f * 10 ^ (6 - k) : ℕ) : ℤ)) := by
  have hsub : hasSub "INGGA".toList (pre ++ (posixStamp i k f ++ (" $".toList ++ "INGGA".toList ++ rest))) = true := by
    unfold hasSub
    simp only [decide_eq_true_eq]
    exact ⟨pre ++ posixStamp i k f ++ " $".toList, rest, by simp⟩
  have hhead : (posixStamp i k f ++ (" $".toList ++ "INGGA".toList ++ rest)).head? ≠ some '$' := by
    obtain ⟨c, t, hc, hcd⟩ := (natStr_Digits i).head
    simp only [posixStamp, hc, List.cons_append, List.head?_cons, ne_eq, Option.some.injEq]
    rintro rfl
    exact absurd hcd (by decide)
  have hpf : parseFloat (posixStamp i k f) = some (.fin ((i : ℚ) + (f : ℚ) / 10 ^ k)) := by
    have := parseFloat_dec (a := natStr i) (b := zpad k f) (natStr_Digits i).2 (zpad_digits k f) (Or.inl (natStr_Digits i).1)
    rw [runVal_natStr, runVal_zpad_lt k f hf, zpad_length] at this
    exact this
  set q : ℚ := (i : ℚ) + (f : ℚ) / 10 ^ k with hq
  have hqb : |q| ≤ 2 ^ 33 := by
    have h1 : (f : ℚ) / 10 ^ k < 1 := by
      rw [div_lt_one (by positivity)]; exact_mod_cast hf
    have h2 : (i : ℚ) + 1 ≤ 2 ^ 33 := by exact_mod_cast hi
    rw [abs_of_nonneg (by positivity)]
    linarith
  obtain ⟨t, ht, hnear, hexact⟩ := fromTimestampF_near q hqb
  refine ⟨t, ?_, ?_, ?_⟩
  · unfold navdateRide
    rw [talkerLines_single hsub]
    simp only [List.length_singleton, one_ne_zero, if_false]
    rw [mapM_single]
    unfold rideStamp
    rw [if_pos rfl, findPosix_pre _ _ hhead pre hp hl, posix_find]
    simp only [pyFloat, hpf]
    show ((do return some (← fromTimestampF (toDouble q)) : Except PyErr (Option ℤ)).map _).map _ = _
    rw [ht]
    rfl
  · rw [abs_sub_comm]; exact hnear
  · intro hk
    apply hexact
    have h10 : (10 : ℚ) ^ 6 = 10 ^ k * 10 ^ (6 - k) := by rw [← pow_add, Nat.add_sub_cancel' hk]
    have h6 : (1000000 : ℚ) = 10 ^ 6 := by norm_num
    push_cast
    rw [mul_comm, hq, add_mul, h6]
    congr 1
    rw [h10]
    field_simp

private theorem iso_find (y m d h mi s k f : ℕ) (hk : 1 ≤ k) (rest : Str) :
    findIso (isoStamp y m d h mi s k f ++ rest) =
      some (isoDate y m d ++ ('T' :: (zpad 2 h ++ (':' :: (zpad 2 mi ++ (':' :: (zpad 2 s ++ ['.'])))))), zpad k f) := by
  obtain ⟨dg, t, hz, hdg⟩ := (zpad_Digits' k f hk).head
  have hm : matchP isoTimeP (isoStamp y m d h mi s k f ++ rest) =
      some (isoDate y m d ++ ('T' :: (zpad 2 h ++ (':' :: (zpad 2 mi ++ (':' :: (zpad 2 s ++ ['.']))))))) := by
    have e : isoTimeP = digP 4 ++ (litP "-" ++ (digP 2 ++ (litP "-" ++ (digP 2 ++ (litP "T" ++ (digP 2 ++ (litP ":" ++
        (digP 2 ++ (litP ":" ++ (digP 2 ++ (litP "." ++ []))))))))))) := by simp [isoTimeP, isoDateP]
    have e2 : isoStamp y m d h mi s k f ++ rest = zpad 4 y ++ ("-".toList ++ (zpad 2 m ++ ("-".toList ++ (zpad 2 d ++
        ("T".toList ++ (zpad 2 h ++ (":".toList ++ (zpad 2 mi ++ (":".toList ++ (zpad 2 s ++ (".".toList ++
        (zpad k f ++ 'Z' :: rest)))))))))))) := by simp [isoStamp, isoDate]
    rw [e, e2, matchP_digP _ _ _ _ (zpad_length _ _) (zpad_digits _ _), matchP_litP,
      matchP_digP _ _ _ _ (zpad_length _ _) (zpad_digits _ _), matchP_litP,
      matchP_digP _ _ _ _ (zpad_length _ _) (zpad_digits _ _), matchP_litP,
      matchP_digP _ _ _ _ (zpad_length _ _) (zpad_digits _ _), matchP_litP,
      matchP_digP _ _ _ _ (zpad_length _ _) (zpad_digits _ _), matchP_litP,
      matchP_digP _ _ _ _ (zpad_length _ _) (zpad_digits _ _), matchP_litP]
    simp [matchP, isoDate]
  have hdrop : (isoStamp y m d h mi s k f ++ rest).drop isoTimeP.length = dg :: (t ++ 'Z' :: rest) := by
    have e : isoStamp y m d h mi s k f ++ rest =
        (isoDate y m d ++ ('T' :: (zpad 2 h ++ (':' :: (zpad 2 mi ++ (':' :: (zpad 2 s ++ ['.']))))))) ++
          (zpad k f ++ 'Z' :: rest) := by simp [isoStamp]
    rw [e, List.drop_left', hz]
    · rfl
    · have hlen : isoTimeP.length = 20 := by decide
      rw [hlen]
      simp [isoDate, zpad_length]
  have htd : ∀ c ∈ t, isDigit c = true := fun c hc => zpad_digits k f c (by rw [hz]; simp [hc])
  have hp : ∀ c ∈ t, (fun c => decide (c ≠ 'Z' ∧ c ≠ '\n')) c = true := by
    intro c hc
    have h1 := ne_of_isDigit (htd c hc) (show isDigit 'Z' = false by decide)
    have h2 := ne_of_isDigit (htd c hc) (show isDigit '\n' = false by decide)
    simp [h1, h2]
  have key : matchIso (isoStamp y m d h mi s k f ++ rest) =
      some (isoDate y m d ++ ('T' :: (zpad 2 h ++ (':' :: (zpad 2 mi ++ (':' :: (zpad 2 s ++ ['.'])))))), zpad k f) := by
    unfold matchIso
    rw [hm]
    simp only [hdrop]
    rw [if_pos, List.takeWhile_append_of_pos hp, hz]
    · simp [List.takeWhile_cons]
    · refine ⟨hdg, ?_⟩
      rw [List.dropWhile_append_of_pos hp]
      simp [List.dropWhile_cons]
  have hne : ∃ c cs, isoStamp y m d h mi s k f ++ rest = c :: cs := by
    apply List.exists_cons_of_ne_nil
    intro h0
    have := congrArg List.length h0
    simp [isoStamp] at this
  obtain ⟨c, cs, he⟩ := hne
  rw [he] at key ⊢
  rw [findIso, key]

private theorem isoTime_at : isoTimeP[4]? = some (fun c => c == '-') ∧ isoTimeP[10]? = some (fun c => c == 'T') ∧ isoTimeP[13]? = some (fun c => c == ':') ∧
    isoTimeP[19]? = some (fun c => c == '.') := ⟨rfl, rfl, rfl, rfl⟩

private theorem matchIso_some (s : Str) (r : Str × Str) (h : matchIso s = some r) : ∃ m, matchP isoTimeP s = some m := by
  unfold matchIso at h
  cases hm : matchP isoTimeP s with
  | none => rw [hm] at h; cases h
  | some m => exact ⟨m, rfl⟩

private theorem findIso_pre (y m d h mi s k f : ℕ) (rest : Str) : ∀ p : Str, '-' ∉ p →
    findIso (p ++ (isoStamp y m d h mi s k f ++ rest)) = findIso (isoStamp y m d h mi s k f ++ rest)
  | [], _ => rfl
  | a :: p, hp => by
    have h1 : matchIso (a :: (p ++ (isoStamp y m d h mi s k f ++ rest))) = none := by
      cases hm : matchIso (a :: (p ++ (isoStamp y m d h mi s k f ++ rest))) with
      | none => rfl
      | some r =>
        exfalso
        obtain ⟨m', hm'⟩ := matchIso_some _ _ hm
        obtain ⟨c, hc, hcc⟩ := matchP_get _ _ _ hm' 4 _ isoTime_at.1
        have hc' : c = '-' := by simpa using hcc
        subst hc'
        rw [← List.cons_append] at hc
        by_cases hlt : 4 < (a :: p).length
        · rw [List.getElem?_append_left hlt] at hc
          exact hp (List.mem_of_getElem? hc)
        · rw [List.getElem?_append_right (by omega)] at hc
          have e : isoStamp y m d h mi s k f ++ rest = zpad 4 y ++ ('-' :: (zpad 2 m ++ ('-' :: (zpad 2 d ++ ('T' :: (zpad 2 h ++ (':' ::
              (zpad 2 mi ++ (':' :: (zpad 2 s ++ ('.' :: (zpad k f ++ 'Z' :: rest)))))))))))) := by simp [isoStamp, isoDate]
          rw [e, List.getElem?_append_left (by rw [zpad_length]; simp only [List.length_cons]; omega)] at hc
          have := zpad_digits 4 y _ (List.mem_of_getElem? hc)
          exact absurd this (by decide)
    rw [List.cons_append, findIso, h1]
    exact findIso_pre y m d h mi s k f rest p fun hh => hp (by simp [hh])

/-- A line with an ISO stamp that mentions the talker: the microseconds are computed in double precision. -/
theorem iso_stamp_us (pre : Str) (hp : '-' ∉ pre) (y m d h mi s k f : ℕ) (rest : Str) (hd : ValidDate y m d) (hh : h < 24) (hmi : mi < 60) (hs : s < 60)
    (hk : 1 ≤ k) (hf : f < 10 ^ k) (ht : "GPGGA".toList <:+: rest) (hus0 : 0 ≤ isoMicros k f) (hus : isoMicros k f < 1000000) :
    navdateRide [pre ++ (isoStamp y m d h mi s k f ++ rest)] "GPGGA".toList
      = .ok (.val [some (utcInstant y m d h mi s (isoMicros k f))]) := by
  have hsub : hasSub "GPGGA".toList (pre ++ (isoStamp y m d h mi s k f ++ rest)) = true := by
    unfold hasSub
    simp only [decide_eq_true_eq]
    exact (ht.trans (List.suffix_append _ _).isInfix).trans (List.suffix_append _ _).isInfix
  obtain ⟨b1, b2, b3⟩ := validDate_bounds hd
  have hpf : parseFloat ('.' :: zpad k f) = some (.fin ((f : ℚ) / 10 ^ k)) := by
    have := parseFloat_dec (a := []) (b := zpad k f) (by simp) (zpad_digits k f) (Or.inr (zpad_Digits' k f hk).1)
    rw [runVal_zpad_lt k f hf, zpad_length] at this
    rw [List.nil_append] at this
    rw [this]
    simp [runVal]
  have htr : pyTrunc (.fin (toDouble ((f : ℚ) / 10 ^ k))) 1000000 = .ok (isoMicros k f) := rfl
  unfold navdateRide
  rw [talkerLines_single hsub]
  simp only [List.length_singleton, one_ne_zero, if_false]
  rw [mapM_single]
  unfold rideStamp
  rw [if_neg (by decide), if_pos rfl, findIso_pre y m d h mi s k f rest pre hp, iso_find y m d h mi s k f hk]
  simp only [pyFloat, hpf]
  set mm := isoDate y m d ++ ('T' :: (zpad 2 h ++ (':' :: (zpad 2 mi ++ (':' :: (zpad 2 s ++ ['.'])))))) with hmm
  have g1 : slice 0 4 mm = zpad 4 y := by
    have := slice_mid 0 4 [] (zpad 4 y) ('-' :: (zpad 2 m ++ ('-' :: (zpad 2 d ++ ('T' :: (zpad 2 h ++ (':' :: (zpad 2 mi ++ (':' :: (zpad 2 s ++ ['.'])))))))))) rfl (by simp [zpad_length])
    simpa [hmm, isoDate] using this
  have g2 : slice 5 7 mm = zpad 2 m := by
    have := slice_mid 5 7 (zpad 4 y ++ ['-']) (zpad 2 m) ('-' :: (zpad 2 d ++ ('T' :: (zpad 2 h ++ (':' :: (zpad 2 mi ++ (':' :: (zpad 2 s ++ ['.'])))))))) (by simp [zpad_length]) (by simp [zpad_length])
    simpa [hmm, isoDate] using this
  have g3 : slice 8 10 mm = zpad 2 d := by
    have := slice_mid 8 10 (zpad 4 y ++ ('-' :: (zpad 2 m ++ ['-']))) (zpad 2 d) ('T' :: (zpad 2 h ++ (':' :: (zpad 2 mi ++ (':' :: (zpad 2 s ++ ['.'])))))) (by simp [zpad_length]) (by simp [zpad_length])
    simpa [hmm, isoDate] using this
  have g4 : slice 11 13 mm = zpad 2 h := by
    have := slice_mid 11 13 (isoDate y m d ++ ['T']) (zpad 2 h) (':' :: (zpad 2 mi ++ (':' :: (zpad 2 s ++ ['.'])))) (by simp [isoDate, zpad_length]) (by simp [zpad_length])
    simpa [hmm] using this
  have g5 : slice 14 16 mm = zpad 2 mi := by
    have := slice_mid 14 16 (isoDate y m d ++ ('T' :: (zpad 2 h ++ [':']))) (zpad 2 mi) (':' :: (zpad 2 s ++ ['.'])) (by simp [isoDate, zpad_length]) (by simp [zpad_length])
    simpa [hmm] using this
  have g6 : slice 17 19 mm = zpad 2 s := by
    have := slice_mid 17 19 (isoDate y m d ++ ('T' :: (zpad 2 h ++ (':' :: (zpad 2 mi ++ [':']))))) (zpad 2 s) ['.'] (by simp [isoDate, zpad_length]) (by simp [zpad_length])
    simpa [hmm] using this
  show ((do
      let us ← pyTrunc (.fin (toDouble ((f : ℚ) / 10 ^ k))) 1000000
      let t ← mkDatetime (runVal (slice 0 4 mm)) (runVal (slice 5 7 mm)) (runVal (slice 8 10 mm))
        (runVal (slice 11 13 mm)) (runVal (slice 14 16 mm)) (runVal (slice 17 19 mm)) us
      return some t : Except PyErr (Option ℤ)).map _).map _ = _
  rw [htr, g1, g2, g3, g4, g5, g6, runVal_zpad_lt 4 y b1, runVal_zpad_lt 2 m b2, runVal_zpad_lt 2 d b3,
    runVal_zpad_lt 2 h (by norm_num; omega), runVal_zpad_lt 2 mi (by norm_num; omega), runVal_zpad_lt 2 s (by norm_num; omega)]
  show ((do
      let t ← mkDatetime y m d h mi s (isoMicros k f)
      return some t : Except PyErr (Option ℤ)).map _).map _ = _
  rw [C35_utc_instant, if_pos]
  · rfl
  · refine ⟨hd, ?_⟩
    unfold ValidTime
    refine ⟨by omega, by omega, by omega, by omega, by omega, by omega, hus0, hus⟩

/-- **C87 (Ride and Sikuliaq, talker GPGGA), partial.** A line with an ISO stamp of at most nine decimals, no `-` before it and the talker after it gives that
instant, cut to whole microseconds, or, where there is nothing to cut, sometimes one microsecond less.  Missing: the second case does occur (`C87_iso_refuted`), because the
product `float(text)*1e6` can come out below the whole number. -/
theorem C87_iso_stamp_partial (pre : Str) (hp : '-' ∉ pre) (y m d h mi s k f : ℕ) (rest : Str) (hd : ValidDate y m d) (hh : h < 24) (hmi : mi < 60) (hs : s < 60)
    (hk : 1 ≤ k) (hk9 : k ≤ 9) (hf : f < 10 ^ k) (ht : "GPGGA".toList <:+: rest) :
    ∃ us : ℕ, navdateRide [pre ++ (isoStamp y m d h mi s k f ++ rest)] "GPGGA".toList = .ok (.val [some (utcInstant y m d h mi s us)]) ∧
      (us = f * 1000000 / 10 ^ k ∨ 10 ^ k ∣ f * 1000000 ∧ us + 1 = f * 1000000 / 10 ^ k) := by
  have hlt : f * 1000000 / 10 ^ k < 1000000 := by
    rw [Nat.div_lt_iff_lt_mul (by positivity)]
    nlinarith
  have hcases : ∃ us : ℕ, isoMicros k f = us ∧ us < 1000000 ∧
      (us = f * 1000000 / 10 ^ k ∨ 10 ^ k ∣ f * 1000000 ∧ us + 1 = f * 1000000 / 10 ^ k) := by
    rcases isoMicros_near k f hf hk9 with h1 | ⟨h1, h2, h3⟩
    · exact ⟨_, h1, hlt, Or.inl rfl⟩
    · have hpos : 0 < f * 1000000 / 10 ^ k := Nat.div_pos (Nat.le_of_dvd (by positivity) h1) (by positivity)
      exact ⟨f * 1000000 / 10 ^ k - 1, by rw [h3]; omega, by omega, Or.inr ⟨h1, by omega⟩⟩
  obtain ⟨us, e, hl, hc⟩ := hcases
  refine ⟨us, ?_, hc⟩
  rw [iso_stamp_us pre hp y m d h mi s k f rest hd hh hmi hs hk hf ht (by rw [e]; omega) (by rw [e]; exact_mod_cast hl), e]

/-- **C87 (Ride and Sikuliaq, talker GPGGA).** Stamps with at most three decimals come out exactly. -/
theorem C87_iso_milliseconds (pre : Str) (hp : '-' ∉ pre) (y m d h mi s k f : ℕ) (rest : Str) (hd : ValidDate y m d) (hh : h < 24) (hmi : mi < 60) (hs : s < 60)
    (hk : 1 ≤ k) (hk3 : k ≤ 3) (hf : f < 10 ^ k) (ht : "GPGGA".toList <:+: rest) :
    navdateRide [pre ++ (isoStamp y m d h mi s k f ++ rest)] "GPGGA".toList
      = .ok (.val [some (utcInstant y m d h mi s ((f * 10 ^ (6 - k) : ℕ) : ℤ))]) := by
  have e := isoMicros_milli k f hk3 hf
  have hl : f * 10 ^ (6 - k) < 1000000 := by
    have h10 : 10 ^ k * 10 ^ (6 - k) = 1000000 := by rw [← pow_add, Nat.add_sub_cancel' (by omega)]; norm_num
    rw [← h10]
    exact Nat.mul_lt_mul_of_pos_right hf (by positivity)
  rw [iso_stamp_us pre hp y m d h mi s k f rest hd hh hmi hs hk hf ht (by rw [e]; omega) (by rw [e]; exact_mod_cast hl), e]

/-- **C87 (Ride and Sikuliaq, talker GPGGA), refuted.** 47.0157 s become 47.015699 s. -/
theorem C87_iso_refuted :
    navdateRide ["2023-01-20T15:35:47.0157Z $GPGGA,153547.44,3242.434865,N".toList] "GPGGA".toList
      = .ok (.val [some (utcInstant 2023 1 20 15 35 47 15699)]) := by decide +kernel

private theorem findPosix_tail (tail : Str) : ∀ (s m : Str), findPosix tail s = some m → tail <:+: s
  | [], _, h => by cases h
  | c :: cs, m, h => by
    rw [findPosix] at h
    cases hm : matchPosix tail (c :: cs) with
    | none =>
      rw [hm] at h
      exact (findPosix_tail tail cs m h).trans (List.suffix_cons _ _).isInfix
    | some m' =>
      have key : ∀ r : Str, r <:+ (c :: cs) → tail.isPrefixOf r = true → tail <:+: (c :: cs) := fun r hr hp =>
        (List.isPrefixOf_iff_prefix.1 hp).isInfix.trans hr.isInfix
      have hd : (c :: cs).dropWhile isDigit <:+ (c :: cs) := List.dropWhile_suffix _
      unfold matchPosix at hm
      simp only at hm
      split at hm
      · cases hm
      · split at hm
        · rename_i r2 heq
          rw [heq] at hd
          split at hm
          · rename_i hp
            exact key _ ((List.dropWhile_suffix _).trans ((List.suffix_cons _ _).trans hd)) hp
          · cases hm
        · split at hm
          · rename_i hp
            exact key _ hd hp
          · cases hm

private theorem findIso_chars : ∀ (s : Str) (r : Str × Str), findIso s = some r → ∀ c ∈ "-T:.Z".toList, c ∈ s
  | [], _, h => by cases h
  | a :: cs, r, h => by
    rw [findIso] at h
    cases hm : matchIso (a :: cs) with
    | none =>
      rw [hm] at h
      exact fun c hc => List.mem_cons_of_mem _ (findIso_chars cs r h c hc)
    | some r' =>
      obtain ⟨m', hm'⟩ := matchIso_some _ _ hm
      have at' : ∀ (i : ℕ) (x : Char), isoTimeP[i]? = some (fun c => c == x) → x ∈ a :: cs := by
        intro i x hx
        obtain ⟨c, hc, hcc⟩ := matchP_get _ _ _ hm' i _ hx
        have hc' : c = x := by simpa using hcc
        rw [← hc']
        exact List.mem_of_getElem? hc
      have hZ : 'Z' ∈ a :: cs := by
        unfold matchIso at hm
        rw [hm'] at hm
        simp only at hm
        split at hm
        · cases hm
        · rename_i d rr heq
          split at hm
          · rename_i hh
            have h1 : 'Z' ∈ rr.dropWhile (fun c => c ≠ 'Z' ∧ c ≠ '\n') := List.mem_of_head? hh.2
            have h2 : 'Z' ∈ rr := (List.dropWhile_suffix _).subset h1
            have h3 : 'Z' ∈ (a :: cs).drop isoTimeP.length := by rw [heq]; simp [h2]
            exact (List.drop_suffix _ _).subset h3
          · cases hm
      intro c hc
      have hc' : c = '-' ∨ c = 'T' ∨ c = ':' ∨ c = '.' ∨ c = 'Z' := by simpa using hc
      rcases hc' with rfl | rfl | rfl | rfl | rfl
      · exact at' 4 _ isoTime_at.1
      · exact at' 10 _ isoTime_at.2.1
      · exact at' 13 _ isoTime_at.2.2.1
      · exact at' 19 _ isoTime_at.2.2.2
      · exact hZ

/-- **C87.** A line with the talker but without a stamp (for INGGA, with no ` $INGGA`; for GPGGA, lacking a character that every ISO stamp contains) is not
passed over: the call raises `IndexError`. -/
theorem C87_no_stamp (line : Str) :
    ("INGGA".toList <:+: line → ¬ " $INGGA".toList <:+: line → navdateRide [line] "INGGA".toList = .error .indexError) ∧
    ("GPGGA".toList <:+: line → (∃ c ∈ "-T:.Z".toList, c ∉ line) → navdateRide [line] "GPGGA".toList = .error .indexError) := by
  constructor
  · intro h1 h2
    have hsub : hasSub "INGGA".toList line = true := by simpa [hasSub] using h1
    unfold navdateRide
    rw [talkerLines_single hsub]
    simp only [List.length_singleton, one_ne_zero, if_false]
    rw [mapM_single]
    unfold rideStamp
    rw [if_pos rfl]
    cases hf : findPosix (" $".toList ++ "INGGA".toList) line with
    | none => rfl
    | some m => exact absurd (findPosix_tail _ _ _ hf) h2
  · intro h1 h2
    have hsub : hasSub "GPGGA".toList line = true := by simpa [hasSub] using h1
    unfold navdateRide
    rw [talkerLines_single hsub]
    simp only [List.length_singleton, one_ne_zero, if_false]
    rw [mapM_single]
    unfold rideStamp
    rw [if_neg (by decide), if_pos rfl]
    cases hf : findIso line with
    | none => rfl
    | some m =>
      obtain ⟨c, hc, hn⟩ := h2
      exact absurd (findIso_chars _ _ hf c hc) hn

/-- **C87.** Any other talker on these ships yields no timestamp for any of its lines. -/
theorem C87_other_talkers_have_no_stamp (allnav : List Str) (talker : Str) (h1 : talker ≠ "INGGA".toList)
    (h2 : talker ≠ "GPGGA".toList) (h3 : ∃ l ∈ allnav, talker <:+: l) :
    navdateRide allnav talker
      = .ok (.val ((allnav.filter (fun l => decide (talker <:+: l))).map (fun _ => none))) := by
  have e : talkerLines talker allnav = allnav.filter (fun l => decide (talker <:+: l)) :=
    List.filter_congr (fun l _ => by simp [hasSub])
  unfold navdateRide
  rw [e]
  have hne : ¬ (allnav.filter (fun l => decide (talker <:+: l))).length = 0 := by
    rw [List.length_eq_zero_iff, List.filter_eq_nil_iff]
    push Not
    obtain ⟨l, hl, ht⟩ := h3
    exact ⟨l, hl, by simpa using ht⟩
  simp only [hne, if_false]
  have : rideStamp talker = fun _ => .ok none := by
    funext l; unfold rideStamp; rw [if_neg h1, if_neg h2]
  rw [this]
  have key : ∀ ls : List Str, ls.mapM (fun _ => (.ok none : Except PyErr (Option ℤ))) = .ok (ls.map (fun _ => none)) := by
    intro ls
    rw [mapM_ok_iff]
    induction ls with
    | nil => exact .nil
    | cons a l ih => exact .cons rfl ih
  rw [key]
  rfl

/-! ### Lines from the example files -/

-- tests/ex_files: Langseth
example : navdateLangseth ["seapath\t2020:244:00:00:00.6212\t$INGGA,000000.37,5420.890903,N,13237.257959,W,2".toList]
    "INGGA".toList = .ok [some 1598832000621200] := by decide +kernel
example : julianStamp 2020 (dayOfYear 2020 8 31) 0 0 0 4 6212 = "2020:244:00:00:00.6212".toList ∧ ValidDate 2020 8 31 := by
  decide +kernel
-- Ride
example : navdateRide ["1674228947.583 $INGGA,153547.44,3242.434865,N,11714.203305,W,2".toList] "INGGA".toList
    = .ok (.val [some 1674228947583000]) := by decide +kernel
example : navdateRide ["2023-01-20T15:35:47.123456Z $GPGGA,153547.44,3242.434865,N".toList] "GPGGA".toList
    = .ok (.val [some 1674228947123456]) := by decide +kernel
example : isoStamp 2023 1 20 15 35 47 6 123456 = "2023-01-20T15:35:47.123456Z".toList ∧ ValidDate 2023 1 20 ∧
    utcInstant 2023 1 20 15 35 47 123456 = 1674228947123456 := by decide +kernel

-- something before the stamp, and no stamp at all
example : navdateRide ["nav 7: 1674228947.583 $INGGA,153547.44,3242.434865,N,11714.203305,W,2".toList] "INGGA".toList
    = .ok (.val [some 1674228947583000]) := by decide +kernel
example : '$' ∉ "nav 7: ".toList ∧ ∀ c, "nav 7: ".toList.getLast? = some c → isDigit c = false ∧ c ≠ '.' := by
  refine ⟨by decide, fun c hc => ?_⟩
  cases hc
  decide
example : '-' ∉ "gps 12:00, ".toList := by decide
example : ¬ " $INGGA".toList <:+: "1674228947.583\t$INGGA,153547.44".toList ∧ "INGGA".toList <:+: "1674228947.583\t$INGGA,153547.44".toList := by decide
example : 'Z' ∉ "2023-01-20 15:35:47.123456 $GPGGA".toList := by decide

end Shipgrav
