import Verif.Lemmas.NavDate
import Verif.Spec.NavDate
import Verif.Props.NavParse
import Verif.Props.Calendar

/-! Properties C26, C27, C86, C87: timestamps of fixes. -/

namespace Shipgrav
open Spec

private theorem mk_valid {y m d : ℕ} {h mi s us : ℤ} (hd : ValidDate y m d) (ht : ValidTime h mi s us) :
    mkDatetime y m d h mi s us = .ok (utcInstant y m d h mi s us) := by
  rw [C35_utc_instant, if_pos ⟨hd, ht⟩]

theorem validDate_bounds {y m d : ℕ} (h : ValidDate y m d) : y < 10000 ∧ m < 100 ∧ d < 100 := by
  obtain ⟨a, b, c, e, f, g⟩ := h
  refine ⟨by omega, by omega, ?_⟩
  rw [← daysInMonth_eq] at g
  have : daysInMonth y m ≤ 31 := by
    unfold daysInMonth
    split <;> first | omega | (split <;> omega)
  omega

private theorem clock_faithful {pre talker : Str} {rest : List Str} {h m s us : ℕ} {frac : Str} (hh : h < 100) (hm : m < 100)
    (hs : s < 100) (hf : FaithfulFrac frac us) (hwf : WellFormed pre talker (clockText h m s frac :: rest)) :
    clockLine talker (ggaLine pre talker (clockText h m s frac :: rest)) = .ok ⟨h, m, s, us⟩ := by
  have key : clockTime [ggaLine pre talker (clockText h m s frac :: rest)] talker = .ok [⟨h, m, s, us⟩] := by
    rcases hf with ⟨hf, rfl⟩ | ⟨f, z, rfl, hf, hf10, rfl⟩
    · exact C24_whole_seconds pre talker rest h m s hh hm hs frac hf hwf
    · have := C24_fraction_decoded pre talker rest h m s 2 f z hh hm hs (by norm_num) (by simpa using hf) hf10
        (Or.inr (by omega)) hwf
      rw [this]; push_cast; rfl
  unfold clockTime at key
  rw [talkerLines_single (ggaLine_hasSub _ _ _), mapM_single] at key
  revert key
  cases clockLine talker (ggaLine pre talker (clockText h m s frac :: rest)) with
  | error e => intro h; cases h
  | ok c => intro h; injection h with h; injection h with h; rw [h]

private theorem stamp_single {talker line : Str} {stamp : Str → Clock → Except PyErr ℤ} {c : Clock} {t : ℤ}
    (hl : hasSub talker line = true) (hc : clockLine talker line = .ok c) (hs : stamp line c = .ok t) :
    (do
      let cs ← clockTime [line] talker
      stampLines stamp (talkerLines talker [line]) cs) = .ok [some t] := by
  unfold clockTime
  rw [talkerLines_single hl, stampFile]
  exact .cons ⟨c, t, hc, hs, rfl⟩ .nil

private theorem stamp_single_iff {talker line : Str} {stamp : Str → Clock → Except PyErr ℤ} {t : Option ℤ}
    (hl : hasSub talker line = true) :
    (do
      let cs ← clockTime [line] talker
      stampLines stamp (talkerLines talker [line]) cs) = .ok [t] ↔
    ∃ c u, clockLine talker line = .ok c ∧ stamp line c = .ok u ∧ t = some u := by
  unfold clockTime
  rw [talkerLines_single hl, stampFile]
  constructor
  · intro h; cases h with | cons h1 _ => exact h1
  · intro h; exact .cons h .nil

private theorem stamp_file_iff (stamp : Str → Clock → Except PyErr ℤ) (talker : Str) (allnav : List Str)
    (out : List (Option ℤ)) :
    (do
      let cs ← clockTime allnav talker
      stampLines stamp (talkerLines talker allnav) cs) = .ok out ↔
    List.Forall₂ (fun l t => (do
      let cs ← clockTime [l] talker
      stampLines stamp (talkerLines talker [l]) cs) = .ok [t]) (allnav.filter (fun l => decide (talker <:+: l))) out := by
  have e : talkerLines talker allnav = allnav.filter (fun l => decide (talker <:+: l)) :=
    List.filter_congr (fun l _ => by simp [hasSub])
  have h1 : (do
      let cs ← clockTime allnav talker
      stampLines stamp (talkerLines talker allnav) cs) = .ok out ↔
      List.Forall₂ (fun l t => ∃ c u, clockLine talker l = .ok c ∧ stamp l c = .ok u ∧ t = some u)
        (talkerLines talker allnav) out := by
    unfold clockTime
    exact stampFile _ _ _ _
  rw [h1, e]
  clear h1
  have hall : ∀ l ∈ allnav.filter (fun l => decide (talker <:+: l)), hasSub talker l = true := by
    intro l hl; simpa [hasSub] using (List.mem_filter.1 hl).2
  revert hall
  generalize allnav.filter (fun l => decide (talker <:+: l)) = ls
  intro hall
  induction ls generalizing out with
  | nil => constructor <;> (intro h; cases h; exact .nil)
  | cons a l ih =>
    have hi := fun o => ih o (fun x hx => hall x (by simp [hx]))
    constructor
    · intro h
      cases h with
      | cons h1 h2 => exact .cons ((stamp_single_iff (hall a (by simp))).2 h1) ((hi _).1 h2)
    · intro h
      cases h with
      | cons h1 h2 => exact .cons ((stamp_single_iff (hall a (by simp))).1 h1) ((hi _).2 h2)

/-- **C26 (every ship with a logger date).** A file gives one timestamp per talker line, in order; the timestamp of a line
is the one of a file holding that line alone. -/
theorem C26_one_stamp_per_talker_line (allnav : List Str) (talker : Str) (out : List (Option ℤ)) :
    (navdateAtlantis allnav talker = .ok out ↔
      List.Forall₂ (fun l t => navdateAtlantis [l] talker = .ok [t]) (allnav.filter (fun l => decide (talker <:+: l))) out) ∧
    (navdateNBP allnav talker = .ok out ↔
      List.Forall₂ (fun l t => navdateNBP [l] talker = .ok [t]) (allnav.filter (fun l => decide (talker <:+: l))) out) ∧
    (navdateThompson allnav talker = .ok out ↔
      List.Forall₂ (fun l t => navdateThompson [l] talker = .ok [t]) (allnav.filter (fun l => decide (talker <:+: l))) out) :=
  ⟨stamp_file_iff _ _ _ _, stamp_file_iff _ _ _ _, stamp_file_iff _ _ _ _⟩

/-- **C26 (Atlantis).** Logger date `NAV yyyy/mm/dd` and GGA time of day make the UTC instant of the fix. -/
theorem C26_atlantis (a b talker frac : Str) (rest : List Str) (y m d h mi s us : ℕ) (hd : ValidDate y m d)
    (ht : ValidTime h mi s us) (hf : FaithfulFrac frac us) (ha : ¬ "NAV ".toList <:+: a ++ "NAV".toList)
    (hwf : WellFormed (a ++ (atlantisDate y m d ++ b)) talker (clockText h mi s frac :: rest)) :
    navdateAtlantis [ggaLine (a ++ (atlantisDate y m d ++ b)) talker (clockText h mi s frac :: rest)] talker
      = .ok [some (utcInstant y m d h mi s us)] := by
  have hb := validDate_bounds hd
  unfold navdateAtlantis
  apply stamp_single (ggaLine_hasSub _ _ _)
    (clock_faithful (by have := ht.2.1; omega) (by have := ht.2.2.2.1; omega) (by have := ht.2.2.2.2.2.1; omega) hf hwf)
  unfold atlantisStamp
  rw [ggaLine_split hwf]
  show (do
    let m ← findFirst (litP "NAV " ++ digP 4 ++ litP "/" ++ digP 2 ++ litP "/" ++ digP 2) (a ++ (atlantisDate y m d ++ b))
    mkDatetime (runVal (slice 4 8 m)) (runVal (slice 9 11 m)) (runVal (slice 12 14 m)) _ _ _ _) = _
  unfold findFirst
  rw [atlantis_find a b y m d ha]
  show mkDatetime (runVal (slice 4 8 (atlantisDate y m d))) (runVal (slice 9 11 (atlantisDate y m d)))
    (runVal (slice 12 14 (atlantisDate y m d))) _ _ _ _ = _
  have s1 : slice 4 8 (atlantisDate y m d) = zpad 4 y :=
    slice_mid 4 8 "NAV ".toList (zpad 4 y) _ rfl (by simp [zpad_length])
  have s2 : slice 9 11 (atlantisDate y m d) = zpad 2 m := by
    have := slice_mid 9 11 ("NAV ".toList ++ (zpad 4 y ++ ['/'])) (zpad 2 m) ('/' :: zpad 2 d)
      (by simp [zpad_length]) (by simp [zpad_length])
    simpa [atlantisDate] using this
  have s3 : slice 12 14 (atlantisDate y m d) = zpad 2 d := by
    have := slice_end 12 14 ("NAV ".toList ++ (zpad 4 y ++ ('/' :: (zpad 2 m ++ ['/'])))) (zpad 2 d)
      (by simp [zpad_length]) (by simp [zpad_length])
    simpa [atlantisDate] using this
  rw [s1, s2, s3, runVal_zpad_lt 4 y hb.1, runVal_zpad_lt 2 m hb.2.1, runVal_zpad_lt 2 d hb.2.2]
  exact mk_valid hd ht

/-- **C26 (Thompson).** Logger date `mm/dd/yyyy` and the GGA hour, minute and second; the fraction of the second is
dropped. -/
theorem C26_thompson (a b talker frac : Str) (rest : List Str) (y m d h mi s us : ℕ) (hd : ValidDate y m d)
    (ht : ValidTime h mi s us) (hf : FaithfulFrac frac us) (ha : '/' ∉ a)
    (hwf : WellFormed (a ++ (thompsonDate y m d ++ b)) talker (clockText h mi s frac :: rest)) :
    navdateThompson [ggaLine (a ++ (thompsonDate y m d ++ b)) talker (clockText h mi s frac :: rest)] talker
      = .ok [some (utcInstant y m d h mi s 0)] := by
  have hb := validDate_bounds hd
  unfold navdateThompson
  apply stamp_single (ggaLine_hasSub _ _ _)
    (clock_faithful (by have := ht.2.1; omega) (by have := ht.2.2.2.1; omega) (by have := ht.2.2.2.2.2.1; omega) hf hwf)
  unfold thompsonStamp
  rw [ggaLine_split hwf]
  show (do
    let m ← findFirst (digP 2 ++ litP "/" ++ digP 2 ++ litP "/" ++ digP 4) (a ++ (thompsonDate y m d ++ b))
    mkDatetime (runVal (slice 6 10 m)) (runVal (slice 0 2 m)) (runVal (slice 3 5 m)) _ _ _ _) = _
  unfold findFirst
  rw [thompson_find a b y m d ha]
  show mkDatetime (runVal (slice 6 10 (thompsonDate y m d))) (runVal (slice 0 2 (thompsonDate y m d)))
    (runVal (slice 3 5 (thompsonDate y m d))) _ _ _ _ = _
  have s1 : slice 6 10 (thompsonDate y m d) = zpad 4 y := by
    have := slice_end 6 10 (zpad 2 m ++ ('/' :: (zpad 2 d ++ ['/']))) (zpad 4 y)
      (by simp [zpad_length]) (by simp [zpad_length])
    simpa [thompsonDate] using this
  have s2 : slice 0 2 (thompsonDate y m d) = zpad 2 m := by
    have := slice_mid 0 2 [] (zpad 2 m) ('/' :: (zpad 2 d ++ ('/' :: zpad 4 y))) rfl (by simp [zpad_length])
    simpa [thompsonDate] using this
  have s3 : slice 3 5 (thompsonDate y m d) = zpad 2 d := by
    have := slice_mid 3 5 (zpad 2 m ++ ['/']) (zpad 2 d) ('/' :: zpad 4 y) (by simp [zpad_length]) (by simp [zpad_length])
    simpa [thompsonDate] using this
  rw [s1, s2, s3, runVal_zpad_lt 4 y hb.1, runVal_zpad_lt 2 m hb.2.1, runVal_zpad_lt 2 d hb.2.2]
  refine mk_valid hd ?_
  obtain ⟨a1, a2, a3, a4, a5, a6, _, _⟩ := ht
  exact ⟨a1, a2, a3, a4, a5, a6, le_rfl, by norm_num⟩

/-- **C26 (Palmer).** Logger year (after 2000) and day of year, and the GGA time of day. -/
theorem C26_nbp (a b talker frac : Str) (rest : List Str) (yy m d h mi s us : ℕ) (hyy : yy < 100)
    (hd : ValidDate (2000 + yy) m d) (ht : ValidTime h mi s us) (hf : FaithfulFrac frac us) (ha : '+' ∉ a)
    (hwf : WellFormed (a ++ (nbpDate yy (dayOfYear (2000 + yy) m d) ++ b)) talker (clockText h mi s frac :: rest)) :
    navdateNBP [ggaLine (a ++ (nbpDate yy (dayOfYear (2000 + yy) m d) ++ b)) talker (clockText h mi s frac :: rest)] talker
      = .ok [some (utcInstant (2000 + yy) m d h mi s us)] := by
  unfold navdateNBP
  apply stamp_single (ggaLine_hasSub _ _ _)
    (clock_faithful (by have := ht.2.1; omega) (by have := ht.2.2.2.1; omega) (by have := ht.2.2.2.2.2.1; omega) hf hwf)
  unfold nbpStamp
  rw [ggaLine_split hwf]
  show (match findNBP (a ++ (nbpDate yy (dayOfYear (2000 + yy) m d) ++ b)) with
    | none => (.error .indexError : Except PyErr ℤ)
    | some (y, j) => mkDatetimeDoy (runVal ("20".toList ++ y)) (runVal j) _ _ _ _) = _
  rw [nbp_find a b _ _ ha]
  show mkDatetimeDoy (runVal ("20".toList ++ zpad 2 yy)) (runVal (zpad 3 (dayOfYear (2000 + yy) m d))) _ _ _ _ = _
  have hdoy : dayOfYear (2000 + yy) m d < 1000 := by
    obtain ⟨_, _, a3, a4, _, a6⟩ := hd
    have hl := lastDay (2000 + yy) m d a3 a4 (by rw [daysInMonth_eq]; exact a6)
    unfold dayOfYear
    rw [← daysBeforeMonth_eq_sum _ m a3 a4]
    split at hl <;> omega
  rw [runVal_append _ _ (zpad_digits _ _), runVal_zpad_lt 2 yy (by simpa using hyy),
    runVal_zpad_lt 3 _ (by simpa using hdoy), zpad_length]
  have h20 : runVal "20".toList = 20 := by decide
  rw [h20, show 20 * 10 ^ 2 + yy = 2000 + yy by norm_num, C35_day_of_year_agrees _ _ _ _ _ _ _ hd]
  exact mk_valid hd ht

/-- **C26.** With the GGA time of day `h:mi:s.us`, the timestamp built with the logger's date equals the instant built
with the UTC date of the fix exactly when the two dates are equal. -/
theorem C26_exact_iff_same_date (y m d y' m' d' : ℕ) (h mi s us : ℤ) (hd : ValidDate y m d) (hd' : ValidDate y' m' d')
    (ht : ValidTime h mi s us) :
    utcInstant y m d h mi s us = utcInstant y' m' d' h mi s us ↔ (y = y' ∧ m = m' ∧ d = d') := by
  constructor
  · intro e
    have := C35_injective y m d y' m' d' h mi s us h mi s us _ (mk_valid hd ht) (by rw [mk_valid hd' ht, e])
    unfold stampFields at this
    simp only [List.cons.injEq, Nat.cast_inj] at this
    exact ⟨this.1, this.2.1, this.2.2.1⟩
  · rintro ⟨rfl, rfl, rfl⟩; rfl

/-- **C26.** When the line was logged on the day before the UTC date of the fix (a fix taken just after midnight and
stamped by a slow logger clock), the timestamp is exactly one day early. -/
theorem C26_midnight_one_day_early (y m d : ℕ) (h mi s us : ℤ) (hd : ValidDate y m d) :
    utcInstant y m d h mi s us
      = utcInstant (nextDay y m d).1 (nextDay y m d).2.1 (nextDay y m d).2.2 h mi s us - dayUs := by
  obtain ⟨a1, a2, a3, a4, a5, a6⟩ := id hd
  have hn := C35_ordinal_counts_days.2 y m d hd
  rw [ymd2ord_eq y m d a1 a3 a4, ymd2ord_eq] at hn
  · unfold utcInstant
    rw [hn]
    push_cast
    ring
  all_goals (unfold nextDay; split_ifs <;> simp <;> omega)

private theorem findP_lacking (ps : Pat) (c : Char) (i : ℕ) (hi : ps[i]? = some (· == c)) : ∀ s : Str, c ∉ s → findP ps s = none := by
  have hmatch : ∀ s : Str, c ∉ s → matchP ps s = none := by
    intro s hs
    cases hm : matchP ps s with
    | none => rfl
    | some m =>
      obtain ⟨d, hd, hp⟩ := matchP_get _ _ _ hm i _ hi
      have : d = c := by simpa using hp
      exact absurd (List.mem_of_getElem? (this ▸ hd)) hs
  intro s
  induction s with
  | nil => intro hs; rw [findP, hmatch _ hs]
  | cons x s ih =>
    intro hs
    rw [findP, hmatch _ hs]
    exact ih (fun h => hs (List.mem_cons_of_mem _ h))

private theorem findNBP_lacking : ∀ s : Str, '+' ∉ s → findNBP s = none := by
  have hmatch : ∀ (ps : Pat), ps[2]? = some (· == '+') → ∀ s : Str, '+' ∉ s → matchP ps s = none := by
    intro ps hi s hs
    cases hm : matchP ps s with
    | none => rfl
    | some m =>
      obtain ⟨d, hd, hp⟩ := matchP_get _ _ _ hm 2 _ hi
      have : d = '+' := by simpa using hp
      exact absurd (List.mem_of_getElem? (this ▸ hd)) hs
  intro s
  induction s with
  | nil => intro _; rfl
  | cons x s ih =>
    intro hs
    rw [findNBP, hmatch _ rfl _ hs, hmatch _ rfl _ hs]
    exact ih (fun h => hs (List.mem_cons_of_mem _ h))

private theorem stamp_error {talker line : Str} {stamp : Str → Clock → Except PyErr ℤ} {c : Clock} {e : PyErr}
    (hl : hasSub talker line = true) (hc : clockLine talker line = .ok c) (hs : stamp line c = .error e) :
    (do
      let cs ← clockTime [line] talker
      stampLines stamp (talkerLines talker [line]) cs) = .error e := by
  unfold clockTime stampLines
  rw [talkerLines_single hl, mapM_single, hc]
  show ([(line, c)] : List (Str × Clock)).mapM (fun p => (stamp p.1 p.2).map some) = _
  rw [mapM_single, hs]
  rfl

/-- **C26.** A fix whose line has no logger date makes the call raise `IndexError`; so does a file with such a line among lines that are read.
The dates of Atlantis and Thompson have slashes, those of NBP have a plus sign. -/
theorem C26_no_date (pre talker frac : Str) (rest : List Str) (h mi s us : ℕ) (ht : ValidTime h mi s us) (hf : FaithfulFrac frac us)
    (hwf : WellFormed pre talker (clockText h mi s frac :: rest)) :
    ('/' ∉ pre → navdateAtlantis [ggaLine pre talker (clockText h mi s frac :: rest)] talker = .error .indexError ∧
      navdateThompson [ggaLine pre talker (clockText h mi s frac :: rest)] talker = .error .indexError ∧
      ∀ a b out, navdateAtlantis (a ++ ggaLine pre talker (clockText h mi s frac :: rest) :: b) talker ≠ .ok out ∧
        navdateThompson (a ++ ggaLine pre talker (clockText h mi s frac :: rest) :: b) talker ≠ .ok out) ∧
    ('+' ∉ pre → navdateNBP [ggaLine pre talker (clockText h mi s frac :: rest)] talker = .error .indexError ∧
      ∀ a b out, navdateNBP (a ++ ggaLine pre talker (clockText h mi s frac :: rest) :: b) talker ≠ .ok out) := by
  have hc := clock_faithful (by have := ht.2.1; omega) (by have := ht.2.2.2.1; omega) (by have := ht.2.2.2.2.2.1; omega) hf hwf
  have hsub := ggaLine_hasSub pre talker (clockText h mi s frac :: rest)
  have hmem : ∀ a b, ggaLine pre talker (clockText h mi s frac :: rest) ∈
      (a ++ ggaLine pre talker (clockText h mi s frac :: rest) :: b).filter (fun l => decide (talker <:+: l)) := by
    intro a b
    rw [List.mem_filter]
    exact ⟨by simp, by simpa [hasSub] using hsub⟩
  have key : ∀ {R : Str → Option ℤ → Prop} {l : List Str} {o : List (Option ℤ)}, List.Forall₂ R l o → ∀ x ∈ l, ∃ y, R x y := by
    intro R l o hf
    induction hf with
    | nil => simp
    | cons h1 _ ih =>
      intro x hx
      rcases List.mem_cons.1 hx with rfl | hx
      · exact ⟨_, h1⟩
      · exact ih x hx
  constructor
  · intro hp
    have hA : navdateAtlantis [ggaLine pre talker (clockText h mi s frac :: rest)] talker = .error .indexError := by
      unfold navdateAtlantis
      apply stamp_error hsub hc
      unfold atlantisStamp
      rw [ggaLine_split hwf]
      show (do
        let m ← findFirst (litP "NAV " ++ digP 4 ++ litP "/" ++ digP 2 ++ litP "/" ++ digP 2) pre
        mkDatetime (runVal (slice 4 8 m)) (runVal (slice 9 11 m)) (runVal (slice 12 14 m)) _ _ _ _) = _
      unfold findFirst
      rw [findP_lacking _ '/' 8 rfl pre hp]
      rfl
    have hT : navdateThompson [ggaLine pre talker (clockText h mi s frac :: rest)] talker = .error .indexError := by
      unfold navdateThompson
      apply stamp_error hsub hc
      unfold thompsonStamp
      rw [ggaLine_split hwf]
      show (do
        let m ← findFirst (digP 2 ++ litP "/" ++ digP 2 ++ litP "/" ++ digP 4) pre
        mkDatetime (runVal (slice 6 10 m)) (runVal (slice 0 2 m)) (runVal (slice 3 5 m)) _ _ _ _) = _
      unfold findFirst
      rw [findP_lacking _ '/' 2 rfl pre hp]
      rfl
    refine ⟨hA, hT, fun a b out => ⟨fun ho => ?_, fun ho => ?_⟩⟩
    · obtain ⟨y, hy⟩ := key ((C26_one_stamp_per_talker_line _ _ _).1.1 ho) _ (hmem a b)
      rw [hA] at hy
      cases hy
    · obtain ⟨y, hy⟩ := key ((C26_one_stamp_per_talker_line _ _ _).2.2.1 ho) _ (hmem a b)
      rw [hT] at hy
      cases hy
  · intro hp
    have hN : navdateNBP [ggaLine pre talker (clockText h mi s frac :: rest)] talker = .error .indexError := by
      unfold navdateNBP
      apply stamp_error hsub hc
      unfold nbpStamp
      rw [ggaLine_split hwf]
      show (match findNBP pre with
        | none => (.error .indexError : Except PyErr ℤ)
        | some (y, j) => mkDatetimeDoy (runVal ("20".toList ++ y)) (runVal j) _ _ _ _) = _
      rw [findNBP_lacking pre hp]
    refine ⟨hN, fun a b out ho => ?_⟩
    obtain ⟨y, hy⟩ := key ((C26_one_stamp_per_talker_line _ _ _).2.1.1 ho) _ (hmem a b)
    rw [hN] at hy
    cases hy

/-! ### C27: Revelle -/

private theorem zpad_runVal (s : Str) (h : ∀ c ∈ s, isDigit c = true) : zpad s.length (runVal s) = s := by
  induction s using List.reverseRecOn with
  | nil => rfl
  | append_singleton s c ih =>
    have hc : isDigit c = true := h c (by simp)
    have hc' := (isDigit_iff c).1 hc
    have hv : runVal [c] = digitVal c := by simp [runVal, hc]
    have hlt : digitVal c < 10 := by unfold digitVal; have : '0'.toNat = 48 := rfl; omega
    rw [List.length_append, List.length_singleton, zpad, runVal_append _ _ (by simpa using hc), hv, List.length_singleton,
      pow_one]
    have e1 : (runVal s * 10 + digitVal c) / 10 = runVal s := by omega
    have e2 : (runVal s * 10 + digitVal c) % 10 = digitVal c := by omega
    rw [e1, e2, ih (fun x hx => h x (by simp [hx]))]
    congr 2
    unfold digitC digitVal
    have : 48 + (c.toNat - '0'.toNat) = c.toNat := by have : '0'.toNat = 48 := rfl; omega
    rw [this]
    exact Char.ofNat_toNat c

private theorem runVal_lt (s : Str) (h : ∀ c ∈ s, isDigit c = true) : runVal s < 10 ^ s.length := by
  have e := zpad_runVal s h
  have := runVal_zpad s.length (runVal s)
  rw [e] at this
  rw [this]
  exact Nat.mod_lt _ (by positivity)

private theorem matchP_digP_inv (k : ℕ) (ps : Pat) (s m : Str) (h : matchP (digP k ++ ps) s = some m) :
    ∃ ds rest m', s = ds ++ rest ∧ ds.length = k ∧ (∀ c ∈ ds, isDigit c = true) ∧ matchP ps rest = some m' ∧ m = ds ++ m' := by
  induction k generalizing s m with
  | zero => exact ⟨[], s, m, rfl, rfl, by simp, by simpa [digP] using h, rfl⟩
  | succ k ih =>
    have e : digP (k + 1) ++ ps = isDigit :: (digP k ++ ps) := rfl
    rw [e] at h
    cases s with
    | nil => simp [matchP] at h
    | cons c cs =>
      rw [matchP] at h
      split at h
      · rename_i hc
        cases hm : matchP (digP k ++ ps) cs with
        | none => rw [hm] at h; cases h
        | some m1 =>
          rw [hm] at h
          obtain ⟨ds, rest, m', e1, e2, e3, e4, e5⟩ := ih cs m1 hm
          simp only [Option.map_some, Option.some.injEq] at h
          refine ⟨c :: ds, rest, m', by rw [e1]; rfl, by simp [e2], ?_, e4, by rw [← h, e5]; rfl⟩
          intro x hx
          rcases List.mem_cons.1 hx with rfl | hx
          · exact hc
          · exact e3 x hx
      · cases h

private theorem matchP_lit_inv (c : Char) (ps : Pat) (s m : Str) (h : matchP ((fun x => x == c) :: ps) s = some m) :
    ∃ rest m', s = c :: rest ∧ matchP ps rest = some m' ∧ m = c :: m' := by
  cases s with
  | nil => simp [matchP] at h
  | cons x cs =>
    rw [matchP] at h
    split at h
    · rename_i hc
      simp only [beq_iff_eq] at hc
      subst hc
      cases hm : matchP ps cs with
      | none => rw [hm] at h; cases h
      | some m1 => rw [hm] at h; simp only [Option.map_some, Option.some.injEq] at h; exact ⟨cs, m1, rfl, hm, h.symm⟩
    · cases h

private theorem isoDate_match (y m d : ℕ) (tail : Str) : matchP isoDateP (isoDate y m d ++ tail) = some (isoDate y m d) := by
  have e : isoDateP = digP 4 ++ (litP "-" ++ (digP 2 ++ (litP "-" ++ (digP 2 ++ [])))) := by simp [isoDateP]
  have e2 : isoDate y m d ++ tail = zpad 4 y ++ ("-".toList ++ (zpad 2 m ++ ("-".toList ++ (zpad 2 d ++ tail)))) := by
    simp [isoDate]
  rw [e, e2, matchP_digP _ _ _ _ (zpad_length _ _) (zpad_digits _ _), matchP_litP,
    matchP_digP _ _ _ _ (zpad_length _ _) (zpad_digits _ _), matchP_litP,
    matchP_digP _ _ _ _ (zpad_length _ _) (zpad_digits _ _)]
  simp [matchP, isoDate]

private theorem isoDate_match_inv (line v : Str) (h : matchP isoDateP line = some v) :
    ∃ y m d, StartsWithDate line y m d ∧ v = isoDate y m d := by
  have e : isoDateP = digP 4 ++ ((fun x => x == '-') :: (digP 2 ++ ((fun x => x == '-') :: (digP 2 ++ [])))) := by
    simp [isoDateP, litP]
  rw [e] at h
  obtain ⟨d1, r1, m1, rfl, l1, p1, h1, rfl⟩ := matchP_digP_inv _ _ _ _ h
  obtain ⟨r2, m2, rfl, h2, rfl⟩ := matchP_lit_inv _ _ _ _ h1
  obtain ⟨d3, r3, m3, rfl, l3, p3, h3, rfl⟩ := matchP_digP_inv _ _ _ _ h2
  obtain ⟨r4, m4, rfl, h4, rfl⟩ := matchP_lit_inv _ _ _ _ h3
  obtain ⟨d5, r5, m5, rfl, l5, p5, h5, rfl⟩ := matchP_digP_inv _ _ _ _ h4
  simp only [matchP, Option.some.injEq] at h5
  subst h5
  refine ⟨runVal d1, runVal d3, runVal d5, ⟨?_, ?_, ?_, r5, ?_⟩, ?_⟩
  · have := runVal_lt d1 p1; rw [l1] at this; simpa using this
  · have := runVal_lt d3 p3; rw [l3] at this; simpa using this
  · have := runVal_lt d5 p5; rw [l5] at this; simpa using this
  · have z1 := zpad_runVal d1 p1; have z3 := zpad_runVal d3 p3; have z5 := zpad_runVal d5 p5
    rw [l1] at z1; rw [l3] at z3; rw [l5] at z5
    simp [isoDate, z1, z3, z5]
  · have z1 := zpad_runVal d1 p1; have z3 := zpad_runVal d3 p3; have z5 := zpad_runVal d5 p5
    rw [l1] at z1; rw [l3] at z3; rw [l5] at z5
    simp [isoDate, z1, z3, z5]

private theorem matchP_none_iff (l : Str) : matchP isoDateP l = none ↔ ¬ ∃ y m d, StartsWithDate l y m d := by
  constructor
  · rintro h ⟨y, m, d, _, _, _, tail, rfl⟩
    rw [isoDate_match] at h; cases h
  · intro h
    cases hm : matchP isoDateP l with
    | none => rfl
    | some v =>
      obtain ⟨y, m, d, hs, _⟩ := isoDate_match_inv l v hm
      exact absurd ⟨y, m, d, hs⟩ h

private theorem isoDate_inj {y m d y' m' d' : ℕ} {t t' : Str} (h1 : y < 10000 ∧ m < 100 ∧ d < 100)
    (h2 : y' < 10000 ∧ m' < 100 ∧ d' < 100) (h : isoDate y m d ++ t = isoDate y' m' d' ++ t') :
    y = y' ∧ m = m' ∧ d = d' := by
  have := isoDate_match y m d t
  rw [h, isoDate_match] at this
  injection this with this
  have s1 : ∀ y m d, slice 0 4 (isoDate y m d) = zpad 4 y := by
    intro y m d
    have := slice_mid 0 4 [] (zpad 4 y) ('-' :: (zpad 2 m ++ ('-' :: zpad 2 d))) rfl (by simp [zpad_length])
    simpa [isoDate] using this
  have s2 : ∀ y m d, slice 5 7 (isoDate y m d) = zpad 2 m := by
    intro y m d
    have := slice_mid 5 7 (zpad 4 y ++ ['-']) (zpad 2 m) ('-' :: zpad 2 d) (by simp [zpad_length]) (by simp [zpad_length])
    simpa [isoDate] using this
  have s3 : ∀ y m d, slice 8 10 (isoDate y m d) = zpad 2 d := by
    intro y m d
    have := slice_end 8 10 (zpad 4 y ++ ('-' :: (zpad 2 m ++ ['-']))) (zpad 2 d) (by simp [zpad_length]) (by simp [zpad_length])
    simpa [isoDate] using this
  have g1 := congrArg (fun s => runVal (slice 0 4 s)) this
  have g2 := congrArg (fun s => runVal (slice 5 7 s)) this
  have g3 := congrArg (fun s => runVal (slice 8 10 s)) this
  simp only [s1, s2, s3] at g1 g2 g3
  rw [runVal_zpad_lt 4 y h1.1, runVal_zpad_lt 4 y' h2.1] at g1
  rw [runVal_zpad_lt 2 m h1.2.1, runVal_zpad_lt 2 m' h2.2.1] at g2
  rw [runVal_zpad_lt 2 d h1.2.2, runVal_zpad_lt 2 d' h2.2.2] at g3
  exact ⟨g1.symm, g2.symm, g3.symm⟩

private theorem isoDate_slices (y m d : ℕ) (h : y < 10000 ∧ m < 100 ∧ d < 100) :
    runVal (slice 0 4 (isoDate y m d)) = y ∧ runVal (slice 5 7 (isoDate y m d)) = m ∧
      runVal (slice 8 10 (isoDate y m d)) = d := by
  refine ⟨?_, ?_, ?_⟩
  · have := slice_mid 0 4 [] (zpad 4 y) ('-' :: (zpad 2 m ++ ('-' :: zpad 2 d))) rfl (by simp [zpad_length])
    refine Eq.trans ?_ (runVal_zpad_lt 4 y h.1)
    simpa [isoDate] using congrArg runVal this
  · have := slice_mid 5 7 (zpad 4 y ++ ['-']) (zpad 2 m) ('-' :: zpad 2 d) (by simp [zpad_length]) (by simp [zpad_length])
    refine Eq.trans ?_ (runVal_zpad_lt 2 m h.2.1)
    simpa [isoDate] using congrArg runVal this
  · have := slice_end 8 10 (zpad 4 y ++ ('-' :: (zpad 2 m ++ ['-']))) (zpad 2 d) (by simp [zpad_length]) (by simp [zpad_length])
    refine Eq.trans ?_ (runVal_zpad_lt 2 d h.2.2)
    simpa [isoDate] using congrArg runVal this

private theorem scan_iff (c : Clock) (gap : List Str) (t : Option ℤ) :
    revelleScan c gap.reverse = .ok t ↔ RevelleStamp gap c.hour c.mint c.sec c.msec t := by
  induction gap using List.reverseRecOn with
  | nil =>
    constructor
    · intro h; cases h; exact Or.inr ⟨by simp, rfl⟩
    · rintro (⟨g1, line, g2, _, _, _, h, _⟩ | ⟨_, rfl⟩)
      · simp at h
      · rfl
  | append_singleton gap l ih =>
    rw [List.reverse_append, List.reverse_singleton, List.singleton_append, revelleScan]
    by_cases hl : ∃ y m d, StartsWithDate l y m d
    · obtain ⟨y, m, d, hs⟩ := hl
      obtain ⟨b1, b2, b3, tail, rfl⟩ := id hs
      rw [isoDate_match]
      obtain ⟨q1, q2, q3⟩ := isoDate_slices y m d ⟨b1, b2, b3⟩
      simp only [q1, q2, q3]
      rw [C35_utc_instant]
      constructor
      · intro h
        split at h
        · rename_i hv
          left
          simp only [Except.map, Except.ok.injEq] at h
          exact ⟨gap, _, [], y, m, d, rfl, hs, by simp, hv.1, hv.2, h.symm⟩
        · cases h
      · rintro (⟨g1, line, g2, y', m', d', hg, hs', hn, hv, hv', rfl⟩ | ⟨hn, _⟩)
        · rcases List.eq_nil_or_concat g2 with rfl | ⟨g3, x, rfl⟩
          · have hg' : gap ++ [isoDate y m d ++ tail] = g1 ++ [line] := hg
            obtain ⟨_, he⟩ := List.append_inj' hg' rfl
            injection he with he _
            obtain ⟨c1, c2, c3, tail', he'⟩ := id hs'
            rw [he'] at he
            obtain ⟨rfl, rfl, rfl⟩ := isoDate_inj ⟨b1, b2, b3⟩ ⟨c1, c2, c3⟩ he
            rw [if_pos ⟨hv, hv'⟩]; rfl
          · exfalso
            have hg' : gap ++ [isoDate y m d ++ tail] = (g1 ++ line :: g3) ++ [x] := by rw [hg]; simp
            obtain ⟨_, he⟩ := List.append_inj' hg' rfl
            injection he with he _
            exact hn x (by simp) ⟨y, m, d, by rw [← he]; exact hs⟩
        · exact absurd ⟨y, m, d, hs⟩ (hn _ (by simp))
    · rw [(matchP_none_iff l).2 hl]
      simp only
      rw [ih]
      constructor
      · rintro (⟨g1, line, g2, y, m, d, rfl, hs, hn, r⟩ | ⟨hn, ht⟩)
        · left
          refine ⟨g1, line, g2 ++ [l], y, m, d, by simp, hs, ?_, r⟩
          intro x hx
          rcases List.mem_append.1 hx with hx | hx
          · exact hn x hx
          · simp only [List.mem_singleton] at hx; rw [hx]; exact hl
        · right
          refine ⟨?_, ht⟩
          intro x hx
          rcases List.mem_append.1 hx with hx | hx
          · exact hn x hx
          · simp only [List.mem_singleton] at hx; rw [hx]; exact hl
      · rintro (⟨g1, line, g2, y, m, d, hg, hs, hn, r⟩ | ⟨hn, ht⟩)
        · rcases List.eq_nil_or_concat g2 with rfl | ⟨g3, x, rfl⟩
          · exfalso
            have hg' : gap ++ [l] = g1 ++ [line] := hg
            obtain ⟨_, he⟩ := List.append_inj' hg' rfl
            injection he with he _
            exact hl ⟨y, m, d, by rw [he]; exact hs⟩
          · left
            have hg' : gap ++ [l] = (g1 ++ line :: g3) ++ [x] := by rw [hg]; simp
            obtain ⟨he, _⟩ := List.append_inj' hg' rfl
            exact ⟨g1, line, g3, y, m, d, he, hs, fun z hz => hn z (by simp [hz]), r⟩
        · right
          exact ⟨fun x hx => hn x (by simp [hx]), ht⟩

private theorem loop_gap (talker : Str) (gap rest : List Str) (hg : ∀ l ∈ gap, hasSub talker l = false) (cs : List Clock) :
    ∀ g, revelleLoop talker g (gap ++ rest) cs = revelleLoop talker (gap.reverse ++ g) rest cs := by
  induction gap with
  | nil => intro g; rfl
  | cons l gap ih =>
    intro g
    rw [List.cons_append, revelleLoop.eq_def]
    simp only [hg l (by simp), Bool.false_eq_true, if_false]
    rw [ih (fun x hx => hg x (by simp [hx])) (l :: g)]
    simp

private theorem loop_trailing (talker : Str) (g rest : List Str) (hg : ∀ l ∈ rest, hasSub talker l = false) (cs : List Clock) :
    revelleLoop talker g rest cs = .ok [] := by
  induction rest generalizing g with
  | nil => rfl
  | cons l rest ih =>
    rw [revelleLoop.eq_def]
    simp only [hg l (by simp), Bool.false_eq_true, if_false]
    exact ih _ (fun x hx => hg x (by simp [hx]))

/-- **C27.** In a Revelle file the date of each fix is that of the closest earlier line that starts with `yyyy-mm-dd` and
lies after the previous fix, combined with the fix's own clock time; a fix without such a line gets no timestamp. -/
theorem C27_nearest_preceding_date (talker : Str) (blocks : List (List Str × Str)) (trailing : List Str)
    (hgap : ∀ b ∈ blocks, ∀ l ∈ b.1, ¬ talker <:+: l) (hline : ∀ b ∈ blocks, talker <:+: b.2)
    (htrail : ∀ l ∈ trailing, ¬ talker <:+: l) (ts : List (Option ℤ)) :
    navdateRevelle (revelleFile blocks trailing) talker = .ok ts ↔
      List.Forall₂ (fun b t => ∃ c, clockTime [b.2] talker = .ok [c] ∧ RevelleStamp b.1 c.hour c.mint c.sec c.msec t) blocks ts := by
  have hgap' : ∀ b ∈ blocks, ∀ l ∈ b.1, hasSub talker l = false := by
    intro b hb l hl; simpa [hasSub] using hgap b hb l hl
  have hline' : ∀ b ∈ blocks, hasSub talker b.2 = true := by
    intro b hb; simpa [hasSub] using hline b hb
  have htrail' : ∀ l ∈ trailing, hasSub talker l = false := by
    intro l hl; simpa [hasSub] using htrail l hl
  clear hgap hline htrail
  have hlines : talkerLines talker (revelleFile blocks trailing) = blocks.map Prod.snd := by
    unfold talkerLines revelleFile
    have ht : trailing.filter (hasSub talker) = [] := List.filter_eq_nil_iff.2 (fun l hl => by simp [htrail' l hl])
    rw [List.filter_append, ht, List.append_nil]
    induction blocks with
    | nil => rfl
    | cons b bs ih =>
      have hb : b.1.filter (hasSub talker) = [] :=
        List.filter_eq_nil_iff.2 (fun l hl => by simp [hgap' b (by simp) l hl])
      rw [List.map_cons, List.flatten_cons, List.filter_append, List.filter_append, hb,
        ih (fun x hx => hgap' x (by simp [hx])) (fun x hx => hline' x (by simp [hx]))]
      simp [hline' b (by simp)]
  have hone : ∀ b ∈ blocks, ∀ c, clockTime [b.2] talker = .ok [c] ↔ clockLine talker b.2 = .ok c := by
    intro b hb c
    unfold clockTime
    rw [talkerLines_single (hline' b hb), mapM_single]
    cases clockLine talker b.2 with
    | error e => simp [Except.map]
    | ok v => simp [Except.map]
  have hloop : ∀ (bs : List (List Str × Str)) (cs : List Clock) (ts : List (Option ℤ)),
      (∀ b ∈ bs, ∀ l ∈ b.1, hasSub talker l = false) → (∀ b ∈ bs, hasSub talker b.2 = true) → bs.length = cs.length →
      (revelleLoop talker [] (revelleFile bs trailing) cs = .ok ts ↔
        List.Forall₂ (fun (p : (List Str × Str) × Clock) t => RevelleStamp p.1.1 p.2.hour p.2.mint p.2.sec p.2.msec t) (bs.zip cs) ts) := by
    intro bs
    induction bs with
    | nil =>
      intro cs ts _ _ _
      have : revelleFile [] trailing = trailing := by simp [revelleFile]
      rw [this, loop_trailing talker [] trailing htrail' cs]
      constructor
      · intro h; cases h; exact .nil
      · intro h; cases h; rfl
    | cons b bs ih =>
      intro cs ts h1 h2 h3
      cases cs with
      | nil => simp at h3
      | cons c cs =>
        have e : revelleFile (b :: bs) trailing = b.1 ++ (b.2 :: revelleFile bs trailing) := by simp [revelleFile]
        rw [e, loop_gap talker b.1 _ (h1 b (by simp)), revelleLoop, if_pos (h2 b (by simp)), List.append_nil]
        have ih' := fun ts => ih cs ts (fun x hx => h1 x (by simp [hx])) (fun x hx => h2 x (by simp [hx])) (by simpa using h3)
        constructor
        · intro h
          cases hs : revelleScan c b.1.reverse with
          | error e => simp only [hs] at h; cases h
          | ok t =>
            cases hr : revelleLoop talker [] (revelleFile bs trailing) cs with
            | error e => simp only [hs, hr] at h; cases h
            | ok ts' =>
              simp only [hs, hr] at h
              cases h
              exact .cons ((scan_iff c b.1 t).1 hs) ((ih' ts').1 hr)
        · intro h
          cases h with
          | cons h1 h2 =>
            rw [(scan_iff _ _ _).2 h1, (ih' _).2 h2]
            rfl
  unfold navdateRevelle clockTime
  rw [hlines]
  constructor
  · intro h
    cases hc : (blocks.map Prod.snd).mapM (clockLine talker) with
    | error e => rw [hc] at h; cases h
    | ok cs =>
      rw [hc] at h
      have h' : revelleLoop talker [] (revelleFile blocks trailing) cs = .ok ts := h
      have hc' := (mapM_ok_iff _ _ _).1 hc
      have hlen : blocks.length = cs.length := by simpa using hc'.length_eq
      rw [hloop blocks cs ts hgap' hline' hlen] at h'
      clear h hc hloop hlines hgap' hline'
      induction blocks generalizing cs ts with
      | nil => simp only [List.zip_nil_left] at h'; cases h'; exact .nil
      | cons b bs ih =>
        cases hc' with
        | cons a1 a2 =>
          rw [List.zip_cons_cons] at h'
          cases h' with
          | cons b1 b2 =>
            exact .cons ⟨_, (hone b (by simp) _).2 a1, b1⟩
              (ih _ (fun x hx => hone x (by simp [hx])) _ b2 a2 (by simpa using hlen))
  · intro h
    have : ∃ cs, (blocks.map Prod.snd).mapM (clockLine talker) = .ok cs ∧ blocks.length = cs.length ∧
        List.Forall₂ (fun (p : (List Str × Str) × Clock) t => RevelleStamp p.1.1 p.2.hour p.2.mint p.2.sec p.2.msec t) (blocks.zip cs) ts := by
      clear hloop hlines hgap' hline'
      induction h with
      | nil => exact ⟨[], rfl, rfl, .nil⟩
      | cons h1 _ ih =>
        rename_i b t bs ts _
        obtain ⟨c, hc, hr⟩ := h1
        obtain ⟨cs, e1, e2, e3⟩ := ih (fun x hx => hone x (by simp [hx]))
        refine ⟨c :: cs, ?_, by simp [e2], .cons hr e3⟩
        rw [List.map_cons, List.mapM_cons, (hone b (by simp) c).1 hc, e1]
        rfl
    obtain ⟨cs, e1, e2, e3⟩ := this
    rw [e1]
    exact (hloop blocks cs ts hgap' hline' e2).2 e3

/-! ### Lines from the example files, and hypotheses met -/

-- tests/ex_files: Atlantis, Thompson, Palmer, Revelle
example : navdateAtlantis ["NAV 2022/07/01 12:17:33.537 GPS $GPGGA,121733.00,4131.403226,N,07040.311159,W".toList]
    "GPGGA".toList = .ok [some 1656677853000000] := by decide +kernel
example : navdateThompson ["03/13/2022,00:00:02.105,$INGGA,000003.56,3217.33152,N,11839.14935,W".toList] "INGGA".toList
    = .ok [some 1647129603000000] := by decide +kernel
example : navdateNBP ["23+013:00:00:00.115 $GPGGA,000001.81,3217.33152,N,11839.14935,W".toList] "GPGGA".toList
    = .ok [some 1673568001810000] := by decide +kernel
example : navdateRevelle ["2022-11-05T00:00:00.002010Z $GPZDA,000000.00".toList,
    "$GPGGA,000000.00,3345.095825,N,11923.337492,W".toList] "GPGGA".toList = .ok [some 1667606400000000] := by decide +kernel
-- no date line between two fixes: no timestamp for the second one
example : navdateRevelle ["2022-11-05T00:00:00.002010Z $GPZDA,000000.00".toList,
    "$GPGGA,000000.00,3345.095825,N,11923.337492,W".toList, "$GPGGA,000001.00,3345.095825,N,11923.337492,W".toList]
    "GPGGA".toList = .ok [some 1667606400000000, none] := by decide +kernel

example : ∃ a b talker frac rest, ¬ "NAV ".toList <:+: a ++ "NAV".toList ∧ FaithfulFrac frac 250000 ∧
    WellFormed (a ++ (atlantisDate 2022 7 1 ++ b)) talker (clockText 12 17 33 frac :: rest) ∧
    ValidDate 2022 7 1 ∧ ValidTime 12 17 33 250000 :=
  ⟨[], " GPS $".toList, "GPGGA".toList, ".25".toList, ["4131.40".toList], by decide,
    Or.inr ⟨25, 0, by decide, by decide, by decide, by decide⟩,
    ⟨by decide, by decide, by decide, by decide⟩, by decide, by decide⟩
example : '/' ∉ ([] : Str) ∧ '+' ∉ ([] : Str) ∧
    WellFormed ([] ++ (thompsonDate 2022 3 13 ++ ",$".toList)) "INGGA".toList (clockText 0 0 3 ".56".toList :: []) ∧
    WellFormed ([] ++ (nbpDate 23 (dayOfYear 2023 1 13) ++ " $".toList)) "GPGGA".toList (clockText 0 0 1 ".81".toList :: []) :=
  ⟨by decide, by decide, ⟨by decide, by decide, by decide, by decide⟩, ⟨by decide, by decide, by decide, by decide⟩⟩
-- one day early after midnight, across a year end
example : navdateAtlantis ["GPS $GPGGA,121733.00,4131.403226,N,07040.311159,W".toList] "GPGGA".toList = .error .indexError :=
  (C26_no_date "GPS $".toList "GPGGA".toList ".00".toList ["4131.403226".toList, "N".toList, "07040.311159".toList, "W".toList] 12 17 33 0
    ⟨by decide, by decide, by decide, by decide, by decide, by decide, by decide, by decide⟩ (Or.inl ⟨Or.inr ⟨2, rfl⟩, rfl⟩)
    ⟨by decide, by decide +kernel, by decide +kernel, by decide +kernel⟩).1 (by decide) |>.1

example : nextDay 2021 12 31 = (2022, 1, 1) ∧
    utcInstant 2021 12 31 0 0 1 0 = utcInstant 2022 1 1 0 0 1 0 - 86400000000 := by decide +kernel

end Shipgrav
