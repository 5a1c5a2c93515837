import Verif.Lemmas.Bgm
import Verif.Lemmas.Decimal

/-! C36, C37, C85: the BGM readers. -/

namespace Shipgrav
open Spec

/-! ### Scale factor and dispatch -/

theorem scale_iff (given : Option ℚ) (ship : Str) (sc : ℚ) :
    given.or (bgmScales.lookup ship) = some sc ↔ ScaleInForce given ship sc := by
  unfold ScaleInForce
  cases given with
  | some g => simp
  | none =>
    simp only [Option.none_or, reduceCtorEq, false_or, true_and]
    constructor
    · intro h
      unfold bgmScales at h
      simp only [List.lookup] at h
      split at h
      · rename_i h'; rw [beq_iff_eq] at h'; subst h'; injection h with h; subst h
        exact (by norm_num : (4994070552 / 1000000000 : ℚ) = 4.994070552) ▸ DatabaseScale.atlantis
      · split at h
        · rename_i h'; rw [beq_iff_eq] at h'; subst h'; injection h with h; subst h
          exact (by norm_num : (5003353363 / 1000000000 : ℚ) = 5.003353363) ▸ DatabaseScale.thompson
        · split at h
          · rename_i h'; rw [beq_iff_eq] at h'; subst h'; injection h with h; subst h
            exact (by norm_num : (499980755 / 100000000 : ℚ) = 4.99980755) ▸ DatabaseScale.revelle
          · split at h
            · rename_i h'; rw [beq_iff_eq] at h'; subst h'; injection h with h; subst h
              exact (by norm_num : (5 : ℚ) = 5.0) ▸ DatabaseScale.langseth
            · cases h
    · intro h
      cases h with
      | atlantis => rw [show bgmScales.lookup "Atlantis".toList = some (4994070552 / 1000000000) by decide +kernel]; norm_num
      | thompson => rw [show bgmScales.lookup "Thompson".toList = some (5003353363 / 1000000000) by decide +kernel]; norm_num
      | revelle => rw [show bgmScales.lookup "Revelle".toList = some (499980755 / 100000000) by decide +kernel]; norm_num
      | langseth => rw [show bgmScales.lookup "Langseth".toList = some 5 by decide +kernel]; norm_num

private theorem no_scale_iff (given : Option ℚ) (ship : Str) :
    given.or (bgmScales.lookup ship) = none ↔ ∀ sc, ¬ ScaleInForce given ship sc := by
  rw [Option.eq_none_iff_forall_ne_some]
  constructor
  · intro h sc hs; exact h sc ((scale_iff _ _ _).2 hs)
  · intro h sc hs; exact h sc ((scale_iff _ _ _).1 hs)

private theorem builtin_none_iff (other : OtherTimes) (ship : Str) :
    bgmBuiltin other ship = none ↔ ∀ sc, ¬ DatabaseScale ship sc := by
  unfold bgmBuiltin
  constructor
  · intro h sc hs
    cases hs <;> simp at h
  · intro h
    rw [if_neg, if_neg, if_neg, if_neg]
    · rintro rfl; exact h _ .langseth
    · rintro rfl; exact h _ .revelle
    · rintro rfl; exact h _ .thompson
    · rintro rfl; exact h _ .atlantis

private theorem loop_none (scale : ℚ) (files : List (List Str)) :
    bgmLoop none scale files [] = if files = [] then .error .valueError else .ok .sentinel := by
  cases files <;> simp [bgmLoop, concat, Except.map]

private theorem loop_some_not_sentinel (read : TableReader) (scale : ℚ) (files : List (List Str)) (dats : List Table) :
    bgmLoop (some read) scale files dats ≠ .ok .sentinel := by
  rw [bgmLoop_eq]
  cases List.mapM (fun f => read f >>= addGravity scale) files with
  | error e => intro h; cases h
  | ok ts =>
    show (concat (dats ++ ts)).map Ret.val ≠ _
    cases concat (dats ++ ts) <;> intro h <;> cases h

/-- C37.  `-999` is returned exactly when there is no scale factor, or when there is a file to read and neither the caller nor
the package (which has readers for the ships in the table of scale factors) provides a reader. -/
theorem C37_sentinel_iff (other : OtherTimes) (files : List (List Str)) (ship : Str) (scale : Option ℚ) (fn : Option TableReader) :
    readBgmRaw other files ship scale fn = .ok .sentinel ↔
      ((∀ sc, ¬ ScaleInForce scale ship sc) ∨ (fn = none ∧ (∀ sc, ¬ DatabaseScale ship sc) ∧ files ≠ [])) := by
  unfold readBgmRaw
  cases hs : scale.or (bgmScales.lookup ship) with
  | none => simp only [true_iff]; exact Or.inl ((no_scale_iff _ _).1 hs)
  | some sc =>
    simp only
    have h1 : ¬ ∀ sc, ¬ ScaleInForce scale ship sc := fun h => h sc ((scale_iff _ _ _).1 hs)
    cases fn with
    | some f =>
      simp only [Option.some_or, reduceCtorEq, false_and, or_false, h1, iff_false]
      exact loop_some_not_sentinel _ _ _ _
    | none =>
      simp only [Option.none_or, true_and, h1, false_or]
      cases hb : bgmBuiltin other ship with
      | none =>
        rw [loop_none]
        have := (builtin_none_iff other ship).1 hb
        constructor
        · intro h
          refine ⟨this, ?_⟩
          rintro rfl
          cases h
        · rintro ⟨_, h⟩
          rw [if_neg h]
      | some r =>
        have h2 : ¬ ∀ sc, ¬ DatabaseScale ship sc := by
          rw [← builtin_none_iff other, hb]; simp
        simp only [h2, false_and, iff_false]
        exact loop_some_not_sentinel _ _ _ _

/-- C37.  With a scale factor, an empty list of files raises. -/
theorem C37_no_files (other : OtherTimes) (ship : Str) (scale : Option ℚ) (fn : Option TableReader) (sc : ℚ)
    (hs : ScaleInForce scale ship sc) : readBgmRaw other [] ship scale fn = .error .valueError := by
  unfold readBgmRaw
  rw [(scale_iff _ _ _).2 hs]
  rfl

/-- C37.  A scale factor from the caller replaces the known one, and a reader from the caller the built-in one: with both,
neither the ship nor the package's readers matter. -/
theorem C37_overrides (other other' : OtherTimes) (files : List (List Str)) (ship ship' : Str) (sc : ℚ) (f : TableReader) :
    readBgmRaw other files ship (some sc) (some f) = readBgmRaw other' files ship' (some sc) (some f) := rfl

/-- C37.  The reader supplied by the caller is the one that reads, and the scale supplied the one that scales. -/
theorem C37_supplied (other : OtherTimes) (file : List Str) (ship : Str) (scale : Option ℚ) (sc : ℚ) (f : TableReader) (T : Table)
    {ι : Type} (xs : List ι) (n : ι → ℚ) (hs : ScaleInForce scale ship sc) (hf : f file = .ok T) (hc : "counts".toList ∈ T.cols)
    (hv : T.col "counts".toList = xs.map fun i => .num (n i)) :
    readBgmRaw other [file] ship scale (some f)
      = .ok (.val (T.set "rgrav".toList (xs.map fun i => .num (sc * n i)))) := by
  unfold readBgmRaw
  rw [(scale_iff _ _ _).2 hs]
  simp only [Option.some_or]
  rw [bgmLoop_single, hf]
  show (addGravity sc T).map Ret.val = _
  rw [addGravity_nums sc T xs n hc hv]
  rfl

/-! ### Rows -/

/-- Shape of a successful read. -/
private theorem read_ok (other : OtherTimes) (files : List (List Str)) (ship : Str) (scale : Option ℚ) (fn : Option TableReader) (F : Table)
    (h : readBgmRaw other files ship scale fn = .ok (.val F)) :
    ∃ sc read ts, ScaleInForce scale ship sc ∧ fn.or (bgmBuiltin other ship) = some read ∧
      files.mapM (fun f => read f >>= addGravity sc) = .ok ts ∧ concat ts = .ok F := by
  unfold readBgmRaw at h
  cases hs : scale.or (bgmScales.lookup ship) with
  | none => rw [hs] at h; cases h
  | some sc =>
    rw [hs] at h
    simp only at h
    cases hr : fn.or (bgmBuiltin other ship) with
    | none =>
      rw [hr, loop_none] at h
      split at h <;> cases h
    | some read =>
      rw [hr, bgmLoop_eq] at h
      cases hm : files.mapM (fun f => read f >>= addGravity sc) with
      | error e => rw [hm] at h; cases h
      | ok ts =>
        refine ⟨sc, read, ts, (scale_iff _ _ _).1 hs, rfl, hm, ?_⟩
        rw [hm] at h
        replace h : (concat ([] ++ ts)).map Ret.val = .ok (.val F) := h
        rw [List.nil_append] at h
        cases hc : concat ts with
        | error e => rw [hc] at h; cases h
        | ok F' =>
          rw [hc] at h
          injection h with h
          injection h with h
          rw [h]

private theorem set_rows (rows : List (Str → Val)) (c : Str) (vs : List Val) (r : Str → Val)
    (h : r ∈ List.zipWith (fun r x => Function.update r c x) rows vs) :
    ∃ (k : ℕ) (r0 : Str → Val) (v : Val), rows[k]? = some r0 ∧ vs[k]? = some v ∧ r = Function.update r0 c v := by
  obtain ⟨k, hk⟩ := List.mem_iff_getElem?.1 h
  rw [List.getElem?_zipWith] at hk
  cases h1 : rows[k]? with
  | none => rw [h1] at hk; simp at hk
  | some r0 =>
    cases h2 : vs[k]? with
    | none => rw [h1, h2] at hk; simp at hk
    | some v =>
      rw [h1, h2] at hk
      simp at hk
      exact ⟨k, r0, v, h1, h2, hk.symm⟩

/-- C36.  In every row of whatever is returned, for every ship, reader and list of files, gravity is the scale factor in force
times the count (NaN if the count is). -/
theorem C36_scaled (other : OtherTimes) (files : List (List Str)) (ship : Str) (scale : Option ℚ) (fn : Option TableReader) (F : Table)
    (h : readBgmRaw other files ship scale fn = .ok (.val F)) :
    ∃ sc, ScaleInForce scale ship sc ∧ "counts".toList ∈ F.cols ∧ "rgrav".toList ∈ F.cols ∧
      ∀ r ∈ F.rows, (∃ q, r "counts".toList = .num q ∧ r "rgrav".toList = .num (sc * q)) ∨
        (r "counts".toList = .nan ∧ r "rgrav".toList = .nan) := by
  obtain ⟨sc, read, ts, hs, -, hm, hc⟩ := read_ok other files ship scale fn F h
  obtain ⟨hne, hF⟩ := concat_isConcat ts F hc
  have hall : ∀ t ∈ ts, ∃ t0, addGravity sc t0 = .ok t := by
    intro t ht
    rw [mapM_ok_iff] at hm
    have : ∀ (l : List (List Str)) (ts : List Table), List.Forall₂ (fun f t => (read f >>= addGravity sc) = .ok t) l ts →
        ∀ t ∈ ts, ∃ t0, addGravity sc t0 = .ok t := by
      intro l ts hl
      induction hl with
      | nil => simp
      | @cons f t l ts hft _ ih =>
        intro t' ht'
        rcases List.mem_cons.1 ht' with rfl | ht'
        · cases hr : read f with
          | error e => rw [hr] at hft; cases hft
          | ok t0 => rw [hr] at hft; exact ⟨t0, hft⟩
        · exact ih t' ht'
    exact this _ _ hm t ht
  have hcol : ∀ t ∈ ts, "counts".toList ∈ t.cols ∧ "rgrav".toList ∈ t.cols := by
    intro t ht
    obtain ⟨t0, h0⟩ := hall t ht
    obtain ⟨h1, gs, -, -, rfl⟩ := addGravity_ok sc t0 t h0
    unfold Table.set
    simp only
    split
    · rename_i h2; exact ⟨h1, h2⟩
    · exact ⟨List.mem_append_left _ h1, List.mem_append_right _ (List.mem_singleton.2 rfl)⟩
  obtain ⟨t1, ht1⟩ := List.exists_mem_of_ne_nil ts hne
  refine ⟨sc, hs, (hF.cols _).2 ⟨t1, ht1, (hcol t1 ht1).1⟩, (hF.cols _).2 ⟨t1, ht1, (hcol t1 ht1).2⟩, ?_⟩
  intro r hr
  rw [hF.rows, List.mem_flatten] at hr
  obtain ⟨rows, hrows, hr⟩ := hr
  obtain ⟨t, ht, rfl⟩ := List.mem_map.1 hrows
  obtain ⟨t0, h0⟩ := hall t ht
  obtain ⟨h1, gs, hg, hlen, rfl⟩ := addGravity_ok sc t0 t h0
  obtain ⟨k, r0, v, hk, hv, rfl⟩ := set_rows t0.rows "rgrav".toList gs r hr
  have h2 := (mapM_mulVal sc _ gs hg).2 k (r0 "counts".toList) v (by simp [Table.col, hk]) hv
  rw [Function.update_self, Function.update_of_ne (by decide)]
  exact h2

/-- C36.  Reading a list of files succeeds exactly when it is not empty and each file alone can be read; the result is the
concatenation, in the order of the list, of what reading each file alone returns. -/
theorem C36_files_in_order (other : OtherTimes) (files : List (List Str)) (ship : Str) (scale : Option ℚ) (fn : Option TableReader) :
    (∀ F, readBgmRaw other files ship scale fn = .ok (.val F) →
      files ≠ [] ∧ ∃ Ts, List.Forall₂ (fun f T => readBgmRaw other [f] ship scale fn = .ok (.val T)) files Ts ∧ IsConcat Ts F) ∧
    (∀ Ts, files ≠ [] → List.Forall₂ (fun f T => readBgmRaw other [f] ship scale fn = .ok (.val T)) files Ts →
      ∃ F, readBgmRaw other files ship scale fn = .ok (.val F) ∧ IsConcat Ts F) := by
  have single : ∀ sc read, ScaleInForce scale ship sc → fn.or (bgmBuiltin other ship) = some read → ∀ f T,
      (readBgmRaw other [f] ship scale fn = .ok (.val T) ↔ (read f >>= addGravity sc) = .ok T) := by
    intro sc read hs hr f T
    unfold readBgmRaw
    rw [(scale_iff _ _ _).2 hs, hr]
    simp only
    rw [bgmLoop_single]
    cases (read f >>= addGravity sc) with
    | error e => simp [Except.map]
    | ok t => simp [Except.map]
  constructor
  · intro F h
    obtain ⟨sc, read, ts, hs, hr, hm, hc⟩ := read_ok other files ship scale fn F h
    obtain ⟨hne, hF⟩ := concat_isConcat ts F hc
    rw [mapM_ok_iff] at hm
    refine ⟨?_, ts, ?_, hF⟩
    · rintro rfl
      cases hm
      exact hne rfl
    · exact hm.imp (fun f T h => (single sc read hs hr f T).2 h)
  · intro Ts hne hall
    obtain ⟨f, fs, rfl⟩ := List.exists_cons_of_ne_nil hne
    obtain ⟨T, Ts, rfl⟩ : ∃ T Ts', Ts = T :: Ts' := by cases hall; exact ⟨_, _, rfl⟩
    have h1 : readBgmRaw other [f] ship scale fn = .ok (.val T) := by cases hall; assumption
    obtain ⟨sc, read, -, hs, hr, -, -⟩ := read_ok other [f] ship scale fn T h1
    have hm : (f :: fs).mapM (fun f => read f >>= addGravity sc) = .ok (T :: Ts) := by
      rw [mapM_ok_iff]
      exact hall.imp (fun f T h => (single sc read hs hr f T).1 h)
    obtain ⟨F, hF⟩ := concat_ok (T :: Ts) (by simp)
    refine ⟨F, ?_, (concat_isConcat _ _ hF).2⟩
    unfold readBgmRaw
    rw [(scale_iff _ _ _).2 hs, hr]
    simp only
    rw [bgmLoop_eq, hm]
    show (concat ([] ++ T :: Ts)).map Ret.val = _
    rw [List.nil_append, hF]
    rfl

/-! ### The four ships -/

private theorem built (other : OtherTimes) (ship : Str) (scale : Option ℚ) (sc : ℚ) (read : TableReader) (file : List Str) (T : Table)
    {ι : Type} (xs : List ι) (x : ι → Sample)
    (hs : ScaleInForce scale ship sc) (hb : bgmBuiltin other ship = some read) (hr : read file = .ok T)
    (hrows : T.rows.length = xs.length)
    (hcols : ∀ c, c ∈ T.cols ↔ c ∈ ["counts".toList, "date_time".toList])
    (hc : T.col "counts".toList = xs.map fun i => .num (x i).count)
    (ht : T.col "date_time".toList = xs.map fun i => .time (x i).instant) :
    ∃ F, readBgmRaw other [file] ship scale none = .ok (.val F) ∧ IsGravity sc xs x F := by
  refine ⟨T.set "rgrav".toList (xs.map fun i => .num (sc * (x i).count)), ?_, ?_, ?_, ?_, ?_⟩
  · unfold readBgmRaw
    rw [(scale_iff _ _ _).2 hs]
    simp only [Option.none_or]
    rw [hb, bgmLoop_single, hr]
    show (addGravity sc T).map Ret.val = _
    rw [addGravity_nums sc T xs (fun i => ((x i).count : ℚ)) ((hcols _).2 (by simp)) hc]
    rfl
  · rw [Table.set_col _ _ _ (by simp [hrows]), if_neg (by decide), hc]
  · rw [Table.set_col _ _ _ (by simp [hrows]), if_neg (by decide), ht]
  · rw [Table.set_col _ _ _ (by simp [hrows]), if_pos rfl]
  · intro c
    unfold Table.set
    simp only
    rw [if_neg (by rw [hcols]; decide), List.mem_append, hcols]
    simp [or_assoc]

private theorem slashYmd_no (c : Char) (hc : isDigit c = false) (h : c ≠ '/') (y m d : ℕ) : c ∉ slashYmd y m d := by
  unfold slashYmd
  simp [zpad_no c hc, h]

private theorem slashMdy_no (c : Char) (hc : isDigit c = false) (h : c ≠ '/') (y m d : ℕ) : c ∉ slashMdy y m d := by
  unfold slashMdy
  simp [zpad_no c hc, h]

private theorem clock_no (c : Char) (hc : isDigit c = false) (h : c ≠ ':') (h' : c ≠ '.') (a b s k f : ℕ) : c ∉ clockStamp a b s k f := by
  unfold clockStamp
  simp [zpad_no c hc, h, h']

private theorem text_clock (h mi s k f : ℕ) : textField (some (clockStamp h mi s k f)) = .text (clockStamp h mi s k f) :=
  textField_zpad 2 h (by omega) _

/-- C36.  Atlantis: blank-separated records with the date in field 1, the time in field 2 and the count at the end of field 4. -/
theorem C36_atlantis {ι : Type} (other : OtherTimes) (scale : Option ℚ) (sc : ℚ) (hs : ScaleInForce scale "Atlantis".toList sc)
    (xs : List ι) (hne : xs ≠ []) (x : ι → Sample) (pre name chan rest : ι → Str)
    (hx : ∀ i ∈ xs, (x i).Valid ∧ ' ' ∉ pre i ∧ ' ' ∉ name i ∧ ' ' ∉ chan i ∧ Rest ' ' (rest i)) :
    ∃ F, readBgmRaw other [xs.map fun i => atlantisRecord (pre i) (name i) (chan i) (rest i) (x i)] "Atlantis".toList scale none
      = .ok (.val F) ∧ IsGravity sc xs x F := by
  have hsplit : ∀ i ∈ xs, ∃ t, splitC ' ' (atlantisRecord (pre i) (name i) (chan i) (rest i) (x i))
      = pre i :: slashYmd (x i).y (x i).m (x i).d :: clockStamp (x i).h (x i).mi (x i).s (x i).k (x i).f :: name i ::
        (chan i ++ ':' :: zpad (x i).w (x i).count) :: t := by
    intro i hi
    obtain ⟨-, h1, h2, h3, h4⟩ := hx i hi
    obtain ⟨t, ht⟩ := splitC_rest ' ' (chan i ++ ':' :: zpad (x i).w (x i).count) (rest i)
      (by simp [h3, zpad_no ' ' (by decide)]) h4
    refine ⟨t, ?_⟩
    unfold atlantisRecord
    rw [splitC_append _ _ _ h1, splitC_append _ _ _ (slashYmd_no ' ' (by decide) (by decide) _ _ _),
      splitC_append _ _ _ (clock_no ' ' (by decide) (by decide) (by decide) _ _ _ _ _), splitC_append _ _ _ h2,
      ← ht, List.append_assoc]
    rfl
  have hf : ∀ i ∈ xs, ∀ n, n < 5 → csvField ' ' n (atlantisRecord (pre i) (name i) (chan i) (rest i) (x i))
      = [pre i, slashYmd (x i).y (x i).m (x i).d, clockStamp (x i).h (x i).mi (x i).s (x i).k (x i).f, name i,
        (chan i ++ ':' :: zpad (x i).w (x i).count)][n]? := by
    intro i hi n hn
    obtain ⟨t, ht⟩ := hsplit i hi
    unfold csvField
    rw [ht]
    rcases n with _ | _ | _ | _ | _ | n
    · rfl
    · rfl
    · rfl
    · rfl
    · rfl
    · omega
  have hok : csvOk ' ' [1, 2, 4] (xs.map fun i => atlantisRecord (pre i) (name i) (chan i) (rest i) (x i)) = .ok () := by
    unfold csvOk
    rw [if_neg]
    rintro (h | ⟨n, hn, h⟩)
    · exact hne (List.map_eq_nil_iff.1 h)
    · obtain ⟨i, hi⟩ := List.exists_mem_of_ne_nil xs hne
      have := h _ (List.mem_map.2 ⟨i, hi, rfl⟩)
      simp at hn
      rcases hn with rfl | rfl | rfl <;> rw [hf i hi _ (by omega)] at this <;> cases this
  have hcnt : (xs.map fun i => atlantisRecord (pre i) (name i) (chan i) (rest i) (x i)).mapM (fun r => countText (fieldText ' ' 4 r))
      = .ok (xs.map fun i => ((x i).count : ℤ)) := by
    apply mapM_map_ok
    intro i hi
    unfold fieldText
    rw [hf i hi 4 (by omega)]
    exact countText_ok _ _ _ (hx i hi).1.digits.1 (hx i hi).1.digits.2
  have htime : dateTimes other ' ' 1 2 (xs.map fun i => atlantisRecord (pre i) (name i) (chan i) (rest i) (x i))
      = .ok (xs.map fun i => .time (x i).instant) := by
    unfold dateTimes
    have := toDatetime_ymd other (xs.map x) (by intro a ha; obtain ⟨i, hi, rfl⟩ := List.mem_map.1 ha; exact (hx i hi).1)
    rw [List.map_map, List.map_map] at this
    rw [List.map_map]
    refine Eq.trans ?_ this
    congr 1
    apply List.map_congr_left
    intro i hi
    simp only [Function.comp_def, dateTime]
    rw [hf i hi 1 (by omega), hf i hi 2 (by omega)]
    show (match textField (some (slashYmd _ _ _)), textField (some (clockStamp _ _ _ _ _)) with
      | .text a, .text b => some (a ++ ' ' :: b) | _, _ => none) = _
    rw [text_clock, slashYmd, textField_zpad 4 _ (by omega)]
  have hread : bgmAtlantis other (xs.map fun i => atlantisRecord (pre i) (name i) (chan i) (rest i) (x i))
      = .ok (Table.ofCols xs.length [("counts".toList, xs.map fun i => .num (x i).count),
          ("date_time".toList, xs.map fun i => .time (x i).instant)]) := by
    unfold bgmAtlantis
    simp only
    rw [csvRecords_keep ' ' _ (by
      intro l hl
      obtain ⟨i, -, rfl⟩ := List.mem_map.1 hl
      exact ⟨':', by simp [atlantisRecord], by decide⟩), hok, hcnt, htime]
    simp [bind, Except.bind, pure, Except.pure, Function.comp_def]
  exact built other _ scale sc _ _ _ xs x hs (by rfl) hread (Table.ofCols_length _ _) (fun c => Iff.rfl)
    (Table.ofCols_col _ _ _ _ (by rfl) (by simp)) (Table.ofCols_col _ _ _ _ (by rfl) (by simp))

/-- C36.  Thompson: comma-separated records `date,time,channel:count`, the count up to a blank. -/
theorem C36_thompson {ι : Type} (other : OtherTimes) (scale : Option ℚ) (sc : ℚ) (hs : ScaleInForce scale "Thompson".toList sc)
    (xs : List ι) (hne : xs ≠ []) (x : ι → Sample) (chan rest : ι → Str)
    (hx : ∀ i ∈ xs, (x i).Valid ∧ ' ' ∉ chan i ∧ ',' ∉ chan i ∧ ',' ∉ rest i ∧ Rest ' ' (rest i)) :
    ∃ F, readBgmRaw other [xs.map fun i => thompsonRecord (chan i) (rest i) (x i)] "Thompson".toList scale none
      = .ok (.val F) ∧ IsGravity sc xs x F := by
  have hsplit : ∀ i ∈ xs, splitC ',' (thompsonRecord (chan i) (rest i) (x i))
      = [slashMdy (x i).y (x i).m (x i).d, clockStamp (x i).h (x i).mi (x i).s (x i).k (x i).f,
        (chan i ++ ':' :: (zpad (x i).w (x i).count ++ rest i))] := by
    intro i hi
    obtain ⟨-, -, h1, h2, -⟩ := hx i hi
    unfold thompsonRecord
    rw [splitC_append _ _ _ (slashMdy_no ',' (by decide) (by decide) _ _ _),
      splitC_append _ _ _ (clock_no ',' (by decide) (by decide) (by decide) _ _ _ _ _), splitC_notMem]
    simp [h1, h2, zpad_no ',' (by decide)]
  have hcnt : (xs.map fun i => thompsonRecord (chan i) (rest i) (x i)).mapM (fun r => countThompson (fieldText ',' 2 r))
      = .ok (xs.map fun i => ((x i).count : ℤ)) := by
    apply mapM_map_ok
    intro i hi
    unfold fieldText csvField
    rw [hsplit i hi]
    show countThompson (chan i ++ ':' :: (zpad (x i).w (x i).count ++ rest i)) = _
    obtain ⟨t, ht⟩ := splitC_rest ' ' (chan i ++ ':' :: zpad (x i).w (x i).count) (rest i)
      (by simp [(hx i hi).2.1, zpad_no ' ' (by decide)]) (hx i hi).2.2.2.2
    rw [List.append_assoc] at ht
    unfold countThompson
    rw [show chan i ++ ':' :: (zpad (x i).w (x i).count ++ rest i) = chan i ++ (':' :: zpad (x i).w (x i).count ++ rest i) from rfl, ht]
    exact countText_ok _ _ _ (hx i hi).1.digits.1 (hx i hi).1.digits.2
  have htime : dateTimes other ',' 0 1 (xs.map fun i => thompsonRecord (chan i) (rest i) (x i))
      = .ok (xs.map fun i => .time (x i).instant) := by
    unfold dateTimes
    have := toDatetime_mdy other (xs.map x) (by intro a ha; obtain ⟨i, hi, rfl⟩ := List.mem_map.1 ha; exact (hx i hi).1)
    rw [List.map_map, List.map_map] at this
    rw [List.map_map]
    refine Eq.trans ?_ this
    congr 1
    apply List.map_congr_left
    intro i hi
    simp only [Function.comp_def, dateTime, csvField]
    rw [hsplit i hi]
    show (match textField (some (slashMdy _ _ _)), textField (some (clockStamp _ _ _ _ _)) with
      | .text a, .text b => some (a ++ ' ' :: b) | _, _ => none) = _
    rw [text_clock, slashMdy, textField_zpad 2 _ (by omega)]
  have hread : bgmThompson other (xs.map fun i => thompsonRecord (chan i) (rest i) (x i))
      = .ok (Table.ofCols xs.length [("counts".toList, xs.map fun i => .num (x i).count),
          ("date_time".toList, xs.map fun i => .time (x i).instant)]) := by
    unfold bgmThompson
    simp only
    rw [csvRecords_keep ',' _ (by
      intro l hl
      obtain ⟨i, -, rfl⟩ := List.mem_map.1 hl
      exact ⟨':', by simp [thompsonRecord], by decide⟩), leadingCols_three ',' _ (by simpa using hne) (by
      intro r hr
      obtain ⟨i, hi, rfl⟩ := List.mem_map.1 hr
      rw [hsplit i hi]
      rfl)]
    simp only [bind, Except.bind, Nat.zero_add]
    rw [hcnt, htime]
    simp [pure, Except.pure, Function.comp_def]
  exact built other _ scale sc _ _ _ xs x hs (by rfl) hread (Table.ofCols_length _ _) (fun c => Iff.rfl)
    (Table.ofCols_col _ _ _ _ (by rfl) (by simp)) (Table.ofCols_col _ _ _ _ (by rfl) (by simp))

/-- C36.  Revelle: blank-separated records `stamp channel:count`. -/
theorem C36_revelle {ι : Type} (other : OtherTimes) (scale : Option ℚ) (sc : ℚ) (hs : ScaleInForce scale "Revelle".toList sc)
    (xs : List ι) (hne : xs ≠ []) (x : ι → Sample) (chan rest : ι → Str)
    (hx : ∀ i ∈ xs, (x i).Valid ∧ ' ' ∉ chan i ∧ Rest ' ' (rest i)) :
    ∃ F, readBgmRaw other [xs.map fun i => revelleRecord (chan i) (rest i) (x i)] "Revelle".toList scale none
      = .ok (.val F) ∧ IsGravity sc xs x F := by
  have hsplit : ∀ i ∈ xs, ∃ t, splitC ' ' (revelleRecord (chan i) (rest i) (x i))
      = isoStamp (x i).y (x i).m (x i).d (x i).h (x i).mi (x i).s (x i).k (x i).f ::
        (chan i ++ ':' :: zpad (x i).w (x i).count) :: t := by
    intro i hi
    obtain ⟨-, h3, h4⟩ := hx i hi
    obtain ⟨t, ht⟩ := splitC_rest ' ' (chan i ++ ':' :: zpad (x i).w (x i).count) (rest i)
      (by simp [h3, zpad_no ' ' (by decide)]) h4
    refine ⟨t, ?_⟩
    unfold revelleRecord
    rw [splitC_append _ _ _ (stamp_iso_no_blank _ _ _ _ _ _ _ _), ← ht, List.append_assoc]
    rfl
  have hf0 : ∀ i ∈ xs, csvField ' ' 0 (revelleRecord (chan i) (rest i) (x i))
      = some (isoStamp (x i).y (x i).m (x i).d (x i).h (x i).mi (x i).s (x i).k (x i).f) := by
    intro i hi
    obtain ⟨t, ht⟩ := hsplit i hi
    unfold csvField
    rw [ht]; rfl
  have hf1 : ∀ i ∈ xs, csvField ' ' 1 (revelleRecord (chan i) (rest i) (x i))
      = some (chan i ++ ':' :: zpad (x i).w (x i).count) := by
    intro i hi
    obtain ⟨t, ht⟩ := hsplit i hi
    unfold csvField
    rw [ht]; rfl
  have hok : csvOk ' ' [0, 1] (xs.map fun i => revelleRecord (chan i) (rest i) (x i)) = .ok () := by
    unfold csvOk
    rw [if_neg]
    rintro (h | ⟨n, hn, h⟩)
    · exact hne (List.map_eq_nil_iff.1 h)
    · obtain ⟨i, hi⟩ := List.exists_mem_of_ne_nil xs hne
      have := h _ (List.mem_map.2 ⟨i, hi, rfl⟩)
      simp at hn
      rcases hn with rfl | rfl
      · rw [hf0 i hi] at this; cases this
      · rw [hf1 i hi] at this; cases this
  have hcnt : (xs.map fun i => revelleRecord (chan i) (rest i) (x i)).mapM (fun r => countText (fieldText ' ' 1 r))
      = .ok (xs.map fun i => ((x i).count : ℤ)) := by
    apply mapM_map_ok
    intro i hi
    unfold fieldText
    rw [hf1 i hi]
    exact countText_ok _ _ _ (hx i hi).1.digits.1 (hx i hi).1.digits.2
  have htime : toDatetime other ((xs.map fun i => revelleRecord (chan i) (rest i) (x i)).map
        fun r => textOf (textField (csvField ' ' 0 r)))
      = .ok (xs.map fun i => .time (x i).instant) := by
    have := toDatetime_iso other (xs.map x) (by intro a ha; obtain ⟨i, hi, rfl⟩ := List.mem_map.1 ha; exact (hx i hi).1)
    rw [List.map_map, List.map_map] at this
    rw [List.map_map]
    refine Eq.trans ?_ this
    congr 1
    apply List.map_congr_left
    intro i hi
    simp only [Function.comp_def]
    rw [hf0 i hi]
    simp only [isoStamp, isoDate, List.append_assoc]
    rw [textField_zpad 4 _ (by omega)]
    rfl
  have hread : bgmRevelle other (xs.map fun i => revelleRecord (chan i) (rest i) (x i))
      = .ok (Table.ofCols xs.length [("date_time".toList, xs.map fun i => .time (x i).instant),
          ("counts".toList, xs.map fun i => .num (x i).count)]) := by
    unfold bgmRevelle
    simp only
    rw [csvRecords_keep ' ' _ (by
      intro l hl
      obtain ⟨i, -, rfl⟩ := List.mem_map.1 hl
      exact ⟨':', by simp [revelleRecord], by decide⟩), hok, hcnt, htime]
    simp [bind, Except.bind, pure, Except.pure, Function.comp_def]
  exact built other _ scale sc _ _ _ xs x hs (by rfl) hread (Table.ofCols_length _ _)
    (fun c => by
      show c ∈ ["date_time".toList, "counts".toList] ↔ _
      simp only [List.mem_cons, List.not_mem_nil, or_false]
      exact or_comm)
    (Table.ofCols_col _ _ _ _ (by rfl) (by simp)) (Table.ofCols_col _ _ _ _ (by rfl) (by simp))

private theorem digit_not_blank (c : Char) (h : isDigit c = true) : fwfBlank c = false := by
  have := fun d hd => ne_of_isDigit (d := d) h hd
  unfold fwfBlank
  simp [this '\n' (by decide), this '\r' (by decide), this '\t' (by decide), this ' ' (by decide)]

private theorem julian_not_blank (y d h mi s k f : ℕ) : ∀ c ∈ julianStamp y d h mi s k f, fwfBlank c = false := by
  intro c hc
  unfold julianStamp at hc
  simp only [List.mem_append, List.mem_cons] at hc
  have z : ∀ w n, c ∈ zpad w n → fwfBlank c = false := fun w n hc => digit_not_blank c (zpad_digits w n c hc)
  rcases hc with h | rfl | h | rfl | h | rfl | h | rfl | h | rfl | h
  · exact z _ _ h
  · decide
  · exact z _ _ h
  · decide
  · exact z _ _ h
  · decide
  · exact z _ _ h
  · decide
  · exact z _ _ h
  · decide
  · exact z _ _ h

/-- C36.  Langseth: fixed-width records `tag`, stamp, `channel:count`, with the same widths in all records. -/
theorem C36_langseth {ι : Type} (other : OtherTimes) (scale : Option ℚ) (sc : ℚ) (hs : ScaleInForce scale "Langseth".toList sc)
    (xs : List ι) (hne : xs ≠ []) (x : ι → Sample) (tag chan rest : ι → Str) (a k c : ℕ) (ha : 1 ≤ a)
    (hx : ∀ i ∈ xs, (x i).Valid ∧ (∀ ch ∈ tag i ++ chan i, ch ≠ '\n' ∧ ch ≠ '\r' ∧ ch ≠ '\t' ∧ ch ≠ ' ') ∧ Rest ' ' (rest i) ∧
      (tag i).length = a ∧ (x i).k = k ∧ (chan i).length + 1 + (x i).w = c) :
    ∃ F, readBgmRaw other [xs.map fun i => langsethRecord (tag i) (chan i) (rest i) (x i)] "Langseth".toList scale none
      = .ok (.val F) ∧ IsGravity sc xs x F := by
  have three : ∀ i ∈ xs, ThreeFields a (18 + k) c (langsethRecord (tag i) (chan i) (rest i) (x i)) (tag i)
      (julianStamp (x i).y (dayOfYear (x i).y (x i).m (x i).d) (x i).h (x i).mi (x i).s (x i).k (x i).f)
      (chan i ++ ':' :: zpad (x i).w (x i).count) := by
    intro i hi
    obtain ⟨-, h1, h2, h3, h4, h5⟩ := hx i hi
    have nb : ∀ ch ∈ tag i ++ chan i, fwfBlank ch = false := by
      intro ch hch
      have := h1 ch hch
      simp [fwfBlank, this]
    refine ⟨⟨'\t', '\t', rest i, ?_, rfl, rfl, ?_⟩, h3, ?_, ?_, ?_, julian_not_blank _ _ _ _ _ _ _, ?_⟩
    · simp [langsethRecord]
    · intro ch hch
      rcases h2 with h2 | ⟨r, h2⟩
      · rw [h2] at hch; simp at hch
      · rw [h2] at hch; simp at hch; subst hch; rfl
    · simp [julianStamp, zpad_length, ← h4]; omega
    · simp [zpad_length, ← h5]; omega
    · intro ch hch; exact nb ch (by simp [hch])
    · intro ch hch
      simp only [List.mem_append, List.mem_cons] at hch
      rcases hch with hch | rfl | hch
      · exact nb ch (by simp [hch])
      · rfl
      · exact digit_not_blank ch (zpad_digits _ _ ch hch)
  obtain ⟨i0, hi0⟩ := List.exists_mem_of_ne_nil xs hne
  have hc1 : 1 ≤ c := by have := (hx i0 hi0).2.2.2.2.2; omega
  obtain ⟨more, hedges⟩ := fwfEdges_three a (18 + k) c (xs.map fun i => langsethRecord (tag i) (chan i) (rest i) (x i))
    (by simpa using hne) ha (by omega) hc1 (by
      intro r hr
      obtain ⟨i, hi, rfl⟩ := List.mem_map.1 hr
      exact ⟨_, _, _, three i hi⟩)
  have htime : (xs.map fun i => langsethRecord (tag i) (chan i) (rest i) (x i)).mapM
      (fun r => strptimeJulian (fwfField (a + 1, a + 1 + (18 + k)) r)) = .ok (xs.map fun i => (x i).instant) := by
    apply mapM_map_ok
    intro i hi
    have hv := (hx i hi).1
    rw [(three i hi).fields.1, strptime_stamp _ _ _ _ _ _ _ _ hv.date hv.hour hv.minute hv.second hv.decimals.1 hv.decimals.2 hv.fraction]
    rfl
  have hcnt : (xs.map fun i => langsethRecord (tag i) (chan i) (rest i) (x i)).mapM
      (fun r => countText (fwfField (a + 1 + (18 + k) + 1, a + 1 + (18 + k) + 1 + c) r)) = .ok (xs.map fun i => ((x i).count : ℤ)) := by
    apply mapM_map_ok
    intro i hi
    rw [(three i hi).fields.2]
    exact countText_ok _ _ _ (hx i hi).1.digits.1 (hx i hi).1.digits.2
  have hread : bgmLangseth (xs.map fun i => langsethRecord (tag i) (chan i) (rest i) (x i))
      = .ok (Table.ofCols xs.length [("date_time".toList, xs.map fun i => .time (x i).instant),
          ("counts".toList, xs.map fun i => .num (x i).count)]) := by
    unfold bgmLangseth
    have hrecs : fwfRecords ((0, a) :: (a + 1, a + 1 + (18 + k)) :: (a + 1 + (18 + k) + 1, a + 1 + (18 + k) + 1 + c) :: more)
        (xs.map fun i => langsethRecord (tag i) (chan i) (rest i) (x i)) = xs.map fun i => langsethRecord (tag i) (chan i) (rest i) (x i) := by
      unfold fwfRecords
      rw [List.filter_eq_self]
      intro l hl
      obtain ⟨i, hi, rfl⟩ := List.mem_map.1 hl
      rw [List.any_eq_true]
      refine ⟨(a + 1, a + 1 + (18 + k)), by simp, ?_⟩
      rw [(three i hi).fields.1]
      have := strip_ne_nil (s := julianStamp (x i).y (dayOfYear (x i).y (x i).m (x i).d) (x i).h (x i).mi (x i).s (x i).k (x i).f) (c := ':')
        (by simp [julianStamp]) (by decide)
      simpa using this
    rw [hedges, if_neg (by simpa using hne)]
    simp only [List.getElem?_cons_succ, List.getElem?_cons_zero, bind, Except.bind, pure, Except.pure]
    rw [hrecs, htime]
    simp only
    rw [hcnt]
    simp [Function.comp_def]
  exact built other _ scale sc _ _ _ xs x hs (by rfl) hread (Table.ofCols_length _ _)
    (fun c => by
      show c ∈ ["date_time".toList, "counts".toList] ↔ _
      simp only [List.mem_cons, List.not_mem_nil, or_false]
      exact or_comm)
    (Table.ofCols_col _ _ _ _ (by rfl) (by simp)) (Table.ofCols_col _ _ _ _ (by rfl) (by simp))

/-! ### RGS files -/

/-- C85.  `-999` is returned exactly for ships other than Atlantis and NBP. -/
theorem C85_sentinel_iff (other : OtherTimes) (files : List (List Str)) (ship : Str) :
    readBgmRgs other files ship = .ok .sentinel ↔ ship ≠ "Atlantis".toList ∧ ship ≠ "NBP".toList := by
  unfold readBgmRgs
  split
  · rename_i h; exact ⟨fun _ => h, fun _ => rfl⟩
  · rename_i h
    simp only [h, iff_false]
    cases files.mapM (rgsFile other) with
    | error e => intro h; cases h
    | ok ts =>
      show (concat ts >>= fun F => pure (Ret.val F)) ≠ _
      cases concat ts <;> intro h <;> cases h

private theorem rgs_eq (other : OtherTimes) (files : List (List Str)) (ship : Str) (h : ship = "Atlantis".toList ∨ ship = "NBP".toList) :
    readBgmRgs other files ship = (files.mapM (rgsFile other) >>= fun ts => (concat ts).map Ret.val) := by
  unfold readBgmRgs
  rw [if_neg (by rintro ⟨h1, h2⟩; rcases h with h | h; exacts [h1 h, h2 h])]
  cases files.mapM (rgsFile other) with
  | error e => rfl
  | ok ts =>
    show (concat ts >>= fun F => pure (Ret.val F)) = (concat ts).map Ret.val
    cases concat ts <;> rfl

/-- C85.  For the two ships an empty list of files raises. -/
theorem C85_no_files (other : OtherTimes) (ship : Str) (h : ship = "Atlantis".toList ∨ ship = "NBP".toList) :
    readBgmRgs other [] ship = .error .valueError := by
  rw [rgs_eq other [] ship h]
  rfl

private theorem rgs_single (other : OtherTimes) (f : List Str) (ship : Str) (h : ship = "Atlantis".toList ∨ ship = "NBP".toList) :
    readBgmRgs other [f] ship = (rgsFile other f).map Ret.val := by
  rw [rgs_eq other [f] ship h, mapM_single]
  cases rgsFile other f with
  | error e => rfl
  | ok t => simp [bind, Except.bind, Except.map, concat_single]

/-- C85.  Reading a list of files succeeds exactly when it is not empty and each file alone can be read; the result is the
concatenation, in the order of the list, of what reading each file alone returns. -/
theorem C85_files_in_order (other : OtherTimes) (files : List (List Str)) (ship : Str)
    (h : ship = "Atlantis".toList ∨ ship = "NBP".toList) :
    (∀ F, readBgmRgs other files ship = .ok (.val F) →
      files ≠ [] ∧ ∃ Ts, List.Forall₂ (fun f T => readBgmRgs other [f] ship = .ok (.val T)) files Ts ∧ IsConcat Ts F) ∧
    (∀ Ts, files ≠ [] → List.Forall₂ (fun f T => readBgmRgs other [f] ship = .ok (.val T)) files Ts →
      ∃ F, readBgmRgs other files ship = .ok (.val F) ∧ IsConcat Ts F) := by
  have single : ∀ f T, readBgmRgs other [f] ship = .ok (.val T) ↔ rgsFile other f = .ok T := by
    intro f T
    rw [rgs_single other f ship h]
    cases rgsFile other f <;> simp [Except.map]
  rw [rgs_eq other files ship h]
  constructor
  · intro F hF
    cases hm : files.mapM (rgsFile other) with
    | error e => rw [hm] at hF; cases hF
    | ok ts =>
      rw [hm] at hF
      replace hF : (concat ts).map Ret.val = .ok (.val F) := hF
      cases hc : concat ts with
      | error e => rw [hc] at hF; cases hF
      | ok F' =>
        rw [hc] at hF
        injection hF with hF
        injection hF with hF
        subst hF
        obtain ⟨hne, hcat⟩ := concat_isConcat ts F' hc
        rw [mapM_ok_iff] at hm
        refine ⟨?_, ts, hm.imp (fun f T h => (single f T).2 h), hcat⟩
        rintro rfl
        cases hm
        exact hne rfl
  · intro Ts hne hall
    have hm : files.mapM (rgsFile other) = .ok Ts := by
      rw [mapM_ok_iff]
      exact hall.imp (fun f T h => (single f T).1 h)
    have hT : Ts ≠ [] := by
      rintro rfl
      cases hall
      exact hne rfl
    obtain ⟨F, hF⟩ := concat_ok Ts hT
    refine ⟨F, ?_, (concat_isConcat _ _ hF).2⟩
    rw [hm]
    show (concat Ts).map Ret.val = _
    rw [hF]
    rfl

private theorem split_join (fs : List Str) (rest : Str) (hne : fs ≠ []) (h : ∀ f ∈ fs, ' ' ∉ f) (hr : Rest ' ' rest) :
    ∃ t, splitC ' ' (joinBlank fs rest) = fs ++ t := by
  induction fs with
  | nil => exact absurd rfl hne
  | cons a fs ih =>
    cases fs with
    | nil =>
      obtain ⟨t, ht⟩ := splitC_rest ' ' a rest (h a (by simp)) hr
      exact ⟨t, by rw [joinBlank, ht]; rfl⟩
    | cons b fs =>
      obtain ⟨t, ht⟩ := ih (by simp) (fun f hf => h f (by simp [hf]))
      refine ⟨t, ?_⟩
      rw [joinBlank, splitC_append _ _ _ (h a (by simp)), ht]
      · rfl
      · simp

/-- C85.  One row per record, with gravity, latitude, longitude and instant from the fields 3, 11, 12 and 1–2. -/
theorem C85_records {ι : Type} (other : OtherTimes) (ship : Str) (hship : ship = "Atlantis".toList ∨ ship = "NBP".toList)
    (xs : List ι) (hne : xs ≠ []) (x : ι → Sample) (r : ι → RgsFields) (g lat lon : ι → ℚ)
    (hx : ∀ i ∈ xs, (x i).Valid ∧ (r i).Valid ∧ DecText (r i).grav (g i) ∧ DecText (r i).lat (lat i) ∧ DecText (r i).lon (lon i)) :
    ∃ F, readBgmRgs other [xs.map fun i => rgsRecord (r i) (x i)] ship = .ok (.val F) ∧
      F.cols = ["grav".toList, "lat".toList, "lon".toList, "date_time".toList] ∧
      F.col "grav".toList = (xs.map fun i => .num (g i)) ∧
      F.col "lat".toList = (xs.map fun i => .num (lat i)) ∧
      F.col "lon".toList = (xs.map fun i => .num (lon i)) ∧
      F.col "date_time".toList = (xs.map fun i => .time (x i).instant) := by
  have hfield : ∀ i ∈ xs, ∀ n, n < 13 → csvField ' ' n (rgsRecord (r i) (x i))
      = [(r i).tag, slashYmd (x i).y (x i).m (x i).d, clockStamp (x i).h (x i).mi (x i).s (x i).k (x i).f, (r i).grav, (r i).f4,
        (r i).f5, (r i).f6, (r i).f7, (r i).f8, (r i).f9, (r i).f10, (r i).lat, (r i).lon][n]? := by
    intro i hi n hn
    obtain ⟨-, hv, -⟩ := hx i hi
    unfold csvField rgsRecord
    obtain ⟨t, ht⟩ := split_join [(r i).tag, slashYmd (x i).y (x i).m (x i).d, clockStamp (x i).h (x i).mi (x i).s (x i).k (x i).f,
        (r i).grav, (r i).f4, (r i).f5, (r i).f6, (r i).f7, (r i).f8, (r i).f9, (r i).f10, (r i).lat, (r i).lon] (r i).rest
        (by simp) (by
          intro f hf
          by_cases h1 : f = slashYmd (x i).y (x i).m (x i).d
          · rw [h1]; exact slashYmd_no ' ' (by decide) (by decide) _ _ _
          · by_cases h2 : f = clockStamp (x i).h (x i).mi (x i).s (x i).k (x i).f
            · rw [h2]; exact clock_no ' ' (by decide) (by decide) (by decide) _ _ _ _ _
            · apply hv.noBlank
              simp only [List.mem_cons, List.not_mem_nil, h1, h2, false_or, or_false] at hf ⊢
              exact hf) hv.rest
    rw [ht, List.getElem?_append_left (by simpa using hn)]
  have hok : csvOk ' ' [1, 2, 3, 11, 12] (xs.map fun i => rgsRecord (r i) (x i)) = .ok () := by
    unfold csvOk
    rw [if_neg]
    rintro (h | ⟨n, hn, h⟩)
    · exact hne (List.map_eq_nil_iff.1 h)
    · obtain ⟨i, hi⟩ := List.exists_mem_of_ne_nil xs hne
      have := h _ (List.mem_map.2 ⟨i, hi, rfl⟩)
      simp at hn
      rcases hn with rfl | rfl | rfl | rfl | rfl <;> rw [hfield i hi _ (by omega)] at this <;> cases this
  have hcol : ∀ n, n < 13 → ∀ (s : ι → Str) (q : ι → ℚ), (∀ i ∈ xs, csvField ' ' n (rgsRecord (r i) (x i)) = some (s i)) →
      (∀ i ∈ xs, DecText (s i) (q i)) →
      csvColumn ((xs.map fun i => rgsRecord (r i) (x i)).map (csvField ' ' n)) = xs.map fun i => .num (q i) := by
    intro n hn s q h1 h2
    rw [List.map_map, ← csvColumn_dec xs s q h2]
    congr 1
    apply List.map_congr_left
    intro i hi
    exact h1 i hi
  have hcsv : readCsv ' ' [("grav".toList, 3), ("lat".toList, 11), ("lon".toList, 12)] (xs.map fun i => rgsRecord (r i) (x i))
      = .ok (Table.ofCols xs.length [("grav".toList, xs.map fun i => .num (g i)), ("lat".toList, xs.map fun i => .num (lat i)),
          ("lon".toList, xs.map fun i => .num (lon i))]) := by
    unfold readCsv
    rw [if_neg]
    · simp only [List.map_cons, List.map_nil]
      rw [hcol 3 (by omega) (fun i => (r i).grav) g (fun i hi => by rw [hfield i hi 3 (by omega)]; rfl) (fun i hi => (hx i hi).2.2.1),
        hcol 11 (by omega) (fun i => (r i).lat) lat (fun i hi => by rw [hfield i hi 11 (by omega)]; rfl) (fun i hi => (hx i hi).2.2.2.1),
        hcol 12 (by omega) (fun i => (r i).lon) lon (fun i hi => by rw [hfield i hi 12 (by omega)]; rfl) (fun i hi => (hx i hi).2.2.2.2),
        List.length_map]
    · rintro (h | ⟨n, hn, h⟩)
      · exact hne (List.map_eq_nil_iff.1 h)
      · obtain ⟨i, hi⟩ := List.exists_mem_of_ne_nil xs hne
        have := h _ (List.mem_map.2 ⟨i, hi, rfl⟩)
        simp only [List.mem_cons, List.not_mem_nil, or_false] at hn
        rcases hn with rfl | rfl | rfl <;> rw [hfield i hi _ (by simp)] at this <;> cases this
  have htime : dateTimes other ' ' 1 2 (xs.map fun i => rgsRecord (r i) (x i)) = .ok (xs.map fun i => .time (x i).instant) := by
    unfold dateTimes
    have := toDatetime_ymd other (xs.map x) (by intro a ha; obtain ⟨i, hi, rfl⟩ := List.mem_map.1 ha; exact (hx i hi).1)
    rw [List.map_map, List.map_map] at this
    rw [List.map_map]
    refine Eq.trans ?_ this
    congr 1
    apply List.map_congr_left
    intro i hi
    simp only [Function.comp_def, dateTime]
    rw [hfield i hi 1 (by omega), hfield i hi 2 (by omega)]
    show (match textField (some (slashYmd _ _ _)), textField (some (clockStamp _ _ _ _ _)) with
      | .text a, .text b => some (a ++ ' ' :: b) | _, _ => none) = _
    rw [text_clock, slashYmd, textField_zpad 4 _ (by omega)]
  have hread : rgsFile other (xs.map fun i => rgsRecord (r i) (x i))
      = .ok ((Table.ofCols xs.length [("grav".toList, xs.map fun i => .num (g i)), ("lat".toList, xs.map fun i => .num (lat i)),
          ("lon".toList, xs.map fun i => .num (lon i))]).set "date_time".toList (xs.map fun i => .time (x i).instant)) := by
    unfold rgsFile
    simp only
    rw [csvRecords_keep ' ' _ (by
      intro l hl
      obtain ⟨i, -, rfl⟩ := List.mem_map.1 hl
      exact ⟨'/', by simp [rgsRecord, joinBlank, slashYmd], by decide⟩), hok, hcsv, htime]
    rfl
  refine ⟨_, by rw [rgs_single other _ ship hship, hread]; rfl, ?_, ?_, ?_, ?_, ?_⟩
  · unfold Table.set
    simp only [Table.ofCols, List.map_cons, List.map_nil]
    rw [if_neg (by decide)]
    rfl
  · rw [Table.set_col _ _ _ (by simp [Table.ofCols_length]), if_neg (by decide)]
    exact Table.ofCols_col _ _ _ _ (by rfl) (by simp)
  · rw [Table.set_col _ _ _ (by simp [Table.ofCols_length]), if_neg (by decide)]
    exact Table.ofCols_col _ _ _ _ (by rfl) (by simp)
  · rw [Table.set_col _ _ _ (by simp [Table.ofCols_length]), if_neg (by decide)]
    exact Table.ofCols_col _ _ _ _ (by rfl) (by simp)
  · rw [Table.set_col _ _ _ (by simp [Table.ofCols_length]), if_pos rfl]

/-! ### Concrete cases -/

private def s1 : Sample := ⟨2022, 7, 1, 12, 17, 33, 3, 492, 6, 24963⟩
private theorem s1_valid : s1.Valid := ⟨by decide, by decide, by decide, by decide, by decide, by decide, by decide, by decide⟩

example : atlantisRecord "BGM".toList "BGM3".toList "04".toList " 00".toList s1
    = "BGM 2022/07/01 12:17:33.492 BGM3 04:024963 00".toList := by decide +kernel
example : thompsonRecord "04".toList " 00".toList ⟨2022, 3, 13, 0, 0, 2, 3, 449, 6, 25529⟩
    = "03/13/2022,00:00:02.449,04:025529 00".toList := by decide +kernel
example : revelleRecord "04".toList " 00".toList ⟨2022, 11, 7, 17, 13, 45, 6, 329611, 6, 24882⟩
    = "2022-11-07T17:13:45.329611Z 04:024882 00".toList := by decide +kernel
example : langsethRecord "vc01".toList "04".toList " 00".toList ⟨2020, 8, 31, 0, 0, 0, 4, 3244, 6, 25229⟩
    = "vc01\t2020:244:00:00:00.3244\t04:025229 00".toList := by decide +kernel

/-- The four record theorems apply to a real record each. -/
example (other : OtherTimes) : ∃ F, readBgmRaw other [["BGM 2022/07/01 12:17:33.492 BGM3 04:024963 00".toList]] "Atlantis".toList none none
    = .ok (.val F) ∧ F.col "rgrav".toList = [.num (4.994070552 * 24963)] := by
  obtain ⟨F, hF, hg⟩ := C36_atlantis other none 4.994070552 (Or.inr ⟨rfl, .atlantis⟩) [()] (by simp) (fun _ => s1)
    (fun _ => "BGM".toList) (fun _ => "BGM3".toList) (fun _ => "04".toList) (fun _ => " 00".toList)
    (fun _ _ => ⟨s1_valid, by decide, by decide, by decide, Or.inr ⟨"00".toList, rfl⟩⟩)
  refine ⟨F, ?_, ?_⟩
  · rw [← hF]; exact congrArg (fun l => readBgmRaw other [[l]] _ none none) (by decide +kernel)
  · rw [hg.gravity]; simp [s1]
example (other : OtherTimes) := C36_thompson other (some 2) 2 (Or.inl rfl) [()] (by simp) (fun _ => s1)
    (fun _ => "04".toList) (fun _ => " 00".toList) (fun _ _ => ⟨s1_valid, by decide, by decide, by decide, Or.inr ⟨_, rfl⟩⟩)
example (other : OtherTimes) := C36_revelle other none 4.99980755 (Or.inr ⟨rfl, .revelle⟩) [()] (by simp) (fun _ => s1)
    (fun _ => "04".toList) (fun _ => " 00".toList) (fun _ _ => ⟨s1_valid, by decide, Or.inr ⟨_, rfl⟩⟩)
example (other : OtherTimes) := C36_langseth other none 5.0 (Or.inr ⟨rfl, .langseth⟩) [()] (by simp) (fun _ => s1)
    (fun _ => "vc01".toList) (fun _ => "04".toList) (fun _ => " 00".toList) 4 3 9 (by decide)
    (fun _ _ => ⟨s1_valid, by decide, Or.inr ⟨_, rfl⟩, rfl, rfl, rfl⟩)

private def rgs1 : RgsFields := ⟨"RGS".toList, "980329.272".toList, "24980".toList, "1656633600.445".toList, "4.994070552".toList,
  "855577.390".toList, "BGM3".toList, "S210".toList, "GPS:".toList, "41.523386".toList, "-70.671852".toList, " 1656633599.533 0".toList⟩

example : rgsRecord rgs1 ⟨2022, 7, 1, 0, 0, 0, 3, 445, 1, 0⟩ =
    "RGS 2022/07/01 00:00:00.445 980329.272 24980 1656633600.445 4.994070552 855577.390 BGM3 S210 GPS: 41.523386 -70.671852 1656633599.533 0".toList := by
  decide +kernel
example (other : OtherTimes) := C85_records other "NBP".toList (Or.inr rfl) [()] (by simp) (fun _ => ⟨2022, 7, 1, 0, 0, 0, 3, 445, 1, 0⟩) (fun _ => rgs1)
  (fun _ => 980329 + 272 / 10 ^ 3) (fun _ => 41 + 523386 / 10 ^ 6) (fun _ => -(70 + 671852 / 10 ^ 6))
  (fun _ _ => ⟨⟨by decide, by decide, by decide, by decide, by decide, by decide, by decide, by decide⟩,
    ⟨by decide +kernel, Or.inr ⟨_, rfl⟩⟩, .dec 6 980329 3 272 (by decide) (by decide) (by decide),
    .dec 2 41 6 523386 (by decide) (by decide) (by decide), .negDec 2 70 6 671852 (by decide) (by decide) (by decide)⟩)

/-- `-999`, and not. -/
example (other : OtherTimes) : readBgmRaw other [[]] "Ride".toList none none = .ok .sentinel :=
  (C37_sentinel_iff _ _ _ _ _).2 (Or.inl (by rintro sc (h | ⟨-, h⟩) <;> cases h))
example (other : OtherTimes) : readBgmRaw other [[]] "Ride".toList (some 5) none = .ok .sentinel :=
  (C37_sentinel_iff _ _ _ _ _).2 (Or.inr ⟨rfl, (by intro sc h; cases h), (by simp)⟩)

end Shipgrav
