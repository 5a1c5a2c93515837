import Verif.Model.FilesFloat
import Verif.Spec.Files
import Verif.Props.PipelineFloat
import Verif.Props.CoordFloat
import Verif.Props.NavFloat
import Verif.Props.DateLineFloat
import Verif.Props.NavStamp
import Verif.Props.MeterFiles

/-! C139: from the lines of the files to the free-air anomaly in double precision. -/

namespace Shipgrav
open Spec Real

/-! ### Navigation files -/

/-- Lists in strictly increasing order with the same members are equal. -/
private theorem sorted_unique {α : Type} (time : α → ℤ) (l l' : List α) (h : l.Pairwise fun a b => time a < time b) (h' : l'.Pairwise fun a b => time a < time b)
    (hm : ∀ a, a ∈ l ↔ a ∈ l') : l = l' := by
  have n : l.Nodup := h.imp fun hab e => by rw [e] at hab; exact lt_irrefl _ hab
  have n' : l'.Nodup := h'.imp fun hab e => by rw [e] at hab; exact lt_irrefl _ hab
  apply List.Perm.eq_of_pairwise (le := fun a b => time a < time b) ?_ h h' ((List.perm_ext_iff_of_nodup n n').2 hm)
  intro a b _ _ h1 h2
  exact absurd h1 (not_lt.2 h2.le)

private theorem samples_sorted {α : Type} (time : α → ℤ) (f : ℕ → α) (m : ℕ) (h : ∀ i j, i < j → j < m → time (f i) < time (f j)) :
    (samples f m).Pairwise fun a b => time a < time b := by
  unfold samples
  rw [List.pairwise_map]
  refine List.Pairwise.imp_of_mem ?_ (List.pairwise_lt_range (n := m))
  intro a b _ hb hab
  exact h a b hab (by simpa using hb)

/-- What the double precision reader makes of files whose fixes are known. -/
private theorem nav_rows {ι : Type} (ship tk : Str) (hs : defaultTalker ship ≠ none) (files : List (List Str)) (fixes : List (List ι)) (time : ι → ℤ) (lon lat : ι → ℚ)
    (hf : List.Forall₂ (fun file fx => fx ≠ [] ∧ builtinReadF ship tk file = .ok (some (fx.map fun x => (some (lon x), some (lat x)), .val (fx.map fun x => some (time x))))) files fixes)
    (m : ℕ) (fix : ℕ → ι) (hp : fixes.flatten.Perm (samples fix m)) (ht : ∀ i j, i < j → j < m → time (fix i) < time (fix j)) (hM : ∀ i < m, Modern (time (fix i)))
    (hj : ∀ i, i + 1 < m → |lon (fix (i + 1)) - lon (fix i)| ≤ 1) :
    ∃ rows, readNavD ship files 1 (some tk) 0 = .ok (.val rows) ∧
      navColumns rows = .ok (samples (fun i => (timestampF (time (fix i)), lon (fix i), lat (fix i))) m) := by
  let toFix : ι → Fix := fun x => (time x, (some (lon x), some (lat x)))
  have hR : List.Forall₂ (fun file (fx : List Fix) => fx ≠ [] ∧ builtinReadF ship tk file = .ok (some (fx.map Prod.snd, .val (fx.map fun x => some x.1)))) files
      (fixes.map (List.map toFix)) := by
    rw [List.forall₂_map_right_iff]
    refine hf.imp ?_
    rintro file fx ⟨h1, h2⟩
    refine ⟨by simpa using h1, ?_⟩
    rw [h2]
    simp only [List.map_map]
    rfl
  have hflat : (fixes.map (List.map toFix)).flatten = fixes.flatten.map toFix := by rw [List.map_flatten]
  have hperm : (fixes.flatten.map toFix).Perm (samples (fun i => toFix (fix i)) m) := by
    have := hp.map toFix
    unfold samples at this ⊢
    rwa [List.map_map] at this
  have hMod : ∀ x ∈ (fixes.map (List.map toFix)).flatten, Modern x.1 := by
    intro x hx
    rw [hflat, hperm.mem_iff] at hx
    unfold samples at hx
    obtain ⟨i, h5, rfl⟩ := List.mem_map.1 hx
    exact hM i (by simpa using h5)
  obtain ⟨out, lons, o1, o2, -, o4, -⟩ := C146_read_nav ship tk (some tk) hs rfl 1 one_ne_zero files _ hR hMod
  have hsorted : (samples (fun i => toFix (fix i)) m).Pairwise fun a b => a.1 < b.1 := samples_sorted Prod.fst _ m ht
  have hnd : (fixes.flatten.map toFix).Pairwise fun a b => a.1 ≠ b.1 :=
    (hperm.pairwise_iff (fun h => h.symm)).2 (hsorted.imp fun h => ne_of_lt h)
  have hout : out = samples (fun i => toFix (fix i)) m := by
    refine sorted_unique Prod.fst _ _ o1.1 hsorted fun a => ?_
    rw [o1.2, hflat, ← hperm.mem_iff]
    constructor
    · rintro ⟨pre, post, e, -⟩
      rw [e]; simp
    · intro ha
      obtain ⟨pre, post, e⟩ := List.append_of_mem ha
      refine ⟨pre, post, e, fun x hx => ?_⟩
      rw [e] at hnd
      exact (List.pairwise_append.1 hnd).2.2 x hx a (by simp)
  have hnj : SmallSteps toDouble (out.map fun x => x.2.1) := by
    intro i a b ha hb
    rw [hout] at ha hb
    unfold samples at ha hb
    rw [List.map_map, List.getElem?_map] at ha hb
    by_cases h : i + 1 < m
    · rw [List.getElem?_range (by omega)] at ha
      rw [List.getElem?_range h] at hb
      simp only [Option.map_some, Option.some.injEq, Function.comp_def] at ha hb
      have := abs_le.1 (hj i h)
      simp only [toFix, Option.some.injEq] at ha hb
      rw [← ha, ← hb]
      have h1 := toDouble_rounds.mono this.2
      have h2 := toDouble_rounds.mono this.1
      have e1 : toDouble 1 = 1 := toDouble_rounds.exact ⟨1, 0, by norm_num, by norm_num⟩
      have e2 : toDouble (-1) = -1 := toDouble_rounds.exact ⟨-1, 0, by norm_num, by norm_num⟩
      rw [e1] at h1
      rw [e2] at h2
      exact abs_le.2 ⟨h2, h1⟩
    · rw [List.getElem?_eq_none (by simpa using h)] at hb
      cases hb
  refine ⟨_, o2, ?_⟩
  rw [o4 hnj, hout]
  clear o1 o2 o4 hnj hout hsorted hnd hperm hflat hMod hR
  unfold samples navColumns
  rw [List.map_map, List.zipWith_map, List.zipWith_self]
  generalize List.range m = l
  induction l with
  | nil => rfl
  | cons k l ih =>
    rw [List.map_cons, List.mapM_cons, ih]
    rfl

/-- The position of a line as the reader computes it. -/
private def coordF (x : RideFix) : ℚ × ℚ :=
  match coordLineF "GPGGA".toList x.line with
  | .ok (some a, some b) => (a, b)
  | _ => (0, 0)

private theorem coordF_eq (x : RideFix) (hx : x.Valid) :
    coordLineF "GPGGA".toList x.line = .ok (some (coordF x).1, some (coordF x).2) ∧ |(coordF x).1 - x.lon| ≤ 1 / 2 ^ 39 ∧ |(coordF x).2 - x.lat| ≤ 1 / 2 ^ 39 := by
  obtain ⟨a, b, h1, h2, h3⟩ := C127_well_formed x.pre "GPGGA".toList x.time x.rest x.south x.west x.ld x.lm x.lk x.lf x.gd x.gm x.gk x.gf hx.latitude.1 hx.latitude.2.1
    hx.latitude.2.2 hx.longitude.1 hx.longitude.2.1 hx.longitude.2.2 hx.sentence
  unfold navcoordsF at h1
  rw [talkerLines_single (ggaLine_hasSub _ _ _), mapM_single] at h1
  have e : coordLineF "GPGGA".toList x.line = .ok (some a, some b) := by
    change (coordLineF "GPGGA".toList x.line).map _ = _ at h1
    cases h : coordLineF "GPGGA".toList x.line with
    | error e => rw [h] at h1; cases h1
    | ok p =>
      rw [h] at h1
      injection h1 with h1
      injection h1 with h1
      rw [h1]
  have e2 : coordF x = (a, b) := by unfold coordF; rw [e]
  rw [e2]
  exact ⟨e, h2, h3⟩

private theorem ride_stamp (x : RideFix) (hx : x.Valid) : rideStamp "GPGGA".toList x.line = .ok (some x.instant) := by
  have hsub : "GPGGA".toList <:+: x.mid ++ ("GPGGA".toList ++ commaFields x.fields) := ⟨x.mid, commaFields x.fields, by simp⟩
  have e : x.line = isoStamp x.y x.m x.d x.h x.mi x.s x.k x.f ++ (x.mid ++ ("GPGGA".toList ++ commaFields x.fields)) := by
    unfold RideFix.line ggaLine RideFix.pre
    simp only [List.append_assoc]
  have h1 := C87_iso_milliseconds [] (by simp) x.y x.m x.d x.h x.mi x.s x.k x.f _ hx.date hx.clock.1 hx.clock.2.1 hx.clock.2.2 hx.decimals.1 hx.decimals.2 hx.fraction hsub
  rw [← e, List.nil_append] at h1
  unfold navdateRide at h1
  have tl : talkerLines "GPGGA".toList [x.line] = [x.line] := talkerLines_single (ggaLine_hasSub _ _ _)
  simp only [tl, List.length_cons, List.length_nil, zero_add, one_ne_zero, if_false] at h1
  rw [mapM_single] at h1
  cases h : rideStamp "GPGGA".toList x.line with
  | error e => rw [h] at h1; cases h1
  | ok p =>
    rw [h] at h1
    injection h1 with h1
    injection h1 with h1
    injection h1 with h1
    rw [h1]
    rfl

private theorem ride_read (file : List Str) (fx : List RideFix) (hne : fx ≠ []) (hf : file.filter (fun l => decide ("GPGGA".toList <:+: l)) = fx.map RideFix.line)
    (hx : ∀ x ∈ fx, x.Valid) :
    builtinReadF "Ride".toList "GPGGA".toList file = .ok (some (fx.map fun x => (some (coordF x).1, some (coordF x).2), .val (fx.map fun x => some x.instant))) := by
  have ht : talkerLines "GPGGA".toList file = fx.map RideFix.line := by
    rw [← hf]
    exact List.filter_congr (fun l _ => by simp [hasSub])
  have h1 : navcoordsF file "GPGGA".toList = .ok (fx.map fun x => (some (coordF x).1, some (coordF x).2)) := by
    unfold navcoordsF
    rw [ht, List.mapM_map]
    exact mapM_ok _ _ _ fun x h => (coordF_eq x (hx x h)).1
  have h2 : navdateRide file "GPGGA".toList = .ok (.val (fx.map fun x => some x.instant)) := by
    unfold navdateRide
    simp only [ht]
    rw [if_neg (by simpa using hne), List.mapM_map, mapM_ok (rideStamp "GPGGA".toList ∘ RideFix.line) (fun x => some x.instant) _ fun x h => ride_stamp x (hx x h)]
    rfl
  unfold builtinReadF
  rw [if_neg (by decide), if_neg (by decide), if_neg (by decide), if_neg (by decide), if_pos rfl, h1]
  simp only [bind, Except.bind]
  rw [h2]
  rfl

/-! ### Gravimeter files -/

private theorem laptop_rows (rd : ℚ → ℚ) (dates : Dates) (ship : Str) (hship : ship ∈ ["Atlantis", "Revelle", "NBP", "Ride", "DGStest"].map String.toList)
    (recs : List (List LaptopRecord)) (hne : recs ≠ []) (hx : ∀ l ∈ recs, l ≠ [] ∧ ∀ r ∈ l, r.Valid) :
    ∃ F, readDgsLaptop dates (.many (recs.map fun l => l.map LaptopRecord.line)) ship none = .ok (.val F) ∧
      dgsColumns rd F = .ok (recs.flatten.map fun r => (r.x.instant, rd r.rgrav)) := by
  have hx' : ∀ l ∈ recs, l ≠ [] ∧ ∀ r ∈ l, r.x.Valid ∧ PartsAre r.q r.x ∧ 25 ≤ r.fields.length ∧ (∀ f ∈ r.fields, ',' ∉ f) ∧
      (∀ s ∈ laptopColumns, NumText (r.fields.getD s.2 []) (r.q s.2)) ∧ ∀ j ∈ [19, 20, 21], WholeText (r.fields.getD j []) :=
    fun l hl => ⟨(hx l hl).1, fun r hr => by
      have := (hx l hl).2 r hr
      exact ⟨this.time, this.parts, this.enough, this.commas, this.numbers, this.whole⟩⟩
  obtain ⟨F, G, h1, h2, h3⟩ := C130_laptop dates ship hship recs hne LaptopRecord.fields LaptopRecord.q LaptopRecord.x hx'
  have hfl : recs.flatten ≠ [] := by
    obtain ⟨l, hl⟩ := List.exists_mem_of_ne_nil recs hne
    intro h
    exact (hx l hl).1 (List.flatten_eq_nil_iff.1 h l hl)
  obtain ⟨G', g1, g2, g3, g4⟩ := C88_general dates ship hship recs.flatten hfl LaptopRecord.fields LaptopRecord.q LaptopRecord.x (fun r hr => by
    obtain ⟨l, hl, hr⟩ := List.mem_flatten.1 hr
    exact (hx' l hl).2 r hr)
  have e : G = G' := by
    have : readDgsLaptop dates (.many [recs.flatten.map fun i => joinC ',' i.fields]) ship none = .ok (.val G') := g1
    rw [h2] at this
    injection this with this
    injection this
  subst e
  refine ⟨F, h1, ?_⟩
  have c1 : "date_time".toList ∈ F.cols := (h3.1 _).2 (by rw [g2]; decide)
  have c2 : "rgrav".toList ∈ F.cols := (h3.1 _).2 (by rw [g2]; decide)
  unfold dgsColumns Table.get
  rw [if_pos c1, if_pos c2, h3.2 _ c1, h3.2 _ c2, g4, g3 ("rgrav".toList, 1) (by decide)]
  simp only [bind, Except.bind]
  rw [List.zip_map', List.mapM_map]
  exact mapM_ok _ _ _ fun r _ => rfl

open Classical in
private noncomputable def sampleStamp (x : Sample) : Stamp :=
  if h : x.Valid ∧ 1900 ≤ x.y ∧ x.y ≤ 2099 then
    ⟨x.y, x.m, x.d, x.h, x.mi, x.s, ((x.f * 10 ^ (6 - x.k) : ℕ) : ℤ), h.1.date, by
      have h10 : 10 ^ x.k * 10 ^ (6 - x.k) = 1000000 := by rw [← pow_add, Nat.add_sub_cancel' h.1.decimals.2]; norm_num
      have hl : x.f * 10 ^ (6 - x.k) < 1000000 := by
        rw [← h10]
        exact Nat.mul_lt_mul_of_pos_right h.1.fraction (by positivity)
      have := h.1.hour
      have := h.1.minute
      have := h.1.second
      refine ⟨?_, ?_, ?_, ?_, ?_, ?_, ?_, ?_⟩ <;> omega, h.2.1, h.2.2⟩
  else ⟨2000, 1, 1, 0, 0, 0, 0, by decide, by decide, by decide, by decide⟩

/-! ### C139 -/

/-- What the readers hand over for such files: the fixes with their rounded coordinates in the order of time, and the readings. -/
theorem ride_tables (lm : TideLibm) (rd : ℚ → ℚ) (dates : Dates) (bias samp : ℚ)
    (navFiles : List (List Str)) (fixes : List (List RideFix))
    (hfiles : List.Forall₂ (fun file fx => fx ≠ [] ∧ file.filter (fun l => decide ("GPGGA".toList <:+: l)) = fx.map RideFix.line ∧ ∀ x ∈ fx, x.Valid) navFiles fixes)
    (m : ℕ) (fix : ℕ → RideFix) (hfix : fixes.flatten.Perm (samples fix m))
    (hT : ∀ i j, i < j → j < m → (fix i).instant < (fix j).instant) (hM : ∀ i < m, Modern (fix i).instant ∧ |(fix i).lon| ≤ 180 ∧ |(fix i).lat| ≤ 88)
    (hv : ∀ i, i + 1 < m → (fix (i + 1)).instant - (fix i).instant ≤ 1000000000 ∧
      |(fix (i + 1)).lon - (fix i).lon| ≤ 9 / 10000 * (((fix (i + 1)).instant - (fix i).instant : ℤ) / 1000000) ∧
      |(fix (i + 1)).lat - (fix i).lat| ≤ 9 / 10000 * (((fix (i + 1)).instant - (fix i).instant : ℤ) / 1000000))
    (recs : List (List LaptopRecord)) (hrecs : ∀ l ∈ recs, l ≠ [] ∧ ∀ r ∈ l, r.Valid ∧ 1900 ≤ r.x.y ∧ r.x.y ≤ 2099)
    (n : ℕ) (hn : 3 ≤ n) (rec : ℕ → LaptopRecord) (hrec : recs.flatten.Perm (samples rec n)) :
    ∃ (x y : ℕ → ℚ) (t : ℕ → Stamp) (dgs : List (ℤ × ℚ)),
      faaFilesF lm rd dates "Ride".toList "GPGGA".toList navFiles (recs.map fun l => l.map LaptopRecord.line) bias samp =
        faaPipelineF lm (samples (fun i => (timestampF (fix i).instant, x i, y i)) m) dgs bias samp ∧
      (∀ i < m, |x i - (fix i).lon| ≤ 1 / 2 ^ 39 ∧ |y i - (fix i).lat| ≤ 1 / 2 ^ 39) ∧
      (∀ i, i + 1 < m → |x (i + 1) - x i| ≤ (((fix (i + 1)).instant : ℚ) - (fix i).instant) / 10 ^ 9 ∧ |y (i + 1) - y i| ≤ (((fix (i + 1)).instant : ℚ) - (fix i).instant) / 10 ^ 9) ∧
      dgs.Perm (samples (fun k => ((t k).instant, rd (rec k).rgrav)) n) ∧
      ∀ k < n, (t k).instant = (rec k).x.instant ∧ (t k).y = (rec k).x.y ∧ (t k).m = (rec k).x.m ∧
        (t k).d = (rec k).x.d ∧ (t k).h = (rec k).x.h ∧ (t k).mi = (rec k).x.mi ∧ (t k).s = (rec k).x.s := by
  have fv : ∀ i < m, (fix i).Valid := by
    intro i hi
    have h1 : fix i ∈ fixes.flatten := hfix.mem_iff.2 (by unfold samples; exact List.mem_map.2 ⟨i, by simpa using hi, rfl⟩)
    obtain ⟨fx, h2, h3⟩ := List.mem_flatten.1 h1
    clear hfix h1
    induction hfiles with
    | nil => cases h2
    | cons h _ ih =>
      rcases List.mem_cons.1 h2 with rfl | h2
      · exact h.2.2 _ h3
      · exact ih h2
  have rv : ∀ k < n, (rec k).Valid ∧ 1900 ≤ (rec k).x.y ∧ (rec k).x.y ≤ 2099 := by
    intro k hk
    have h1 : rec k ∈ recs.flatten := hrec.mem_iff.2 (by unfold samples; exact List.mem_map.2 ⟨k, by simpa using hk, rfl⟩)
    obtain ⟨l, h2, h3⟩ := List.mem_flatten.1 h1
    exact (hrecs l h2).2 _ h3
  have hne : recs ≠ [] := by
    rintro rfl
    have := hrec.length_eq
    simp [samples] at this
    omega
  have ce : ∀ i < m, |(coordF (fix i)).1 - (fix i).lon| ≤ 1 / 2 ^ 39 ∧ |(coordF (fix i)).2 - (fix i).lat| ≤ 1 / 2 ^ 39 := fun i hi => (coordF_eq _ (fv i hi)).2
  -- steps between fixes
  have step : ∀ i, i + 1 < m → |(coordF (fix (i + 1))).1 - (coordF (fix i)).1| ≤ (((fix (i + 1)).instant : ℚ) - (fix i).instant) / 10 ^ 9 ∧
      |(coordF (fix (i + 1))).2 - (coordF (fix i)).2| ≤ (((fix (i + 1)).instant : ℚ) - (fix i).instant) / 10 ^ 9 := by
    intro i hi
    obtain ⟨-, v1, v2⟩ := hv i hi
    obtain ⟨a1, a2⟩ := ce i (by omega)
    obtain ⟨b1, b2⟩ := ce (i + 1) hi
    have hlt : ((fix i).instant : ℚ) + 1 ≤ (fix (i + 1)).instant := by exact_mod_cast hT i (i + 1) (by omega) hi
    push_cast at v1 v2
    generalize ((fix i).instant : ℚ) = t0 at *
    generalize ((fix (i + 1)).instant : ℚ) = t1 at *
    rw [abs_le] at a1 a2 b1 b2 v1 v2
    norm_num at a1 a2 b1 b2 v1 v2
    refine ⟨abs_le.2 ⟨?_, ?_⟩, abs_le.2 ⟨?_, ?_⟩⟩ <;> norm_num <;> linarith
  have jump : ∀ i, i + 1 < m → |(coordF (fix (i + 1))).1 - (coordF (fix i)).1| ≤ 1 := by
    intro i hi
    refine (step i hi).1.trans ?_
    have h1 : (((fix (i + 1)).instant : ℚ) - (fix i).instant) ≤ 1000000000 := by exact_mod_cast (hv i hi).1
    rw [div_le_one (by norm_num)]
    exact h1.trans (by norm_num)
  obtain ⟨rows, n1, n2⟩ := nav_rows "Ride".toList "GPGGA".toList (by decide) navFiles fixes RideFix.instant (fun x => (coordF x).1) (fun x => (coordF x).2)
    (hfiles.imp fun file fx h => ⟨h.1, ride_read file fx h.1 h.2.1 h.2.2⟩) m fix hfix hT (fun i hi => (hM i hi).1) jump
  obtain ⟨F, d1, d2⟩ := laptop_rows rd dates "Ride".toList (by decide) recs hne (fun l hl => ⟨(hrecs l hl).1, fun r hr => ((hrecs l hl).2 r hr).1⟩)
  have st : ∀ k < n, (sampleStamp (rec k).x).instant = (rec k).x.instant ∧ (sampleStamp (rec k).x).y = (rec k).x.y ∧ (sampleStamp (rec k).x).m = (rec k).x.m ∧
      (sampleStamp (rec k).x).d = (rec k).x.d ∧ (sampleStamp (rec k).x).h = (rec k).x.h ∧ (sampleStamp (rec k).x).mi = (rec k).x.mi ∧ (sampleStamp (rec k).x).s = (rec k).x.s := by
    intro k hk
    obtain ⟨h1, h2⟩ := rv k hk
    unfold sampleStamp
    rw [dif_pos ⟨h1.time, h2⟩]
    exact ⟨rfl, rfl, rfl, rfl, rfl, rfl, rfl⟩
  refine ⟨fun i => (coordF (fix i)).1, fun i => (coordF (fix i)).2, fun k => sampleStamp (rec k).x, recs.flatten.map fun r => (r.x.instant, rd r.rgrav), ?_, ce, step, ?_, st⟩
  · unfold faaFilesF
    rw [n1]
    simp only [bind, Except.bind]
    rw [d1]
    simp only
    rw [n2, d2]
  · have h1 := hrec.map fun r => (r.x.instant, rd r.rgrav)
    refine h1.trans (List.Perm.of_eq ?_)
    unfold samples
    rw [List.map_map]
    refine List.map_congr_left fun k hk => ?_
    simp only [Function.comp_def]
    rw [(st k (by simpa using hk)).1]

/-- **C139.** The script `interactive_line_pick.py`, from the lines of the files to the anomaly.  Navigation files hold GPGGA sentences with the stamp of the logger (and
other lines); gravimeter files hold the records of the laptop.  Files and lines may come in any order.  The anomaly computed in double precision is within 6e-3 mGal of the exact
anomaly for the numbers that are written in the files, at the exact instant of the record, on the straight line between the neighbouring fixes. -/
theorem C139_ride (lm : TideLibm) (g : GoodLib lm) (rd : ℚ → ℚ) (hrd : ∀ q, |rd q - q| ≤ |q| / 2 ^ 50) (dates : Dates) (bias samp : ℚ) (hs : 0 ≤ samp) (hS : samp ≤ 1)
    (navFiles : List (List Str)) (fixes : List (List RideFix))
    (hfiles : List.Forall₂ (fun file fx => fx ≠ [] ∧ file.filter (fun l => decide ("GPGGA".toList <:+: l)) = fx.map RideFix.line ∧ ∀ x ∈ fx, x.Valid) navFiles fixes)
    (m : ℕ) (fix : ℕ → RideFix) (hfix : fixes.flatten.Perm (samples fix m))
    (hT : ∀ i j, i < j → j < m → (fix i).instant < (fix j).instant) (hM : ∀ i < m, Modern (fix i).instant ∧ |(fix i).lon| ≤ 180 ∧ |(fix i).lat| ≤ 88)
    (hv : ∀ i, i + 1 < m → (fix (i + 1)).instant - (fix i).instant ≤ 1000000000 ∧
      |(fix (i + 1)).lon - (fix i).lon| ≤ 9 / 10000 * (((fix (i + 1)).instant - (fix i).instant : ℤ) / 1000000) ∧
      |(fix (i + 1)).lat - (fix i).lat| ≤ 9 / 10000 * (((fix (i + 1)).instant - (fix i).instant : ℤ) / 1000000))
    (recs : List (List LaptopRecord)) (hrecs : ∀ l ∈ recs, l ≠ [] ∧ ∀ r ∈ l, r.Valid ∧ 1900 ≤ r.x.y ∧ r.x.y ≤ 2099)
    (n : ℕ) (hn : 3 ≤ n) (rec : ℕ → LaptopRecord) (hrec : recs.flatten.Perm (samples rec n))
    (ht : ∀ i j, i < j → j < n → (rec i).x.instant < (rec j).x.instant) (hr : ∀ k < n, |(rec k).rgrav| ≤ 1000000 ∧ |(rec k).rgrav + bias| ≤ 1999998)
    (j : ℕ → ℕ) (hj : ∀ k < n, j k + 1 < m ∧ (fix (j k)).instant ≤ (rec k).x.instant ∧ (rec k).x.instant ≤ (fix (j k + 1)).instant)
    (lon lat : ℕ → ℚ) (hlon : ∀ k < n, lon k = between (fun i => (fix i).instant) (fun i => (fix i).lon) (j k) (rec k).x.instant)
    (hlat : ∀ k < n, lat k = between (fun i => (fix i).instant) (fun i => (fix i).lat) (j k) (rec k).x.instant)
    (hG : ∀ k, k + 2 < n → |rate (fun i => lat i) samp (k + 1)| ≤ 9 / 10000 ∧ |rate (fun i => lon i) samp (k + 1)| ≤ 9 / 10000 ∧
      |accel (fun i => lat i) samp (k + 1)| ≤ 9 / 10000) :
    ∃ (faa : ℕ → ℚ) (a : ℕ → Astro),
      faaFilesF lm rd dates "Ride".toList "GPGGA".toList navFiles (recs.map fun l => l.map LaptopRecord.line) bias samp =
        .ok (samples (fun k => ((rec k).x.instant, faa k)) n) ∧
      ∀ k < n, NearSchureman (centuries (rec k).x.y (rec k).x.m (rec k).x.d (rec k).x.h (rec k).x.mi (rec k).x.s) (a k) ∧
        |(faa k : ℝ) - exactFaa n (fun k => (rec k).rgrav + bias) lon lat samp (a k) (hourOfDay (rec k).x.h (rec k).x.mi (rec k).x.s) k| ≤ 6e-3 := by
  obtain ⟨x, y, t, dgs, hfile, ce, step, hdgs, st⟩ := ride_tables lm rd dates bias samp navFiles fixes hfiles m fix hfix hT hM hv recs hrecs n hn rec hrec
  have bt : ∀ (p q : ℕ → ℚ), (∀ i < m, |p i - q i| ≤ 1 / 2 ^ 39) → ∀ k < n, |between (fun i => (fix i).instant) p (j k) (rec k).x.instant -
      between (fun i => (fix i).instant) q (j k) (rec k).x.instant| ≤ 2e-12 := by
    intro p q h k hk
    obtain ⟨j1, j2, j3⟩ := hj k hk
    have := between_le (T := fun i => (fix i).instant) (y := fun i => p i - q i) (hT _ _ (by omega) j1) j2 j3 (h _ (by omega)) (h _ j1)
    refine (le_of_eq (congrArg abs ?_)).trans (this.trans (by norm_num))
    unfold between
    ring
  have rerr : ∀ k < n, |rd (rec k).rgrav - (rec k).rgrav| ≤ 1e-9 := fun k hk =>
    (hrd _).trans ((div_le_div_of_nonneg_right (hr k hk).1 (by norm_num)).trans (by norm_num))
  obtain ⟨faa, a, p1, p2⟩ := pipeline_near lm g (samples (fun i => (timestampF (fix i).instant, x i, y i)) m) dgs bias samp hs hS m (fun i => (fix i).instant) x y hT
    (fun i hi => by
      obtain ⟨a1, a2⟩ := ce i hi
      obtain ⟨b1, b2, b3⟩ := hM i hi
      refine ⟨b1, ?_, ?_⟩
      · have := abs_add_le (x i - (fix i).lon) (fix i).lon
        rw [sub_add_cancel] at this
        exact (this.trans (add_le_add a1 b2)).trans (by norm_num)
      · have := abs_add_le (y i - (fix i).lat) (fix i).lat
        rw [sub_add_cancel] at this
        exact (this.trans (add_le_add a2 b3)).trans (by norm_num))
    step (List.Perm.refl _) n hn t (fun k => rd (rec k).rgrav) (fun k => (rec k).rgrav)
    (fun i j' hij hj' => by rw [(st i (by omega)).1, (st j' hj').1]; exact ht i j' hij hj')
    (fun k hk => by
      refine ⟨?_, rerr k hk⟩
      have := abs_add_le (rd (rec k).rgrav - (rec k).rgrav) ((rec k).rgrav + bias)
      rw [show rd (rec k).rgrav - (rec k).rgrav + ((rec k).rgrav + bias) = rd (rec k).rgrav + bias by ring] at this
      exact (this.trans (add_le_add (rerr k hk) (hr k hk).2)).trans (by norm_num))
    hdgs j (fun k hk => by rw [(st k hk).1]; exact hj k hk) lon lat
    (fun k hk => by rw [(st k hk).1, hlon k hk]; exact bt _ _ (fun i hi => (ce i hi).1) k hk)
    (fun k hk => by rw [(st k hk).1, hlat k hk]; exact bt _ _ (fun i hi => (ce i hi).2) k hk) hG
  refine ⟨faa, a, ?_, fun k hk => ?_⟩
  · rw [hfile, p1]
    unfold samples
    exact congrArg Except.ok (List.map_congr_left fun k hk => by rw [(st k (List.mem_range.1 hk)).1])
  · have := p2 k hk
    obtain ⟨-, s1, s2, s3, s4, s5, s6⟩ := st k hk
    rw [s1, s2, s3, s4, s5, s6] at this
    exact this

/-! ### The hypotheses are met -/

def exFix (i : ℕ) : RideFix where
  y := 2023
  m := 6
  d := 17
  h := 0
  mi := 0
  s := i
  k := 3
  f := 0
  mid := " $".toList
  time := "000000.00".toList
  ld := 32
  lm := 42
  lk := 3
  lf := 100 + i
  south := false
  gd := 117
  gm := 14
  gk := 3
  gf := 200 + i
  west := true
  rest := ["2".toList, "10".toList]

example : (exFix 2).line = "2023-06-17T00:00:02.000Z $GPGGA,000000.00,3242.102,N,11714.202,W,2,10".toList := by decide +kernel

theorem exFix_valid (i : ℕ) (hi : i < 4) : (exFix i).Valid := by
  have : WellFormed (exFix i).pre "GPGGA".toList (exFix i).fields := by
    interval_cases i <;> exact ⟨by decide, by decide +kernel, by decide +kernel, by decide +kernel⟩
  refine ⟨?_, ⟨by show 0 < 24; norm_num, by show 0 < 60; norm_num, by show i < 60; omega⟩, ⟨by show 1 ≤ 3; norm_num, by show 3 ≤ 3; norm_num⟩, by show 0 < 10 ^ 3; norm_num,
    ⟨by show 32 < 100; norm_num, by show 42 < 100; norm_num, by show 100 + i < 10 ^ 3; omega⟩, ⟨by show 117 < 1000; norm_num, by show 14 < 100; norm_num,
    by show 200 + i < 10 ^ 3; omega⟩, this⟩
  show ValidDate 2023 6 17
  decide

theorem exFix_instant (i : ℕ) : (exFix i).instant = 1686960000000000 + 1000000 * i := by
  show ((dayNumber 2023 6 17 : ℤ) - dayNumber 1970 1 1) * 86400000000 + (((0 : ℕ) : ℤ) * 3600000000 + ((0 : ℕ) : ℤ) * 60000000 + (i : ℤ) * 1000000 + ((0 * 10 ^ (6 - 3) : ℕ) : ℤ)) = _
  have e : dayNumber 1970 1 1 = 719163 := by rw [← ymd2ord_eq _ _ _ (by norm_num) (by norm_num) (by norm_num)]; decide +kernel
  have e' : dayNumber 2023 6 17 = 738688 := by rw [← ymd2ord_eq _ _ _ (by norm_num) (by norm_num) (by norm_num)]; decide +kernel
  rw [e, e']
  push_cast
  ring

theorem exFix_lon (i : ℕ) : (exFix i).lon = -(117 + (14 + (200 + i) / 1000) / 60) := by
  show -degMinValue 117 14 3 (200 + i) = _
  unfold degMinValue
  push_cast
  norm_num

theorem exFix_lat (i : ℕ) : (exFix i).lat = 32 + (42 + (100 + i) / 1000) / 60 := by
  show degMinValue 32 42 3 (100 + i) = _
  unfold degMinValue
  push_cast
  norm_num

/-- The fields of a record, with the seconds `t`. -/
def exFields (t : Str) : List Str := ["0", "1.5", " 2", "3 ", "4", "5", "6", "7", "8", "9", "10", "11", "12", "13", "14", "15", "16",
  "17", "18", "2023", "6", "17", "0", "0"].map String.toList ++ [t, "x".toList]

def exNum (k : ℕ) (j : ℕ) : ℚ :=
  if j = 1 then (1 : ℕ) + (5 : ℕ) / 10 ^ 1 else if j = 19 then (2023 : ℕ) else if j = 20 then (6 : ℕ) else if j = 21 then (17 : ℕ)
  else if j = 22 then (0 : ℕ) else if j = 23 then (0 : ℕ) else if j = 24 then (k : ℕ) + (5 : ℕ) / 10 ^ 1 else (j : ℕ)

def exRec (k : ℕ) : LaptopRecord where
  fields := exFields (zpad 1 k ++ ".5".toList)
  q := exNum k
  x := ⟨2023, 6, 17, 0, 0, k, 1, 5, 1, 0⟩

example : (exRec 2).line = "0,1.5, 2,3 ,4,5,6,7,8,9,10,11,12,13,14,15,16,17,18,2023,6,17,0,0,2.5,x".toList := by decide +kernel

theorem exNumText (w n : ℕ) (s : Str) (hs : s = zpad w n) (hw : 1 ≤ w) (hn : n < 10 ^ w) : NumText s n :=
  ⟨0, 0, zpad w n, by simp [hs], .int w n hw hn⟩

theorem exRec_valid (k : ℕ) (hk : k < 3) : (exRec k).Valid := by
  refine ⟨?_, ?_, ?_, ?_, ?_, ?_⟩
  · unfold exRec
    exact ⟨⟨by norm_num, by norm_num, by norm_num, by norm_num, by norm_num, by show 17 ≤ monthLen 2023 6; decide⟩, ⟨by norm_num, by norm_num⟩, by norm_num,
      by norm_num, by show k < 60; omega, ⟨by norm_num, by norm_num⟩, by norm_num, ⟨by norm_num, by norm_num⟩⟩
  · refine ⟨?_, ?_, ?_, ?_, ?_, ?_⟩ <;> simp [exRec, exNum]
  · decide +revert
  · interval_cases k <;> decide +kernel
  · intro s hs
    unfold laptopColumns at hs
    simp only [List.mem_cons, List.not_mem_nil, or_false] at hs
    rcases hs with rfl | rfl | rfl | rfl | rfl | rfl | rfl | rfl | rfl | rfl | rfl | rfl | rfl | rfl | rfl | rfl
    · exact ⟨0, 0, "1.5".toList, by rfl, .dec 1 1 1 5 (by decide) (by decide) (by decide)⟩
    · exact ⟨1, 0, "2".toList, by rfl, .int 1 2 (by decide) (by decide)⟩
    · exact ⟨0, 1, "3".toList, by rfl, .int 1 3 (by decide) (by decide)⟩
    · exact exNumText 1 6 _ (by rfl) (by decide) (by decide)
    · exact exNumText 2 10 _ (by rfl) (by decide) (by decide)
    · exact exNumText 2 11 _ (by rfl) (by decide) (by decide)
    · exact exNumText 2 12 _ (by rfl) (by decide) (by decide)
    · exact exNumText 2 13 _ (by rfl) (by decide) (by decide)
    · exact exNumText 2 14 _ (by rfl) (by decide) (by decide)
    · exact exNumText 2 15 _ (by rfl) (by decide) (by decide)
    · exact exNumText 4 2023 _ (by rfl) (by decide) (by decide)
    · exact exNumText 1 6 _ (by rfl) (by decide) (by decide)
    · exact exNumText 2 17 _ (by rfl) (by decide) (by decide)
    · exact exNumText 1 0 _ (by rfl) (by decide) (by decide)
    · exact exNumText 1 0 _ (by rfl) (by decide) (by decide)
    · exact ⟨0, 0, zpad 1 k ++ ".5".toList, by interval_cases k <;> rfl, .dec 1 k 1 5 (by decide) (by omega) (by decide)⟩
  · intro j hj
    simp only [List.mem_cons, List.not_mem_nil, or_false] at hj
    rcases hj with rfl | rfl | rfl
    · exact ⟨0, 0, 4, 2023, by rfl, by decide⟩
    · exact ⟨0, 0, 1, 6, by rfl, by decide⟩
    · exact ⟨0, 0, 2, 17, by rfl, by decide⟩

theorem exRec_instant (k : ℕ) : (exRec k).x.instant = 1686960000500000 + 1000000 * k := by
  have e : dayNumber 1970 1 1 = 719163 := by rw [← ymd2ord_eq _ _ _ (by norm_num) (by norm_num) (by norm_num)]; decide +kernel
  have e' : dayNumber 2023 6 17 = 738688 := by rw [← ymd2ord_eq _ _ _ (by norm_num) (by norm_num) (by norm_num)]; decide +kernel
  show ((dayNumber 2023 6 17 : ℤ) - dayNumber 1970 1 1) * 86400000000 + (((0 : ℕ) : ℤ) * 3600000000 + ((0 : ℕ) : ℤ) * 60000000 + (k : ℤ) * 1000000 + ((5 * 10 ^ (6 - 1) : ℕ) : ℤ)) = _
  rw [e, e']
  push_cast
  ring

/-- Four fixes in two files, the later file first, and three readings. -/
example (dates : Dates) : ∃ lm : TideLibm, GoodLib lm ∧ ∃ (faa : ℕ → ℚ) (a : ℕ → Astro),
    faaFilesF lm toDouble dates "Ride".toList "GPGGA".toList [[(exFix 2).line, "$GPVTG,1".toList, (exFix 3).line], [(exFix 0).line, (exFix 1).line]]
      [[(exRec 1).line, (exRec 2).line], [(exRec 0).line]] 979000 1 = .ok (samples (fun k => ((exRec k).x.instant, faa k)) 3) ∧
    ∀ k < 3, |(faa k : ℝ) - exactFaa 3 (fun _ => (1 + 5 / 10 ^ 1) + 979000) (fun k => -(117 + (14 + (200 + k + 1 / 2) / 1000) / 60)) (fun k => 32 + (42 + (100 + k + 1 / 2) / 1000) / 60)
      1 (a k) (hourOfDay 0 0 (k : ℤ)) k| ≤ 6e-3 := by
  obtain ⟨lm, g⟩ := goodLib_exists
  refine ⟨lm, g, ?_⟩
  obtain ⟨faa, a, h1, h2⟩ := C139_ride lm g toDouble (fun q => by
      rw [abs_sub_comm]
      exact (toDouble_rounds.rel q).trans (by have := abs_nonneg q; norm_num; linarith)) dates 979000 1 (by norm_num) le_rfl
    [[(exFix 2).line, "$GPVTG,1".toList, (exFix 3).line], [(exFix 0).line, (exFix 1).line]] [[exFix 2, exFix 3], [exFix 0, exFix 1]]
    (.cons ⟨by simp, by decide +kernel, by simpa using ⟨exFix_valid 2 (by norm_num), exFix_valid 3 (by norm_num)⟩⟩
      (.cons ⟨by simp, by decide +kernel, by simpa using ⟨exFix_valid 0 (by norm_num), exFix_valid 1 (by norm_num)⟩⟩ .nil))
    4 exFix (List.perm_append_comm (l₁ := [exFix 2, exFix 3]) (l₂ := [exFix 0, exFix 1]))
    (fun i j h _ => by rw [exFix_instant, exFix_instant]; omega)
    (fun i hi => by
      have h : (i : ℚ) < 4 := by exact_mod_cast hi
      have h0 : (0 : ℚ) ≤ i := by positivity
      rw [exFix_instant, exFix_lon, exFix_lat, abs_neg]
      refine ⟨by unfold Modern; rw [abs_le]; omega, ?_, ?_⟩ <;> · rw [abs_le]; constructor <;> linarith)
    (fun i hi => by
      rw [exFix_instant, exFix_instant, exFix_lon, exFix_lat, exFix_lon, exFix_lat]
      push_cast
      refine ⟨by omega, ?_, ?_⟩ <;> · rw [abs_le]; constructor <;> norm_num <;> linarith)
    [[exRec 1, exRec 2], [exRec 0]] (by
      have v : ∀ k < 3, (exRec k).Valid ∧ 1900 ≤ (exRec k).x.y ∧ (exRec k).x.y ≤ 2099 := fun k hk => ⟨exRec_valid k hk, by show 1900 ≤ 2023; norm_num, by show 2023 ≤ 2099; norm_num⟩
      intro l hl
      rcases List.mem_cons.1 hl with rfl | hl
      · refine ⟨by simp, fun r hr => ?_⟩
        rcases List.mem_cons.1 hr with rfl | hr
        · exact v 1 (by norm_num)
        · rw [List.mem_singleton.1 hr]; exact v 2 (by norm_num)
      · rw [List.mem_singleton.1 hl]
        refine ⟨by simp, fun r hr => ?_⟩
        rw [List.mem_singleton.1 hr]; exact v 0 (by norm_num))
    3 le_rfl exRec (List.perm_append_comm (l₁ := [exRec 1, exRec 2]) (l₂ := [exRec 0]))
    (fun i j h _ => by rw [exRec_instant, exRec_instant]; omega)
    (fun k _ => by
      have : (exRec k).rgrav = 1 + 5 / 10 ^ 1 := by show exNum k 1 = _; norm_num [exNum]
      rw [this]
      norm_num [abs_le])
    id (fun k hk => by
      rw [exRec_instant, exFix_instant, exFix_instant]
      refine ⟨by simp only [id]; omega, ?_, ?_⟩ <;> · simp only [id]; push_cast; omega)
    (fun k => -(117 + (14 + (200 + k + 1 / 2) / 1000) / 60)) (fun k => 32 + (42 + (100 + k + 1 / 2) / 1000) / 60)
    (fun k _ => by unfold between; simp only [exRec_instant, exFix_instant, exFix_lon, id]; push_cast; ring)
    (fun k _ => by unfold between; simp only [exRec_instant, exFix_instant, exFix_lat, id]; push_cast; ring)
    (by
      intro k _
      unfold rate accel
      rw [show k + 1 + 1 = k + 2 by omega, show k + 1 - 1 = k by omega]
      push_cast
      refine ⟨?_, ?_, ?_⟩
      · rw [show ((32 : ℝ) + (42 + (100 + (k + 2) + 1 / 2) / 1000) / 60 - (32 + (42 + (100 + k + 1 / 2) / 1000) / 60)) / 2 * 1 = 1 / 60000 by ring]; norm_num
      · rw [show ((-(117 + (14 + (200 + (k + 2) + 1 / 2) / 1000) / 60) : ℝ) - -(117 + (14 + (200 + k + 1 / 2) / 1000) / 60)) / 2 * 1 = -(1 / 60000) by ring]; norm_num
      · rw [show ((32 : ℝ) + (42 + (100 + (k + 2) + 1 / 2) / 1000) / 60 - 2 * (32 + (42 + (100 + (k + 1) + 1 / 2) / 1000) / 60) + (32 + (42 + (100 + k + 1 / 2) / 1000) / 60)) * 1 ^ 2 = 0 by ring]; norm_num)
  refine ⟨faa, a, h1, fun k hk => ?_⟩
  have := (h2 k hk).2
  have e : ∀ k, (exRec k).rgrav = 1 + 5 / 10 ^ 1 := fun k => by show exNum k 1 = _; norm_num [exNum]
  simp only [e] at this
  exact this

end Shipgrav
