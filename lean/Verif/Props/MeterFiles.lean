import Verif.Props.Bgm
import Verif.Props.DgsLaptop
import Verif.Props.DgsRaw

/-! Property C130: a series of meter files gives the table that one file with all their records gives. -/

namespace Shipgrav
open Spec

private theorem IsConcat.col {ι : Type} {Ts : List Table} {F : Table} (h : IsConcat Ts F) (c : Str) (g : ι → Val) (xss : List (List ι))
    (hT : List.Forall₂ (fun xs T => Table.col T c = xs.map g) xss Ts) : F.col c = xss.flatten.map g := by
  unfold Table.col
  rw [h.rows, List.map_flatten, List.map_flatten, List.map_map]
  congr 1
  clear h
  induction hT with
  | nil => rfl
  | cons h1 _ ih => rw [List.map_cons, List.map_cons, ih, ← h1]; rfl

private theorem flatten_ne {ι : Type} {xss : List (List ι)} (hne : xss ≠ []) (hx : ∀ xs ∈ xss, xs ≠ []) : xss.flatten ≠ [] := by
  obtain ⟨xs, h⟩ := List.exists_mem_of_ne_nil xss hne
  intro h'
  exact hx xs h (List.flatten_eq_nil_iff.1 h' xs h)

private theorem cols_of {Ts : List Table} {F : Table} (h : IsConcat Ts F) (hne : Ts ≠ []) (P : Str → Prop) (hT : ∀ T ∈ Ts, ∀ c, c ∈ T.cols ↔ P c) :
    ∀ c, c ∈ F.cols ↔ P c := by
  intro c
  rw [h.cols]
  constructor
  · rintro ⟨t, ht, hc⟩; exact (hT t ht c).1 hc
  · intro hp
    obtain ⟨t, ht⟩ := List.exists_mem_of_ne_nil Ts hne
    exact ⟨t, ht, (hT t ht c).2 hp⟩

/-- From a reader that reads every file of records by itself, and lists of files as concatenations. -/
private theorem cutR {ι : Type} (read : List (List Str) → Table → Prop) (IsFile : List Str → List ι → Prop) (cols : Str → Prop) (val : Str → ι → Val)
    (hfiles : ∀ files Ts, files ≠ [] → List.Forall₂ (fun f T => read [f] T) files Ts → ∃ F, read files F ∧ IsConcat Ts F)
    (hone : ∀ f xs, IsFile f xs → ∃ F, read [f] F ∧ (∀ c, c ∈ F.cols ↔ cols c) ∧ ∀ c, cols c → F.col c = xs.map (val c))
    (files : List (List Str)) (whole : List Str) (xss : List (List ι)) (hne : files ≠ []) (hx : List.Forall₂ IsFile files xss)
    (hw : IsFile whole xss.flatten) :
    ∃ F G, read files F ∧ read [whole] G ∧ SameTable F G := by
  obtain ⟨G, hG, hGc, hGv⟩ := hone whole xss.flatten hw
  have key : ∃ Ts, List.Forall₂ (fun f T => read [f] T) files Ts ∧ (∀ T ∈ Ts, ∀ c, c ∈ T.cols ↔ cols c) ∧
      ∀ c, cols c → List.Forall₂ (fun xs T => Table.col T c = xs.map (val c)) xss Ts := by
    clear hw hG hGc hGv hne
    induction hx with
    | nil => exact ⟨[], .nil, by simp, fun _ _ => .nil⟩
    | cons h _ ih =>
      obtain ⟨Ts, h1, h2, h3⟩ := ih
      obtain ⟨T, g1, g2, g3⟩ := hone _ _ h
      refine ⟨T :: Ts, .cons g1 h1, ?_, fun c hc => .cons (g3 c hc) (h3 c hc)⟩
      intro T' hT'
      rcases List.mem_cons.1 hT' with rfl | hT'
      · exact g2
      · exact h2 T' hT'
  obtain ⟨Ts, h1, h2, h3⟩ := key
  obtain ⟨F, hF, hc⟩ := hfiles files Ts hne h1
  have hTne : Ts ≠ [] := by
    rintro rfl
    cases h1
    exact hne rfl
  have hcols := cols_of hc hTne cols h2
  refine ⟨F, G, hF, hG, fun c => (hcols c).trans (hGc c).symm, fun c h => ?_⟩
  have h' := (hcols c).1 h
  rw [hGv c h', IsConcat.col hc c (val c) xss (h3 c h')]

/-- The same for files that are given by their records. -/
private theorem cut {ι : Type} (read : List (List Str) → Table → Prop) (file : List ι → List Str) (S : Set ι) (cols : Str → Prop) (val : Str → ι → Val)
    (hfiles : ∀ files Ts, files ≠ [] → List.Forall₂ (fun f T => read [f] T) files Ts → ∃ F, read files F ∧ IsConcat Ts F)
    (hone : ∀ xs, xs ≠ [] → (∀ i ∈ xs, i ∈ S) → ∃ F, read [file xs] F ∧ (∀ c, c ∈ F.cols ↔ cols c) ∧ ∀ c, cols c → F.col c = xs.map (val c))
    (xss : List (List ι)) (hne : xss ≠ []) (hx : ∀ xs ∈ xss, xs ≠ [] ∧ ∀ i ∈ xs, i ∈ S) :
    ∃ F G, read (xss.map file) F ∧ read [file xss.flatten] G ∧ SameTable F G := by
  refine cutR read (fun f xs => f = file xs ∧ xs ≠ [] ∧ ∀ i ∈ xs, i ∈ S) cols val hfiles ?_ (xss.map file) (file xss.flatten) xss (by simpa using hne) ?_ ?_
  · rintro f xs ⟨rfl, h1, h2⟩
    exact hone xs h1 h2
  · rw [List.forall₂_map_left_iff, List.forall₂_same]
    exact fun xs h => ⟨rfl, hx xs h⟩
  · refine ⟨rfl, flatten_ne hne (fun xs h => (hx xs h).1), fun i hi => ?_⟩
    obtain ⟨xs, h1, h2⟩ := List.mem_flatten.1 hi
    exact (hx xs h1).2 i h2

/-! ### BGM -/

private def bgmVal {ι : Type} (sc : ℚ) (x : ι → Sample) (c : Str) (i : ι) : Val :=
  if c = "counts".toList then .num (x i).count else if c = "date_time".toList then .time (x i).instant else .num (sc * (x i).count)

private theorem gravity_vals {ι : Type} {sc : ℚ} {xs : List ι} {x : ι → Sample} {F : Table} (h : IsGravity sc xs x F) :
    ∀ c, c ∈ ["counts".toList, "date_time".toList, "rgrav".toList] → F.col c = xs.map (bgmVal sc x c) := by
  intro c hc
  simp only [List.mem_cons, List.not_mem_nil, or_false] at hc
  rcases hc with rfl | rfl | rfl
  · exact h.counts
  · exact h.times
  · exact h.gravity

/-- **C130.** BGM serial files from Atlantis: however the records are divided over files, the table is the one of a single file. -/
theorem C130_bgm_atlantis {ι : Type} (other : OtherTimes) (scale : Option ℚ) (sc : ℚ) (hs : ScaleInForce scale "Atlantis".toList sc)
    (xss : List (List ι)) (hne : xss ≠ []) (x : ι → Sample) (pre name chan rest : ι → Str)
    (hx : ∀ xs ∈ xss, xs ≠ [] ∧ ∀ i ∈ xs, (x i).Valid ∧ ' ' ∉ pre i ∧ ' ' ∉ name i ∧ ' ' ∉ chan i ∧ Rest ' ' (rest i)) :
    ∃ F G, readBgmRaw other (xss.map fun xs => xs.map fun i => atlantisRecord (pre i) (name i) (chan i) (rest i) (x i)) "Atlantis".toList scale none
        = .ok (.val F) ∧
      readBgmRaw other [xss.flatten.map fun i => atlantisRecord (pre i) (name i) (chan i) (rest i) (x i)] "Atlantis".toList scale none = .ok (.val G) ∧
      SameTable F G :=
  cut (fun files F => readBgmRaw other files "Atlantis".toList scale none = .ok (.val F)) _ _ _ (bgmVal sc x)
    (fun files Ts => (C36_files_in_order other files _ scale none).2 Ts)
    (fun xs h1 h2 => by
      obtain ⟨F, hF, hg⟩ := C36_atlantis other scale sc hs xs h1 x pre name chan rest h2
      exact ⟨F, hF, hg.cols, gravity_vals hg⟩) xss hne hx

/-- **C130.** The same for Thompson. -/
theorem C130_bgm_thompson {ι : Type} (other : OtherTimes) (scale : Option ℚ) (sc : ℚ) (hs : ScaleInForce scale "Thompson".toList sc)
    (xss : List (List ι)) (hne : xss ≠ []) (x : ι → Sample) (chan rest : ι → Str)
    (hx : ∀ xs ∈ xss, xs ≠ [] ∧ ∀ i ∈ xs, (x i).Valid ∧ ' ' ∉ chan i ∧ ',' ∉ chan i ∧ ',' ∉ rest i ∧ Rest ' ' (rest i)) :
    ∃ F G, readBgmRaw other (xss.map fun xs => xs.map fun i => thompsonRecord (chan i) (rest i) (x i)) "Thompson".toList scale none = .ok (.val F) ∧
      readBgmRaw other [xss.flatten.map fun i => thompsonRecord (chan i) (rest i) (x i)] "Thompson".toList scale none = .ok (.val G) ∧ SameTable F G :=
  cut (fun files F => readBgmRaw other files "Thompson".toList scale none = .ok (.val F)) _ _ _ (bgmVal sc x)
    (fun files Ts => (C36_files_in_order other files _ scale none).2 Ts)
    (fun xs h1 h2 => by
      obtain ⟨F, hF, hg⟩ := C36_thompson other scale sc hs xs h1 x chan rest h2
      exact ⟨F, hF, hg.cols, gravity_vals hg⟩) xss hne hx

/-- **C130.** The same for Revelle. -/
theorem C130_bgm_revelle {ι : Type} (other : OtherTimes) (scale : Option ℚ) (sc : ℚ) (hs : ScaleInForce scale "Revelle".toList sc)
    (xss : List (List ι)) (hne : xss ≠ []) (x : ι → Sample) (chan rest : ι → Str)
    (hx : ∀ xs ∈ xss, xs ≠ [] ∧ ∀ i ∈ xs, (x i).Valid ∧ ' ' ∉ chan i ∧ Rest ' ' (rest i)) :
    ∃ F G, readBgmRaw other (xss.map fun xs => xs.map fun i => revelleRecord (chan i) (rest i) (x i)) "Revelle".toList scale none = .ok (.val F) ∧
      readBgmRaw other [xss.flatten.map fun i => revelleRecord (chan i) (rest i) (x i)] "Revelle".toList scale none = .ok (.val G) ∧ SameTable F G :=
  cut (fun files F => readBgmRaw other files "Revelle".toList scale none = .ok (.val F)) _ _ _ (bgmVal sc x)
    (fun files Ts => (C36_files_in_order other files _ scale none).2 Ts)
    (fun xs h1 h2 => by
      obtain ⟨F, hF, hg⟩ := C36_revelle other scale sc hs xs h1 x chan rest h2
      exact ⟨F, hF, hg.cols, gravity_vals hg⟩) xss hne hx

/-- **C130.** The same for Langseth, with columns of fixed widths. -/
theorem C130_bgm_langseth {ι : Type} (other : OtherTimes) (scale : Option ℚ) (sc : ℚ) (hs : ScaleInForce scale "Langseth".toList sc)
    (xss : List (List ι)) (hne : xss ≠ []) (x : ι → Sample) (tag chan rest : ι → Str) (a k c : ℕ) (ha : 1 ≤ a)
    (hx : ∀ xs ∈ xss, xs ≠ [] ∧ ∀ i ∈ xs, (x i).Valid ∧ (∀ ch ∈ tag i ++ chan i, ch ≠ '\n' ∧ ch ≠ '\r' ∧ ch ≠ '\t' ∧ ch ≠ ' ') ∧ Rest ' ' (rest i) ∧
      (tag i).length = a ∧ (x i).k = k ∧ (chan i).length + 1 + (x i).w = c) :
    ∃ F G, readBgmRaw other (xss.map fun xs => xs.map fun i => langsethRecord (tag i) (chan i) (rest i) (x i)) "Langseth".toList scale none
        = .ok (.val F) ∧
      readBgmRaw other [xss.flatten.map fun i => langsethRecord (tag i) (chan i) (rest i) (x i)] "Langseth".toList scale none = .ok (.val G) ∧
      SameTable F G :=
  cut (fun files F => readBgmRaw other files "Langseth".toList scale none = .ok (.val F)) _ _ _ (bgmVal sc x)
    (fun files Ts => (C36_files_in_order other files _ scale none).2 Ts)
    (fun xs h1 h2 => by
      obtain ⟨F, hF, hg⟩ := C36_langseth other scale sc hs xs h1 x tag chan rest a k c ha h2
      exact ⟨F, hF, hg.cols, gravity_vals hg⟩) xss hne hx

/-- **C130.** The same for RGS files. -/
theorem C130_rgs {ι : Type} (other : OtherTimes) (ship : Str) (hship : ship = "Atlantis".toList ∨ ship = "NBP".toList)
    (xss : List (List ι)) (hne : xss ≠ []) (x : ι → Sample) (r : ι → RgsFields) (g lat lon : ι → ℚ)
    (hx : ∀ xs ∈ xss, xs ≠ [] ∧ ∀ i ∈ xs, (x i).Valid ∧ (r i).Valid ∧ DecText (r i).grav (g i) ∧ DecText (r i).lat (lat i) ∧
      DecText (r i).lon (lon i)) :
    ∃ F G, readBgmRgs other (xss.map fun xs => xs.map fun i => rgsRecord (r i) (x i)) ship = .ok (.val F) ∧
      readBgmRgs other [xss.flatten.map fun i => rgsRecord (r i) (x i)] ship = .ok (.val G) ∧ SameTable F G :=
  cut (fun files F => readBgmRgs other files ship = .ok (.val F)) _ _ (fun c => c ∈ ["grav".toList, "lat".toList, "lon".toList, "date_time".toList])
    (fun c i => if c = "grav".toList then .num (g i) else if c = "lat".toList then .num (lat i) else if c = "lon".toList then .num (lon i)
      else .time (x i).instant)
    (fun files Ts => (C85_files_in_order other files ship hship).2 Ts)
    (fun xs h1 h2 => by
      obtain ⟨F, hF, hc, v1, v2, v3, v4⟩ := C85_records other ship hship xs h1 x r g lat lon h2
      refine ⟨F, hF, fun c => by rw [hc], fun c h => ?_⟩
      simp only [List.mem_cons, List.not_mem_nil, or_false] at h
      rcases h with rfl | rfl | rfl | rfl
      · exact v1
      · exact v2
      · exact v3
      · exact v4) xss hne hx

/-! ### DGS laptop -/

private def numsVal {ι : Type} (columns : List (Str × ℕ)) (q : ι → ℕ → ℚ) (x : ι → Sample) (c : Str) (i : ι) : Val :=
  match columns.lookup c with
  | some j => .num (q i j)
  | none => .time (x i).instant

private theorem nums_vals {ι : Type} (columns : List (Str × ℕ)) (hn : ∀ s ∈ columns, columns.lookup s.1 = some s.2)
    (hd : columns.lookup "date_time".toList = none) {q : ι → ℕ → ℚ} {x : ι → Sample} {xs : List ι} {F : Table}
    (hv : ∀ s ∈ columns, F.col s.1 = xs.map fun i => .num (q i s.2)) (ht : F.col "date_time".toList = xs.map fun i => .time (x i).instant) :
    ∀ c, c ∈ columns.map Prod.fst ++ ["date_time".toList] → F.col c = xs.map (numsVal columns q x c) := by
  intro c hc
  rcases List.mem_append.1 hc with hc | hc
  · obtain ⟨s, hs, rfl⟩ := List.mem_map.1 hc
    rw [hv s hs]
    unfold numsVal
    rw [hn s hs]
  · rw [List.mem_singleton] at hc
    subst hc
    rw [ht]
    unfold numsVal
    rw [hd]

/-- **C130.** DGS laptop files of the common format. -/
theorem C130_laptop {ι : Type} (dates : Dates) (ship : Str) (hship : ship ∈ ["Atlantis", "Revelle", "NBP", "Ride", "DGStest"].map String.toList)
    (xss : List (List ι)) (hne : xss ≠ []) (fs : ι → List Str) (q : ι → ℕ → ℚ) (x : ι → Sample)
    (hx : ∀ xs ∈ xss, xs ≠ [] ∧ ∀ i ∈ xs, (x i).Valid ∧ PartsAre (q i) (x i) ∧ 25 ≤ (fs i).length ∧ (∀ f ∈ fs i, ',' ∉ f) ∧
      (∀ s ∈ laptopColumns, NumText ((fs i).getD s.2 []) (q i s.2)) ∧ ∀ j ∈ [19, 20, 21], WholeText ((fs i).getD j [])) :
    ∃ F G, readDgsLaptop dates (.many (xss.map fun xs => xs.map fun i => joinC ',' (fs i))) ship none = .ok (.val F) ∧
      readDgsLaptop dates (.many [xss.flatten.map fun i => joinC ',' (fs i)]) ship none = .ok (.val G) ∧ SameTable F G :=
  cut (fun files F => readDgsLaptop dates (.many files) ship none = .ok (.val F)) _ _ _ (numsVal laptopColumns q x)
    (fun files Ts => (C41_laptop_files_in_order dates files ship none).2 Ts)
    (fun xs h1 h2 => by
      obtain ⟨F, hF, hc, hv, ht⟩ := C88_general dates ship hship xs h1 fs q x h2
      exact ⟨F, hF, fun c => by rw [hc], nums_vals laptopColumns (by decide) (by decide) hv ht⟩) xss hne hx

/-- **C130.** DGS laptop files of Thompson. -/
theorem C130_laptop_thompson {ι : Type} (dates : Dates) (xss : List (List ι)) (hne : xss ≠ []) (fs : ι → List Str) (q : ι → ℕ → ℚ) (x : ι → Sample)
    (hx : ∀ xs ∈ xss, xs ≠ [] ∧ ∀ i ∈ xs, (x i).Valid ∧ 18 ≤ (fs i).length ∧ (∀ f ∈ fs i, ',' ∉ f) ∧
      (fs i).getD 0 [] = slashMdy (x i).y (x i).m (x i).d ∧
      (fs i).getD 1 [] = clockStamp (x i).h (x i).mi (x i).s (x i).k (x i).f ∧
      ∀ s ∈ thompsonLaptopColumns, NumText ((fs i).getD s.2 []) (q i s.2)) :
    ∃ F G, readDgsLaptop dates (.many (xss.map fun xs => xs.map fun i => joinC ',' (fs i))) "Thompson".toList none = .ok (.val F) ∧
      readDgsLaptop dates (.many [xss.flatten.map fun i => joinC ',' (fs i)]) "Thompson".toList none = .ok (.val G) ∧ SameTable F G :=
  cut (fun files F => readDgsLaptop dates (.many files) "Thompson".toList none = .ok (.val F)) _ _ _ (numsVal thompsonLaptopColumns q x)
    (fun files Ts => (C41_laptop_files_in_order dates files _ none).2 Ts)
    (fun xs h1 h2 => by
      obtain ⟨F, hF, hc, hv, ht⟩ := C88_thompson dates xs h1 fs q x h2
      exact ⟨F, hF, fun c => by rw [hc], nums_vals thompsonLaptopColumns (by decide) (by decide) hv ht⟩) xss hne hx

/-- **C130.** DGS laptop files of Sikuliaq, each of which has a header of its own. -/
theorem C130_laptop_sikuliaq {ι : Type} (dates : Dates) (header : List Str) (hh : header.length = 19) (hs : List (List Str × List ι)) (hne : hs ≠ [])
    (fs : ι → List Str) (q : ι → ℕ → ℚ) (x : ι → Sample)
    (hx : ∀ f ∈ hs, f.1.length = 19 ∧ f.2 ≠ [] ∧ ∀ i ∈ f.2, (x i).Valid ∧ PartsAre (q i) (x i) ∧ 25 ≤ (fs i).length ∧ (∀ f ∈ fs i, ',' ∉ f) ∧
      (∀ s ∈ laptopColumns, NumText ((fs i).getD s.2 []) (q i s.2)) ∧ ∀ j ∈ [19, 20, 21], WholeText ((fs i).getD j [])) :
    ∃ F G, readDgsLaptop dates (.many (hs.map fun f => f.1 ++ f.2.map fun i => joinC ',' (fs i))) "Sikuliaq".toList none = .ok (.val F) ∧
      readDgsLaptop dates (.many [header ++ (hs.map Prod.snd).flatten.map fun i => joinC ',' (fs i)]) "Sikuliaq".toList none = .ok (.val G) ∧
      SameTable F G := by
  refine cutR (fun files F => readDgsLaptop dates (.many files) "Sikuliaq".toList none = .ok (.val F))
    (fun f xs => ∃ h : List Str, f = h ++ xs.map (fun i => joinC ',' (fs i)) ∧ h.length = 19 ∧ xs ≠ [] ∧ ∀ i ∈ xs, (x i).Valid ∧ PartsAre (q i) (x i) ∧
      25 ≤ (fs i).length ∧ (∀ f ∈ fs i, ',' ∉ f) ∧
      (∀ s ∈ laptopColumns, NumText ((fs i).getD s.2 []) (q i s.2)) ∧ ∀ j ∈ [19, 20, 21], WholeText ((fs i).getD j []))
    (fun c => c ∈ laptopColumns.map Prod.fst ++ ["date_time".toList]) (numsVal laptopColumns q x)
    (fun files Ts => (C41_laptop_files_in_order dates files _ none).2 Ts) ?_ _ _ (hs.map Prod.snd) (by simpa using hne) ?_ ?_
  · rintro f xs ⟨h, rfl, h1, h2, h3⟩
    obtain ⟨F, hF, hc, hv, ht⟩ := C88_sikuliaq dates h h1 xs h2 fs q x h3
    exact ⟨F, hF, fun c => by rw [hc], nums_vals laptopColumns (by decide) (by decide) hv ht⟩
  · rw [List.forall₂_map_left_iff, List.forall₂_map_right_iff, List.forall₂_same]
    exact fun f h => ⟨f.1, rfl, hx f h⟩
  · refine ⟨header, rfl, hh, flatten_ne (by simpa using hne) ?_, ?_⟩
    · intro xs h
      obtain ⟨f, hf, rfl⟩ := List.mem_map.1 h
      exact (hx f hf).2.1
    · intro i hi
      obtain ⟨xs, h1, h2⟩ := List.mem_flatten.1 hi
      obtain ⟨f, hf, rfl⟩ := List.mem_map.1 h1
      exact (hx f hf).2.2 i h2

private theorem kept_append {a b : List Str} {ka kb : List (List Str)} (ha : KeptFields a ka) (hb : KeptFields b kb) : KeptFields (a ++ b) (ka ++ kb) := by
  induction ha with
  | nil => exact hb
  | keep line fs lines kept hp hc hl _ ih => exact .keep line fs _ _ hp hc hl ih
  | skip line lines kept hn _ ih => exact .skip line _ _ hn ih

private theorem kept_flatten {files : List (List Str)} {ks : List (List (List Str))} (h : List.Forall₂ KeptFields files ks) :
    KeptFields files.flatten ks.flatten := by
  induction h with
  | nil => exact .nil
  | cons h _ ih => rw [List.flatten_cons, List.flatten_cons]; exact kept_append h ih

/-- **C130.** DGS laptop files of Langseth, whatever lines they have besides the records (and even if some of them have no record at all): the files
together, and a single file with all their lines. -/
theorem C130_laptop_langseth (dates : Dates) (files : List (List Str)) (hne : files ≠ []) (ks : List (List (List Str)))
    (hk : List.Forall₂ KeptFields files ks) (q : List Str → ℕ → ℚ) (x : List Str → Sample)
    (hx : ∀ k ∈ ks, ∀ f ∈ k, (x f).Valid ∧ PartsAre (q f) (x f) ∧ (∀ j ∈ [19, 20, 21, 22, 23, 24], NumText (f.getD j []) (q f j)) ∧
      ∀ j ∈ [19, 20, 21], WholeText (f.getD j [])) :
    ∃ F G, readDgsLaptop dates (.many files) "Langseth".toList none = .ok (.val F) ∧
      readDgsLaptop dates (.many [files.flatten]) "Langseth".toList none = .ok (.val G) ∧ SameTable F G := by
  obtain ⟨v, -, hv⟩ := C40_rows
  refine cutR (fun files F => readDgsLaptop dates (.many files) "Langseth".toList none = .ok (.val F))
    (fun f k => KeptFields f k ∧ ∀ f ∈ k, (x f).Valid ∧ PartsAre (q f) (x f) ∧ (∀ j ∈ [19, 20, 21, 22, 23, 24], NumText (f.getD j []) (q f j)) ∧
      ∀ j ∈ [19, 20, 21], WholeText (f.getD j []))
    (fun c => c ∈ laptopColumns.map Prod.fst ++ ["date_time".toList])
    (fun c f => match laptopColumns.lookup c with
      | some j => v (f.getD j [])
      | none => .time (x f).instant)
    (fun files Ts => (C41_laptop_files_in_order dates files _ none).2 Ts) ?_ files files.flatten ks hne ?_ ?_
  · rintro f k ⟨h1, h2⟩
    have key : ∃ F, readDgsLaptop dates (.one f) "Langseth".toList none = .ok (.val F) ∧
        F.col "date_time".toList = k.map fun f => .time (x f).instant := by
      by_cases hkn : k = []
      · subst hkn
        exact ⟨_, C40_empty dates f h1, rfl⟩
      · exact C40_instants dates f k h1 hkn q x h2
    obtain ⟨F, hF, ht⟩ := key
    obtain ⟨hc, -, hcol⟩ := hv dates f k h1 F hF
    refine ⟨F, hF, fun c => by rw [hc], ?_⟩
    intro c hc'
    rcases List.mem_append.1 hc' with hc' | hc'
    · obtain ⟨s, hs, rfl⟩ := List.mem_map.1 hc'
      have hl : laptopColumns.lookup s.1 = some s.2 := by
        have : ∀ s ∈ laptopColumns, laptopColumns.lookup s.1 = some s.2 := by decide
        exact this s hs
      rw [hcol s hs, hl]
    · rw [List.mem_singleton] at hc'
      subst hc'
      rw [ht]
      rfl
  · clear hne hv
    induction hk with
    | nil => exact .nil
    | cons h _ ih =>
      exact .cons ⟨h, hx _ (by simp)⟩ (ih (fun k hk => hx k (by simp [hk])))
  · refine ⟨kept_flatten hk, fun f hf => ?_⟩
    obtain ⟨k, h1, h2⟩ := List.mem_flatten.1 hf
    exact hx k h1 f h2

/-! ### DGS raw -/

/-- **C130 (part).** DGS raw files in which every record has a synchronised clock.  Missing: files in which the clock is synchronised later
(`C130_raw_refuted`). -/
theorem C130_raw_partial {ι : Type} (dates : Dates) (ship : Str) (h1 : ship ≠ "Thompson".toList) (h2 : ship ≠ "Sikuliaq".toList)
    (xss : List (List ι)) (hne : xss ≠ []) (fs : ι → List Str) (q : ι → ℕ → ℚ) (x : ι → Sample)
    (hx : ∀ xs ∈ xss, xs ≠ [] ∧ ∀ i ∈ xs, RawRecord (fs i) (q i) ∧ (x i).Valid ∧ (x i).f = 0 ∧ 2000 ≤ (x i).y ∧ q i 18 = stampNumber (x i) ∧
      WholeText ((fs i).getD 18 [])) :
    ∃ F G, readDgsRaw dates (.many (xss.map fun xs => xs.map fun i => joinC ',' (fs i))) ship false = .ok F ∧
      readDgsRaw dates (.many [xss.flatten.map fun i => joinC ',' (fs i)]) ship false = .ok G ∧ SameTable F G :=
  cut (fun files F => readDgsRaw dates (.many files) ship false = .ok F) _ _ (fun c => c ∈ rawColumns.map Prod.fst ++ ["date_time".toList])
    (fun c i => if c = "string".toList then .text ((fs i).getD 0 []) else numsVal rawColumns q x c i)
    (fun files Ts => (C41_raw_files_in_order dates files ship false).2 Ts)
    (fun xs g1 g2 => by
      obtain ⟨F, hF, hc, hv, ht⟩ := C43_synced dates ship h1 h2 xs g1 fs q x g2
      refine ⟨F, hF, fun c => by rw [hc], fun c h => ?_⟩
      by_cases hs : c = "string".toList
      · subst hs
        simpa using hv.strings
      · simp only [if_neg hs]
        rcases List.mem_append.1 h with h | h
        · obtain ⟨s, hs', rfl⟩ := List.mem_map.1 h
          have hj : 1 ≤ s.2 := by
            have : ∀ s ∈ rawColumns, s.1 ≠ "string".toList → 1 ≤ s.2 := by decide
            exact this s hs' hs
          rw [hv.numbers s hs' hj]
          have hl : rawColumns.lookup s.1 = some s.2 := by
            have : ∀ s ∈ rawColumns, rawColumns.lookup s.1 = some s.2 := by decide
            exact this s hs'
          simp only [numsVal, hl]
        · rw [List.mem_singleton] at h
          subst h
          rw [ht]
          rfl) xss hne hx

/-- **C130 fails** for DGS raw files in which the clock is synchronised part-way: read in one piece such a file has no times at all, because the first
record alone decides; cut at the right place, the records after it have their times. -/
theorem C130_raw_refuted {ι : Type} (dates : Dates) (ship : Str) (h1 : ship ≠ "Thompson".toList) (h2 : ship ≠ "Sikuliaq".toList)
    (i0 : ι) (xs ys : List ι) (hne : ys ≠ []) (fs : ι → List Str) (q : ι → ℕ → ℚ) (x : ι → Sample) (n : ℕ) (hn : LeadsWithOne n) (hq : q i0 18 = n)
    (hd : ['$'] <+: (fs i0).getD 0 []) (hx : ∀ i ∈ i0 :: xs, RawRecord (fs i) (q i))
    (hy : ∀ i ∈ ys, RawRecord (fs i) (q i) ∧ (x i).Valid ∧ (x i).f = 0 ∧ 2000 ≤ (x i).y ∧ q i 18 = stampNumber (x i) ∧
      WholeText ((fs i).getD 18 [])) :
    ∃ F G, readDgsRaw dates (.many [(i0 :: xs).map fun i => joinC ',' (fs i), ys.map fun i => joinC ',' (fs i)]) ship false = .ok F ∧
      readDgsRaw dates (.many [(i0 :: xs ++ ys).map fun i => joinC ',' (fs i)]) ship false = .ok G ∧
      "date_time".toList ∉ G.cols ∧ "date_time".toList ∈ F.cols ∧
      (F.col "date_time".toList).drop (xs.length + 1) = ys.map fun i => .time (x i).instant := by
  obtain ⟨G, hG, hGc, -⟩ := C43_no_stamp dates ship h1 h2 i0 (xs ++ ys) fs q n hn hq (by
    intro i hi
    rcases List.mem_append.1 (show i ∈ (i0 :: xs) ++ ys from hi) with h | h
    · exact hx i h
    · exact (hy i h).1) hd
  obtain ⟨A, hA, hAc, hAv⟩ := C43_no_stamp dates ship h1 h2 i0 xs fs q n hn hq hx hd
  obtain ⟨B, hB, hBc, -, hBt⟩ := C43_synced dates ship h1 h2 ys hne fs q x hy
  obtain ⟨F, hF, hc⟩ := (C41_raw_files_in_order dates [(i0 :: xs).map fun i => joinC ',' (fs i), ys.map fun i => joinC ',' (fs i)] ship false).2 [A, B]
    (by simp) (.cons hA (.cons hB .nil))
  refine ⟨F, G, hF, hG, ?_, ?_, ?_⟩
  · rw [hGc]; decide
  · rw [hc.cols]
    exact ⟨B, by simp, by rw [hBc]; simp⟩
  · have hl : A.rows.length = xs.length + 1 := by
      have := congrArg List.length hAv.strings
      simpa [Table.col] using this
    unfold Table.col
    rw [hc.rows]
    simp only [List.map_cons, List.map_nil, List.flatten_cons, List.flatten_nil, List.append_nil, List.map_append]
    rw [← hBt, List.drop_left' (by simp [hl])]
    rfl

/-- **C130.** DGS raw files of Thompson. -/
theorem C130_raw_thompson {ι : Type} (dates : Dates) (xss : List (List ι)) (hne : xss ≠ []) (fs : ι → List Str) (q : ι → ℕ → ℚ) (x : ι → Sample)
    (hx : ∀ xs ∈ xss, xs ≠ [] ∧ ∀ i ∈ xs, (x i).Valid ∧ 20 ≤ (fs i).length ∧ (∀ f ∈ fs i, ',' ∉ f) ∧
      (fs i).getD 0 [] = slashMdy (x i).y (x i).m (x i).d ∧
      (fs i).getD 1 [] = clockStamp (x i).h (x i).mi (x i).s (x i).k (x i).f ∧ '$' ∈ (fs i).getD 2 [] ∧
      ∀ s ∈ thompsonRawColumns, NumText ((fs i).getD s.2 []) (q i s.2)) :
    ∃ F G, readDgsRaw dates (.many (xss.map fun xs => xs.map fun i => joinC ',' (fs i))) "Thompson".toList false = .ok F ∧
      readDgsRaw dates (.many [xss.flatten.map fun i => joinC ',' (fs i)]) "Thompson".toList false = .ok G ∧ SameTable F G :=
  cut (fun files F => readDgsRaw dates (.many files) "Thompson".toList false = .ok F) _ _
    (fun c => c ∈ ["date", "time", "string"].map String.toList ++ thompsonRawColumns.map Prod.fst ++ ["date_time".toList])
    (fun c i => if c = "date".toList then .text ((fs i).getD 0 []) else if c = "time".toList then .text ((fs i).getD 1 [])
      else if c = "string".toList then .text ((fs i).getD 2 []) else numsVal thompsonRawColumns q x c i)
    (fun files Ts => (C41_raw_files_in_order dates files _ false).2 Ts)
    (fun xs g1 g2 => by
      obtain ⟨F, hF, hc, h1, h2, h3, hv, ht⟩ := C89_thompson dates xs g1 fs q x g2
      refine ⟨F, hF, fun c => by rw [hc], fun c h => ?_⟩
      by_cases e1 : c = "date".toList
      · subst e1; simpa using h1
      by_cases e2 : c = "time".toList
      · subst e2; rw [h2]; rfl
      by_cases e3 : c = "string".toList
      · subst e3; rw [h3]; rfl
      simp only [if_neg e1, if_neg e2, if_neg e3]
      refine nums_vals thompsonRawColumns (by decide) (by decide) hv ht c ?_
      rw [List.append_assoc] at h
      rcases List.mem_append.1 h with h | h
      · simp only [List.map_cons, List.map_nil, List.mem_cons, List.not_mem_nil, or_false] at h
        rcases h with h | h | h
        · exact absurd h e1
        · exact absurd h e2
        · exact absurd h e3
      · exact h) xss hne hx

/-- **C130.** DGS raw files of Sikuliaq with ISO time stamps, a part of whose records may be other sentences. -/
theorem C130_raw_sikuliaq {ι : Type} (dates : Dates) (xss : List (List ι)) (hne : xss ≠ []) (x : ι → Sample) (log raw : ι → Str)
    (hx : ∀ xs ∈ xss, (∃ i ∈ xs, '$' ∈ raw i) ∧ ∀ i ∈ xs, (x i).Valid ∧ ∀ f ∈ [log i, raw i], '\t' ∉ f ∧ '#' ∉ f) :
    ∃ F G, readDgsRaw dates (.many (xss.map fun xs => xs.map fun i => joinC '\t' [log i,
          isoStamp (x i).y (x i).m (x i).d (x i).h (x i).mi (x i).s (x i).k (x i).f, raw i])) "Sikuliaq".toList false = .ok F ∧
      readDgsRaw dates (.many [xss.flatten.map fun i => joinC '\t' [log i,
          isoStamp (x i).y (x i).m (x i).d (x i).h (x i).mi (x i).s (x i).k (x i).f, raw i]]) "Sikuliaq".toList false = .ok G ∧
      SameTable F G := by
  obtain ⟨v, -, hv⟩ := C44_rows
  refine cutR (fun files F => readDgsRaw dates (.many files) "Sikuliaq".toList false = .ok F)
    (fun f xs => f = xs.map (fun i => joinC '\t' [log i,
          isoStamp (x i).y (x i).m (x i).d (x i).h (x i).mi (x i).s (x i).k (x i).f, raw i]) ∧ (∃ i ∈ xs, '$' ∈ raw i) ∧
          ∀ i ∈ xs, (x i).Valid ∧ ∀ f ∈ [log i, raw i], '\t' ∉ f ∧ '#' ∉ f)
    (fun c => c ∈ sikuliaqColumns.map Prod.fst ++ ["date_time".toList])
    (fun c i => match sikuliaqColumns.lookup c with
      | some j => v (raw i) j
      | none => .time (x i).instant)
    (fun files Ts => (C41_raw_files_in_order dates files _ false).2 Ts) ?_ _ _ xss (by simpa using hne) ?_ ?_
  · rintro f xs ⟨rfl, h1, h2⟩
    obtain ⟨F, hF, ht⟩ := C44_instants dates xs x log raw h2 h1
    obtain ⟨hc, hcol⟩ := hv dates xs log (fun i => isoStamp (x i).y (x i).m (x i).d (x i).h (x i).mi (x i).s (x i).k (x i).f) raw
      (by
        intro i hi f hf
        simp only [List.mem_cons, List.not_mem_nil, or_false] at hf
        rcases hf with rfl | rfl | rfl
        · exact (h2 i hi).2 _ (by simp)
        · exact isoStamp_plain (x i)
        · exact (h2 i hi).2 _ (by simp)) (fun i _ => isoStamp_ink (x i)) h1 F hF
    refine ⟨F, hF, fun c => by rw [hc], ?_⟩
    intro c hc'
    rcases List.mem_append.1 hc' with hc' | hc'
    · obtain ⟨s, hs, rfl⟩ := List.mem_map.1 hc'
      have hl : sikuliaqColumns.lookup s.1 = some s.2 := by
        have : ∀ s ∈ sikuliaqColumns, sikuliaqColumns.lookup s.1 = some s.2 := by decide
        exact this s hs
      rw [hcol s hs, hl]
    · rw [List.mem_singleton] at hc'
      subst hc'
      rw [ht]
      rfl
  · rw [List.forall₂_map_left_iff, List.forall₂_same]
    exact fun xs h => ⟨rfl, hx xs h⟩
  · refine ⟨rfl, ?_, ?_⟩
    · obtain ⟨xs, h⟩ := List.exists_mem_of_ne_nil xss hne
      obtain ⟨i, hi, hd⟩ := (hx xs h).1
      exact ⟨i, List.mem_flatten.2 ⟨xs, h, hi⟩, hd⟩
    · intro i hi
      obtain ⟨xs, h1, h2⟩ := List.mem_flatten.1 hi
      exact (hx xs h1).2 i h2

/-! ### Hypotheses met -/

private def r1 : Sample := ⟨2022, 7, 1, 12, 17, 33, 3, 492, 6, 24963⟩
private theorem r1_valid : r1.Valid := ⟨by decide, by decide, by decide, by decide, by decide, by decide, by decide, by decide⟩

example (other : OtherTimes) := C130_bgm_atlantis other none 4.994070552 (Or.inr ⟨rfl, .atlantis⟩) [[()], [(), ()]] (by simp) (fun _ => r1)
    (fun _ => "BGM".toList) (fun _ => "BGM3".toList) (fun _ => "04".toList) (fun _ => " 00".toList)
    (by
      intro xs hxs
      refine ⟨by rintro rfl; simp at hxs, fun _ _ => ⟨r1_valid, by decide, by decide, by decide, Or.inr ⟨"00".toList, rfl⟩⟩⟩)

private def r2 : Sample := ⟨2022, 7, 1, 12, 17, 33, 1, 0, 1, 0⟩
private theorem r2_valid : r2.Valid := ⟨by decide, by decide, by decide, by decide, by decide, by decide, by decide, by decide⟩

example (dates : Dates) := C130_raw_refuted dates "Atlantis".toList (by decide) (by decide) true [] [false] (by simp)
  (fun b => if b then exRaw "$AT1M_u" "1656677853" else exRaw "$AT1M_u" "20220701121733")
  (fun b => if b then exTs 1656677853 else exTs 20220701121733) (fun _ => r2) 1656677853 ⟨9, by decide, by decide⟩ rfl ⟨"AT1M_u".toList, by decide⟩
  (by
    intro i hi
    simp only [List.mem_cons, List.not_mem_nil, or_false] at hi
    subst hi
    exact exRecord _ _ 10 _ (Or.inl (by decide)) (by decide) (by decide +kernel) (by decide) (by decide))
  (by
    intro i hi
    simp only [List.mem_cons, List.not_mem_nil, or_false] at hi
    subst hi
    exact ⟨exRecord _ _ 14 _ (Or.inl (by decide)) (by decide) (by decide +kernel) (by decide) (by decide), r2_valid, rfl, by decide, by decide +kernel,
      ⟨0, 0, 14, 20220701121733, by decide +kernel, by decide⟩⟩)

example (dates : Dates) := C130_laptop_sikuliaq dates (List.replicate 19 "header".toList) (by decide)
  [(List.replicate 19 "first".toList, [()]), (List.replicate 19 "second".toList, [(), ()])] (by simp) (fun _ => lapFields) (fun _ => lapNum)
  (fun _ => lapSample) (by
    intro f hf
    simp only [List.mem_cons, List.not_mem_nil, or_false] at hf
    rcases hf with rfl | rfl
    · exact ⟨by decide, by simp, fun _ _ => ⟨lapSample_valid, lapParts, by decide, by decide, lapNumText, lapWhole⟩⟩
    · exact ⟨by decide, by simp, fun _ _ => ⟨lapSample_valid, lapParts, by decide, by decide, lapNumText, lapWhole⟩⟩)

/-- The second file has no record. -/
example (dates : Dates) := C130_laptop_langseth dates [[joinC ',' lapFields, "junk".toList], []] (by simp) [[lapFields], []]
  (.cons lapKept (.cons .nil .nil)) (fun _ => lapNum) (fun _ => lapSample) (by
    intro k hk f hf
    simp only [List.mem_cons, List.not_mem_nil, or_false] at hk
    rcases hk with rfl | rfl
    · simp only [List.mem_singleton] at hf
      subst hf
      refine ⟨lapSample_valid, lapParts, ?_, lapWhole⟩
      intro j hj
      have : ∃ s ∈ laptopColumns, s.2 = j := by revert j; decide
      obtain ⟨s, hs, rfl⟩ := this
      exact lapNumText s hs
    · cases hf)

example (dates : Dates) := C130_raw_thompson dates [[()], [(), ()]] (by simp) (fun _ => exThompsonRaw) (fun _ j => (j : ℕ))
  (fun _ => exThompsonSample) (by
    intro xs hxs
    exact ⟨by rintro rfl; simp at hxs, fun _ _ => exThompsonRaw_ok⟩)

example (dates : Dates) := C130_raw_sikuliaq dates [[true], [true, false]] (by simp) (fun _ => r1) (fun _ => "dgs".toList)
  (fun b => if b then "$AT1M_u,1.5".toList else "other".toList) (by
    intro xs hxs
    have h : true ∈ xs := by
      simp only [List.mem_cons, List.not_mem_nil, or_false] at hxs
      rcases hxs with rfl | rfl <;> simp
    refine ⟨⟨true, h, by decide⟩, fun b _ => ⟨r1_valid, ?_⟩⟩
    cases b <;> decide)

end Shipgrav
