import Verif.Lemmas.ReadNav
import Verif.Props.DateLine
import Verif.Props.NavDate

/-! Properties C25, C27 (last part), C28–C32: `read_nav`. -/

namespace Shipgrav
open Spec

/-- `file` is read as coordinates `coords` and timestamps `ts`: by the caller's reader if there is one, else by the
built-in reader of the ship. -/
def Reads (ship : Str) (fn : Option Reader) (talker : Str) (file : List Str) (coords : List Coord)
    (ts : Ret (List (Option ℤ))) : Prop :=
  match fn with
  | some f => f file talker = .ok (coords, ts)
  | none => builtinRead ship talker file = .ok (some (coords, ts))

/-- The talker that the database has for a ship. -/
def defaultTalker (ship : Str) : Option Str :=
  if ship = "Atlantis".toList then some "GPGGA".toList
  else if ship = "Thompson".toList then some "INGGA".toList
  else if ship = "NBP".toList then some "GPGGA".toList
  else if ship = "Ride".toList then some "INGGA".toList
  else if ship = "Revelle".toList then some "GPGGA".toList
  else if ship = "Langseth".toList then some "INGGA".toList
  else if ship = "Sikuliaq".toList then some "GPGGA".toList
  else none

private theorem lookup_cons_if (s a b : Str) (l : List (Str × Str)) :
    List.lookup s ((a, b) :: l) = if s = a then some b else List.lookup s l := by
  rw [List.lookup_cons]
  by_cases h : s = a
  · simp [h]
  · have : (s == a) = false := by simpa using h
    rw [if_neg h, this]

theorem talkers_eq (ship : Str) : navTalkers.lookup ship = defaultTalker ship := by
  unfold navTalkers defaultTalker
  simp only [List.map_cons, List.map_nil]
  rw [lookup_cons_if, lookup_cons_if, lookup_cons_if, lookup_cons_if, lookup_cons_if, lookup_cons_if, lookup_cons_if,
    List.lookup_nil]

/-- `file` is read as the non-empty list of fixes `fx`. -/
def ReadsFixes (ship : Str) (fn : Option Reader) (talker : Str) (file : List Str) (fx : List Fix) : Prop :=
  fx ≠ [] ∧ Reads ship fn talker file (fx.map Prod.snd) (.val (fx.map (fun x => some x.1)))

/-- What `read_nav` does with the lines of one file.  `/repo/shipgrav/io.py` lines 84–109. -/
def reader (ship : Str) (fn : Option Reader) (talker : Str) :
    List Str → Except PyErr (Option (List Coord × Ret (List (Option ℤ)))) :=
  match fn with
  | some f => fun a => (f a talker).map some
  | none => builtinRead ship talker

theorem reads_iff (ship : Str) (fn : Option Reader) (talker : Str) (file : List Str) (c : List Coord)
    (ts : Ret (List (Option ℤ))) : Reads ship fn talker file c ts ↔ reader ship fn talker file = .ok (some (c, ts)) := by
  unfold Reads reader
  cases fn with
  | none => rfl
  | some f =>
    simp only
    cases f file talker <;> simp [Except.map]

theorem readNav_eq (ship : Str) (files : List (List Str)) (s : ℚ) (talker : Option Str) (fn : Option Reader) (d : ℤ)
    (tk : Str) (hk : fn.isSome ∨ defaultTalker ship ≠ none) (ht : talker.or (defaultTalker ship) = some tk) :
    readNav ship files s talker fn d = (do
      match ← readLoop (reader ship fn tk) s d files [] with
      | .sentinel => return .sentinel
      | .val rows => return .val (← finishNav rows)) := by
  unfold readNav
  rw [talkers_eq, if_neg, ht]
  · cases fn <;> rfl
  · rintro ⟨h1, h2⟩
    rcases hk with h | h
    · cases fn <;> simp_all
    · exact h h1

theorem readLoop_ok (read : List Str → Except PyErr (Option (List Coord × Ret (List (Option ℤ))))) (s : ℚ) (d : ℕ)
    (hs : s ≠ 0) (files : List (List Str)) (fxs : List (List Fix))
    (h : List.Forall₂ (fun file (fx : List Fix) => fx ≠ [] ∧
      read file = .ok (some (fx.map Prod.snd, .val (fx.map (fun x => some x.1))))) files fxs) : ∀ rows,
    ∃ firsts kept : List (List Fix), List.Forall₂ (FirstOfTime Prod.fst) fxs firsts ∧
      List.Forall₂ (fun l k => if d = 0 then k = l else EveryNth d l k) firsts kept ∧
      readLoop read s d files rows = .ok (.val (rows ++ kept.flatten.map Fix.row)) := by
  induction h with
  | nil => intro rows; exact ⟨[], [], .nil, .nil, by simp [readLoop]⟩
  | cons h1 _ ih =>
    rename_i file fx files fxs _
    intro rows
    obtain ⟨hne, hread⟩ := h1
    obtain ⟨l, hl, hrows⟩ := fileRows_ok s d fx hne hs
    obtain ⟨k, hk, hk'⟩ : ∃ k : List Fix, (if d = 0 then k = l else EveryNth d l k) ∧
        (if (d : ℤ) = 0 then l.map Fix.row else stride (d : ℤ) (l.map Fix.row)) = k.map Fix.row := by
      by_cases hd : d = 0
      · exact ⟨l, by rw [if_pos hd], by rw [if_pos (by exact_mod_cast hd)]⟩
      · refine ⟨stride (d : ℤ) l, ?_, ?_⟩
        · rw [if_neg hd]; exact everyNth_stride d (by omega) l
        · rw [if_neg (by exact_mod_cast hd), stride_map d (by omega)]
    obtain ⟨firsts, kept, f1, f2, f3⟩ := ih (rows ++ k.map Fix.row)
    refine ⟨l :: firsts, k :: kept, .cons hl f1, .cons hk f2, ?_⟩
    rw [readLoop, hread]
    simp only [bind, Except.bind]
    rw [hrows, hk']
    simp only
    rw [f3]
    simp

private theorem finish_fixes (L : List Fix) : ∃ (out : List Fix) (lons : List (Option ℚ)), IsTrack Prod.fst L out ∧
    finishNav (L.map Fix.row) = .ok (List.zipWith (fun x l => Row.mk (timestamp x.1) l x.2.2) out lons) ∧
    lons.length = out.length ∧
    ((∀ i, ¬ JumpAt (out.map (fun x => x.2.1)) i) → lons = out.map (fun x => x.2.1)) ∧
    ((∃ i, JumpAt (out.map (fun x => x.2.1)) i) → cleanLon (out.map (fun x => x.2.1)) = .ok lons) := by
  obtain ⟨out, h1, h2⟩ := takeIdx_unique (fun x : Fix => timestamp x.1) L
  rw [isTrack_timestamp] at h2
  have e1 : (L.map Fix.row).map Row.time = L.map (fun x => timestamp x.1) := by rw [List.map_map]; rfl
  have e2 : takeIdx (L.map Fix.row) (uniqueIdx ((L.map Fix.row).map Row.time)) = .ok (out.map Fix.row) := by
    rw [e1, takeIdx_map, h1]; rfl
  have e3 : (out.map Fix.row).map Row.lon = out.map (fun x => x.2.1) := by rw [List.map_map]; rfl
  have hz : ∀ lons : List (Option ℚ),
      List.zipWith (fun (r : Row) l => { r with lon := l }) (out.map Fix.row) lons
        = List.zipWith (fun x l => Row.mk (timestamp x.1) l x.2.2) out lons := by
    intro lons
    rw [List.zipWith_map_left]
    rfl
  by_cases hj : jumpIdx (out.map (fun x => x.2.1)) = []
  · refine ⟨out, out.map (fun x => x.2.1), h2, ?_, by simp, fun _ => rfl, ?_⟩
    · unfold finishNav
      rw [e2]
      simp only [bind, Except.bind, e3, if_pos hj]
      rw [List.zipWith_map_right]
      show Except.ok (out.map Fix.row) = _
      congr 1
      clear h1 h2 e1 e2 e3 hz hj
      induction out with
      | nil => rfl
      | cons a t ih => simp only [List.map_cons, List.zipWith_cons_cons]; rw [ih]; rfl
    · rintro ⟨i, hi⟩
      exact absurd hi ((jumpIdx_nil_iff _).1 hj i)
  · obtain ⟨lons, c1, c2⟩ := C34_never_raises (out.map (fun x => x.2.1))
    refine ⟨out, lons, h2, ?_, by simpa using c2, ?_, fun _ => c1⟩
    · unfold finishNav
      rw [e2]
      simp only [bind, Except.bind, e3, if_neg hj, c1]
      show Except.ok (List.zipWith (fun (r : Row) l => { r with lon := l }) (out.map Fix.row) lons) = _
      rw [hz]
    · intro h; exact absurd ((jumpIdx_nil_iff _).2 h) hj

/-- **C29, C31.** What `read_nav` returns when every file can be read: in each file every fix takes the coordinates of the
first fix with its time; every `d`-th is kept (all when `d = 0`); the files' fixes are joined, sorted by time, and of those
with equal times the first is kept.  The longitudes are then those of the track, unless some step exceeds one degree, in
which case they go through the date-line repair (C33, C34). -/
theorem C29_track (ship tk : Str) (files : List (List Str)) (s : ℚ) (talker : Option Str) (fn : Option Reader) (d : ℕ)
    (fxs : List (List Fix)) (hk : fn.isSome ∨ defaultTalker ship ≠ none)
    (ht : talker.or (defaultTalker ship) = some tk) (hs : s ≠ 0)
    (hf : List.Forall₂ (ReadsFixes ship fn tk) files fxs) :
    ∃ (firsts kept : List (List Fix)) (out : List Fix) (lons : List (Option ℚ)),
      List.Forall₂ (FirstOfTime Prod.fst) fxs firsts ∧
      List.Forall₂ (fun l k => if d = 0 then k = l else EveryNth d l k) firsts kept ∧
      IsTrack Prod.fst kept.flatten out ∧
      readNav ship files s talker fn d
        = .ok (.val (List.zipWith (fun x l => Row.mk (timestamp x.1) l x.2.2) out lons)) ∧
      lons.length = out.length ∧
      ((∀ i, ¬ JumpAt (out.map (fun x => x.2.1)) i) → lons = out.map (fun x => x.2.1)) ∧
      ((∃ i, JumpAt (out.map (fun x => x.2.1)) i) → cleanLon (out.map (fun x => x.2.1)) = .ok lons) := by
  have hf' : List.Forall₂ (fun file (fx : List Fix) => fx ≠ [] ∧
      reader ship fn tk file = .ok (some (fx.map Prod.snd, .val (fx.map (fun x => some x.1))))) files fxs :=
    hf.imp (fun a b hab => ⟨hab.1, (reads_iff _ _ _ _ _ _).1 hab.2⟩)
  obtain ⟨firsts, kept, h1, h2, h3⟩ := readLoop_ok _ s d hs files fxs hf' []
  obtain ⟨out, lons, h4, h5, h6, h7, h8⟩ := finish_fixes kept.flatten
  refine ⟨firsts, kept, out, lons, h1, h2, h4, ?_, h6, h7, h8⟩
  rw [readNav_eq ship files s talker fn d tk hk ht, h3]
  simp only [List.nil_append, bind, Except.bind, h5]
  rfl

private theorem forall₂_split {α β : Type} {R : α → β → Prop} (a : List α) (x : α) (c : List α) (l : List β)
    (h : List.Forall₂ R (a ++ x :: c) l) :
    ∃ a' y c', l = a' ++ y :: c' ∧ List.Forall₂ R a a' ∧ R x y ∧ List.Forall₂ R c c' := by
  induction a generalizing l with
  | nil => cases h with | cons h1 h2 => exact ⟨[], _, _, rfl, .nil, h1, h2⟩
  | cons z a ih =>
    cases h with
    | cons h1 h2 =>
      obtain ⟨a', y, c', rfl, e1, e2, e3⟩ := ih _ h2
      exact ⟨_ :: a', y, c', rfl, .cons h1 e1, e2, e3⟩

theorem isFirst_append {α κ : Type} (f : α → κ) (A B : List α) (r : α) :
    IsFirst f (A ++ B) r ↔ IsFirst f A r ∨ (IsFirst f B r ∧ ∀ x ∈ A, f x ≠ f r) := by
  constructor
  · rintro ⟨pre, post, he, hp⟩
    rcases List.append_eq_append_iff.1 he with ⟨c, h1, h2⟩ | ⟨c, h1, h2⟩
    · right
      refine ⟨⟨c, post, h2, fun x hx => hp x (by rw [h1]; simp [hx])⟩, fun x hx => hp x (by rw [h1]; simp [hx])⟩
    · cases c with
      | nil =>
        right
        rw [List.nil_append] at h2
        rw [List.append_nil] at h1
        exact ⟨⟨[], post, h2.symm, by simp⟩, fun x hx => hp x (by rw [← h1]; exact hx)⟩
      | cons y c =>
        left
        rw [List.cons_append] at h2
        injection h2 with h2 h3
        subst h2
        exact ⟨pre, c, h1, hp⟩
  · rintro (⟨pre, post, rfl, hp⟩ | ⟨⟨pre, post, rfl, hp⟩, hA⟩)
    · exact ⟨pre, post ++ B, by simp, hp⟩
    · refine ⟨A ++ pre, post, by simp, ?_⟩
      intro x hx
      rcases List.mem_append.1 hx with h | h
      · exact hA x h
      · exact hp x h

theorem isFirst_unique {α κ : Type} (f : α → κ) (A : List α) (r r' : α) (h : IsFirst f A r) (h' : IsFirst f A r')
    (e : f r = f r') : r = r' := by
  obtain ⟨pre, post, rfl, hp⟩ := h
  obtain ⟨pre', post', he, hp'⟩ := h'
  rcases List.append_eq_append_iff.1 he with ⟨c, h1, h2⟩ | ⟨c, h1, h2⟩
  · cases c with
    | nil => rw [List.nil_append] at h2; injection h2 with h2
    | cons y c =>
      rw [List.cons_append] at h2
      injection h2 with h2 h3
      subst h2
      exact absurd e (hp' r (by rw [h1]; simp))
  · cases c with
    | nil => rw [List.nil_append] at h2; injection h2 with h2; exact h2.symm
    | cons y c =>
      rw [List.cons_append] at h2
      injection h2 with h2 h3
      subst h2
      exact absurd e.symm (hp r' (by rw [h1]; simp))

theorem firstOfTime_same (fx l : List Fix) (h : FirstOfTime Prod.fst fx l) :
    (∀ r, IsFirst Prod.fst l r ↔ IsFirst Prod.fst fx r) ∧ (∀ t, t ∈ l.map Prod.fst ↔ t ∈ fx.map Prod.fst) := by
  have htimes : l.map Prod.fst = fx.map Prod.fst := by
    have gen : ∀ (a b : List Fix), List.Forall₂ (fun a b : Fix => b.1 = a.1 ∧ IsFirst Prod.fst fx b) a b →
        b.map Prod.fst = a.map Prod.fst := by
      intro a b hab
      induction hab with
      | nil => rfl
      | cons h1 _ ih => rw [List.map_cons, List.map_cons, h1.1, ih]
    exact gen fx l h
  refine ⟨?_, fun t => by rw [htimes]⟩
  intro r
  constructor
  · rintro ⟨pre, post, he, _⟩
    have hr : r ∈ l := by rw [he]; simp
    have gen : ∀ (a b : List Fix), List.Forall₂ (fun a b : Fix => b.1 = a.1 ∧ IsFirst Prod.fst fx b) a b →
        ∀ r ∈ b, IsFirst Prod.fst fx r := by
      intro a b hab
      induction hab with
      | nil => simp
      | cons h1 _ ih =>
        intro r hr
        rcases List.mem_cons.1 hr with rfl | hr
        · exact h1.2
        · exact ih r hr
    exact gen fx l h r hr
  · intro hr
    obtain ⟨pre, post, he, hp⟩ := id hr
    unfold FirstOfTime at h
    have h' : List.Forall₂ (fun a b : Fix => b.1 = a.1 ∧ IsFirst Prod.fst fx b) (pre ++ r :: post) l := by rw [← he]; exact h
    obtain ⟨pre', b, post', rfl, hpre, hb, _⟩ := forall₂_split _ _ _ _ h'
    · have : b = r := isFirst_unique Prod.fst fx b r hb.2 hr hb.1
      subst this
      refine ⟨pre', post', rfl, ?_⟩
      intro x hx hxe
      have gen : ∀ (a b : List Fix), List.Forall₂ (fun a b : Fix => b.1 = a.1 ∧ IsFirst Prod.fst fx b) a b →
          ∀ x ∈ b, ∃ y ∈ a, y.1 = x.1 := by
        intro a b hab
        induction hab with
        | nil => simp
        | cons h1 _ ih =>
          intro x hx
          rcases List.mem_cons.1 hx with rfl | hx
          · exact ⟨_, by simp, h1.1.symm⟩
          · obtain ⟨y, hy, e⟩ := ih x hx; exact ⟨y, by simp [hy], e⟩
      obtain ⟨y, hy, e⟩ := gen pre pre' hpre x hx
      exact hp y hy (e.trans hxe)

/-- **C29.** Without decimation (`0` or `1`) the rows are exactly the fixes read from the files, in order of time, the first
fix in file order being kept when several share a time. -/
theorem C29_nothing_lost (ship tk : Str) (files : List (List Str)) (s : ℚ) (talker : Option Str) (fn : Option Reader) (d : ℕ)
    (hd : d = 0 ∨ d = 1) (fxs : List (List Fix)) (hk : fn.isSome ∨ defaultTalker ship ≠ none)
    (ht : talker.or (defaultTalker ship) = some tk) (hs : s ≠ 0)
    (hf : List.Forall₂ (ReadsFixes ship fn tk) files fxs) :
    ∃ (out : List Fix) (lons : List (Option ℚ)),
      IsTrack Prod.fst fxs.flatten out ∧
      readNav ship files s talker fn d
        = .ok (.val (List.zipWith (fun x l => Row.mk (timestamp x.1) l x.2.2) out lons)) ∧
      lons.length = out.length ∧
      ((∀ i, ¬ JumpAt (out.map (fun x => x.2.1)) i) → lons = out.map (fun x => x.2.1)) ∧
      ((∃ i, JumpAt (out.map (fun x => x.2.1)) i) → cleanLon (out.map (fun x => x.2.1)) = .ok lons) := by
  obtain ⟨firsts, kept, out, lons, h1, h2, h3, h4, h5, h6, h7⟩ := C29_track ship tk files s talker fn d fxs hk ht hs hf
  refine ⟨out, lons, ?_, h4, h5, h6, h7⟩
  have hkept : kept = firsts := by
    clear h3 h4 h1
    induction h2 with
    | nil => rfl
    | cons h _ ih =>
      rw [ih]
      congr 1
      rcases hd with rfl | rfl
      · simpa using h
      · simp only [one_ne_zero, if_false] at h
        exact List.ext_getElem? (fun i => by rw [h i, Nat.mul_one])
  rw [hkept] at h3
  have hsame : (∀ r, IsFirst Prod.fst firsts.flatten r ↔ IsFirst Prod.fst fxs.flatten r) ∧
      (∀ t, t ∈ firsts.flatten.map Prod.fst ↔ t ∈ fxs.flatten.map Prod.fst) := by
    clear h2 h3 h4 hf hkept
    induction h1 with
    | nil => simp
    | cons h _ ih =>
      obtain ⟨a1, a2⟩ := firstOfTime_same _ _ h
      obtain ⟨b1, b2⟩ := ih
      refine ⟨?_, ?_⟩
      · intro r
        rw [List.flatten_cons, List.flatten_cons, isFirst_append, isFirst_append, a1, b1]
        have := (a2 r.1).not
        simp only [List.mem_map, not_exists, not_and] at this
        exact or_congr Iff.rfl (and_congr Iff.rfl this)
      · intro t
        rw [List.flatten_cons, List.flatten_cons, List.map_append, List.map_append, List.mem_append, List.mem_append, a2, b2]
  exact ⟨h3.1, fun r => by rw [h3.2, hsame.1]⟩

/-- **C31.** Each file contributes ⌈n/d⌉ of its `n` fixes. -/
theorem C31_number_kept (d : ℕ) (hd : 1 ≤ d) (fx l k : List Fix) (h1 : FirstOfTime Prod.fst fx l) (h2 : EveryNth d l k) :
    k.length = (fx.length + d - 1) / d := by
  rw [EveryNth.length hd h2, h1.length_eq]

/-- **C31.** Decimation by 0 and by 1 agree, whatever the files hold. -/
theorem C31_zero_is_one (ship : Str) (files : List (List Str)) (s : ℚ) (talker : Option Str) (fn : Option Reader) :
    readNav ship files s talker fn 0 = readNav ship files s talker fn 1 := by
  have h1 : ∀ l : List Row, stride 1 l = l := by
    intro l
    have : EveryNth 1 l (stride 1 l) := everyNth_stride 1 le_rfl l
    exact List.ext_getElem? (fun i => by rw [this i, Nat.mul_one])
  have hf : ∀ c ts, fileRows s 0 c ts = fileRows s 1 c ts := by
    intro c ts
    unfold fileRows
    simp only [if_true, one_ne_zero, if_false, h1]
  have hl : ∀ read fs rows, readLoop read s 0 fs rows = readLoop read s 1 fs rows := by
    intro read fs
    induction fs with
    | nil => intro rows; rfl
    | cons f fs ih =>
      intro rows
      rw [readLoop, readLoop]
      simp only [hf, ih]
  unfold readNav
  simp only [hl]

/-- **C28.** Whenever `read_nav` returns a frame its times are strictly increasing, whatever the files, the reader and the
decimation. -/
theorem C28_strictly_increasing (ship : Str) (files : List (List Str)) (s : ℚ) (talker : Option Str) (fn : Option Reader)
    (d : ℤ) (out : List Row) (h : readNav ship files s talker fn d = .ok (.val out)) :
    (out.map Row.time).Pairwise (· < ·) := by
  have key : ∀ rows, ∀ o, finishNav rows = .ok o → (o.map Row.time).Pairwise (· < ·) := by
    intro rows o ho
    obtain ⟨u, h1, h2⟩ := takeIdx_unique Row.time rows
    unfold finishNav at ho
    rw [h1] at ho
    simp only [bind, Except.bind] at ho
    split at ho
    · cases ho
      exact List.pairwise_map.2 h2.1
    · rename_i hjj
      obtain ⟨lons, c1, c2⟩ := C34_never_raises (u.map Row.lon)
      rw [c1] at ho
      cases ho
      have : (List.zipWith (fun (r : Row) l => { r with lon := l }) u lons).map Row.time = u.map Row.time := by
        have hl : u.length = lons.length := by rw [c2, List.length_map]
        clear c1 c2 h1 h2 hjj
        induction u generalizing lons with
        | nil => rfl
        | cons a t ih =>
          cases lons with
          | nil => simp at hl
          | cons b lons =>
            rw [List.zipWith_cons_cons, List.map_cons, List.map_cons, ih lons (by simpa using hl)]
      rw [this]
      exact List.pairwise_map.2 h2.1
  unfold readNav at h
  split at h
  · cases h
  · split at h
    · cases h
    · simp only [bind, Except.bind] at h
      split at h
      · cases h
      · split at h
        · cases h
        · split at h
          · cases h
          · cases h
            exact key _ _ (by assumption)

/-- **C30 (refuted).** The track is not resampled: every nonzero sampling interval gives the same result. -/
theorem C30_sampling_ignored_refuted (ship : Str) (files : List (List Str)) (talker : Option Str) (fn : Option Reader)
    (d : ℤ) (s s' : ℚ) (hs : s ≠ 0) (hs' : s' ≠ 0) :
    readNav ship files s talker fn d = readNav ship files s' talker fn d := by
  have hf : ∀ c ts, fileRows s d c ts = fileRows s' d c ts := by
    intro c ts
    unfold fileRows
    simp only [if_neg hs, if_neg hs']
  have hl : ∀ read fs rows, readLoop read s d fs rows = readLoop read s' d fs rows := by
    intro read fs
    induction fs with
    | nil => intro rows; rfl
    | cons f fs ih =>
      intro rows
      rw [readLoop, readLoop]
      simp only [hf, ih]
  unfold readNav
  simp only [hl]

/-- **C30 (refuted).** Two fixes ten seconds apart stay two rows when one-second sampling is asked for. -/
theorem C30_witness_refuted :
    readNav "Atlantis".toList
      [["NAV 2022/07/01 12:17:33.537 GPS $GPGGA,121733.00,4131.403226,N,07040.311159,W".toList,
        "NAV 2022/07/01 12:17:43.537 GPS $GPGGA,121743.00,4131.403226,N,07040.311159,W".toList]] 1 none none 0
      = .ok (.val [⟨1656677853, some (-7067185265 / 100000000), some (415233871 / 10000000)⟩,
          ⟨1656677863, some (-7067185265 / 100000000), some (415233871 / 10000000)⟩]) := by
  decide +kernel

/-! ### C32 -/

/-- The ships of the database. -/
def knownShips : List Str :=
  ["Atlantis", "Thompson", "NBP", "Ride", "Revelle", "Langseth", "Sikuliaq"].map String.toList

private theorem lookup_none_iff (ship : Str) : defaultTalker ship = none ↔ ship ∉ knownShips := by
  rw [← talkers_eq, List.lookup_eq_none_iff]
  have : knownShips = navTalkers.map Prod.fst := by decide
  rw [this]
  simp only [List.mem_map, not_exists, not_and, bne_iff_ne, ne_eq]
  constructor
  · intro h p hp e; exact h p hp e.symm
  · intro h p hp e; exact h p hp e.symm

private theorem finish_total (rows : List Row) : ∃ out, finishNav rows = .ok out := by
  obtain ⟨u, h1, _⟩ := takeIdx_unique Row.time rows
  unfold finishNav
  rw [h1]
  simp only [bind, Except.bind]
  split
  · exact ⟨_, rfl⟩
  · obtain ⟨lons, c1, _⟩ := C34_never_raises (u.map Row.lon)
    rw [c1]
    exact ⟨_, rfl⟩

private theorem loop_sentinel (read : List Str → Except PyErr (Option (List Coord × Ret (List (Option ℤ))))) (s : ℚ) (d : ℤ)
    (files : List (List Str)) : ∀ rows, readLoop read s d files rows = .ok .sentinel ↔
      ∃ pre f post, files = pre ++ f :: post ∧ (∀ g ∈ pre, ∃ o, readLoop read s d [g] [] = .ok (.val o)) ∧
        (read f = .ok none ∨ ∃ c, read f = .ok (some (c, .sentinel))) := by
  induction files with
  | nil => intro rows; simp [readLoop]
  | cons f fs ih =>
    intro rows
    constructor
    · intro h
      rw [readLoop] at h
      rcases hr : read f with e | _ | ⟨c, ts | _⟩
      · rw [hr] at h; cases h
      · exact ⟨[], f, fs, rfl, by simp, Or.inl hr⟩
      rotate_left
      · exact ⟨[], f, fs, rfl, by simp, Or.inr ⟨c, hr⟩⟩
      · rw [hr] at h
        simp only [bind, Except.bind] at h
        rcases hf : fileRows s d c ts with e | new
        · rw [hf] at h; cases h
        · rw [hf] at h
          obtain ⟨pre, g, post, e1, e2, e3⟩ := (ih _).1 h
          refine ⟨f :: pre, g, post, by rw [e1]; rfl, ?_, e3⟩
          intro x hx
          rcases List.mem_cons.1 hx with rfl | hx
          · refine ⟨new, ?_⟩
            rw [readLoop, hr]
            simp only [bind, Except.bind, hf]
            rfl
          · exact e2 x hx
    · rintro ⟨pre, g, post, he, hp, hg⟩
      cases pre with
      | nil =>
        rw [List.nil_append] at he
        injection he with he _
        subst he
        rw [readLoop]
        rcases hg with hg | ⟨c, hg⟩ <;> rw [hg] <;> rfl
      | cons x pre =>
        rw [List.cons_append] at he
        injection he with he he'
        subst he
        obtain ⟨o, ho⟩ := hp f (by simp)
        rw [readLoop] at ho ⊢
        rcases hr : read f with e | _ | ⟨c, ts | _⟩
        · rw [hr] at ho; cases ho
        · rw [hr] at ho; cases ho
        rotate_left
        · rw [hr] at ho; cases ho
        · rw [hr] at ho
          simp only [bind, Except.bind] at ho ⊢
          rcases hf : fileRows s d c ts with e | new
          · rw [hf] at ho; cases ho
          · exact (ih _).2 ⟨pre, g, post, he', fun y hy => hp y (by simp [hy]), hg⟩

/-- The file `f` makes `read_nav` give up with `-999`: the caller's reader returns `-999` as its timestamps, or there is no
built-in reader for the ship and talker, or a Ride-type reader finds no line with the talker. -/
def GivesUp (ship : Str) (fn : Option Reader) (talker : Str) (f : List Str) : Prop :=
  match fn with
  | some r => ∃ c, r f talker = .ok (c, .sentinel)
  | none => (ship = "Sikuliaq".toList ∧ talker ≠ "GPGGA".toList) ∨
      ((ship = "Ride".toList ∨ ship = "Sikuliaq".toList) ∧ ∀ l ∈ f, ¬ talker <:+: l)

private theorem navcoords_nil (talker : Str) (f : List Str) (h : talkerLines talker f = []) : navcoords f talker = .ok [] := by
  unfold navcoords
  rw [h]
  rfl

private theorem ride_sentinel (talker : Str) (f : List Str) :
    (∃ c, (do
      let c ← navcoords f talker
      let t ← navdateRide f talker
      return some (c, t) : Except PyErr (Option (List Coord × Ret (List (Option ℤ))))) = .ok (some (c, .sentinel))) ↔
      ∀ l ∈ f, ¬ talker <:+: l := by
  have hnil : talkerLines talker f = [] ↔ ∀ l ∈ f, ¬ talker <:+: l := by
    unfold talkerLines
    rw [List.filter_eq_nil_iff]
    simp [hasSub]
  constructor
  · rintro ⟨c, h⟩
    rw [← hnil]
    by_contra hne
    have hne' : ¬ (talkerLines talker f).length = 0 := by rwa [List.length_eq_zero_iff]
    cases hc : navcoords f talker with
    | error e => rw [hc] at h; cases h
    | ok c' =>
      rw [hc] at h
      simp only [bind, Except.bind] at h
      unfold navdateRide at h
      simp only [hne', if_false] at h
      cases hm : (talkerLines talker f).mapM (rideStamp talker) with
      | error e => rw [hm] at h; cases h
      | ok ts =>
        rw [hm] at h
        simp only [Except.map, pure, Except.pure, Except.ok.injEq, Option.some.injEq, Prod.mk.injEq, reduceCtorEq,
          and_false] at h
  · intro h
    refine ⟨[], ?_⟩
    rw [navcoords_nil talker f (hnil.2 h)]
    unfold navdateRide
    simp only [hnil.2 h, List.length_nil, if_true]
    rfl

private theorem lift_not_sentinel (talker : Str) (f : List Str) (g : List Str → Str → Except PyErr (List (Option ℤ))) :
    ¬ ((do
      let c ← navcoords f talker
      let t ← (g f talker).map Ret.val
      return some (c, t) : Except PyErr (Option (List Coord × Ret (List (Option ℤ))))) = .ok none ∨
     ∃ c, (do
      let c ← navcoords f talker
      let t ← (g f talker).map Ret.val
      return some (c, t) : Except PyErr (Option (List Coord × Ret (List (Option ℤ))))) = .ok (some (c, .sentinel))) := by
  cases navcoords f talker with
  | error e => rintro (h | ⟨c, h⟩) <;> cases h
  | ok c =>
    cases g f talker with
    | error e => rintro (h | ⟨c, h⟩) <;> cases h
    | ok t => rintro (h | ⟨c, h⟩) <;> cases h

private theorem ride_not_none (talker : Str) (f : List Str) :
    (do
      let c ← navcoords f talker
      let t ← navdateRide f talker
      return some (c, t) : Except PyErr (Option (List Coord × Ret (List (Option ℤ))))) ≠ .ok none := by
  cases navcoords f talker with
  | error e => intro h; cases h
  | ok c =>
    cases navdateRide f talker with
    | error e => intro h; cases h
    | ok t => intro h; cases h

private theorem builtinRead_eq (ship talker : Str) (f : List Str) : builtinRead ship talker f =
    if ship = "Atlantis".toList then (do
      let c ← navcoords f talker
      let t ← (navdateAtlantis f talker).map Ret.val
      return some (c, t))
    else if ship = "NBP".toList then (do
      let c ← navcoords f talker
      let t ← (navdateNBP f talker).map Ret.val
      return some (c, t))
    else if ship = "Thompson".toList then (do
      let c ← navcoords f talker
      let t ← (navdateThompson f talker).map Ret.val
      return some (c, t))
    else if ship = "Revelle".toList then (do
      let c ← navcoords f talker
      let t ← (navdateRevelle f talker).map Ret.val
      return some (c, t))
    else if ship = "Ride".toList then (do
      let c ← navcoords f talker
      let t ← navdateRide f talker
      return some (c, t))
    else if ship = "Langseth".toList then (do
      let c ← navcoords f talker
      let t ← (navdateLangseth f talker).map Ret.val
      return some (c, t))
    else if ship = "Sikuliaq".toList ∧ talker = "GPGGA".toList then (do
      let c ← navcoords f talker
      let t ← navdateRide f talker
      return some (c, t))
    else .ok none := rfl

private theorem gives_up_iff (ship : Str) (fn : Option Reader) (talker : Str) (f : List Str) (hk : fn.isSome ∨ ship ∈ knownShips) :
    (reader ship fn talker f = .ok none ∨ ∃ c, reader ship fn talker f = .ok (some (c, .sentinel))) ↔ GivesUp ship fn talker f := by
  cases fn with
  | some r =>
    unfold reader GivesUp
    simp only
    cases r f talker <;> simp [Except.map]
  | none =>
    have hk' : ship ∈ knownShips := by simpa using hk
    show (builtinRead ship talker f = .ok none ∨ ∃ c, builtinRead ship talker f = .ok (some (c, .sentinel))) ↔
      ((ship = "Sikuliaq".toList ∧ talker ≠ "GPGGA".toList) ∨
      ((ship = "Ride".toList ∨ ship = "Sikuliaq".toList) ∧ ∀ l ∈ f, ¬ talker <:+: l))
    rw [builtinRead_eq]
    simp only [knownShips, List.map_cons, List.map_nil, List.mem_cons, List.not_mem_nil, or_false] at hk'
    have hno : ∀ ship : Str, ship ≠ "Ride".toList → ship ≠ "Sikuliaq".toList →
        ¬ ((ship = "Sikuliaq".toList ∧ talker ≠ "GPGGA".toList) ∨
          ((ship = "Ride".toList ∨ ship = "Sikuliaq".toList) ∧ ∀ l ∈ f, ¬ talker <:+: l)) := by
      rintro ship h1 h2 (⟨h, _⟩ | ⟨h | h, _⟩)
      · exact h2 h
      · exact h1 h
      · exact h2 h
    rcases hk' with rfl | rfl | rfl | rfl | rfl | rfl | rfl
    · rw [if_pos rfl]
      exact iff_of_false (lift_not_sentinel talker f _) (hno _ (by decide) (by decide))
    · rw [if_neg (by decide), if_neg (by decide), if_pos rfl]
      exact iff_of_false (lift_not_sentinel talker f _) (hno _ (by decide) (by decide))
    · rw [if_neg (by decide), if_pos rfl]
      exact iff_of_false (lift_not_sentinel talker f _) (hno _ (by decide) (by decide))
    · rw [if_neg (by decide), if_neg (by decide), if_neg (by decide), if_neg (by decide), if_pos rfl]
      constructor
      · rintro (h | h)
        · exact absurd h (ride_not_none talker f)
        · right; exact ⟨Or.inl rfl, (ride_sentinel talker f).1 h⟩
      · rintro (⟨h, _⟩ | ⟨_, h⟩)
        · exact absurd h (by decide)
        · right; exact (ride_sentinel talker f).2 h
    · rw [if_neg (by decide), if_neg (by decide), if_neg (by decide), if_pos rfl]
      exact iff_of_false (lift_not_sentinel talker f _) (hno _ (by decide) (by decide))
    · rw [if_neg (by decide), if_neg (by decide), if_neg (by decide), if_neg (by decide), if_neg (by decide), if_pos rfl]
      exact iff_of_false (lift_not_sentinel talker f _) (hno _ (by decide) (by decide))
    · rw [if_neg (by decide), if_neg (by decide), if_neg (by decide), if_neg (by decide), if_neg (by decide),
        if_neg (by decide)]
      by_cases ht : talker = "GPGGA".toList
      · rw [if_pos ⟨rfl, ht⟩]
        constructor
        · rintro (h | h)
          · exact absurd h (ride_not_none talker f)
          · right; exact ⟨Or.inr rfl, (ride_sentinel talker f).1 h⟩
        · rintro (⟨_, h⟩ | ⟨_, h⟩)
          · exact absurd ht h
          · right; exact (ride_sentinel talker f).2 h
      · rw [if_neg (fun h => ht h.2)]
        exact iff_of_true (Or.inl rfl) (Or.inl ⟨rfl, ht⟩)

/-- **C32.** `read_nav` returns `-999` exactly when: the ship is unknown and no reader was supplied; or the ship is unknown
and no talker was given; or some file makes it give up, every earlier file being readable on its own. -/
theorem C32_sentinel_iff (ship : Str) (files : List (List Str)) (s : ℚ) (talker : Option Str) (fn : Option Reader) (d : ℤ) :
    readNav ship files s talker fn d = .ok .sentinel ↔
      (ship ∉ knownShips ∧ (fn = none ∨ talker = none)) ∨
      ((ship ∈ knownShips ∨ (fn.isSome ∧ talker.isSome)) ∧
        ∃ tk pre f post, talker.or (defaultTalker ship) = some tk ∧ files = pre ++ f :: post ∧
          (∀ g ∈ pre, ∃ o, readNav ship [g] s talker fn d = .ok (.val o)) ∧ GivesUp ship fn tk f) := by
  by_cases hknown : ship ∉ knownShips ∧ (fn = none ∨ talker = none)
  · refine iff_of_true ?_ (Or.inl hknown)
    obtain ⟨h1, h2⟩ := hknown
    have hl := (lookup_none_iff ship).2 h1
    unfold readNav
    rw [talkers_eq]
    by_cases hfn : fn = none
    · rw [if_pos ⟨hl, by simp [hfn]⟩]
    · have : talker = none := by rcases h2 with h | h; exact absurd h hfn; exact h
      rw [if_neg (by rintro ⟨_, h⟩; exact hfn (by simpa using h)), hl, this]
      rfl
  · have hk : ship ∈ knownShips ∨ (fn.isSome ∧ talker.isSome) := by
      by_cases h : ship ∈ knownShips
      · left; exact h
      · right
        constructor
        · rw [Option.isSome_iff_ne_none]; intro h2; exact hknown ⟨h, Or.inl h2⟩
        · rw [Option.isSome_iff_ne_none]; intro h2; exact hknown ⟨h, Or.inr h2⟩
    have hk1 : fn.isSome ∨ ship ∈ knownShips := by tauto
    have hk2 : fn.isSome ∨ defaultTalker ship ≠ none := by
      rcases hk1 with h | h
      · left; exact h
      · right; rw [ne_eq, lookup_none_iff]; exact not_not.2 h
    obtain ⟨tk, htk⟩ : ∃ tk, talker.or (defaultTalker ship) = some tk := by
      rcases hk with h | ⟨_, h⟩
      · have : defaultTalker ship ≠ none := by rw [ne_eq, lookup_none_iff]; exact not_not.2 h
        cases talker with
        | some t => exact ⟨t, rfl⟩
        | none => obtain ⟨t, ht⟩ := Option.ne_none_iff_exists'.1 this; exact ⟨t, by rw [ht]; rfl⟩
      · obtain ⟨t, ht⟩ := Option.isSome_iff_exists.1 h
        exact ⟨t, by rw [ht]; rfl⟩
    have hval : ∀ fs, (∃ o, readNav ship fs s talker fn d = .ok (.val o)) ↔
        ∃ o, readLoop (reader ship fn tk) s d fs [] = .ok (.val o) := by
      intro fs
      rw [readNav_eq ship fs s talker fn d tk hk2 htk]
      constructor
      · rintro ⟨o, ho⟩
        cases hr : readLoop (reader ship fn tk) s d fs [] with
        | error e => rw [hr] at ho; cases ho
        | ok r =>
          cases r with
          | sentinel => rw [hr] at ho; cases ho
          | val rows => exact ⟨rows, rfl⟩
      · rintro ⟨rows, hr⟩
        obtain ⟨out, ho⟩ := finish_total rows
        refine ⟨out, ?_⟩
        rw [hr]
        simp only [bind, Except.bind, ho]
        rfl
    have hsent : readNav ship files s talker fn d = .ok .sentinel ↔
        readLoop (reader ship fn tk) s d files [] = .ok .sentinel := by
      rw [readNav_eq ship files s talker fn d tk hk2 htk]
      constructor
      · intro h
        cases hr : readLoop (reader ship fn tk) s d files [] with
        | error e => rw [hr] at h; cases h
        | ok r =>
          cases r with
          | sentinel => rfl
          | val rows =>
            obtain ⟨out, ho⟩ := finish_total rows
            rw [hr] at h
            simp only [bind, Except.bind, ho] at h
            cases h
      · intro h; rw [h]; rfl
    rw [hsent, loop_sentinel]
    constructor
    · rintro ⟨pre, f, post, h1, h2, h3⟩
      exact Or.inr ⟨hk, tk, pre, f, post, htk, h1, fun g hg => (hval [g]).2 (h2 g hg), (gives_up_iff ship fn tk f hk1).1 h3⟩
    · rintro (h | ⟨_, tk', pre, f, post, h0, h1, h2, h3⟩)
      · exact absurd h hknown
      · rw [htk] at h0
        injection h0 with h0
        subst h0
        exact ⟨pre, f, post, h1, fun g hg => (hval [g]).1 (h2 g hg), (gives_up_iff ship fn tk f hk1).2 h3⟩

/-- **C32.** With a reader and a talker supplied, the ship's name plays no part. -/
theorem C32_overrides (ship ship' : Str) (files : List (List Str)) (s : ℚ) (tk : Str) (r : Reader) (d : ℤ) :
    readNav ship files s (some tk) (some r) d = readNav ship' files s (some tk) (some r) d := by
  rw [readNav_eq ship files s (some tk) (some r) d tk (Or.inl rfl) rfl,
    readNav_eq ship' files s (some tk) (some r) d tk (Or.inl rfl) rfl]
  rfl

/-- **C32.** A talker equal to the ship's entry in the database changes nothing. -/
theorem C32_default_talker (ship : Str) (files : List (List Str)) (s : ℚ) (tk : Str) (fn : Option Reader) (d : ℤ)
    (h : defaultTalker ship = some tk) :
    readNav ship files s none fn d = readNav ship files s (some tk) fn d := by
  have hk : fn.isSome ∨ defaultTalker ship ≠ none := Or.inr (by rw [h]; simp)
  rw [readNav_eq ship files s none fn d tk hk (by rw [h]; rfl), readNav_eq ship files s (some tk) fn d tk hk rfl]

/-! ### C33, from files to rows -/

/-- **C33.** From files to rows: take any ship, any reader and any files; if the fixes read from them, in order of time and the first of each time,
are a track of continuous longitudes `L` in (0, 360) with steps of at most one degree, as recorded in (-180, 180], then the longitudes of the rows
are `L`, or `L` less one turn for the whole track. -/
theorem C33_read_nav (ship tk : Str) (files : List (List Str)) (s : ℚ) (talker : Option Str) (fn : Option Reader) (d : ℕ) (hd : d = 0 ∨ d = 1)
    (fxs : List (List Fix)) (hk : fn.isSome ∨ defaultTalker ship ≠ none) (ht : talker.or (defaultTalker ship) = some tk) (hs : s ≠ 0)
    (hf : List.Forall₂ (ReadsFixes ship fn tk) files fxs) :
    ∃ (out : List Fix) (rows : List Row), IsTrack Prod.fst fxs.flatten out ∧ readNav ship files s talker fn d = .ok (.val rows) ∧
      rows.map (fun r => (r.time, r.lat)) = out.map (fun x => (timestamp x.1, x.2.2)) ∧
      ∀ L : List ℚ, (∀ v ∈ L, 0 < v ∧ v < 360) → (∀ i a b, L[i]? = some a → L[i + 1]? = some b → |b - a| ≤ 1) →
        out.map (fun x => x.2.1) = L.map (fun v => some (wrapLon v)) →
        rows.map Row.lon = L.map some ∨ rows.map Row.lon = L.map (fun v => some (v - 360)) := by
  obtain ⟨out, lons, h1, h2, h3, h4, h5⟩ := C29_nothing_lost ship tk files s talker fn d hd fxs hk ht hs hf
  refine ⟨out, _, h1, h2, ?_, ?_⟩
  · clear h1 h2 h4 h5
    induction out generalizing lons with
    | nil => simp
    | cons a out ih =>
      cases lons with
      | nil => simp at h3
      | cons b lons => simp [ih lons (by simpa using h3)]
  · intro L hr hst hL
    have hlon : (List.zipWith (fun x l => Row.mk (timestamp x.1) l x.2.2) out lons).map Row.lon = lons := by
      clear h1 h2 h4 h5 hL
      induction out generalizing lons with
      | nil => simp [List.length_eq_zero_iff.mp h3]
      | cons a out ih =>
        cases lons with
        | nil => simp at h3
        | cons b lons => simp [ih lons (by simpa using h3)]
    rw [hlon]
    have hc := C33_column_is_continuous L hr hst
    simp only at hc
    rw [← hL] at hc
    by_cases hj : ∀ i, ¬ JumpAt (out.map (fun x => x.2.1)) i
    · rw [if_pos ((jumpIdx_nil_iff _).mpr hj), ← h4 hj] at hc
      simpa using hc
    · rw [if_neg (fun h => hj ((jumpIdx_nil_iff _).mp h)), h5 (by push Not at hj; exact hj)] at hc
      simpa using hc

/-! ### C27, last part -/

/-- **C27.** A Revelle file in which some fix has no date line before it makes `read_nav` raise. -/
theorem C27_missing_date_raises (f : List Str) (fs : List (List Str)) (s : ℚ) (talker : Str) (d : ℤ) (c : List Coord)
    (ts : List (Option ℤ)) (hc : navcoords f talker = .ok c) (ht : navdateRevelle f talker = .ok ts) (hn : none ∈ ts) :
    readNav "Revelle".toList (f :: fs) s (some talker) none d = .error .attributeError := by
  rw [readNav_eq "Revelle".toList (f :: fs) s (some talker) none d talker (Or.inr (by decide)) rfl, readLoop]
  have hr : reader "Revelle".toList none talker f = .ok (some (c, .val ts)) := by
    show builtinRead "Revelle".toList talker f = _
    rw [builtinRead_eq, if_neg (by decide), if_neg (by decide), if_neg (by decide), if_pos rfl]
    simp only [hc, ht]
    rfl
  rw [hr]
  have : fileRows s d c ts = .error .attributeError := by
    unfold fileRows
    rw [secTimes_none ts hn]
    rfl
  simp only [bind, Except.bind, this]

/-- **C27.** Wherever the file stands among the files, whatever the others hold: with a fix after whose predecessor no line starts with a date,
`read_nav` returns nothing. -/
theorem C27_dateless_fix_never_read (files : List (List Str)) (s : ℚ) (talker : Option Str) (tk : Str) (d : ℤ)
    (htk : talker.or (some "GPGGA".toList) = some tk) (blocks : List (List Str × Str)) (trailing : List Str)
    (hgap : ∀ b ∈ blocks, ∀ l ∈ b.1, ¬ tk <:+: l) (hline : ∀ b ∈ blocks, tk <:+: b.2) (htrail : ∀ l ∈ trailing, ¬ tk <:+: l)
    (hf : revelleFile blocks trailing ∈ files) (b : List Str × Str) (hb : b ∈ blocks)
    (hno : ∀ l ∈ b.1, ¬ ∃ y m d, StartsWithDate l y m d) (out : Ret (List Row)) :
    readNav "Revelle".toList files s talker none d ≠ .ok out := by
  have hnone : ∀ ts, navdateRevelle (revelleFile blocks trailing) tk = .ok ts → none ∈ ts := by
    intro ts hts
    have h2 := (C27_nearest_preceding_date tk blocks trailing hgap hline htrail ts).mp hts
    obtain ⟨t, ht, c, _, hst⟩ : ∃ t ∈ ts, ∃ c, clockTime [b.2] tk = .ok [c] ∧ RevelleStamp b.1 c.hour c.mint c.sec c.msec t := by
      clear hts hf hgap hline htrail
      induction h2 with
      | nil => simp at hb
      | cons h _ ih =>
        rcases List.mem_cons.mp hb with rfl | hb
        · exact ⟨_, List.mem_cons_self, h⟩
        · obtain ⟨t, ht, h⟩ := ih hb
          exact ⟨t, List.mem_cons_of_mem _ ht, h⟩
    rcases hst with ⟨g1, line, g2, y, m, d, he, hsd, _⟩ | ⟨_, rfl⟩
    · exact absurd ⟨y, m, d, hsd⟩ (hno line (by rw [he]; simp))
    · exact ht
  have hloop : ∀ (fs : List (List Str)) (rows : List Row), revelleFile blocks trailing ∈ fs →
      ∀ o, readLoop (reader "Revelle".toList none tk) s d fs rows ≠ .ok o := by
    intro fs
    induction fs with
    | nil => intro rows h; simp at h
    | cons f fs ih =>
      intro rows h o
      have hr : reader "Revelle".toList none tk f = (do
          let c ← navcoords f tk
          let t ← (navdateRevelle f tk).map Ret.val
          return some (c, t)) := by
        show builtinRead "Revelle".toList tk f = _
        rw [builtinRead_eq, if_neg (by decide), if_neg (by decide), if_neg (by decide), if_pos rfl]
      rw [readLoop, hr]
      cases hc : navcoords f tk with
      | error e => simp [bind, Except.bind]
      | ok c =>
        cases ht : navdateRevelle f tk with
        | error e => simp [bind, Except.bind, Except.map]
        | ok ts =>
          simp only [bind, Except.bind, Except.map, pure, Except.pure]
          rcases List.mem_cons.mp h with rfl | h
          · have : fileRows s d c ts = .error .attributeError := by
              unfold fileRows
              rw [secTimes_none ts (hnone ts ht)]
              rfl
            simp [this]
          · cases fileRows s d c ts with
            | error e => simp
            | ok new => exact ih (rows ++ new) h o
  rw [readNav_eq "Revelle".toList files s talker none d tk (Or.inr (by decide)) htk]
  intro h
  cases h2 : readLoop (reader "Revelle".toList none tk) s d files [] with
  | error e => rw [h2] at h; simp [bind, Except.bind] at h
  | ok o => exact hloop files [] hf o h2

/-! ### C25 -/

/-- **C25 (refuted).** Two Atlantis fixes a quarter of a second apart, at .25 and .5, come back in the opposite order. -/
theorem C25_order_lost_refuted :
    readNav "Atlantis".toList
      [["NAV 2022/07/01 12:17:33.537 GPS $GPGGA,121733.25,1000.0,N,02000.0,E".toList,
        "NAV 2022/07/01 12:17:33.787 GPS $GPGGA,121733.5,1100.0,N,02000.0,E".toList]] 1 none none 0
      = .ok (.val [⟨1656677853 + 5 / 100, some 20, some 11⟩, ⟨1656677853 + 25 / 100, some 20, some 10⟩]) := by
  decide +kernel

/-- **C25 (refuted).** A fix taken just after midnight but logged just before it comes back a day early, ahead of the fix
that precedes it. -/
theorem C25_midnight_refuted :
    readNav "Thompson".toList
      [["03/13/2022,23:59:58.900,$INGGA,235959.00,1000.0,N,02000.0,E".toList,
        "03/13/2022,23:59:59.900,$INGGA,000000.00,1100.0,N,02000.0,E".toList]] 1 none none 0
      = .ok (.val [⟨1647129600, some 20, some 11⟩, ⟨1647215999, some 20, some 10⟩]) := by
  decide +kernel

/-- **C25 (partial).** If the timestamps assigned to the lines increase through the files, the rows keep the order of the
lines, none is lost, and their times are those timestamps.  (Missing from the full claim: the timestamps increase with the
times in the sentences only under the conditions of C24 and C26.) -/
theorem C25_increasing_kept_partial (ship tk : Str) (files : List (List Str)) (s : ℚ) (talker : Option Str)
    (fn : Option Reader) (fxs : List (List Fix)) (hk : fn.isSome ∨ defaultTalker ship ≠ none)
    (ht : talker.or (defaultTalker ship) = some tk) (hs : s ≠ 0)
    (hf : List.Forall₂ (ReadsFixes ship fn tk) files fxs) (hinc : fxs.flatten.Pairwise (fun a b => a.1 < b.1)) :
    ∃ rows, readNav ship files s talker fn 0 = .ok (.val rows) ∧
      rows.map (fun r => (r.time, r.lat)) = fxs.flatten.map (fun x => (timestamp x.1, x.2.2)) := by
  obtain ⟨out, lons, h1, h2, h3, -⟩ := C29_nothing_lost ship tk files s talker fn 0 (Or.inl rfl) fxs hk ht hs hf
  refine ⟨_, h2, ?_⟩
  have hout : out = fxs.flatten := by
    have hmem : ∀ r, r ∈ out ↔ r ∈ fxs.flatten := by
      intro r
      rw [h1.2]
      constructor
      · rintro ⟨pre, post, he, _⟩; rw [he]; simp
      · intro hr
        obtain ⟨pre, post, he⟩ := List.append_of_mem hr
        refine ⟨pre, post, he, ?_⟩
        intro x hx
        rw [he] at hinc
        exact ne_of_lt ((List.pairwise_append.1 hinc).2.2 x hx r (by simp))
    have n1 : out.Nodup := h1.1.imp (fun {a b} h e => by subst e; exact lt_irrefl _ h)
    have n2 : fxs.flatten.Nodup := hinc.imp (fun {a b} h e => by subst e; exact lt_irrefl _ h)
    have hp : out.Perm fxs.flatten := (List.perm_ext_iff_of_nodup n1 n2).2 hmem
    exact hp.eq_of_pairwise (le := fun a b => a.1 < b.1) (fun a b _ _ h h' => absurd h (lt_asymm h')) h1.1 hinc
  rw [← hout]
  clear h1 h2 hout
  induction out generalizing lons with
  | nil => rfl
  | cons a t ih =>
    cases lons with
    | nil => simp at h3
    | cons b lons => rw [List.zipWith_cons_cons, List.map_cons, List.map_cons, ih lons (by simpa using h3)]

/-! ### Hypotheses met -/

example : ReadsFixes "Atlantis".toList none "GPGGA".toList
    ["NAV 2022/07/01 12:17:33.537 GPS $GPGGA,121733.25,1000.0,N,02000.0,E".toList]
    [(1656677853250000, some 20, some 10)] := 
    ⟨by simp, by
      show (builtinRead _ _ _ : Except PyErr (Option (List Coord × Ret (List (Option ℤ))))) =
        .ok (some ([(some 20, some 10)], .val [some 1656677853250000]))
      set_option synthInstance.maxSize 1000 in decide +kernel⟩
-- two overlapping files: the row of the first file wins
example : readNav "Atlantis".toList
    [["NAV 2022/07/01 12:17:33.537 GPS $GPGGA,121733.00,1000.0,N,02000.0,E".toList],
     ["NAV 2022/07/01 12:17:32.537 GPS $GPGGA,121732.00,1200.0,N,02000.0,E".toList,
      "NAV 2022/07/01 12:17:33.537 GPS $GPGGA,121733.00,1100.0,N,02000.0,E".toList]] 1 none none 0
      = .ok (.val [⟨1656677852, some 20, some 12⟩, ⟨1656677853, some 20, some 10⟩]) := by decide +kernel
-- decimation
example : readNav "X".toList [[]] 1 (some []) (some (fun _ _ => .ok ([1, 2, 3, 4, 5].map fun k => (some k, some k),
    .val ([1, 2, 3, 4, 5].map fun k => some (k * 1000000))))) 2
      = .ok (.val [⟨1, some 1, some 1⟩, ⟨3, some 3, some 3⟩, ⟨5, some 5, some 5⟩]) := by decide +kernel
-- across the date line
example : readNav "Atlantis".toList
    [["NAV 2022/07/01 12:17:33.537 GPS $GPGGA,121733.00,1000.0,N,17945.0,E".toList,
      "NAV 2022/07/01 12:17:34.537 GPS $GPGGA,121734.00,1000.0,N,17945.0,W".toList,
      "NAV 2022/07/01 12:17:35.537 GPS $GPGGA,121735.00,1000.0,N,17930.0,W".toList]] 1 none none 0
      = .ok (.val [⟨1656677853, some (719 / 4 - 360), some 10⟩, ⟨1656677854, some (-719 / 4), some 10⟩,
          ⟨1656677855, some (-359 / 2), some 10⟩]) := by decide +kernel
-- -999
example : readNav "Ride".toList [["x".toList]] 1 none none 0 = .ok .sentinel := by decide +kernel
example : readNav "Sikuliaq".toList [["x".toList]] 1 (some "INGGA".toList) none 0 = .ok .sentinel := by decide +kernel
example : readNav "Beagle".toList [["x".toList]] 1 (some "INGGA".toList) none 0 = .ok .sentinel := by decide +kernel
-- no line with the talker on the other ships
example : readNav "Atlantis".toList [["x".toList]] 1 none none 0 = .error .valueError := by decide +kernel

-- a Revelle file whose second fix has no date of its own, behind a file that can be read
example (s : ℚ) (d : ℤ) (out : Ret (List Row)) : readNav "Revelle".toList
    [["2022-07-01T12:17:33.5Z".toList, "$GPGGA,121733.00,1000.0,N,02000.0,E".toList],
     revelleFile [(["2022-07-01T12:17:34.5Z".toList], "$GPGGA,121734.00,1000.0,N,02000.0,E".toList),
       (["$HEHDT,1".toList], "$GPGGA,121735.00,1000.0,N,02000.0,E".toList)] []] s none none d ≠ .ok out := by
  refine C27_dateless_fix_never_read _ s none "GPGGA".toList d rfl _ [] ?_ ?_ ?_ (List.mem_cons_of_mem _ List.mem_cons_self)
    (["$HEHDT,1".toList], "$GPGGA,121735.00,1000.0,N,02000.0,E".toList) (List.mem_cons_of_mem _ List.mem_cons_self) ?_ out
  · decide
  · decide
  · decide
  · intro l hl
    rintro ⟨y, m, d, hy, hm, hd, tail, he⟩
    obtain rfl : l = "$HEHDT,1".toList := by simpa using hl
    have h1 : (isoDate y m d)[4]? = some '-' := by
      simp [isoDate, zpad]
    have h2 : ("$HEHDT,1".toList)[4]? = some '-' := by
      rw [he, List.getElem?_append_left (by by_contra hc; rw [List.getElem?_eq_none (by omega)] at h1; simp at h1), h1]
    exact absurd h2 (by decide)

end Shipgrav
