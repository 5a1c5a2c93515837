import Verif.Lemmas.FloatTime
import Verif.Lemmas.ReadNav
import Verif.Model.NavFloat

/-! `read_nav` with times in double precision does the same as with exact times. -/

namespace Shipgrav
open Spec

/-- Times that are the seconds of an instant between 1697 and 2242. -/
def TimeOk (q : ℚ) : Prop := ∃ t : ℤ, |t| ≤ 2 ^ 33 * 1000000 ∧ q = timestamp t

theorem toDouble_lt {a b : ℚ} (ha : TimeOk a) (hb : TimeOk b) (h : a < b) : toDouble a < toDouble b := by
  obtain ⟨s, hs, rfl⟩ := ha
  obtain ⟨t, ht, rfl⟩ := hb
  exact timestampF_lt hs ht ((timestamp_lt s t).1 h)

theorem toDouble_lt_iff {a b : ℚ} (ha : TimeOk a) (hb : TimeOk b) : toDouble a < toDouble b ↔ a < b := by
  refine ⟨fun h => ?_, toDouble_lt ha hb⟩
  by_contra hc
  exact absurd (toDouble_rounds.mono (not_lt.1 hc)) (not_le.2 h)

theorem toDouble_inj_iff {a b : ℚ} (ha : TimeOk a) (hb : TimeOk b) : toDouble a = toDouble b ↔ a = b := by
  refine ⟨fun h => ?_, fun h => by rw [h]⟩
  rcases lt_trichotomy a b with h1 | h1 | h1
  · exact absurd h (toDouble_lt ha hb h1).ne
  · exact h1
  · exact absurd h (toDouble_lt hb ha h1).ne'

theorem secTimesF_eq (ts : List (Option ℤ)) : secTimesF ts = (secTimes ts).map (List.map toDouble) := by
  induction ts with
  | nil => rfl
  | cons a ts ih =>
    unfold secTimesF secTimes at *
    rw [List.mapM_cons, List.mapM_cons, ih]
    cases a with
    | none => rfl
    | some t =>
      generalize (ts.mapM fun x : Option ℤ => _ : Except PyErr (List ℚ)) = o
      cases o <;> rfl

theorem uniqueInsert_map (v : ℚ) (i : ℕ) (acc : List (ℚ × ℕ)) (hv : TimeOk v) (ha : ∀ p ∈ acc, TimeOk p.1) :
    uniqueInsert (toDouble v) i (acc.map fun p => (toDouble p.1, p.2)) = (uniqueInsert v i acc).map fun p => (toDouble p.1, p.2) := by
  induction acc with
  | nil => rfl
  | cons p t ih =>
    obtain ⟨w, j⟩ := p
    have hw : TimeOk w := ha (w, j) (by simp)
    have ih' := ih (fun p hp => ha p (by simp [hp]))
    rw [List.map_cons, uniqueInsert, uniqueInsert]
    simp only [toDouble_lt_iff hv hw, toDouble_inj_iff hv hw]
    split
    · rfl
    · split
      · rfl
      · rw [ih', List.map_cons]

theorem uniqueInsert_ok (v : ℚ) (i : ℕ) (acc : List (ℚ × ℕ)) (hv : TimeOk v) (ha : ∀ p ∈ acc, TimeOk p.1) :
    ∀ p ∈ uniqueInsert v i acc, TimeOk p.1 := by
  induction acc with
  | nil => intro p hp; simp only [uniqueInsert, List.mem_singleton] at hp; rw [hp]; exact hv
  | cons q t ih =>
    obtain ⟨w, j⟩ := q
    have ih' := ih (fun p hp => ha p (by simp [hp]))
    intro p hp
    rw [uniqueInsert] at hp
    split at hp
    · rcases List.mem_cons.1 hp with rfl | hp
      · exact hv
      · exact ha p hp
    · split at hp
      · exact ha p hp
      · rcases List.mem_cons.1 hp with rfl | hp
        · exact ha _ (by simp)
        · exact ih' p hp

theorem uniqueIdx_map (x : List ℚ) (hx : ∀ v ∈ x, TimeOk v) : uniqueIdx (x.map toDouble) = uniqueIdx x := by
  have key : ∀ (x : List ℚ) (i : ℕ) (acc : List (ℚ × ℕ)), (∀ v ∈ x, TimeOk v) → (∀ p ∈ acc, TimeOk p.1) →
      uniqueGo i (x.map toDouble) (acc.map fun p => (toDouble p.1, p.2)) = (uniqueGo i x acc).map fun p => (toDouble p.1, p.2) := by
    intro x
    induction x with
    | nil => intro i acc _ _; rfl
    | cons v x ih =>
      intro i acc hx ha
      rw [List.map_cons, uniqueGo, uniqueGo, uniqueInsert_map v i acc (hx v (by simp)) ha]
      exact ih _ _ (fun w hw => hx w (by simp [hw])) (uniqueInsert_ok v i acc (hx v (by simp)) ha)
  have h := key x 0 [] hx (by simp)
  rw [List.map_nil] at h
  unfold uniqueIdx
  rw [h, List.map_map]
  rfl

theorem strideGo_map {α β : Type} (g : α → β) (d : ℕ) : ∀ (x : List α) (s : ℕ), strideGo d s (x.map g) = (strideGo d s x).map g := by
  intro x
  induction x with
  | nil => intro s; cases s <;> rfl
  | cons a x ih =>
    intro s
    cases s with
    | zero => rw [List.map_cons, strideGo, strideGo, ih, List.map_cons]
    | succ s => rw [List.map_cons, strideGo, strideGo, ih]

theorem stride_map' {α β : Type} (g : α → β) (d : ℤ) (x : List α) : stride d (x.map g) = (stride d x).map g := by
  unfold stride
  split
  · exact strideGo_map g _ _ _
  · rw [← List.map_reverse]; exact strideGo_map g _ _ _

theorem strideGo_mem {α : Type} (d : ℕ) : ∀ (x : List α) (s : ℕ) (a : α), a ∈ strideGo d s x → a ∈ x := by
  intro x
  induction x with
  | nil => intro s a h; cases s <;> exact h
  | cons b x ih =>
    intro s a h
    cases s with
    | zero =>
      rw [strideGo] at h
      rcases List.mem_cons.1 h with rfl | h
      · simp
      · exact List.mem_cons_of_mem _ (ih _ a h)
    | succ s => rw [strideGo] at h; exact List.mem_cons_of_mem _ (ih _ a h)

theorem stride_mem {α : Type} (d : ℤ) (x : List α) (a : α) (h : a ∈ stride d x) : a ∈ x := by
  unfold stride at h
  split at h
  · exact strideGo_mem _ _ _ _ h
  · exact List.mem_reverse.1 (strideGo_mem _ _ _ _ h)

/-- The row with its time in double precision. -/
def Row.toF (r : Row) : Row := { r with time := toDouble r.time }

theorem secTimes_ok {ts : List (Option ℤ)} {sec : List ℚ} (h : secTimes ts = .ok sec) (hts : ∀ t, some t ∈ ts → |t| ≤ 2 ^ 33 * 1000000) :
    ∀ v ∈ sec, TimeOk v := by
  unfold secTimes at h
  rw [mapM_ok_iff] at h
  intro v hv
  obtain ⟨i, hi, rfl⟩ := List.mem_iff_getElem.1 hv
  have hl := h.length_eq
  have := (List.forall₂_iff_get.1 h).2 i (by omega) hi
  have hmem : ts[i]'(by omega) ∈ ts := List.getElem_mem _
  simp only [List.get_eq_getElem] at this
  rcases ht : ts[i]'(by omega) with _ | t
  · rw [ht] at this; cases this
  · rw [ht] at this hmem
    injection this with this
    exact ⟨t, hts t hmem, this.symm⟩

theorem fileRowsF_eq (s : ℚ) (d : ℤ) (coords : List Coord) (ts : List (Option ℤ)) (hts : ∀ t, some t ∈ ts → |t| ≤ 2 ^ 33 * 1000000) :
    fileRowsF s d coords ts = (fileRows s d coords ts).map (List.map Row.toF) := by
  unfold fileRowsF fileRows
  rw [secTimesF_eq]
  rcases hsec : secTimes ts with e | sec
  · rfl
  have hok := secTimes_ok hsec hts
  simp only [Except.map, bind, Except.bind]
  rw [uniqueIdx_map sec hok]
  by_cases hne : sec = []
  · subst hne; rfl
  have hne' : sec.map toDouble ≠ [] := by simpa using hne
  rw [if_neg hne', if_neg hne]
  by_cases hs : s = 0
  · subst hs; rfl
  simp only [if_neg hs, pure, Except.pure]
  rw [takeIdx_map]
  obtain ⟨U, hU, hU1, hU2⟩ := takeIdx_unique id sec
  rw [List.map_id] at hU
  rw [hU]
  simp only [Except.map]
  rcases takeIdx (coords.map Prod.fst) (uniqueIdx sec) with e | lonp
  · rfl
  rcases takeIdx (coords.map Prod.snd) (uniqueIdx sec) with e | latp
  · rfl
  simp only
  have hUok : ∀ v ∈ U, TimeOk v := by
    intro v hv
    obtain ⟨pre, post, e, -⟩ := (hU2 v).1 hv
    exact hok v (by rw [e]; simp)
  have hin : ∀ x ∈ sec, ∃ j : ℕ, U[j]? = some x := by
    intro x hx
    obtain ⟨r, hr1, hr2⟩ := isTrack_exists_of_mem (id : ℚ → ℚ) sec x hx
    simp only [id] at hr2
    have := (hU2 r).2 hr1
    rw [hr2] at this
    exact List.mem_iff_getElem?.1 this
  have hint : ∀ (fp : List (Option ℚ)), ∀ x ∈ sec, interp1 (U.map toDouble) fp (toDouble x) = interp1 U fp x := by
    intro fp x hx
    obtain ⟨j, hj⟩ := hin x hx
    have hs1 : U.Pairwise (· < ·) := hU1
    have hs2 : (U.map toDouble).Pairwise (· < ·) := by
      rw [List.pairwise_map]
      exact hs1.imp_of_mem (fun ha hb h => toDouble_lt (hUok _ ha) (hUok _ hb) h)
    rw [interp1_knot _ fp hs1 j x hj, interp1_knot _ fp hs2 j (toDouble x) (by rw [List.getElem?_map, hj]; rfl)]
  have hrows : (sec.map toDouble).map (fun x => Row.mk x (interp1 (U.map toDouble) lonp x) (interp1 (U.map toDouble) latp x))
      = (sec.map fun x => Row.mk x (interp1 U lonp x) (interp1 U latp x)).map Row.toF := by
    rw [List.map_map, List.map_map]
    apply List.map_congr_left
    intro x hx
    simp only [Function.comp, Row.toF, hint _ x hx]
  rw [hrows]
  split
  · rfl
  · rw [stride_map']

theorem fileRows_time (s : ℚ) (d : ℤ) (coords : List Coord) (ts : List (Option ℤ)) (hts : ∀ t, some t ∈ ts → |t| ≤ 2 ^ 33 * 1000000)
    (rows : List Row) (h : fileRows s d coords ts = .ok rows) : ∀ r ∈ rows, TimeOk r.time := by
  unfold fileRows at h
  rcases hsec : secTimes ts with e | sec
  · rw [hsec] at h; cases h
  have hok := secTimes_ok hsec hts
  rw [hsec] at h
  simp only [bind, Except.bind] at h
  by_cases hne : sec = []
  · rw [if_pos hne] at h; cases h
  rw [if_neg hne] at h
  by_cases hs : s = 0
  · rw [if_pos hs] at h; cases h
  simp only [if_neg hs, pure, Except.pure] at h
  rcases h1 : takeIdx sec (uniqueIdx sec) with e | U
  · rw [h1] at h; cases h
  rw [h1] at h
  simp only at h
  rcases h2 : takeIdx (coords.map Prod.fst) (uniqueIdx sec) with e | lonp
  · rw [h2] at h; cases h
  rw [h2] at h
  simp only at h
  rcases h3 : takeIdx (coords.map Prod.snd) (uniqueIdx sec) with e | latp
  · rw [h3] at h; cases h
  rw [h3] at h
  simp only at h
  have hr : ∀ r ∈ sec.map (fun x => Row.mk x (interp1 U lonp x) (interp1 U latp x)), TimeOk r.time := by
    intro r hr
    obtain ⟨x, hx, rfl⟩ := List.mem_map.1 hr
    exact hok x hx
  injection h with h
  intro r hmem
  rw [← h] at hmem
  split at hmem
  · exact hr r hmem
  · exact hr r (stride_mem _ _ _ hmem)

/-- The same on whole results. -/
def retMap {α β : Type} (g : α → β) : Ret α → Ret β
  | .val a => .val (g a)
  | .sentinel => .sentinel

theorem readLoopF_eq (read : List Str → Except PyErr (Option (List Coord × Ret (List (Option ℤ))))) (s : ℚ) (d : ℤ) (files : List (List Str))
    (hts : ∀ f ∈ files, ∀ c ts, read f = .ok (some (c, .val ts)) → ∀ t, some t ∈ ts → |t| ≤ 2 ^ 33 * 1000000) :
    ∀ rows : List Row, (∀ r ∈ rows, TimeOk r.time) →
      readLoopF read s d files (rows.map Row.toF) = (readLoop read s d files rows).map (retMap (List.map Row.toF)) ∧
      ∀ out, readLoop read s d files rows = .ok (.val out) → ∀ r ∈ out, TimeOk r.time := by
  induction files with
  | nil =>
    intro rows hr
    refine ⟨rfl, ?_⟩
    intro out ho
    rw [readLoop] at ho
    cases ho
    exact hr
  | cons f fs ih =>
    intro rows hr
    rw [readLoopF, readLoop]
    rcases hf : read f with e | o
    · exact ⟨rfl, fun out ho => by cases ho⟩
    simp only [bind, Except.bind]
    rcases o with _ | ⟨c, _ | _⟩
    · exact ⟨rfl, fun out ho => by cases ho⟩
    · rename_i ts
      have ht := hts f (by simp) c ts hf
      simp only
      rw [fileRowsF_eq s d c ts ht]
      rcases hn : fileRows s d c ts with e | new
      · exact ⟨rfl, fun out ho => by cases ho⟩
      simp only [Except.map]
      have hnew := fileRows_time s d c ts ht new hn
      have := ih (fun g hg => hts g (by simp [hg])) (rows ++ new) (by
        intro r hmem
        rcases List.mem_append.1 hmem with h | h
        · exact hr r h
        · exact hnew r h)
      rw [List.map_append] at this
      exact this
    · exact ⟨rfl, fun out ho => by cases ho⟩

theorem stamps_eq (out : List Row) (h : ∀ r ∈ out, TimeOk r.time) :
    ∃ stamps : List ℤ, (out.map Row.toF).mapM (fun r => fromTimestampF r.time) = .ok stamps ∧
      List.Forall₂ (fun r (t : ℤ) => (t : ℚ) = r.time * 1000000 ∧ TimeOk r.time) out stamps := by
  induction out with
  | nil => exact ⟨[], rfl, .nil⟩
  | cons r out ih =>
    obtain ⟨st, h1, h2⟩ := ih (fun r hr => h r (by simp [hr]))
    obtain ⟨t, ht, e⟩ := h r (by simp)
    refine ⟨t :: st, ?_, .cons ⟨by rw [e, timestamp]; field_simp, ⟨t, ht, e⟩⟩ h2⟩
    rw [List.map_cons, List.mapM_cons, h1]
    have : fromTimestampF r.toF.time = .ok t := by
      show fromTimestampF (toDouble r.time) = .ok t
      rw [e]
      exact fromTimestampF_timestampF ht
    rw [this]
    rfl

theorem finishNavF_eq (rows : List Row) (h : ∀ r ∈ rows, TimeOk r.time) :
    (∀ e, finishNav rows = .error e → finishNavF (rows.map Row.toF) = .error e) ∧
    ∀ out, finishNav rows = .ok out → ∃ out', finishNavF (rows.map Row.toF) = .ok out' ∧
      List.Forall₂ (fun (r : Row) (p : Row × ℤ) => p.1.time = toDouble r.time ∧ p.1.lon = r.lon ∧ p.1.lat = r.lat ∧ (p.2 : ℚ) = r.time * 1000000 ∧ TimeOk r.time) out out' := by
  have hu : uniqueIdx ((rows.map Row.toF).map Row.time) = uniqueIdx (rows.map Row.time) := by
    have e : (rows.map Row.toF).map Row.time = (rows.map Row.time).map toDouble := by
      rw [List.map_map, List.map_map]; rfl
    rw [e]
    refine uniqueIdx_map _ ?_
    intro v hv
    obtain ⟨r, hr, rfl⟩ := List.mem_map.1 hv
    exact h r hr
  obtain ⟨U, hU, -, hU2⟩ := takeIdx_unique Row.time rows
  have hUok : ∀ r ∈ U, TimeOk r.time := by
    intro r hr
    obtain ⟨pre, post, e, -⟩ := (hU2 r).1 hr
    exact h r (by rw [e]; simp)
  obtain ⟨st, hst, hst2⟩ := stamps_eq U hUok
  have hlon : (U.map Row.toF).map Row.lon = U.map Row.lon := by rw [List.map_map]; rfl
  unfold finishNavF finishNav
  rw [hu, takeIdx_map, hU]
  simp only [Except.map, bind, Except.bind, hst, hlon]
  have base : ∀ (V : List Row) (l : List (Option ℚ)) (st : List ℤ), List.Forall₂ (fun r (t : ℤ) => (t : ℚ) = r.time * 1000000 ∧ TimeOk r.time) V st →
      List.Forall₂ (fun (r : Row) (p : Row × ℤ) => p.1.time = toDouble r.time ∧ p.1.lon = r.lon ∧ p.1.lat = r.lat ∧ (p.2 : ℚ) = r.time * 1000000 ∧ TimeOk r.time)
        (List.zipWith (fun (r : Row) l => { r with lon := l }) V l)
        ((List.zipWith (fun (r : Row) l => { r with lon := l }) (V.map Row.toF) l).zip st) := by
    intro V l st hV
    induction hV generalizing l with
    | nil => simp
    | cons hh _ ih =>
      cases l with
      | nil => simp
      | cons a l => exact .cons ⟨rfl, rfl, rfl, hh.1, hh.2⟩ (ih l)
  have base0 : ∀ (V : List Row) (st : List ℤ), List.Forall₂ (fun r (t : ℤ) => (t : ℚ) = r.time * 1000000 ∧ TimeOk r.time) V st →
      List.Forall₂ (fun (r : Row) (p : Row × ℤ) => p.1.time = toDouble r.time ∧ p.1.lon = r.lon ∧ p.1.lat = r.lat ∧ (p.2 : ℚ) = r.time * 1000000 ∧ TimeOk r.time)
        V ((V.map Row.toF).zip st) := by
    intro V st hV
    induction hV with
    | nil => exact .nil
    | cons hh _ ih => exact .cons ⟨rfl, rfl, rfl, hh.1, hh.2⟩ ih
  split
  · exact ⟨fun e he => (by cases he), fun out ho => by cases ho; exact ⟨_, rfl, base0 U st hst2⟩⟩
  · rcases cleanLon (U.map Row.lon) with e | l
    · exact ⟨fun e he => (by cases he; rfl), fun out ho => by cases ho⟩
    · exact ⟨fun e he => (by cases he), fun out ho => by cases ho; exact ⟨_, rfl, base U l st hst2⟩⟩

end Shipgrav
