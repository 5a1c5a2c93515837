import Verif.Lemmas.NavParse
import Verif.Lemmas.MapM
import Verif.Model.ReadNav

/-! The built-in navigation readers on two pieces of a file. -/

namespace Shipgrav

theorem mapM_append_ok {α β : Type} (f : α → Except PyErr β) (l l' : List α) (o o' : List β) (h : l.mapM f = .ok o) (h' : l'.mapM f = .ok o') :
    (l ++ l').mapM f = .ok (o ++ o') := by
  rw [mapM_ok_iff] at *
  exact List.rel_append h h'

theorem talkerLines_append (talker : Str) (a b : List Str) : talkerLines talker (a ++ b) = talkerLines talker a ++ talkerLines talker b :=
  List.filter_append ..

theorem navcoords_append {talker : Str} {a b : List Str} {c c' : List Coord} (h : navcoords a talker = .ok c) (h' : navcoords b talker = .ok c') :
    navcoords (a ++ b) talker = .ok (c ++ c') := by
  unfold navcoords at *
  rw [talkerLines_append]
  exact mapM_append_ok _ _ _ _ _ h h'

theorem clockTime_append {talker : Str} {a b : List Str} {c c' : List Clock} (h : clockTime a talker = .ok c) (h' : clockTime b talker = .ok c') :
    clockTime (a ++ b) talker = .ok (c ++ c') := by
  unfold clockTime at *
  rw [talkerLines_append]
  exact mapM_append_ok _ _ _ _ _ h h'

theorem clockTime_length {talker : Str} {a : List Str} {c : List Clock} (h : clockTime a talker = .ok c) : (talkerLines talker a).length = c.length := by
  unfold clockTime at h
  rw [mapM_ok_iff] at h
  exact h.length_eq

/-- Readers that pair talker lines with clock times. -/
theorem stamped_append (stamp : Str → Clock → Except PyErr ℤ) {talker : Str} {a b : List Str} {t t' : List (Option ℤ)}
    (h : (do let cs ← clockTime a talker; stampLines stamp (talkerLines talker a) cs) = .ok t)
    (h' : (do let cs ← clockTime b talker; stampLines stamp (talkerLines talker b) cs) = .ok t') :
    (do let cs ← clockTime (a ++ b) talker; stampLines stamp (talkerLines talker (a ++ b)) cs) = .ok (t ++ t') := by
  rcases hc : clockTime a talker with e | c
  · rw [hc] at h; cases h
  rcases hc' : clockTime b talker with e | c'
  · rw [hc'] at h'; cases h'
  rw [hc] at h
  rw [hc'] at h'
  rw [clockTime_append hc hc', talkerLines_append]
  simp only [bind, Except.bind, stampLines] at *
  rw [List.zip_append (clockTime_length hc)]
  exact mapM_append_ok _ _ _ _ _ h h'

theorem revelleScan_append (c : Clock) (g h : List Str) (t : ℤ) (hg : revelleScan c g = .ok (some t)) : revelleScan c (g ++ h) = .ok (some t) := by
  induction g with
  | nil => cases hg
  | cons l g ih =>
    rw [List.cons_append, revelleScan]
    rw [revelleScan] at hg
    rcases hm : matchP isoDateP l with _ | m
    · simp only [hm] at hg ⊢; exact ih hg
    · simp only [hm] at hg ⊢; exact hg

theorem revelleLoop_gap (talker : Str) (h : List Str) (b : List Str) : ∀ (g : List Str) (cs : List Clock) (t : List ℤ),
    revelleLoop talker g b cs = .ok (t.map some) → revelleLoop talker (g ++ h) b cs = .ok (t.map some) := by
  induction b with
  | nil => intro g cs t ht; exact ht
  | cons l b ih =>
    intro g cs t ht
    rw [revelleLoop.eq_def] at ht ⊢
    simp only at ht ⊢
    split at ht
    · rename_i hl
      rw [if_pos hl]
      cases cs with
      | nil => exact ht
      | cons c cs =>
        simp only at ht ⊢
        rcases hs : revelleScan c g with e | o
        · rw [hs] at ht; cases ht
        rw [hs] at ht
        rcases hr : revelleLoop talker [] b cs with e | ts
        · rw [hr] at ht; cases ht
        rw [hr] at ht
        cases t with
        | nil => cases ht
        | cons t0 t =>
          injection ht with ht
          rw [List.map_cons] at ht
          injection ht with h1 h2
          subst h1
          rw [revelleScan_append c g h t0 hs, List.map_cons, ← h2]
          rfl
    · rename_i hl
      rw [if_neg hl]
      exact ih (l :: g) cs t ht

theorem revelleLoop_append (talker : Str) (a b : List Str) : ∀ (g : List Str) (cs cs' : List Clock) (t : List (Option ℤ)) (t' : List ℤ),
    (talkerLines talker a).length = cs.length → revelleLoop talker g a cs = .ok t → revelleLoop talker [] b cs' = .ok (t'.map some) →
      revelleLoop talker g (a ++ b) (cs ++ cs') = .ok (t ++ t'.map some) := by
  induction a with
  | nil =>
    intro g cs cs' t t' hl ht ht'
    have hcs : cs = [] := by simpa [talkerLines] using hl.symm
    subst hcs
    rw [revelleLoop] at ht
    injection ht with ht
    subst ht
    have := revelleLoop_gap talker g b [] cs' t' ht'
    simpa using this
  | cons l a ih =>
    intro g cs cs' t t' hl ht ht'
    rw [List.cons_append, revelleLoop.eq_def]
    rw [revelleLoop.eq_def] at ht
    simp only at ht ⊢
    by_cases hs : hasSub talker l
    · rw [if_pos hs] at ht ⊢
      have e : talkerLines talker (l :: a) = l :: talkerLines talker a := by simp [talkerLines, hs]
      rw [e, List.length_cons] at hl
      cases cs with
      | nil => simp at hl
      | cons c cs =>
        simp only [List.cons_append] at ht ⊢
        rcases h1 : revelleScan c g with e | o
        · rw [h1] at ht; cases ht
        rw [h1] at ht
        rcases h2 : revelleLoop talker [] a cs with e | ts
        · rw [h2] at ht; cases ht
        rw [h2] at ht
        cases ht
        rw [ih [] cs cs' ts t' (by simpa using hl) h2 ht']
        rfl
    · rw [if_neg hs] at ht ⊢
      have e : talkerLines talker (l :: a) = talkerLines talker a := by simp [talkerLines, hs]
      rw [e] at hl
      exact ih (l :: g) cs cs' t t' hl ht ht'

theorem navdateRevelle_append {talker : Str} {a b : List Str} {t : List (Option ℤ)} {t' : List ℤ} (h : navdateRevelle a talker = .ok t)
    (h' : navdateRevelle b talker = .ok (t'.map some)) : navdateRevelle (a ++ b) talker = .ok (t ++ t'.map some) := by
  unfold navdateRevelle at *
  rcases hc : clockTime a talker with e | c
  · rw [hc] at h; cases h
  rcases hc' : clockTime b talker with e | c'
  · rw [hc'] at h'; cases h'
  rw [hc] at h
  rw [hc'] at h'
  rw [clockTime_append hc hc']
  exact revelleLoop_append talker a b [] c c' t t' (clockTime_length hc) h h'

theorem navdateRide_append {talker : Str} {a b : List Str} {t t' : List (Option ℤ)} (h : navdateRide a talker = .ok (.val t))
    (h' : navdateRide b talker = .ok (.val t')) : navdateRide (a ++ b) talker = .ok (.val (t ++ t')) := by
  unfold navdateRide at *
  simp only at *
  rw [talkerLines_append, List.length_append]
  split at h
  · cases h
  rename_i ha
  split at h'
  · cases h'
  rw [if_neg (by omega)]
  rcases h1 : (talkerLines talker a).mapM (rideStamp talker) with e | u
  · rw [h1] at h; cases h
  rcases h2 : (talkerLines talker b).mapM (rideStamp talker) with e | u'
  · rw [h2] at h'; cases h'
  rw [h1] at h
  rw [h2] at h'
  cases h
  cases h'
  rw [mapM_append_ok _ _ _ _ _ h1 h2]
  rfl

theorem navdateLangseth_append {talker : Str} {a b : List Str} {t t' : List (Option ℤ)} (h : navdateLangseth a talker = .ok t)
    (h' : navdateLangseth b talker = .ok t') : navdateLangseth (a ++ b) talker = .ok (t ++ t') := by
  unfold navdateLangseth at *
  rw [talkerLines_append]
  exact mapM_append_ok _ _ _ _ _ h h'

private theorem run_append (f : List Str → Str → PyRet (List (Option ℤ))) {talker : Str} {a b : List Str} {c c' : List Coord}
    {t t' : List (Option ℤ)}
    (h : (do let c ← navcoords a talker; let t ← f a talker; return some (c, t) : Except PyErr (Option (List Coord × Ret (List (Option ℤ))))) = .ok (some (c, .val t)))
    (h' : (do let c ← navcoords b talker; let t ← f b talker; return some (c, t) : Except PyErr (Option (List Coord × Ret (List (Option ℤ))))) = .ok (some (c', .val t')))
    (hf : f a talker = .ok (.val t) → f b talker = .ok (.val t') → f (a ++ b) talker = .ok (.val (t ++ t'))) :
    (do let c ← navcoords (a ++ b) talker; let t ← f (a ++ b) talker; return some (c, t) : Except PyErr (Option (List Coord × Ret (List (Option ℤ)))))
      = .ok (some (c ++ c', .val (t ++ t'))) := by
  rcases h1 : navcoords a talker with e | d
  · rw [h1] at h; cases h
  rcases h2 : navcoords b talker with e | d'
  · rw [h2] at h'; cases h'
  rcases h3 : f a talker with e | u
  · rw [h1, h3] at h; cases h
  rcases h4 : f b talker with e | u'
  · rw [h2, h4] at h'; cases h'
  rw [h1, h3] at h
  rw [h2, h4] at h'
  cases h
  cases h'
  rw [navcoords_append h1 h2, hf h3 h4]
  rfl

private theorem lift_append {f : List Str → Str → Except PyErr (List (Option ℤ))} {talker : Str} {a b : List Str} {t t' : List (Option ℤ)}
    (hf : f a talker = .ok t → f b talker = .ok t' → f (a ++ b) talker = .ok (t ++ t'))
    (h : (f a talker).map Ret.val = .ok (.val t)) (h' : (f b talker).map Ret.val = .ok (.val t')) :
    (f (a ++ b) talker).map Ret.val = .ok (.val (t ++ t')) := by
  rcases h1 : f a talker with e | u
  · rw [h1] at h; cases h
  rcases h2 : f b talker with e | u'
  · rw [h2] at h'; cases h'
  rw [h1] at h
  rw [h2] at h'
  cases h
  cases h'
  rw [hf h1 h2]
  rfl

/-- A file cut in two at a line break, both parts of which can be read. -/
theorem builtinRead_append {ship talker : Str} {a b : List Str} {c c' : List Coord} {t : List (Option ℤ)} {t' : List ℤ}
    (h : builtinRead ship talker a = .ok (some (c, .val t))) (h' : builtinRead ship talker b = .ok (some (c', .val (t'.map some)))) :
    builtinRead ship talker (a ++ b) = .ok (some (c ++ c', .val (t ++ t'.map some))) := by
  unfold builtinRead at *
  simp only at *
  split_ifs at h h' ⊢
  · exact run_append (fun a t => (navdateAtlantis a t).map Ret.val) h h' (fun x y => lift_append (f := navdateAtlantis) (fun x y => stamped_append _ x y) x y)
  · exact run_append (fun a t => (navdateNBP a t).map Ret.val) h h' (fun x y => lift_append (f := navdateNBP) (fun x y => stamped_append _ x y) x y)
  · exact run_append (fun a t => (navdateThompson a t).map Ret.val) h h' (fun x y => lift_append (f := navdateThompson) (fun x y => stamped_append _ x y) x y)
  · exact run_append (fun a t => (navdateRevelle a t).map Ret.val) h h' (fun x y => lift_append (f := navdateRevelle) (fun x y => navdateRevelle_append x y) x y)
  · exact run_append navdateRide h h' (fun x y => navdateRide_append x y)
  · exact run_append (fun a t => (navdateLangseth a t).map Ret.val) h h' (fun x y => lift_append (f := navdateLangseth) (fun x y => navdateLangseth_append x y) x y)
  · exact run_append navdateRide h h' (fun x y => navdateRide_append x y)
  · cases h

end Shipgrav
