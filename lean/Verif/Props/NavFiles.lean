import Verif.Lemmas.NavFiles
import Verif.Props.ReadNav
import Mathlib.Data.List.Perm.Basic

/-! Property C129: the order of the navigation files and where one ends and the next begins do not matter. -/

namespace Shipgrav
open Spec

/-- Two tracks of the same fixes are the same. -/
private theorem isTrack_unique {l l' out out' : List Fix} (h : IsTrack Prod.fst l out) (h' : IsTrack Prod.fst l' out')
    (hsame : ∀ r, IsFirst Prod.fst l r ↔ IsFirst Prod.fst l' r) : out = out' := by
  have n1 : out.Nodup := h.1.imp (fun {a b} h e => by subst e; exact lt_irrefl _ h)
  have n2 : out'.Nodup := h'.1.imp (fun {a b} h e => by subst e; exact lt_irrefl _ h)
  have hp : out.Perm out' := (List.perm_ext_iff_of_nodup n1 n2).2 (fun r => by rw [h.2, h'.2, hsame])
  exact hp.eq_of_pairwise (le := fun a b => a.1 < b.1) (fun a b _ _ h h' => absurd h (lt_asymm h')) h.1 h'.1

private theorem lons_unique (l lons lons' : List (Option ℚ)) (h1 : (∀ i, ¬ JumpAt l i) → lons = l) (h2 : (∃ i, JumpAt l i) → cleanLon l = .ok lons)
    (h1' : (∀ i, ¬ JumpAt l i) → lons' = l) (h2' : (∃ i, JumpAt l i) → cleanLon l = .ok lons') : lons = lons' := by
  by_cases h : ∃ i, JumpAt l i
  · have := (h2 h).symm.trans (h2' h)
    injection this
  · have h' : ∀ i, ¬ JumpAt l i := fun i hi => h ⟨i, hi⟩
    rw [h1 h', h1' h']

/-- What is kept of the fixes of one file. -/
private def KeptOf (d : ℕ) (fx k : List Fix) : Prop := ∃ l, FirstOfTime Prod.fst fx l ∧ (if d = 0 then k = l else EveryNth d l k)

private theorem keptOf_unique {d : ℕ} {fx k k' : List Fix} (h : KeptOf d fx k) (h' : KeptOf d fx k') : k = k' := by
  obtain ⟨l, h1, h2⟩ := h
  obtain ⟨l', h1', h2'⟩ := h'
  have hl : l = l' := by
    have gen : ∀ a b b' : List Fix, List.Forall₂ (fun a b : Fix => b.1 = a.1 ∧ IsFirst Prod.fst fx b) a b →
        List.Forall₂ (fun a b : Fix => b.1 = a.1 ∧ IsFirst Prod.fst fx b) a b' → b = b' := by
      intro a b b' hb
      induction hb generalizing b' with
      | nil => intro hb'; cases hb'; rfl
      | cons g1 _ ih =>
        intro hb'
        cases hb' with
        | cons g1' g2' =>
          rw [ih _ g2', isFirst_unique Prod.fst fx _ _ g1.2 g1'.2 (g1.1.trans g1'.1.symm)]
    exact gen fx l l' h1 h1'
  subst hl
  by_cases hd : d = 0
  · rw [if_pos hd] at h2 h2'; rw [h2, h2']
  · rw [if_neg hd] at h2 h2'
    exact List.ext_getElem? (fun i => by rw [h2 i, h2' i])

private theorem keptOf_mem {d : ℕ} {fx k : List Fix} (h : KeptOf d fx k) : ∀ a ∈ k, IsFirst Prod.fst fx a := by
  obtain ⟨l, h1, h2⟩ := h
  have hl : ∀ a ∈ l, IsFirst Prod.fst fx a := by
    have gen : ∀ a b : List Fix, List.Forall₂ (fun a b : Fix => b.1 = a.1 ∧ IsFirst Prod.fst fx b) a b → ∀ r ∈ b, IsFirst Prod.fst fx r := by
      intro a b hb
      induction hb with
      | nil => simp
      | cons g1 _ ih =>
        intro r hr
        rcases List.mem_cons.1 hr with rfl | hr
        · exact g1.2
        · exact ih r hr
    exact gen fx l h1
  intro a ha
  by_cases hd : d = 0
  · rw [if_pos hd] at h2; rw [h2] at ha; exact hl a ha
  · rw [if_neg hd] at h2
    obtain ⟨i, hi⟩ := List.mem_iff_getElem?.1 ha
    rw [h2 i] at hi
    exact hl a (List.mem_of_getElem? hi)

/-- **C129.** The order in which the files are given does not matter, whatever the decimation, provided that fixes of different files with the same time
have the same position.  (Within a file the first fix of a time is taken, C29.) -/
theorem C129_file_order (ship tk : Str) (files files' : List (List Str)) (s : ℚ) (talker : Option Str) (fn : Option Reader) (d : ℕ)
    (fxs : List (List Fix)) (hk : fn.isSome ∨ defaultTalker ship ≠ none) (ht : talker.or (defaultTalker ship) = some tk) (hs : s ≠ 0)
    (hf : List.Forall₂ (ReadsFixes ship fn tk) files fxs) (hp : files.Perm files')
    (hc : ∀ fx ∈ fxs, ∀ fx' ∈ fxs, fx ≠ fx' → ∀ a ∈ fx, ∀ b ∈ fx', a.1 = b.1 → a = b) :
    readNav ship files' s talker fn d = readNav ship files s talker fn d := by
  obtain ⟨fxs', hf', hp'⟩ := List.perm_comp_forall₂ hp.symm hf
  obtain ⟨fi, ke, out, lons, a1, a2, a3, a4, -, a6, a7⟩ := C29_track ship tk files s talker fn d fxs hk ht hs hf
  obtain ⟨fi', ke', out', lons', b1, b2, b3, b4, -, b6, b7⟩ := C29_track ship tk files' s talker fn d fxs' hk ht hs hf'
  have comp : ∀ (u v w : List (List Fix)), List.Forall₂ (FirstOfTime Prod.fst) u v →
      List.Forall₂ (fun l k => if d = 0 then k = l else EveryNth d l k) v w → List.Forall₂ (KeptOf d) u w := by
    intro u v w hu
    induction hu generalizing w with
    | nil => intro hv; cases hv; exact .nil
    | cons h _ ih =>
      intro hv
      cases hv with
      | cons g1 g2 => exact .cons ⟨_, h, g1⟩ (ih _ g2)
  have c1 := comp _ _ _ a1 a2
  have c2 := comp _ _ _ b1 b2
  obtain ⟨ke'', d1, d2⟩ := List.perm_comp_forall₂ hp'.symm c2
  have he : ke'' = ke := by
    clear a1 a2 a3 d2
    have gen : ∀ u v w : List (List Fix), List.Forall₂ (KeptOf d) u v → List.Forall₂ (KeptOf d) u w → v = w := by
      intro u v w hu
      induction hu generalizing w with
      | nil => intro hv; cases hv; rfl
      | cons h _ ih =>
        intro hv
        cases hv with
        | cons g1 g2 => rw [keptOf_unique h g1, ih _ g2]
    exact gen _ _ _ d1 c1
  subst he
  have cons : ∀ a ∈ ke''.flatten, ∀ b ∈ ke''.flatten, a.1 = b.1 → a = b := by
    have up : ∀ k ∈ ke'', ∃ fx ∈ fxs, KeptOf d fx k := by
      intro k hk
      obtain ⟨i, hi, rfl⟩ := List.mem_iff_getElem.1 hk
      have hl := c1.length_eq
      have := (List.forall₂_iff_get.1 c1).2 i (by omega) hi
      exact ⟨_, List.getElem_mem _, this⟩
    intro a ha b hb e
    obtain ⟨k, hk, hak⟩ := List.mem_flatten.1 ha
    obtain ⟨k', hk', hbk⟩ := List.mem_flatten.1 hb
    obtain ⟨fx, hfx, g⟩ := up k hk
    obtain ⟨fx', hfx', g'⟩ := up k' hk'
    have fa := keptOf_mem g a hak
    have fb := keptOf_mem g' b hbk
    by_cases heq : fx = fx'
    · subst heq
      exact isFirst_unique Prod.fst fx a b fa fb e
    · obtain ⟨p, q, ea, -⟩ := fa
      obtain ⟨p', q', eb, -⟩ := fb
      exact hc fx hfx fx' hfx' heq a (by rw [ea]; simp) b (by rw [eb]; simp) e
  have first : ∀ l : List Fix, (∀ a ∈ l, ∀ b ∈ l, a.1 = b.1 → a = b) → ∀ r, IsFirst Prod.fst l r ↔ r ∈ l := by
    intro l hl r
    constructor
    · rintro ⟨p, q, e, -⟩; rw [e]; simp
    · intro hr
      obtain ⟨x, hx, hxr⟩ := isTrack_exists_of_mem Prod.fst l r hr
      obtain ⟨p, q, e, -⟩ := id hx
      rw [hl x (by rw [e]; simp) r hr hxr] at hx
      exact hx
  have hperm : ke''.flatten.Perm ke'.flatten := d2.flatten
  have ho : out = out' := by
    refine isTrack_unique a3 b3 ?_
    intro r
    rw [first _ cons, first _ (fun a ha b hb e => cons a (hperm.mem_iff.2 ha) b (hperm.mem_iff.2 hb) e), hperm.mem_iff]
  subst ho
  have hlo := lons_unique _ _ _ a6 a7 b6 b7
  subst hlo
  rw [a4, b4]

/-- **C129.** A file cut in two at a line break, each part having fixes with dates of its own, gives the same track without decimation, whatever comes before
and after. -/
theorem C129_split (ship tk : Str) (pre post : List (List Str)) (a b : List Str) (s : ℚ) (talker : Option Str) (d : ℕ) (hd : d = 0 ∨ d = 1)
    (hk : defaultTalker ship ≠ none) (ht : talker.or (defaultTalker ship) = some tk) (hs : s ≠ 0)
    (hf : ∀ f ∈ pre ++ a :: b :: post, ∃ fx, ReadsFixes ship none tk f fx) :
    readNav ship (pre ++ (a ++ b) :: post) s talker none d = readNav ship (pre ++ a :: b :: post) s talker none d := by
  have all : ∀ l : List (List Str), (∀ f ∈ l, ∃ fx, ReadsFixes ship none tk f fx) → ∃ fxs, List.Forall₂ (ReadsFixes ship none tk) l fxs := by
    intro l
    induction l with
    | nil => intro _; exact ⟨[], .nil⟩
    | cons f l ih =>
      intro h
      obtain ⟨fx, h1⟩ := h f (by simp)
      obtain ⟨fxs, h2⟩ := ih (fun g hg => h g (by simp [hg]))
      exact ⟨_, .cons h1 h2⟩
  obtain ⟨P, hP⟩ := all pre (fun f h => hf f (by simp [h]))
  obtain ⟨Q, hQ⟩ := all post (fun f h => hf f (by simp [h]))
  obtain ⟨fa, ha⟩ := hf a (by simp)
  obtain ⟨fb, hb⟩ := hf b (by simp)
  have hab : ReadsFixes ship none tk (a ++ b) (fa ++ fb) := by
    refine ⟨by simp [ha.1], ?_⟩
    have e : fb.map (fun x : Fix => some x.1) = (fb.map Prod.fst).map some := by rw [List.map_map]; rfl
    have h1 : builtinRead ship tk a = .ok (some (fa.map Prod.snd, .val (fa.map (fun x => some x.1)))) := ha.2
    have h2 : builtinRead ship tk b = .ok (some (fb.map Prod.snd, .val (fb.map (fun x => some x.1)))) := hb.2
    rw [e] at h2
    have := builtinRead_append h1 h2
    show builtinRead ship tk (a ++ b) = _
    rw [this, List.map_append, List.map_append, e]
  obtain ⟨out, lons, a1, a2, -, a4, a5⟩ := C29_nothing_lost ship tk (pre ++ (a ++ b) :: post) s talker none d hd (P ++ (fa ++ fb) :: Q) (Or.inr hk) ht hs
    (List.rel_append hP (.cons hab hQ))
  obtain ⟨out', lons', b1, b2, -, b4, b5⟩ := C29_nothing_lost ship tk (pre ++ a :: b :: post) s talker none d hd (P ++ fa :: fb :: Q) (Or.inr hk) ht hs
    (List.rel_append hP (.cons ha (.cons hb hQ)))
  have e : (P ++ (fa ++ fb) :: Q).flatten = (P ++ fa :: fb :: Q).flatten := by simp
  rw [e] at a1
  have ho := isTrack_unique a1 b1 (fun r => Iff.rfl)
  subst ho
  have hl := lons_unique _ _ _ a4 a5 b4 b5
  subst hl
  rw [a2, b2]

/-! ### Hypotheses met -/

private def l1 : Str := "NAV 2022/07/01 12:17:33.537 GPS $GPGGA,121733.25,1000.0,N,02000.0,E".toList
private def l2 : Str := "NAV 2022/07/01 12:17:34.537 GPS $GPGGA,121734.25,1001.0,N,02001.0,E".toList

example : readNav "Atlantis".toList [[l2], [l1]] 1 none none 0 = readNav "Atlantis".toList [[l1], [l2]] 1 none none 0 ∧
    readNav "Atlantis".toList [[l1, l2]] 1 none none 0 = readNav "Atlantis".toList [[l1], [l2]] 1 none none 0 := by
  have h1 : ReadsFixes "Atlantis".toList none "GPGGA".toList [l1] [(1656677853250000, some 20, some 10)] := ⟨by simp, by
    show (builtinRead _ _ _ : Except PyErr (Option (List Coord × Ret (List (Option ℤ))))) =
      .ok (some ([(some 20, some 10)], .val [some 1656677853250000]))
    set_option synthInstance.maxSize 1000 in decide +kernel⟩
  have h2 : ReadsFixes "Atlantis".toList none "GPGGA".toList [l2] [(1656677854250000, some (1201 / 60), some (601 / 60))] := ⟨by simp, by
    show (builtinRead _ _ _ : Except PyErr (Option (List Coord × Ret (List (Option ℤ))))) =
      .ok (some ([(some (1201 / 60), some (601 / 60))], .val [some 1656677854250000]))
    set_option synthInstance.maxSize 1000 in decide +kernel⟩
  refine ⟨C129_file_order _ "GPGGA".toList [[l1], [l2]] [[l2], [l1]] 1 none none 0 _ (Or.inr (by decide)) rfl one_ne_zero
    (.cons h1 (.cons h2 .nil)) (List.Perm.swap _ _ _) ?_, ?_⟩
  · intro fx hfx fx' hfx' hne a ha b hb e
    simp only [List.mem_cons, List.not_mem_nil, or_false] at hfx hfx'
    rcases hfx with rfl | rfl <;> rcases hfx' with rfl | rfl <;> simp_all
  · exact C129_split "Atlantis".toList "GPGGA".toList [] [] [l1] [l2] 1 none 0 (Or.inl rfl) (by decide) rfl one_ne_zero (by
      intro f hf
      simp only [List.nil_append, List.mem_cons, List.not_mem_nil, or_false] at hf
      rcases hf with rfl | rfl
      · exact ⟨_, h1⟩
      · exact ⟨_, h2⟩)

-- with a different position at the same time the order does matter
example : readNav "Atlantis".toList [[l1], ["NAV 2022/07/01 12:17:33.537 GPS $GPGGA,121733.25,1100.0,N,02000.0,E".toList]] 1 none none 0
    ≠ readNav "Atlantis".toList [["NAV 2022/07/01 12:17:33.537 GPS $GPGGA,121733.25,1100.0,N,02000.0,E".toList], [l1]] 1 none none 0 := by decide +kernel

end Shipgrav
