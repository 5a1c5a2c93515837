import Verif.Lemmas.NavFloat
import Verif.Props.ReadNav

/-! Property C126: `read_nav` with POSIX times in double precision. -/

namespace Shipgrav
open Spec

/-- Within 2^33 seconds (272 years) of 1970-01-01, for an instant in microseconds. -/
def Modern (t : ℤ) : Prop := |t| ≤ 2 ^ 33 * 1000000

/-- Every timestamp read from the files, with the talker in force, is within 272 years of 1970. -/
def ModernFiles (ship : Str) (fn : Option Reader) (talker : Option Str) (files : List (List Str)) : Prop :=
  ∀ tk, talker.or (defaultTalker ship) = some tk → ∀ f ∈ files, ∀ c ts, Reads ship fn tk f c (.val ts) → ∀ t, some t ∈ ts → Modern t

/-- The row with its time as a double, and its stamp in microseconds. -/
def InDouble (r : Row) (p : Row × ℤ) : Prop :=
  IsNearestDouble r.time p.1.time ∧ p.1.lon = r.lon ∧ p.1.lat = r.lat ∧ (p.2 : ℚ) = r.time * 1000000

private theorem readNavF_eq (ship : Str) (files : List (List Str)) (s : ℚ) (talker : Option Str) (fn : Option Reader) (d : ℤ)
    (tk : Str) (hk : fn.isSome ∨ defaultTalker ship ≠ none) (ht : talker.or (defaultTalker ship) = some tk) :
    readNavF ship files s talker fn d = (do
      match ← readLoopF (reader ship fn tk) s d files [] with
      | .sentinel => return .sentinel
      | .val rows => return .val (← finishNavF rows)) := by
  unfold readNavF
  rw [talkers_eq, if_neg, ht]
  · cases fn <;> rfl
  · rintro ⟨h1, h2⟩
    rcases hk with h | h
    · cases fn <;> simp_all
    · exact h h1

theorem readNavF_both (ship : Str) (files : List (List Str)) (s : ℚ) (talker : Option Str) (fn : Option Reader) (d : ℤ)
    (hm : ModernFiles ship fn talker files) :
    (∃ e, readNavF ship files s talker fn d = .error e ∧ readNav ship files s talker fn d = .error e) ∨
    (readNavF ship files s talker fn d = .ok .sentinel ∧ readNav ship files s talker fn d = .ok .sentinel) ∨
    ∃ out out', readNav ship files s talker fn d = .ok (.val out) ∧ readNavF ship files s talker fn d = .ok (.val out') ∧
      List.Forall₂ (fun (r : Row) (p : Row × ℤ) => p.1.time = toDouble r.time ∧ p.1.lon = r.lon ∧ p.1.lat = r.lat ∧
        (p.2 : ℚ) = r.time * 1000000 ∧ TimeOk r.time) out out' := by
  by_cases hk : fn.isSome ∨ defaultTalker ship ≠ none
  swap
  · have hn : navTalkers.lookup ship = none ∧ fn.isNone := by
      push Not at hk
      refine ⟨by rw [talkers_eq]; exact hk.2, ?_⟩
      cases fn <;> simp_all
    unfold readNavF readNav
    rw [if_pos hn, if_pos hn]
    exact Or.inr (Or.inl ⟨rfl, rfl⟩)
  rcases ht : talker.or (defaultTalker ship) with _ | tk
  · have hn : ¬(navTalkers.lookup ship = none ∧ fn.isNone) := by
      rintro ⟨h1, h2⟩
      rw [talkers_eq] at h1
      rcases hk with h | h
      · cases fn <;> simp_all
      · exact h h1
    unfold readNavF readNav
    rw [if_neg hn, if_neg hn, talkers_eq, ht]
    exact Or.inr (Or.inl ⟨rfl, rfl⟩)
  rw [readNavF_eq ship files s talker fn d tk hk ht, readNav_eq ship files s talker fn d tk hk ht]
  obtain ⟨h1, h2⟩ := readLoopF_eq (reader ship fn tk) s d files
    (fun f hf c ts hr t htm => hm tk ht f hf c ts ((reads_iff _ _ _ _ _ _).2 hr) t htm) [] (by simp)
  rw [List.map_nil] at h1
  rw [h1]
  rcases hl : readLoop (reader ship fn tk) s d files [] with e | (rows | _)
  · exact Or.inl ⟨e, rfl, rfl⟩
  · obtain ⟨f1, f2⟩ := finishNavF_eq rows (h2 rows hl)
    simp only [Except.map, retMap, bind, Except.bind]
    rcases hf : finishNav rows with e | out
    · rw [f1 e hf]
      exact Or.inl ⟨e, rfl, rfl⟩
    · obtain ⟨out', o1, o2⟩ := f2 out hf
      rw [o1]
      exact Or.inr (Or.inr ⟨out, out', rfl, rfl, o2⟩)
  · exact Or.inr (Or.inl ⟨rfl, rfl⟩)

/-- **C126.** `read_nav` with its times in double precision: it raises where `read_nav` with exact times does, gives `-999` where that does, and
otherwise gives the same rows in the same order, each with the double nearest to its time, and in `stamps` the instant itself, to the microsecond. -/
theorem C126_read_nav_double (ship : Str) (files : List (List Str)) (s : ℚ) (talker : Option Str) (fn : Option Reader) (d : ℤ)
    (hm : ModernFiles ship fn talker files) :
    (∃ e, readNavF ship files s talker fn d = .error e ∧ readNav ship files s talker fn d = .error e) ∨
    (readNavF ship files s talker fn d = .ok .sentinel ∧ readNav ship files s talker fn d = .ok .sentinel) ∨
    ∃ out out', readNav ship files s talker fn d = .ok (.val out) ∧ readNavF ship files s talker fn d = .ok (.val out') ∧
      List.Forall₂ InDouble out out' := by
  rcases readNavF_both ship files s talker fn d hm with h | h | ⟨out, out', h1, h2, h3⟩
  · exact Or.inl h
  · exact Or.inr (Or.inl h)
  · refine Or.inr (Or.inr ⟨out, out', h1, h2, h3.imp ?_⟩)
    rintro r p ⟨g1, g2, g3, g4, -⟩
    refine ⟨?_, g2, g3, g4⟩
    rw [g1]
    exact ⟨toDouble_rounds.double _, toDouble_rounds.nearest _⟩

/-- **C126.** The times in `time_sec` are strictly increasing as doubles, so rounding merges no two rows; and each is within half a microsecond of
its row's stamp. -/
theorem C126_times_distinct (ship : Str) (files : List (List Str)) (s : ℚ) (talker : Option Str) (fn : Option Reader) (d : ℤ)
    (hm : ModernFiles ship fn talker files) (out : List (Row × ℤ)) (h : readNavF ship files s talker fn d = .ok (.val out)) :
    (out.map (fun p => p.1.time)).Pairwise (· < ·) ∧ (out.map Prod.snd).Pairwise (· < ·) ∧
      ∀ p ∈ out, |p.1.time - p.2 / 1000000| ≤ 1 / 2 ^ 21 := by
  rcases readNavF_both ship files s talker fn d hm with ⟨e, he, -⟩ | ⟨hs, -⟩ | ⟨rows, out', h1, h2, h3⟩
  · rw [he] at h; cases h
  · rw [hs] at h; cases h
  rw [h2] at h
  cases h
  have hi := C28_strictly_increasing ship files s talker fn d rows h1
  clear h1 h2
  refine ⟨?_, ?_, ?_⟩
  · induction h3 with
    | nil => simp
    | @cons r p rows out hh ht ih =>
      rw [List.map_cons, List.pairwise_cons] at hi ⊢
      refine ⟨?_, ih hi.2⟩
      intro a ha
      obtain ⟨q, hq, rfl⟩ := List.mem_map.1 ha
      obtain ⟨i, hi1, rfl⟩ := List.mem_iff_getElem.1 hq
      have hl := ht.length_eq
      have hx := (List.forall₂_iff_get.1 ht).2 i (by omega) hi1
      simp only [List.get_eq_getElem] at hx
      rw [hh.1, hx.1]
      refine toDouble_lt hh.2.2.2.2 hx.2.2.2.2 (hi.1 _ ?_)
      exact List.mem_map.2 ⟨_, List.getElem_mem _, rfl⟩
  · induction h3 with
    | nil => simp
    | @cons r p rows out hh ht ih =>
      rw [List.map_cons, List.pairwise_cons] at hi ⊢
      refine ⟨?_, ih hi.2⟩
      intro a ha
      obtain ⟨q, hq, rfl⟩ := List.mem_map.1 ha
      obtain ⟨i, hi1, rfl⟩ := List.mem_iff_getElem.1 hq
      have hl := ht.length_eq
      have hx := (List.forall₂_iff_get.1 ht).2 i (by omega) hi1
      simp only [List.get_eq_getElem] at hx
      have hlt := hi.1 (rows[i]'(by omega)).time (List.mem_map.2 ⟨_, List.getElem_mem _, rfl⟩)
      have e1 := hh.2.2.2.1
      have e2 := hx.2.2.2.1
      have : (p.2 : ℚ) < ((out[i]).2 : ℚ) := by rw [e1, e2]; linarith
      exact_mod_cast this
  · clear hi
    induction h3 with
    | nil => simp
    | @cons r p rows out hh ht ih =>
      intro q hq
      rcases List.mem_cons.1 hq with rfl | hq
      · obtain ⟨g1, -, -, g4, t, ht, e⟩ := hh
        rw [g1, g4]
        have hb : |r.time| ≤ 2 ^ ((32 : ℤ) + 1) := by
          rw [e, timestamp, abs_div, div_le_iff₀ (by norm_num)]
          have : (|(t : ℚ)|) ≤ 2 ^ 33 * 1000000 := by exact_mod_cast ht
          norm_num at this ⊢
          linarith
        have := toDouble_rounds.error r.time 32 hb
        rw [abs_sub_comm] at this
        rw [mul_div_assoc, div_self (by norm_num), mul_one]
        refine this.trans (le_of_eq ?_)
        norm_num [zpow_neg]
      · exact ih q hq

/-! ### Hypotheses met -/

-- a file of two fixes a microsecond apart, and what `read_nav` makes of it
example : readNavF "X".toList [[]] 1 (some []) (some (fun _ _ => .ok ([1, 2].map fun k => (some k, some k),
    .val [some 1656677853250001, some 1656677853250002]))) 0
      = .ok (.val [(⟨toDouble (1656677853250001 / 1000000), some 1, some 1⟩, 1656677853250001),
          (⟨toDouble (1656677853250002 / 1000000), some 2, some 2⟩, 1656677853250002)]) := by decide +kernel
example : ModernFiles "X".toList (some (fun _ _ => .ok ([1, 2].map fun k => (some k, some k),
    .val [some 1656677853250001, some 1656677853250002]))) (some []) [[]] := by
  intro tk _ f _ c ts hr t ht
  cases hr
  simp only [List.mem_cons, Option.some.injEq, List.not_mem_nil, or_false] at ht
  rcases ht with rfl | rfl <;> (unfold Modern; norm_num)
-- further from 1970 the claim is false: in the year 2500 two instants a microsecond apart can have the same double
example : toDouble (16725225600000001 / 1000000) = toDouble (16725225600000002 / 1000000) := by decide +kernel

end Shipgrav
