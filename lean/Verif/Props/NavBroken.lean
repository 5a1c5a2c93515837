import Verif.Props.NavParse
import Verif.Lemmas.Dgs

/-! Property theorem C23, broken records. -/

namespace Shipgrav
open Spec

private theorem parseInt_foreign (c : Char) (s : Str) (h : c ∈ s) (hc : foreign c = true) : parseInt s = none := by
  unfold foreign at hc
  simp only [Bool.and_eq_true, Bool.not_eq_true', decide_eq_true_eq] at hc
  obtain ⟨⟨⟨hd, hs⟩, hm⟩, _⟩ := hc
  simp only [List.mem_cons, List.not_mem_nil, or_false, not_or] at hm
  obtain ⟨_, h2, h3, h4, _, _⟩ := hm
  have ht := takeSign_mem c (strip s) (mem_strip h hs) h3 h4
  unfold parseInt
  simp only
  rw [if_neg]
  intro hv
  have := validRun_chars _ hv c ht
  unfold isRunChar at this
  simp [hd, h2] at this

private theorem degMin_foreign (k : ℕ) (f : Str) (hemi : Except PyErr Str) (neg : Str) (c : Char) (h : c ∈ f) (hc : foreign c = true) :
    degMin k f hemi neg = .error .valueError := by
  unfold degMin pyInt pyFloatQ
  rw [← List.take_append_drop k f, List.mem_append] at h
  rcases h with h | h
  · rw [parseInt_foreign c _ h hc]; rfl
  · rw [parseFloat_foreign c _ h hc]
    cases parseInt (f.take k) <;> rfl

private theorem degMin_value (k : ℕ) (f hemi neg : Str) :
    (∃ v, degMin k f (.ok hemi) neg = .ok v) ∨ degMin k f (.ok hemi) neg = .error .valueError := by
  unfold degMin pyInt pyFloatQ
  cases parseInt (f.take k) with
  | none => right; rfl
  | some d =>
    cases parseFloat (f.drop k) with
    | none => right; rfl
    | some x => cases x <;> exact Or.inl ⟨_, rfl⟩

/-- **C23.** A talker line with both fields present, one of which contains a character that no number contains (the `?` of a broken record, say),
is not passed over and not made NaN: the call raises `ValueError`, and so does every call whose file contains the line among lines that are
read. -/
theorem C23_broken_field (pre talker time lat ns lon : Str) (rest : List Str) (c : Char) (hc : foreign c = true) (h1 : lat ≠ []) (h2 : lon ≠ [])
    (h : c ∈ lat ∨ c ∈ lon) (hwf : WellFormed pre talker ([time, lat, ns, lon] ++ rest)) :
    navcoords [ggaLine pre talker ([time, lat, ns, lon] ++ rest)] talker = .error .valueError ∧
      ∀ a b out, navcoords (a ++ ggaLine pre talker ([time, lat, ns, lon] ++ rest) :: b) talker ≠ .ok out := by
  have hone : navcoords [ggaLine pre talker ([time, lat, ns, lon] ++ rest)] talker = .error .valueError := by
    unfold navcoords
    rw [talkerLines_single (ggaLine_hasSub _ _ _), mapM_single]
    unfold coordLine
    rw [ggaLine_fields hwf]
    show Except.map _ (if lat = [] then _ else if lon = [] then _ else (do
      let la ← degMin 2 lat (.ok ns) ['S']
      let lo ← degMin 3 lon (pyGet (time :: lat :: ns :: lon :: rest) 4) ['W']
      return (lo, la)) : Except PyErr (Option ℚ × Option ℚ)) = _
    rw [if_neg h1, if_neg h2]
    rcases h with h | h
    · rw [degMin_foreign 2 lat _ ['S'] c h hc]; rfl
    · rw [degMin_foreign 3 lon _ ['W'] c h hc]
      rcases degMin_value 2 lat ns ['S'] with ⟨v, hv⟩ | hv <;> rw [hv] <;> rfl
  refine ⟨hone, fun a b out ho => ?_⟩
  rw [C23_one_position_per_talker_line] at ho
  have hm : ggaLine pre talker ([time, lat, ns, lon] ++ rest) ∈
      (a ++ ggaLine pre talker ([time, lat, ns, lon] ++ rest) :: b).filter (fun l => decide (talker <:+: l)) := by
    rw [List.mem_filter]
    refine ⟨by simp, ?_⟩
    have := ggaLine_hasSub pre talker ([time, lat, ns, lon] ++ rest)
    simpa [hasSub] using this
  have key : ∀ (l : List Str) (o : List (Option ℚ × Option ℚ)), List.Forall₂ (fun line c => navcoords [line] talker = .ok [c]) l o →
      ∀ x ∈ l, ∃ y, navcoords [x] talker = .ok [y] := by
    intro l o hf
    induction hf with
    | nil => simp
    | cons h1 _ ih =>
      intro x hx
      rcases List.mem_cons.1 hx with rfl | hx
      · exact ⟨_, h1⟩
      · exact ih x hx
  obtain ⟨y, hy⟩ := key _ _ ho _ hm
  rw [hone] at hy
  cases hy

/-- **C23.** A talker line that breaks off before its fifth field is never read as a position: unless the latitude or longitude field is there and
empty, the call raises. -/
theorem C23_cut_off (pre talker : Str) (fields : List Str) (hl : fields.length < 5) (h1 : fields[1]? ≠ some []) (h3 : fields[3]? ≠ some [])
    (hwf : WellFormed pre talker fields) : ∃ e, navcoords [ggaLine pre talker fields] talker = .error e := by
  unfold navcoords
  rw [talkerLines_single (ggaLine_hasSub _ _ _), mapM_single]
  unfold coordLine
  rw [ggaLine_fields hwf]
  match fields, hl, h1, h3 with
  | [], _, _, _ => exact ⟨_, rfl⟩
  | [_], _, _, _ => exact ⟨_, rfl⟩
  | [_, lat], _, h1, _ =>
    refine ⟨.indexError, ?_⟩
    show Except.map _ (if lat = [] then _ else _ : Except PyErr (Option ℚ × Option ℚ)) = _
    rw [if_neg (fun h => h1 (congrArg some h))]; rfl
  | [_, lat, _], _, h1, _ =>
    refine ⟨.indexError, ?_⟩
    show Except.map _ (if lat = [] then _ else _ : Except PyErr (Option ℚ × Option ℚ)) = _
    rw [if_neg (fun h => h1 (congrArg some h))]; rfl
  | [time, lat, ns, lon], _, h1, h3 =>
    show ∃ e, Except.map _ (if lat = [] then _ else if lon = [] then _ else (do
      let la ← degMin 2 lat (.ok ns) ['S']
      let lo ← degMin 3 lon (.error .indexError) ['W']
      return (lo, la)) : Except PyErr (Option ℚ × Option ℚ)) = _
    rw [if_neg (fun h => h1 (congrArg some h)), if_neg (fun h => h3 (congrArg some h))]
    rcases degMin_value 2 lat ns ['S'] with ⟨v, hv⟩ | hv
    · rw [hv]
      have : ∃ e, degMin 3 lon (.error .indexError) ['W'] = .error e := by
        unfold degMin pyInt pyFloatQ
        cases parseInt (lon.take 3) with
        | none => exact ⟨_, rfl⟩
        | some d =>
          cases parseFloat (lon.drop 3) with
          | none => exact ⟨_, rfl⟩
          | some x => cases x <;> exact ⟨_, rfl⟩
      obtain ⟨e, he⟩ := this
      rw [he]; exact ⟨_, rfl⟩
    · rw [hv]; exact ⟨_, rfl⟩

/-! ## Non-vacuity -/

example : foreign '?' = true ∧ '?' ∈ "41?1.50".toList ∧ WellFormed "$".toList "GPGGA".toList
    ["120000".toList, "41?1.50".toList, "N".toList, "07030.00".toList, "W".toList, "\n".toList] :=
  ⟨by decide, by decide, ⟨by decide, by decide +kernel, by decide +kernel, by decide +kernel⟩⟩

example : WellFormed "$".toList "GPGGA".toList ["120000".toList, "4111.50".toList, "N".toList, "07030.00".toList] :=
  ⟨by decide, by decide +kernel, by decide +kernel, by decide +kernel⟩

end Shipgrav
