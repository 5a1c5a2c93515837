import Verif.Lemmas.Bgm

/-! C144: lines of blanks in the files of the BGM. -/

namespace Shipgrav

private theorem loop_congr (read : Option TableReader) (scale : ℚ) (f f' : List Str) (h : ∀ r, read = some r → r f = r f') (A B : List (List Str)) :
    ∀ dats, bgmLoop read scale (A ++ f :: B) dats = bgmLoop read scale (A ++ f' :: B) dats := by
  induction A with
  | nil =>
    intro dats
    cases read with
    | none => rfl
    | some r => simp only [List.nil_append, bgmLoop, h r rfl]
  | cons a A ih =>
    intro dats
    cases read with
    | none => rfl
    | some r =>
      simp only [List.cons_append, bgmLoop, bind, Except.bind]
      cases r a with
      | error e => rfl
      | ok d =>
        simp only
        cases addGravity scale d with
        | error e => rfl
        | ok d => exact ih _

private theorem comma_head (b : Str) (hb : ∀ c ∈ b, c = ' ' ∨ c = '\t') : b.head? ≠ some ',' := by
  intro h
  rcases hb ',' (List.mem_of_mem_head? h) with h | h <;> revert h <;> decide

/-- **C144.** A line of blanks anywhere in a serial file has no effect.  On the Atlantis and the Revelle, whose fields are separated by spaces, it must not
start with a space.  On the Langseth, where the columns are found from the first 100 lines, it must stand behind them, or the file be no longer. -/
theorem C144_raw (other : OtherTimes) (ship : Str) (scale : Option ℚ) (A B : List (List Str)) (u v : List Str) (b : Str)
    (hb : ∀ c ∈ b, c = ' ' ∨ c = '\t')
    (hs : ship = "Atlantis".toList ∨ ship = "Revelle".toList → b.head? ≠ some ' ')
    (hl : ship = "Langseth".toList → 100 ≤ u.length ∨ u.length + v.length < 100) :
    readBgmRaw other (A ++ (u ++ b :: v) :: B) ship scale none = readBgmRaw other (A ++ (u ++ v) :: B) ship scale none := by
  unfold readBgmRaw
  cases scale.or (bgmScales.lookup ship) with
  | none => rfl
  | some sc =>
    refine loop_congr _ _ _ _ ?_ A B []
    intro r hr
    have hr : bgmBuiltin other ship = some r := hr
    unfold bgmBuiltin at hr
    split_ifs at hr with h1 h2 h3 h4
    · injection hr with hr; subst hr
      unfold bgmAtlantis
      rw [csvRecords_blank ' ' u v b hb (hs (Or.inl h1))]
    · injection hr with hr; subst hr
      unfold bgmThompson
      rw [csvRecords_blank ',' u v b hb (comma_head b hb)]
    · injection hr with hr; subst hr
      unfold bgmRevelle
      rw [csvRecords_blank ' ' u v b hb (hs (Or.inr h3))]
    · injection hr with hr; subst hr
      have e := fwfEdges_blank u v b hb (hl h4)
      unfold bgmLangseth
      simp only [e, fwfRecords_blank _ u v b hb]
      rw [if_neg (by simp)]
      by_cases h0 : u ++ v = []
      · rw [h0]
        rfl
      · rw [if_neg h0]

/-- **C144.** The same for RGS files, whose fields are separated by spaces. -/
theorem C144_rgs (other : OtherTimes) (ship : Str) (A B : List (List Str)) (u v : List Str) (b : Str)
    (hb : ∀ c ∈ b, c = ' ' ∨ c = '\t') (hs : b.head? ≠ some ' ') :
    readBgmRgs other (A ++ (u ++ b :: v) :: B) ship = readBgmRgs other (A ++ (u ++ v) :: B) ship := by
  have : rgsFile other (u ++ b :: v) = rgsFile other (u ++ v) := by
    unfold rgsFile
    rw [csvRecords_blank ' ' u v b hb hs]
  unfold readBgmRgs
  rw [List.mapM_append, List.mapM_append, List.mapM_cons, List.mapM_cons, this]

private theorem piece_sub (c : Char) (s : Str) : ∀ f ∈ splitC c s, ∀ x ∈ f, x ∈ s := by
  induction s with
  | nil => intro f hf x hx; simp [splitC] at hf; subst hf; cases hx
  | cons a s ih =>
    intro f hf x hx
    unfold splitC at hf
    split at hf
    · rcases List.mem_cons.1 hf with rfl | hf
      · cases hx
      · exact List.mem_cons_of_mem _ (ih f hf x hx)
    · cases hsp : splitC c s with
      | nil => exact absurd hsp (splitC_ne_nil c s)
      | cons y t =>
        rw [hsp] at hf ih
        rcases List.mem_cons.1 hf with rfl | hf
        · rcases List.mem_cons.1 hx with rfl | hx
          · exact List.mem_cons_self
          · exact List.mem_cons_of_mem _ (ih y List.mem_cons_self x hx)
        · exact List.mem_cons_of_mem _ (ih f (List.mem_cons_of_mem _ hf) x hx)

private theorem count_blank (s : Str) (h : ∀ c ∈ s, c = ' ' ∨ c = '\t') : countText s = .error .valueError := by
  have hs : ∀ c ∈ s, isSpace c = true := by
    intro c hc
    rcases h c hc with rfl | rfl <;> decide
  unfold countText
  rw [splitC_notMem ':' s (fun hc => by rcases h ':' hc with h | h <;> revert h <;> decide)]
  show pyInt s = _
  have : strip s = [] := by
    unfold strip lstrip
    rw [List.dropWhile_eq_nil_iff.2 hs]
    rfl
  unfold pyInt parseInt
  rw [this]
  rfl

private theorem field_blank (delim : Char) (i : ℕ) (b : Str) (hb : ∀ c ∈ b, c = ' ' ∨ c = '\t') : ∀ c ∈ fieldText delim i b, c = ' ' ∨ c = '\t' := by
  intro c hc
  unfold fieldText csvField at hc
  cases h : (splitC delim b)[i]? with
  | none => rw [h] at hc; cases hc
  | some f =>
    rw [h] at hc
    exact hb c (piece_sub delim b f (List.mem_of_getElem? h) c hc)

private theorem mapM_stops {α β : Type} (f : α → Except PyErr β) (l : List α) (x : α) (e : PyErr) (hx : x ∈ l) (hf : f x = .error e) :
    ∃ e', l.mapM f = .error e' := by
  induction l with
  | nil => cases hx
  | cons a l ih =>
    rw [List.mapM_cons]
    cases ha : f a with
    | error e' => exact ⟨e', rfl⟩
    | ok y =>
      rcases List.mem_cons.1 hx with rfl | hx
      · rw [hf] at ha; cases ha
      · obtain ⟨e', he⟩ := ih hx
        exact ⟨e', by rw [he]; rfl⟩

/-- **C144.** On these two ships a line of blanks that does start with a space raises, wherever it stands. -/
theorem C144_space_raises (other : OtherTimes) (ship : Str) (scale : Option ℚ) (A B : List (List Str)) (u v : List Str) (b : Str)
    (hship : ship = "Atlantis".toList ∨ ship = "Revelle".toList) (hb : ∀ c ∈ b, c = ' ' ∨ c = '\t') :
    ∃ e, readBgmRaw other (A ++ (u ++ (' ' :: b) :: v) :: B) ship scale none = .error e := by
  have hblank : ∀ c ∈ ' ' :: b, c = ' ' ∨ c = '\t' := by
    intro c hc
    rcases List.mem_cons.1 hc with rfl | hc
    · exact Or.inl rfl
    · exact hb c hc
  have hmem : (' ' :: b) ∈ csvRecords ' ' (u ++ (' ' :: b) :: v) := by
    unfold csvRecords
    rw [List.mem_filter]
    exact ⟨by simp, by simp⟩
  have hc : ∀ i, ∃ e, (csvRecords ' ' (u ++ (' ' :: b) :: v)).mapM (fun r => countText (fieldText ' ' i r)) = .error e := fun i =>
    mapM_stops _ _ _ _ hmem (count_blank _ (field_blank ' ' i _ hblank))
  have loop : ∀ (read : TableReader) (e : PyErr) (sc : ℚ), read (u ++ (' ' :: b) :: v) = .error e →
      ∃ e', bgmLoop (some read) sc (A ++ (u ++ (' ' :: b) :: v) :: B) [] = .error e' := by
    intro read e sc h
    rw [bgmLoop_eq]
    obtain ⟨e', he⟩ := mapM_stops (fun f => read f >>= addGravity sc) (A ++ (u ++ (' ' :: b) :: v) :: B) _ e
      (List.mem_append_right _ List.mem_cons_self) (by rw [h]; rfl)
    exact ⟨e', by rw [he]; rfl⟩
  rcases hship with rfl | rfl
  · obtain ⟨sc, hsc⟩ : ∃ sc, scale.or (bgmScales.lookup "Atlantis".toList) = some sc := by cases scale <;> exact ⟨_, rfl⟩
    unfold readBgmRaw
    rw [hsc]
    obtain ⟨e, he⟩ := hc 4
    have hr : ∃ e, bgmAtlantis other (u ++ (' ' :: b) :: v) = .error e := by
      unfold bgmAtlantis
      simp only
      cases csvOk ' ' [1, 2, 4] (csvRecords ' ' (u ++ (' ' :: b) :: v)) with
      | error e => exact ⟨e, rfl⟩
      | ok _ => exact ⟨e, by simp only [bind, Except.bind]; rw [he]⟩
    obtain ⟨e, he⟩ := hr
    exact loop _ e sc he
  · obtain ⟨sc, hsc⟩ : ∃ sc, scale.or (bgmScales.lookup "Revelle".toList) = some sc := by cases scale <;> exact ⟨_, rfl⟩
    unfold readBgmRaw
    rw [hsc]
    obtain ⟨e, he⟩ := hc 1
    have hr : ∃ e, bgmRevelle other (u ++ (' ' :: b) :: v) = .error e := by
      unfold bgmRevelle
      simp only
      cases csvOk ' ' [0, 1] (csvRecords ' ' (u ++ (' ' :: b) :: v)) with
      | error e => exact ⟨e, rfl⟩
      | ok _ => exact ⟨e, by simp only [bind, Except.bind]; rw [he]⟩
    obtain ⟨e, he⟩ := hr
    exact loop _ e sc he

/-! ### The hypotheses are met -/

example (other : OtherTimes) := C144_raw other "Atlantis".toList none [] [["x".toList]] ["BGM 2022/07/01 12:17:33.492 BGM3 04:024963 00".toList] [] "\t ".toList
  (by decide) (by decide) (by decide)
example (other : OtherTimes) := C144_raw other "Langseth".toList none [] [] ["vc01\t2020:244:00:00:00.3244\t04:025229 00".toList] [] "  ".toList
  (by decide) (by decide) (fun _ => Or.inr (by decide))
/-- On the Langseth the condition is needed: here a blank line among the first hundred keeps the last line from being looked at, and moves the columns. -/
example : fwfEdges (List.replicate 99 "a b".toList ++ ["".toList] ++ ["abc".toList]) ≠ fwfEdges (List.replicate 99 "a b".toList ++ ["abc".toList]) := by
  decide +kernel

end Shipgrav
