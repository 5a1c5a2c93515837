import Verif.Model.Dgs
import Verif.Lemmas.Bgm

/-! C140: lines without data in the files of the DGS. -/

namespace Shipgrav

private theorem csv_blank (u v : List Str) (b : Str) (hb : ∀ c ∈ b, c = ' ' ∨ c = '\t') : csvRecords ',' (u ++ b :: v) = csvRecords ',' (u ++ v) := by
  refine csvRecords_blank ',' u v b hb fun h => ?_
  rcases hb ',' (List.mem_of_mem_head? h) with h | h <;> revert h <;> decide

private theorem general_congr (dates : Dates) (l l' : List Str) (h : csvRecords ',' l = csvRecords ',' l') : laptopGeneral dates l = laptopGeneral dates l' := by
  unfold laptopGeneral
  rw [h]

private theorem cleaned_append (u v : List Str) : langsethCleaned (u ++ v) = langsethCleaned u ++ langsethCleaned v := by
  induction u with
  | nil => rfl
  | cons a u ih =>
    simp only [List.cons_append, langsethCleaned]
    cases langsethTail a with
    | none => exact ih
    | some t =>
      simp only
      split
      · exact ih
      · rw [ih]; rfl

private theorem cleaned_blank (u v : List Str) (b : Str) (hb : ∀ c ∈ b, c = ' ' ∨ c = '\t') : langsethCleaned (u ++ b :: v) = langsethCleaned (u ++ v) := by
  have h : lstrip b = [] := by
    have hs : ∀ c ∈ b, isSpace c = true := by
      intro c hc
      rcases hb c hc with rfl | rfl <;> decide
    unfold lstrip
    have := List.dropWhile_append_of_pos (l₂ := []) hs
    simpa using this
  rw [cleaned_append, cleaned_append]
  congr 1
  simp only [langsethCleaned, langsethTail, h]
  rfl

private theorem loop_congr (read : Option TableReader) (f f' : List Str) (h : ∀ r, read = some r → r f = r f') (A B : List (List Str)) :
    ∀ dats, laptopLoop read (A ++ f :: B) dats = laptopLoop read (A ++ f' :: B) dats := by
  induction A with
  | nil =>
    intro dats
    cases read with
    | none => rfl
    | some r => simp only [List.nil_append, laptopLoop, h r rfl]
  | cons a A ih =>
    intro dats
    cases read with
    | none => rfl
    | some r =>
      simp only [List.cons_append, laptopLoop, bind, Except.bind]
      cases r a with
      | error e => rfl
      | ok d => exact ih _

/-- **C140.** A line of blanks anywhere in a laptop file (behind the header of the Sikuliaq) has no effect. -/
theorem C140_laptop (dates : Dates) (ship : Str) (A B : List (List Str)) (u v : List Str) (b : Str) (hb : ∀ c ∈ b, c = ' ' ∨ c = '\t')
    (hu : ship = "Sikuliaq".toList → 19 ≤ u.length) :
    readDgsLaptop dates (.many (A ++ (u ++ b :: v) :: B)) ship none = readDgsLaptop dates (.many (A ++ (u ++ v) :: B)) ship none := by
  refine loop_congr _ _ _ ?_ A B []
  intro r hr
  have hr : laptopBuiltin dates ship = some r := hr
  unfold laptopBuiltin at hr
  have e := csv_blank u v b hb
  split_ifs at hr with h1 h2 h3 h4
  · injection hr with hr; subst hr
    exact general_congr _ _ _ e
  · injection hr with hr; subst hr
    unfold laptopThompson
    rw [e]
  · injection hr with hr; subst hr
    refine general_congr _ _ _ ?_
    have := hu h3
    rw [List.drop_append_of_le_length this, List.drop_append_of_le_length this]
    exact csv_blank _ _ _ hb
  · injection hr with hr; subst hr
    unfold laptopLangseth
    rw [cleaned_blank u v b hb]

private theorem mapM_congr_file (r : List Str → Except PyErr Table) (f f' : List Str) (h : r f = r f') (A B : List (List Str)) :
    (A ++ f :: B).mapM r = (A ++ f' :: B).mapM r := by
  rw [List.mapM_append, List.mapM_append, List.mapM_cons, List.mapM_cons, h]

private theorem tab_blank (u v : List Str) (b : Str) (hb : ∀ c ∈ b, c = ' ' ∨ c = '\t') (hh : b.head? ≠ some '\t') (c : Str) :
    csvRecords '\t' ((u ++ (b ++ c) :: v).map dropComment) = csvRecords '\t' ((u ++ v).map dropComment) ∨ c.head? ≠ some '#' ∧ c ≠ [] := by
  by_cases hc : c.head? ≠ some '#' ∧ c ≠ []
  · exact Or.inr hc
  left
  have hd : dropComment (b ++ c) = b := by
    unfold dropComment
    have hb' : ∀ x ∈ b, (decide (x ≠ '#')) = true := by
      intro x hx
      rcases hb x hx with rfl | rfl <;> decide
    rw [List.takeWhile_append_of_pos hb']
    cases c with
    | nil => simp
    | cons x c =>
      have : x = '#' := by simpa using hc
      subst this
      simp
  rw [List.map_append, List.map_append, List.map_cons, hd]
  exact csvRecords_blank '\t' _ _ b hb hh

private theorem sikuliaq_congr (dates : Dates) (l l' : List Str) (h : csvRecords '\t' (l.map dropComment) = csvRecords '\t' (l'.map dropComment)) :
    rawSikuliaq dates l = rawSikuliaq dates l' := by
  unfold rawSikuliaq
  rw [h]

/-- **C140.** Likewise in a raw file, except that on the Sikuliaq, where tabs stand between the fields, the line must not start with a tab. -/
theorem C140_raw (dates : Dates) (ship : Str) (scale : Bool) (A B : List (List Str)) (u v : List Str) (b : Str) (hb : ∀ c ∈ b, c = ' ' ∨ c = '\t')
    (hu : ship = "Sikuliaq".toList → b.head? ≠ some '\t') :
    readDgsRaw dates (.many (A ++ (u ++ b :: v) :: B)) ship scale = readDgsRaw dates (.many (A ++ (u ++ v) :: B)) ship scale := by
  unfold readDgsRaw
  refine congrArg (· >>= concat) (mapM_congr_file _ _ _ ?_ A B)
  have e := csv_blank u v b hb
  unfold rawFile rawReader
  by_cases h1 : ship = "Thompson".toList
  · simp only [if_pos h1]; unfold rawThompson; rw [e]
  by_cases h2 : ship = "Sikuliaq".toList
  · simp only [if_neg h1, if_pos h2]
    have := (tab_blank u v b hb (hu h2) []).resolve_right (by simp)
    rw [List.append_nil] at this
    rw [sikuliaq_congr _ _ _ this]
  · simp only [if_neg h1, if_neg h2]; unfold rawGeneral; rw [e]

/-- **C140.** In a raw file of the Sikuliaq a line that holds only a comment has no effect, and neither has a comment behind a record. -/
theorem C140_comments (dates : Dates) (scale : Bool) (A B : List (List Str)) (u v : List Str) (c : Str) :
    (∀ b : Str, (∀ x ∈ b, x = ' ' ∨ x = '\t') → b.head? ≠ some '\t' →
      readDgsRaw dates (.many (A ++ (u ++ (b ++ '#' :: c) :: v) :: B)) "Sikuliaq".toList scale = readDgsRaw dates (.many (A ++ (u ++ v) :: B)) "Sikuliaq".toList scale) ∧
    ∀ l : Str, readDgsRaw dates (.many (A ++ (u ++ (l ++ '#' :: c) :: v) :: B)) "Sikuliaq".toList scale =
      readDgsRaw dates (.many (A ++ (u ++ l :: v) :: B)) "Sikuliaq".toList scale := by
  have key : ∀ f f' : List Str, csvRecords '\t' (f.map dropComment) = csvRecords '\t' (f'.map dropComment) →
      readDgsRaw dates (.many (A ++ f :: B)) "Sikuliaq".toList scale = readDgsRaw dates (.many (A ++ f' :: B)) "Sikuliaq".toList scale := by
    intro f f' h
    unfold readDgsRaw
    refine congrArg (· >>= concat) (mapM_congr_file _ _ _ ?_ A B)
    unfold rawFile rawReader
    simp only [if_neg (show "Sikuliaq".toList ≠ "Thompson".toList by decide), if_pos]
    rw [sikuliaq_congr _ _ _ h]
  constructor
  · intro b hb hh
    exact key _ _ ((tab_blank u v b hb hh ('#' :: c)).resolve_right (by simp))
  · intro l
    refine key _ _ (congrArg (csvRecords '\t') ?_)
    rw [List.map_append, List.map_append, List.map_cons, List.map_cons]
    congr 2
    unfold dropComment
    induction l with
    | nil => simp
    | cons x l ih =>
      rw [List.cons_append, List.takeWhile_cons, List.takeWhile_cons, ih]

/-! ### The hypotheses are met -/

example (dates : Dates) := C140_laptop dates "Ride".toList [] [["4,5".toList]] ["1,2".toList] ["3".toList] " \t".toList (by decide) (by decide)
example (dates : Dates) := C140_laptop dates "Sikuliaq".toList [] [] (List.replicate 19 "header".toList) ["3".toList] [] (by simp) (by simp)
example (dates : Dates) := C140_raw dates "Sikuliaq".toList true [] [] ["a".toList] ["b".toList] " \t".toList (by decide) (by decide)
/-- Comments do cut records. -/
example : csvRecords '\t' (["# head".toList, "a\tb#c".toList, "".toList, "\t\t".toList].map dropComment) = ["a\tb".toList, "\t\t".toList] := by decide

end Shipgrav
