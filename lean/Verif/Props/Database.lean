import Verif.Model.Database
import Verif.Props.Toml
import Verif.Model.ReadNav
import Verif.Model.Bgm
import Verif.Spec.Bgm
import Verif.Spec.ReadNav

/-! C164: the database of ships (`/repo/shipgrav/database.toml`). -/

namespace Shipgrav
open Spec

/-- The tables of the database. -/
private theorem tables_eq : tomlTables databaseText = some
    [("bias-values".toList, [("Atlantis".toList, .table [("dgs".toList, .num 969751.259), ("bgm".toList, .num 855580.65)]),
      ("Thompson".toList, .table [("dgs".toList, .num 969492.789), ("bgm".toList, .num 855489.8)]),
      ("Revelle".toList, .table [("dgs".toList, .num 968888.6465), ("bgm".toList, .num 855240.81987)]),
      ("NBP".toList, .table [("dgs".toList, .num 968634.2514), ("bgm".toList, .num (-999))]),
      ("Ride".toList, .table [("dgs".toList, .num 968895.7718), ("bgm".toList, .num (-999))]),
      ("Langseth".toList, .table [("dgs".toList, .num 969376.125), ("bgm".toList, .num 854974.4)]),
      ("Sikuliaq".toList, .table [("dgs".toList, .num 969538.8152), ("bgm".toList, .num (-999))])]),
     ("nav-talkers".toList, navTalkers.map fun p => (p.1, .plain (.str p.2))),
     ("BGM-scale".toList, bgmScales.map fun p => (p.1, .plain (.num p.2))),
     ("dgs-stuff".toList, [("calibration_factor".toList, .plain (.num 8388607))])] := by
  decide +kernel

private theorem lookup_mapped {α β : Type} (f : α → β) (l : List (Str × α)) (k : Str) : (l.map fun p => (p.1, f p.2)).lookup k = (l.lookup k).map f := by
  induction l with
  | nil => rfl
  | cons p l ih =>
    rw [List.map_cons, List.lookup_cons, List.lookup_cons, ih]
    cases k == p.1 <;> rfl

private theorem info_nav : infoTable databaseText "nav-talkers".toList = some (navTalkers.map fun p => (p.1, .plain (.str p.2))) := by
  unfold infoTable; rw [tables_eq]; rfl

private theorem info_bgm : infoTable databaseText "BGM-scale".toList = some (bgmScales.map fun p => (p.1, .plain (.num p.2))) := by
  unfold infoTable; rw [tables_eq]; rfl

/-- **C164.** The talker that the database gives for a ship, for every name of a ship, is the one `read_nav` is modelled with. -/
theorem C164_talker (ship : Str) : talkerOf databaseText ship = (navTalkers.lookup ship).map fun t => .plain (.str t) := by
  unfold talkerOf
  rw [info_nav]
  rw [Option.bind_some]
  exact lookup_mapped (fun t => TableVal.plain (.str t)) _ _

/-- **C164.** So is the scale factor of `read_bgm_raw`. -/
theorem C164_scale (ship : Str) : scaleOf databaseText ship = (bgmScales.lookup ship).map fun q => .plain (.num q) := by
  unfold scaleOf
  rw [info_bgm]
  rw [Option.bind_some]
  exact lookup_mapped (fun q => TableVal.plain (.num q)) _ _

/-- The biases of the database. -/
private def biases : List (Str × ℚ × ℚ) :=
  [("Atlantis".toList, 969751.259, 855580.65), ("Thompson".toList, 969492.789, 855489.8), ("Revelle".toList, 968888.6465, 855240.81987),
   ("NBP".toList, 968634.2514, -999), ("Ride".toList, 968895.7718, -999), ("Langseth".toList, 969376.125, 854974.4), ("Sikuliaq".toList, 969538.8152, -999)]

private theorem info_bias : infoTable databaseText "bias-values".toList =
    some (biases.map fun p => (p.1, .table [("dgs".toList, .num p.2.1), ("bgm".toList, .num p.2.2)])) := by
  unfold infoTable; rw [tables_eq]; rfl

private theorem bias_dgs (ship : Str) : biasOf databaseText ship "dgs".toList = (biases.lookup ship).map fun p => .num p.1 := by
  unfold biasOf
  rw [info_bias, Option.bind_some, lookup_mapped (fun p : ℚ × ℚ => TableVal.table [("dgs".toList, .num p.1), ("bgm".toList, .num p.2)])]
  cases biases.lookup ship <;> rfl

private theorem bias_bgm (ship : Str) : biasOf databaseText ship "bgm".toList = (biases.lookup ship).map fun p => .num p.2 := by
  unfold biasOf
  rw [info_bias, Option.bind_some, lookup_mapped (fun p : ℚ × ℚ => TableVal.table [("dgs".toList, .num p.1), ("bgm".toList, .num p.2)])]
  cases biases.lookup ship <;> rfl

/-- **C164.** A ship has biases exactly if it has a talker; the bias of the DGS is always a value, and that of the BGM is a value, not the mark `-999`,
exactly if the ship has a scale factor. -/
theorem C164_biases (ship : Str) :
    ((∃ q, biasOf databaseText ship "dgs".toList = some (.num q)) ↔ talkerOf databaseText ship ≠ none) ∧
    ((∃ q, biasOf databaseText ship "bgm".toList = some (.num q)) ↔ talkerOf databaseText ship ≠ none) ∧
    (∀ q, biasOf databaseText ship "dgs".toList = some (.num q) → 968000 < q ∧ q < 970000) ∧
    (∀ q, biasOf databaseText ship "bgm".toList = some (.num q) → (q = -999 ∨ 854000 < q ∧ q < 856000)) ∧
    ((∃ q, biasOf databaseText ship "bgm".toList = some (.num q) ∧ q ≠ -999) ↔ scaleOf databaseText ship ≠ none) := by
  rw [bias_dgs, bias_bgm, C164_talker, C164_scale]
  by_cases h : ship ∈ biases.map Prod.fst
  · simp only [biases, List.map_cons, List.map_nil, List.mem_cons, List.not_mem_nil, or_false] at h
    rcases h with rfl | rfl | rfl | rfl | rfl | rfl | rfl
    all_goals
      simp [biases, navTalkers, bgmScales, List.lookup]
      try norm_num
  · have hn : ∀ {α : Type} (l : List (Str × α)), (∀ k ∈ l.map Prod.fst, k ∈ biases.map Prod.fst) → l.lookup ship = none := by
      intro α l hl
      rw [List.lookup_eq_none_iff]
      rintro ⟨k, v⟩ hp
      simp only [bne_iff_ne, ne_eq, beq_eq_false_iff_ne]
      rintro rfl
      exact h (hl _ (List.mem_map_of_mem (f := Prod.fst) hp))
    rw [hn biases (fun k hk => hk), hn navTalkers (by decide), hn bgmScales (by decide)]
    simp

/-- **C164.** The calibration factor of the DGS counts is the largest number of 23 binary digits. -/
theorem C164_calibration_factor : calibrationFactorOf databaseText = some (.plain (.num (2 ^ 23 - 1))) := by
  unfold calibrationFactorOf infoTable
  rw [tables_eq]
  decide +kernel

/-! ### A line for another ship -/

/-- The line that gives a ship its talker. -/
def talkerLine (ship talker : Str) (n1 n2 : ℕ) : Str :=
  ship ++ List.replicate n1 ' ' ++ '=' :: (List.replicate n2 ' ' ++ ('\'' :: talker ++ ['\'']))

/-- The database with one more line at the end of the table of talkers. -/
def databaseWith (line : Str) : Str :=
  joinC '\n' ((databaseLines.take 17).map String.toList ++ line :: (databaseLines.drop 17).map String.toList)

private theorem talkerLine_eq (ship talker : Str) (n1 n2 : ℕ) (hs : isBareKey ship = true) (ht : Printable talker) (hq : '\'' ∉ talker) :
    tableLine (talkerLine ship talker n1 n2) = some (some (.pair ship (.plain (.str talker)))) := by
  have hp : Printable (talkerLine ship talker n1 n2) :=
    printable_append (printable_append (printable_key hs) (printable_blanks _)) (printable_cons rfl (printable_append (printable_blanks _)
      (printable_cons rfl (printable_append ht (printable_cons rfl (fun c hc => by cases hc))))))
  obtain ⟨e1, e2⟩ := key_take ship n1 '=' (List.replicate n2 ' ' ++ ('\'' :: talker ++ ['\''])) hs (by decide) (by decide)
  obtain ⟨k0, kall⟩ := bareKey_ends hs
  have hkey : tableKey (ship ++ List.replicate n1 ' ') = some ship := by
    unfold tableKey
    rw [trim_key hs]
    have : literal ship = none := by
      obtain ⟨x, xs, rfl⟩ := List.exists_cons_of_ne_nil k0
      have hx : x ≠ '\'' := by rintro rfl; exact absurd (kall '\'' (by simp)) (by decide)
      unfold literal
      split
      · rename_i h; simp at h; exact absurd h.1 hx
      · rfl
    rw [this]
    simp [hs]
  have hval : tableValue ((List.replicate n2 ' ' ++ ('\'' :: talker ++ ['\''])).dropWhile isBlank) = some (.plain (.str talker)) := by
    have hall : ∀ c ∈ talker, decide (c ≠ '\'') = true := by
      intro c hc; simp only [decide_eq_true_eq]; rintro rfl; exact hq hc
    rw [List.dropWhile_append_of_pos (by intro c hc; rw [List.eq_of_mem_replicate hc]; rfl), List.cons_append, List.dropWhile_cons_of_neg (by decide)]
    have hl : literal ('\'' :: (talker ++ ['\''])) = some (talker, []) := by
      show (match (talker ++ ['\'']).dropWhile (· ≠ '\'') with
        | [] => none
        | _ :: rest => some ((talker ++ ['\'']).takeWhile (· ≠ '\''), rest)) = _
      rw [List.takeWhile_append_of_pos hall, List.dropWhile_append_of_pos hall]
      simp
    show (plainValue ('\'' :: (talker ++ ['\'']))).map TableVal.plain = _
    unfold plainValue
    rw [hl]
    rfl
  unfold tableLine
  rw [not_any hp]
  obtain ⟨x, xs, rfl⟩ := List.exists_cons_of_ne_nil k0
  obtain ⟨b1, _, _, b3, b4, _⟩ := bare_props x (kall x (by simp))
  have hd : (talkerLine (x :: xs) talker n1 n2).dropWhile isBlank = talkerLine (x :: xs) talker n1 n2 := by
    unfold talkerLine
    rw [List.cons_append, List.cons_append, List.dropWhile_cons_of_neg (by simp [b1])]
  rw [hd]
  rw [if_neg (by simp)]
  split
  · rename_i hl; cases hl
  · rename_i hl; rw [talkerLine, List.cons_append, List.cons_append, List.cons.injEq] at hl; exact absurd hl.1 b3
  · rename_i hl; rw [talkerLine, List.cons_append, List.cons_append, List.cons.injEq] at hl; exact absurd hl.1 b4
  · rw [talkerLine, e2, e1]
    simp only [hkey, hval]
    rfl

private def before : List (Option TableStmt) :=
  some (.header "bias-values".toList) ::
    (biases.map fun p => some (.pair p.1 (.table [("dgs".toList, .num p.2.1), ("bgm".toList, .num p.2.2)]))) ++
  none :: some (.header "nav-talkers".toList) :: navTalkers.map fun p => some (.pair p.1 (.plain (.str p.2)))

private def after : List (Option TableStmt) :=
  none :: some (.header "BGM-scale".toList) :: (bgmScales.map fun p => some (.pair p.1 (.plain (.num p.2)))) ++
  [none, some (.header "dgs-stuff".toList), some (.pair "calibration_factor".toList (.plain (.num 8388607))), none]

private theorem before_eq : ((databaseLines.take 17).map String.toList).mapM tableLine = some before := by decide +kernel

private theorem after_eq : ((databaseLines.drop 17).map String.toList).mapM tableLine = some after := by decide +kernel

private theorem with_eq (line new : Str) (v : TableVal) (hl : tableLine line = some (some (.pair new v))) :
    tomlTables (databaseWith line) = if new ∈ navTalkers.map Prod.fst then none else some
    [("bias-values".toList, biases.map fun p => (p.1, .table [("dgs".toList, .num p.2.1), ("bgm".toList, .num p.2.2)])),
     ("nav-talkers".toList, (navTalkers.map fun p => (p.1, .plain (.str p.2))) ++ [(new, v)]),
     ("BGM-scale".toList, bgmScales.map fun p => (p.1, .plain (.num p.2))),
     ("dgs-stuff".toList, [("calibration_factor".toList, .plain (.num 8388607))])] := by
  have hn : '\n' ∉ line := by
    intro hn
    unfold tableLine at hl
    rw [if_pos (List.any_eq_true.2 ⟨'\n', hn, by decide⟩)] at hl
    cases hl
  have hsplit : splitC '\n' (databaseWith line) = (databaseLines.take 17).map String.toList ++ line :: (databaseLines.drop 17).map String.toList := by
    unfold databaseWith
    apply splitC_joinC
    · simp
    · intro f hf
      rcases List.mem_append.1 hf with h | h
      · exact (by decide : ∀ f ∈ (databaseLines.take 17).map String.toList, '\n' ∉ f) f h
      · rcases List.mem_cons.1 h with rfl | h
        · exact hn
        · exact (by decide : ∀ f ∈ (databaseLines.drop 17).map String.toList, '\n' ∉ f) f h
  have hmap : (splitC '\n' (databaseWith line)).mapM tableLine = some (before ++ some (.pair new v) :: after) := by
    rw [hsplit, List.mapM_append, List.mapM_cons, before_eq, after_eq, hl]; rfl
  unfold tomlTables
  rw [hmap]
  have hc : collect ((before ++ some (.pair new v) :: after).filterMap id) = some
    [("bias-values".toList, biases.map fun p => (p.1, .table [("dgs".toList, .num p.2.1), ("bgm".toList, .num p.2.2)])),
     ("nav-talkers".toList, (navTalkers.map fun p => (p.1, .plain (.str p.2))) ++ [(new, v)]),
     ("BGM-scale".toList, bgmScales.map fun p => (p.1, .plain (.num p.2))),
     ("dgs-stuff".toList, [("calibration_factor".toList, .plain (.num 8388607))])] := rfl
  simp only [Option.bind_eq_bind, Option.bind_some, hc]
  by_cases h : new ∈ navTalkers.map Prod.fst
  · rw [if_pos h, if_neg]
    rintro ⟨_, h2⟩
    have := h2 _ (List.mem_cons_of_mem _ (List.mem_cons_self ..))
    simp only [List.map_append, List.map_map, List.map_cons, List.map_nil] at this
    exact (List.nodup_append.1 this).2.2 new (by simpa [Function.comp_def] using h) new (by simp) rfl
  · rw [if_neg h, if_pos]
    · rfl
    · refine ⟨by simp only [List.map_cons, List.map_nil]; decide, ?_⟩
      intro t ht
      simp only [List.mem_cons, List.not_mem_nil, or_false] at ht
      rcases ht with rfl | rfl | rfl | rfl
      · simp only [List.map_map]; decide
      · simp only [List.map_append, List.map_map, List.map_cons, List.map_nil]
        refine List.nodup_append.2 ⟨by decide, by simp, ?_⟩
        intro a ha b hb
        rw [List.mem_singleton.1 hb]
        rintro rfl
        exact h (by simpa [Function.comp_def] using ha)
      · simp only [List.map_map]; decide
      · simp

/-- **C164.** A line for another ship at the end of the table of talkers gives that ship its talker, and changes nothing for other ships; a second line for
a ship makes the database unreadable. -/
theorem C164_add_ship (new talker : Str) (n1 n2 : ℕ) (hs : isBareKey new = true) (ht : Printable talker) (hq : '\'' ∉ talker) (ship : Str) :
    (talkerOf databaseText new = none →
      talkerOf (databaseWith (talkerLine new talker n1 n2)) ship = (if ship = new then some (.plain (.str talker)) else talkerOf databaseText ship) ∧
      scaleOf (databaseWith (talkerLine new talker n1 n2)) ship = scaleOf databaseText ship ∧
      ∀ meter, biasOf (databaseWith (talkerLine new talker n1 n2)) ship meter = biasOf databaseText ship meter) ∧
    (talkerOf databaseText new ≠ none → tomlTables (databaseWith (talkerLine new talker n1 n2)) = none) := by
  have hw := with_eq _ new _ (talkerLine_eq new talker n1 n2 hs ht hq)
  have hmem : new ∈ navTalkers.map Prod.fst ↔ talkerOf databaseText new ≠ none := by
    rw [C164_talker, ne_eq, Option.map_eq_none_iff, List.lookup_eq_none_iff]
    simp only [List.mem_map, beq_eq_false_iff_ne]
    constructor
    · rintro ⟨p, hp, rfl⟩ h
      simpa using h p hp
    · intro h
      by_contra hc
      exact h fun p hp => by simpa using fun e => hc ⟨p, hp, e.symm⟩
  constructor
  · intro h
    rw [if_neg (by rw [hmem]; simpa using h)] at hw
    refine ⟨?_, ?_, fun meter => ?_⟩
    · unfold talkerOf at h ⊢
      rw [info_nav] at h ⊢
      unfold infoTable
      rw [hw]
      show ((navTalkers.map fun p => (p.1, TableVal.plain (.str p.2))) ++ [(new, TableVal.plain (.str talker))]).lookup ship = _
      rw [List.lookup_append]
      by_cases e : ship = new
      · subst e
        rw [Option.bind_some] at h ⊢
        rw [h]; simp
      · rw [if_neg e]
        have : (ship == new) = false := by simpa using e
        simp [List.lookup_cons, this]
    · unfold scaleOf infoTable
      rw [hw, tables_eq]; rfl
    · unfold biasOf infoTable
      rw [hw, tables_eq]; rfl
  · intro h
    rw [hw, if_pos (hmem.2 h)]

/-! ## Non-vacuity -/

example : talkerOf databaseText "Thompson".toList = some (.plain (.str "INGGA".toList)) ∧ biasOf databaseText "NBP".toList "bgm".toList = some (.num (-999)) ∧
    biasOf databaseText "Revelle".toList "bgm".toList = some (.num 855240.81987) := by
  decide +kernel

/-- Another ship. -/
example : talkerOf databaseText "Armstrong".toList = none ∧ isBareKey "Armstrong".toList = true ∧
    talkerLine "Armstrong".toList "GPGGA".toList 1 1 = "Armstrong = 'GPGGA'".toList := by
  decide

end Shipgrav
