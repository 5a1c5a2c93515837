import Verif.Lemmas.Status

/-! Properties C06–C08 of `decode_dgs_status_bits` (utils.py 74–105). -/

namespace Shipgrav
open Spec

/-! ## C06 -/

/-- C06: for a 16-bit word the `k`-th documented flag is bit `15-k`. -/
theorem C06_decode_16bit (n : ℕ) (hn : n < 2 ^ 16) (key : Str) :
    decodeStatus (.int n) key = .ok (.dict (flagNames.zipIdx.map (fun p => (p.1, bitChar n (15 - p.2))))) := by
  unfold decodeStatus decodeInt
  have h : pickBits (format016b n) 0 flags = .ok (flags.zipIdx.map (fun p => (p.1, bitChar n (15 - p.2)))) := by
    apply pickBits_eq _ (fun k => bitChar n (15 - k))
    intro k _ hk
    have hk' : k < 16 := by have : flags.length = 16 := rfl; omega
    exact zfill_get 16 n k hn hk'
  simp only [h]
  rfl

/-- C06: decoding 16-bit words loses nothing. -/
theorem C06_injective (m n : ℕ) (hm : m < 2 ^ 16) (hn : n < 2 ^ 16) (key : Str)
    (h : decodeStatus (.int m) key = decodeStatus (.int n) key) : m = n := by
  rw [C06_decode_16bit m hm, C06_decode_16bit n hn] at h
  have h' : flagNames.zipIdx.map (fun p => (p.1, bitChar m (15 - p.2)))
      = flagNames.zipIdx.map (fun p => (p.1, bitChar n (15 - p.2))) := by
    injection h with h; injection h
  apply Nat.eq_of_testBit_eq
  intro b
  by_cases hb : b < 16
  · have hlen : flagNames.length = 16 := rfl
    have hk : 15 - b < flagNames.length := by omega
    have := congrArg (fun l => l[15 - b]?) h'
    simp only [List.getElem?_map, List.getElem?_zipIdx, List.getElem?_eq_getElem hk, Option.map_some,
      Option.some.injEq, Prod.mk.injEq] at this
    have h2 := this.2
    rw [show 15 - (0 + (15 - b)) = b by omega] at h2
    unfold bitChar at h2
    cases hmb : m.testBit b <;> cases hnb : n.testBit b <;> simp [hmb, hnb] at h2 ⊢
  · have hp : (2 : ℕ) ^ 16 ≤ 2 ^ b := Nat.pow_le_pow_right (by norm_num) (by omega)
    rw [Nat.testBit_lt_two_pow (by omega), Nat.testBit_lt_two_pow (by omega)]

/-! ## C07 -/

/-- C07: for words of more than 16 bits, flag `k` is the `k`-th bit *from the top* (the word's highest set bit is
number `Nat.log 2 n`), not bit `15-k`. -/
theorem C07_decode_wide (n : ℕ) (hn : 2 ^ 16 ≤ n) (key : Str) :
    decodeStatus (.int n) key = .ok (.dict (flagNames.zipIdx.map (fun p => (p.1, bitChar n (Nat.log 2 n - p.2))))) := by
  unfold decodeStatus decodeInt
  have h : pickBits (format016b n) 0 flags = .ok (flags.zipIdx.map (fun p => (p.1, bitChar n (Nat.log 2 n - p.2)))) := by
    apply pickBits_eq _ (fun k => bitChar n (Nat.log 2 n - k))
    intro k _ hk
    have hk' : k < 16 := by have : flags.length = 16 := rfl; omega
    exact zfill_get_big 16 n k hn hk'
  simp only [h]
  rfl

/-- C07: in particular the first flag of every wide word reads `'1'`, whatever its bit 15 is. -/
theorem C07_wide_first_flag (n : ℕ) (hn : 2 ^ 16 ≤ n) (key : Str) (d : List (Str × Char))
    (h : decodeStatus (.int n) key = .ok (.dict d)) : d.head? = some ("clamp status".toList, '1') := by
  rw [C07_decode_wide n hn] at h
  cases h
  have : n.testBit (Nat.log 2 n) = true := by
    have h0 : n ≠ 0 := by omega
    rw [Nat.testBit_eq_decide_div_mod_eq]
    have h1 := Nat.pow_log_le_self 2 h0
    have h2 := Nat.lt_pow_succ_log_self (b := 2) (by norm_num) n
    have : n / 2 ^ Nat.log 2 n = 1 := by
      apply Nat.div_eq_of_lt_le <;> rw [pow_succ] at * <;> omega
    simp [this]
  simp [flagNames, bitChar, this]

/-- C07: for negative words the first flag reads `'-'`, so it is neither `'0'` nor `'1'`. -/
theorem C07_negative (z : ℤ) (hz : z < 0) (key : Str) :
    ∃ d, decodeStatus (.int z) key = .ok (.dict d) ∧ d.head? = some ("clamp status".toList, '-') := by
  refine ⟨_, decodeStatus_int z key, ?_⟩
  obtain ⟨n, rfl⟩ : ∃ n, z = Int.negSucc n := ⟨(-z - 1).toNat, by omega⟩
  simp [flags, fchar, format016b]

/-- C07: on a wide word with bit 15 clear the decode never agrees with the documented (low 16) bits. -/
theorem C07_wide_disagrees (n : ℕ) (hn : 2 ^ 16 ≤ n) (hb : n.testBit 15 = false) (key : Str) :
    decodeStatus (.int n) key ≠ .ok (.dict (flagNames.zipIdx.map (fun p => (p.1, bitChar n (15 - p.2))))) := by
  intro h
  have := C07_wide_first_flag n hn key _ h
  simp [flagNames, bitChar, hb] at this

/-- C07: anything that is not exactly an `int` or a DataFrame is rejected. -/
theorem C07_other_type (key : Str) : decodeStatus .otherType key = .error .assertionError := rfl

/-! ## C08 -/

/-- C08: decoding a frame. If no flag name is already a column and the status column holds integers, the call succeeds
and the caller's frame becomes: first column, sixteen flag columns in documented order, remaining columns unchanged;
entry `r` of flag column `k` is entry `k` of the decode of the integer in row `r`. -/
theorem C08_frame (first : Col) (rest : Frame) (key : Str) (col : Col) (zs : List ℤ)
    (hkey : getCol (first :: rest) key = .ok col) (hint : col.cells = zs.map Cell.int)
    (hfresh : ∀ c ∈ first :: rest, c.name ∉ flagNames) :
    ∃ new : List Col,
      decodeFrame (first :: rest) key = (first :: new ++ rest, none) ∧
      decodeStatus (.frame (first :: rest)) key = .ok (.frame (first :: new ++ rest)) ∧
      new.map Col.name = flagNames ∧
      ∀ (k : ℕ) (c : Col), new[k]? = some c →
        c.cells.length = col.cells.length ∧
        ∀ (r : ℕ) (z : ℤ), zs[r]? = some z →
          ∃ d ch, decodeStatus (.int z) key = .ok (.dict d) ∧ d[k]? = some (c.name, ch) ∧
            c.cells[r]? = some (Cell.chr ch) := by
  have hdf : decodeFrame (first :: rest) key = (first :: flags.zipIdx.map (flagCol zs) ++ rest, none) := by
    unfold decodeFrame
    have hm : col.cells.mapM formatCell = .ok (zs.map format016b) := by
      rw [hint]
      rw [mapM_ok _ (fun c => match c with | .int z => format016b z | _ => [])]
      · simp [Function.comp_def]
      · intro a ha
        obtain ⟨z, _, rfl⟩ := List.mem_map.1 ha
        rfl
    rw [hkey]
    simp only [hm]
    have hnd : flags.Nodup := by decide
    have := insertFlags_ok zs flags 0 [first] rest (by decide) rfl hnd (by simpa [flags, flagNames] using hfresh) []
    rw [List.append_nil] at this
    rw [show first :: rest = [first] ++ rest from rfl, this]
    simp [insertFlags]
  refine ⟨flags.zipIdx.map (flagCol zs), hdf, ?_, ?_, ?_⟩
  · simp only [decodeStatus, hdf]
  · rw [List.map_map]
    rfl
  · intro k c hc
    rw [List.getElem?_map] at hc
    obtain ⟨p, hp, rfl⟩ := Option.map_eq_some_iff.1 hc
    refine ⟨by simp [flagCol, hint], ?_⟩
    intro r z hz
    refine ⟨_, fchar z p.2, decodeStatus_int z key, ?_, ?_⟩
    · rw [List.getElem?_map, hp]; rfl
    · simp [flagCol, hz]

/-- C08: a second call on the same frame raises `ValueError` and changes nothing. -/
theorem C08_second_call (first : Col) (rest : Frame) (key : Str) (df' : Frame)
    (h : decodeFrame (first :: rest) key = (df', none))
    (hfresh : ∀ c ∈ first :: rest, c.name ∉ flagNames) (hk : key ∉ flagNames) :
    decodeFrame df' key = (df', some .valueError) := by
  unfold decodeFrame at h
  cases hg : getCol (first :: rest) key with
  | error e => rw [hg] at h; simp at h
  | ok col =>
    rw [hg] at h
    simp only at h
    cases hm : col.cells.mapM formatCell with
    | error e => rw [hm] at h; simp at h
    | ok bts =>
      -- all cells are integers
      have hints : ∀ (cs : List Cell) (bs : List Str), cs.mapM formatCell = .ok bs →
          ∃ zs : List ℤ, cs = zs.map Cell.int ∧ bs = zs.map format016b := by
        intro cs
        induction cs with
        | nil => intro bs hb; cases hb; exact ⟨[], rfl, rfl⟩
        | cons c cs ih =>
          intro bs hb
          rw [List.mapM_cons] at hb
          cases c with
          | int z =>
            cases hcs : cs.mapM formatCell with
            | error e => rw [hcs] at hb; cases hb
            | ok bs' =>
              rw [hcs] at hb
              obtain ⟨zs, rfl, rfl⟩ := ih bs' hcs
              cases hb
              exact ⟨z :: zs, rfl, rfl⟩
          | chr c => cases hb
          | other t => cases hb
      obtain ⟨zs, hz, hbs⟩ := hints _ _ hm
      obtain ⟨new, h1, _, hnames, -⟩ := C08_frame first rest key col zs hg hz hfresh
      have hdf' : df' = first :: new ++ rest := by
        have h1' : decodeFrame (first :: rest) key = (df', none) := by
          unfold decodeFrame; rw [hg]; simp only [hm]; simpa [hm] using h
        rw [h1'] at h1
        exact (Prod.mk.inj h1).1
      subst hdf'
      have hg2 : getCol (first :: new ++ rest) key = .ok col := by
        unfold getCol at hg ⊢
        have : new.find? (fun c => c.name == key) = none := by
          rw [List.find?_eq_none]
          intro c hc hck
          apply hk
          rw [← hnames]
          simp only [beq_iff_eq] at hck
          exact List.mem_map.2 ⟨c, hc, hck⟩
        rw [List.cons_append, List.find?_cons, List.find?_append, this]
        rw [List.find?_cons] at hg
        simpa using hg
      unfold decodeFrame
      rw [hg2]
      simp only [hm]
      have hdup : ∃ c ∈ new, c.name = "clamp status".toList := by
        have : "clamp status".toList ∈ new.map Col.name := by rw [hnames]; simp [flagNames]
        obtain ⟨c, hc, h⟩ := List.mem_map.1 this
        exact ⟨c, hc, h⟩
      obtain ⟨c, hc, hcn⟩ := hdup
      have hany : (first :: new ++ rest).any (fun c => c.name == "clamp status".toList) = true := by
        rw [List.any_eq_true]
        exact ⟨c, by simp [hc], by simp [hcn]⟩
      unfold flags
      rw [insertFlags, hbs, bts_mapM zs 0 (by norm_num)]
      simp only [insertCol, hany, if_true]

/-- C08: if only the flag number `j` is already a column the call raises `ValueError` but leaves the first `j` flag
columns inserted in the caller's frame. -/
theorem C08_partial_insert_on_duplicate (first : Col) (rest : Frame) (key : Str) (col : Col) (zs : List ℤ)
    (hkey : getCol (first :: rest) key = .ok col) (hint : col.cells = zs.map Cell.int)
    (before : List Str) (f : Str) (after : List Str) (hsplit : flagNames = before ++ f :: after)
    (hdup : ∃ c ∈ first :: rest, c.name = f) (hfresh : ∀ c ∈ first :: rest, c.name ∉ before) :
    ∃ new : List Col, decodeFrame (first :: rest) key = (first :: new ++ rest, some .valueError) ∧
      new.map Col.name = before := by
  refine ⟨before.zipIdx.map (flagCol zs), ?_, ?_⟩
  · unfold decodeFrame
    have hm : col.cells.mapM formatCell = .ok (zs.map format016b) := by
      rw [hint]
      rw [mapM_ok _ (fun c => match c with | .int z => format016b z | _ => [])]
      · simp [Function.comp_def]
      · intro a ha
        obtain ⟨z, _, rfl⟩ := List.mem_map.1 ha
        rfl
    rw [hkey]
    simp only [hm]
    have hnd : flagNames.Nodup := by decide
    have hl : flagNames.length = 16 := rfl
    have hfl : flags = before ++ f :: after := hsplit
    rw [hsplit] at hnd hl
    simp only [List.length_append, List.length_cons] at hl
    have := insertFlags_ok zs before 0 [first] rest (by omega) rfl (List.nodup_append.1 hnd).1 (by simpa using hfresh)
      (f :: after)
    rw [show first :: rest = [first] ++ rest from rfl, hfl, this]
    rw [insertFlags, bts_mapM zs _ (by omega)]
    obtain ⟨c, hc, hcn⟩ := hdup
    have hany : ([first] ++ before.zipIdx.map (flagCol zs) ++ rest).any (fun c => c.name == f) = true := by
      rw [List.any_eq_true]
      refine ⟨c, ?_, by simp [hcn]⟩
      rcases List.mem_cons.1 hc with rfl | hc
      · simp
      · simp [hc]
    simp only [insertCol, hany, if_true]
    rfl
  · rw [List.map_map]
    have : (Col.name ∘ flagCol zs) = Prod.fst := rfl
    rw [this, List.zipIdx_map_fst]

/-- C08: a missing status column raises `KeyError` and changes nothing. -/
theorem C08_missing_key (df : Frame) (key : Str) (h : ∀ c ∈ df, c.name ≠ key) :
    decodeFrame df key = (df, some .keyError) := by
  unfold decodeFrame getCol
  have : df.find? (fun c => c.name == key) = none := by
    rw [List.find?_eq_none]
    intro c hc
    simpa using h c hc
  rw [this]

/-! ## Non-vacuity -/

example : decodeStatus (.int 21161) [] = .ok (.dict (flagNames.zipIdx.map (fun p => (p.1, bitChar 21161 (15 - p.2))))) :=
  C06_decode_16bit 21161 (by norm_num) []

example : (decodeStatus (.int 5) []).toOption.map (fun o => match o with | .dict d => d.map Prod.snd | _ => [])
    = some "0000000000000101".toList := by decide

/-- A frame that meets the hypotheses of `C08_frame`. -/
def exampleFrame : Frame := [⟨"rgrav".toList, [.other 0, .other 1]⟩, ⟨"status".toList, [.int 5, .int 32768]⟩]

example : ∃ new, decodeFrame exampleFrame "status".toList
      = (⟨"rgrav".toList, [.other 0, .other 1]⟩ :: new ++ [⟨"status".toList, [.int 5, .int 32768]⟩], none) :=
  let ⟨new, h, _⟩ := C08_frame _ _ "status".toList ⟨"status".toList, [.int 5, .int 32768]⟩ [5, 32768] rfl rfl (by decide)
  ⟨new, h⟩

example : (65536 : ℕ).testBit 15 = false := by decide

end Shipgrav
