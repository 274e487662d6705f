import Verif.Lemmas.RunLength
import Verif.Props.Bits
import Verif.Props.Simple

/-! # C25, C26: run-length packing -/

namespace Grib.Props

open Grib.Model Grib.Spec

variable {F : Type}

/-- Template 5.200: octet 12 bits per number, 13-14 the highest level `MV` used, 15-16 the number of levels, 17 the decimal
scale factor, from 18 on the levels. -/
structure RunLengthTemplate where
  nbit : Nat
  maxv : Nat
  levels : Nat
  scale : Nat
deriving DecidableEq, Repr

def runLengthTemplate (sect5 : List UInt8) : RunLengthTemplate :=
  ⟨sectNumber sect5 12 12, sectNumber sect5 13 14, sectNumber sect5 15 16, sectNumber sect5 17 17⟩

/-- The base of the run-length digits. -/
def RunLengthTemplate.base (p : RunLengthTemplate) : Nat := 2 ^ p.nbit - 1 - p.maxv

/-- The value of a level: level 0 is missing, level `l` is the `l`-th number of the table times `10^-D`. -/
def levelValue (ops : FloatOps F) (sect5 : List UInt8) (l : Nat) : F :=
  if l = 0 then ops.nan
  else ops.mul (ops.ofInt (sectNumber sect5 (16 + 2 * l) (17 + 2 * l)))
    (ops.powi (ops.ofInt 10) (-((runLengthTemplate sect5).scale : Int)))

/-- Everything after reading the template. -/
theorem runLengthDecode_eq (ops : FloatOps F) (t : Decoder) (h5 : 12 + 2 * (runLengthTemplate t.sect5).levels ≤ t.sect5.length) :
    runLengthDecode ops t = (do
      let p := runLengthTemplate t.sect5
      let decoded ← (rleunpack t.sect7 p.nbit p.maxv t.numPointsEncoded).mapErr fun e => .decodeError (.runLength e)
      let values ← (levelsToValues (ops.nan :: (List.range p.levels).map fun k => levelValue ops t.sect5 (k + 1))
        decoded).mapErr fun e => .decodeError (.runLength e)
      .ok (values.map .ok)) := by
  have e1 : sectNumber t.sect5 12 12 = number t.sect5 6 1 := rfl
  have e2 : sectNumber t.sect5 13 14 = number t.sect5 7 2 := rfl
  have e3 : sectNumber t.sect5 15 16 = number t.sect5 9 2 := rfl
  have e4 : sectNumber t.sect5 17 17 = number t.sect5 11 1 := rfl
  unfold runLengthTemplate at h5 ⊢
  simp only at h5
  unfold runLengthDecode
  rw [rdAs_number (by omega), rdAs_number (by omega), rdAs_number (by omega), rdAs_number (by omega)]
  simp only [Outcome.bind_ok]
  rw [readLevels_eq _ _ _ _ (by omega)]
  simp only [Outcome.bind_ok, e1, e2, e3]
  have : ∀ k, ops.mul (ops.ofInt (number t.sect5 (12 + 2 * k) 2)) (ops.powi (ops.ofInt 10) (-(number t.sect5 11 1 : Int))) =
      levelValue ops t.sect5 (k + 1) := by
    intro k
    unfold levelValue runLengthTemplate sectNumber
    rw [if_neg (by omega), show 16 + 2 * (k + 1) - 6 = 12 + 2 * k by omega,
      show 17 + 2 * (k + 1) + 1 - (16 + 2 * (k + 1)) = 2 by omega]
  simp only [this]

theorem levels_all (ops : FloatOps F) (t : Decoder) (n : Nat) (ls : List Nat) (h : ∀ l ∈ ls, l ≤ n) :
    levelsToValues (ops.nan :: (List.range n).map fun k => levelValue ops t.sect5 (k + 1)) ls =
      .ok (ls.map (levelValue ops t.sect5)) := by
  obtain ⟨vs, h1, h2, h3⟩ := levelsToValues_eq
    (levelMap := ops.nan :: (List.range n).map fun k => levelValue ops t.sect5 (k + 1)) ls
    (fun l hl => by have := h l hl; simp; omega)
  rw [h1]
  congr 1
  apply List.ext_getElem? 
  intro k
  by_cases hk : k < ls.length
  · rw [h3 k hk, List.getElem?_map, List.getElem?_eq_getElem hk]
    have hl := h _ (List.getElem_mem hk)
    simp only [Option.map_some]
    generalize ls[k] = l at hl
    cases l with
    | zero => simp [levelValue]
    | succ l =>
      rw [List.getElem?_cons_succ, List.getElem?_map, List.getElem?_range (by omega)]; rfl
  · rw [List.getElem?_eq_none (by omega), List.getElem?_eq_none (by simp; omega)]

/-- The numbers read from section 7. -/
def sectNumbers (sect7 : List UInt8) (n : Nat) : List Nat :=
  (List.range (8 * sect7.length / n)).map fun k => bitField sect7 (k * n) n

theorem sectNumbers_packed {n : Nat} (hn : 1 ≤ n) (xs : List Nat) (hx : ∀ x ∈ xs, x < 2 ^ n)
    (hpad : 8 * ((n * xs.length + 7) / 8) < n * (xs.length + 1)) : sectNumbers (packInts n xs) n = xs := by
  have hl : (packInts n xs).length = (n * xs.length + 7) / 8 := by
    simp only [packInts, packOctets_length, flatMap_toBits_length]
  unfold sectNumbers
  have hcount : 8 * (packInts n xs).length / n = xs.length := by
    rw [hl]
    apply Nat.div_eq_of_lt_le
    · rw [Nat.mul_comm xs.length]; omega
    · rw [Nat.mul_comm (xs.length + 1)]; exact hpad
  rw [hcount]
  apply List.ext_getElem (by simp)
  intro k h1 h2
  simp only [List.getElem_map, List.getElem_range]
  have := bitField_packInts_append n xs [] k h2
  rw [List.append_nil] at this
  rw [this, Nat.mod_eq_of_lt (hx _ (List.getElem_mem h2))]

/-- C26 / C25, exact characterization.  Let `1 ≤ n ≤ 15` and `MV < 2^n`.  If the numbers in section 7 are those of
well-formed runs (every level at most `MV`, digits less than the base) standing for fewer than `2^62` levels and no run has
so many digits that the next power of the base leaves 64 bits, then unpacking gives exactly the levels the runs stand
for, provided that there are as many as declared; otherwise it is a length mismatch. -/
theorem C26_unpack (t : Decoder) (hn : 1 ≤ (runLengthTemplate t.sect5).nbit) (hn' : (runLengthTemplate t.sect5).nbit ≤ 15)
    (hmv : (runLengthTemplate t.sect5).maxv < 2 ^ (runLengthTemplate t.sect5).nbit) (rs : List Run)
    (hs : sectNumbers t.sect7 (runLengthTemplate t.sect5).nbit = runSymbols (runLengthTemplate t.sect5).maxv rs)
    (hr : ∀ r ∈ rs, r.Ok (runLengthTemplate t.sect5).maxv (runLengthTemplate t.sect5).base)
    (hp : ∀ r ∈ rs, (runLengthTemplate t.sect5).base ^ r.digits.length < 2 ^ 64)
    (hl : (expandRuns (runLengthTemplate t.sect5).base rs).length < 2 ^ 62) :
    rleunpack t.sect7 (runLengthTemplate t.sect5).nbit (runLengthTemplate t.sect5).maxv t.numPointsEncoded =
      if t.numPointsEncoded = (expandRuns (runLengthTemplate t.sect5).base rs).length then
        .ok (expandRuns (runLengthTemplate t.sect5).base rs)
      else .err .lengthMismatch := by
  generalize runLengthTemplate t.sect5 = p at *
  have h2 : 2 ^ p.nbit ≤ 2 ^ 15 := Nat.pow_le_pow_right (by decide) hn'
  have hb : 2 ^ p.nbit - (p.maxv + 1) = p.base := by unfold RunLengthTemplate.base; omega
  have hb' : p.maxv + 1 + p.base ≤ 2 ^ 16 := by unfold RunLengthTemplate.base; omega
  rw [rleunpack_eq hn (by omega) (by omega), hb]
  unfold sectNumbers at hs
  rw [hs, rleLoop_runs hb' rs hr hp [] none 1 (by simpa using hl)]
  simp only [List.nil_append, Outcome.bind_ok]
  by_cases h : t.numPointsEncoded = (expandRuns p.base rs).length
  · rw [if_pos h, if_neg (not_not_intro h)]
  · rw [if_neg h, if_pos h]

/-- C25, the part that holds: for every sequence of runs whose levels are in the table, packing them with `n` bits each
and decoding, with the number of levels as declared number of points, gives back the sequence of levels, each mapped to
its value.  Missing for C25: for `n < 8` the padding of the last octet must not be long enough to hold a number of `n`
bits (see `C25_padding_fails`). -/
theorem C25_runs_partial (ops : FloatOps F) (t : Decoder) (p : RunLengthTemplate) (hp : p = runLengthTemplate t.sect5)
    (h5 : 12 + 2 * p.levels ≤ t.sect5.length) (hn : 1 ≤ p.nbit) (hn' : p.nbit ≤ 15) (hmv : p.maxv + 1 < 2 ^ p.nbit)
    (rs : List Run) (hr : ∀ r ∈ rs, r.Ok p.maxv p.base ∧ r.level ≤ p.levels ∧ p.base ^ r.digits.length < 2 ^ 64)
    (hcount : t.numPointsEncoded = (expandRuns p.base rs).length) (hlen : (expandRuns p.base rs).length < 2 ^ 62)
    (hpad : 8 * ((p.nbit * (runSymbols p.maxv rs).length + 7) / 8) < p.nbit * ((runSymbols p.maxv rs).length + 1))
    (h7 : t.sect7 = packInts p.nbit (runSymbols p.maxv rs)) :
    runLengthDecode ops t = .ok ((expandRuns p.base rs).map fun l => .ok (levelValue ops t.sect5 l)) := by
  have hs : sectNumbers t.sect7 p.nbit = runSymbols p.maxv rs := by
    rw [h7]
    apply sectNumbers_packed hn _ _ hpad
    intro x hx
    obtain ⟨r, hrm, hx⟩ := List.mem_flatMap.mp hx
    obtain ⟨⟨h1, h2⟩, -, -⟩ := hr r hrm
    unfold Run.symbols at hx
    rcases List.mem_cons.mp hx with rfl | hx
    · omega
    · obtain ⟨d, hd, rfl⟩ := List.mem_map.mp hx
      have := h2 d hd
      unfold RunLengthTemplate.base at this
      omega
  rw [runLengthDecode_eq ops t (by rw [← hp]; exact h5)]
  subst hp
  simp only
  rw [C26_unpack t hn hn' (by omega) rs hs (fun r h => (hr r h).1) (fun r h => (hr r h).2.2) hlen, if_pos hcount]
  simp only [Outcome.mapErr, Outcome.bind_ok]
  rw [levels_all]
  · simp [Outcome.mapErr, Function.comp_def]
  · intro l hl
    obtain ⟨r, hrm, hx⟩ := List.mem_flatMap.mp hl
    rw [List.eq_of_mem_replicate hx]
    exact (hr r hrm).2.1

/-- C25, the part that holds: run-length encoding any sequence of levels and decoding it gives the sequence back.
Missing: see `C25_runs_partial`; for `n ≥ 8` the condition on the padding always holds (`C25_octet_wide`). -/
theorem C25_round_trip_partial (ops : FloatOps F) (t : Decoder) (p : RunLengthTemplate) (hp : p = runLengthTemplate t.sect5)
    (h5 : 12 + 2 * p.levels ≤ t.sect5.length) (hn : 1 ≤ p.nbit) (hn' : p.nbit ≤ 15) (hmv : p.maxv + 1 < 2 ^ p.nbit)
    (levels : List Nat) (hl : ∀ l ∈ levels, l ≤ p.maxv ∧ l ≤ p.levels) (hcount : t.numPointsEncoded = levels.length)
    (hlen : levels.length < 2 ^ 32)
    (hpad : 8 * ((p.nbit * (runSymbols p.maxv (encodeRuns p.base levels)).length + 7) / 8) <
      p.nbit * ((runSymbols p.maxv (encodeRuns p.base levels)).length + 1))
    (h7 : t.sect7 = packInts p.nbit (runSymbols p.maxv (encodeRuns p.base levels))) :
    runLengthDecode ops t = .ok (levels.map fun l => .ok (levelValue ops t.sect5 l)) := by
  obtain ⟨e1, e2⟩ := encodeRuns_spec (base := p.base) levels (fun l h => (hl l h).1)
  have hbase : p.base ≤ 2 ^ 15 := by
    have : 2 ^ p.nbit ≤ 2 ^ 15 := Nat.pow_le_pow_right (by decide) hn'
    unfold RunLengthTemplate.base; omega
  have := C25_runs_partial ops t p hp h5 hn hn' hmv (encodeRuns p.base levels) ?_ (by rw [e1]; exact hcount)
    (by rw [e1]; omega) hpad h7
  · rw [e1] at this; exact this
  · intro r hr
    obtain ⟨h1, h2⟩ := e2 r hr
    refine ⟨h1, ?_, ?_⟩
    · have : r.level ∈ levels := by
        rw [← e1]
        refine List.mem_flatMap.mpr ⟨r, hr, ?_⟩
        rw [List.mem_replicate]
        exact ⟨by unfold Run.length; omega, rfl⟩
      exact (hl _ this).2
    · rcases h2 with h2 | h2
      · rw [h2]; simp
      · calc p.base ^ r.digits.length ≤ p.base * levels.length := h2
          _ ≤ 2 ^ 15 * 2 ^ 32 := Nat.mul_le_mul hbase (by omega)
          _ < 2 ^ 64 := by decide

/-- C25: with at least 8 bits per number the padding never holds a number, so the round trip holds without restriction. -/
theorem C25_octet_wide (ops : FloatOps F) (t : Decoder) (p : RunLengthTemplate) (hp : p = runLengthTemplate t.sect5)
    (h5 : 12 + 2 * p.levels ≤ t.sect5.length) (hn : 8 ≤ p.nbit) (hn' : p.nbit ≤ 15) (hmv : p.maxv + 1 < 2 ^ p.nbit)
    (levels : List Nat) (hl : ∀ l ∈ levels, l ≤ p.maxv ∧ l ≤ p.levels) (hcount : t.numPointsEncoded = levels.length)
    (hlen : levels.length < 2 ^ 32) (h7 : t.sect7 = packInts p.nbit (runSymbols p.maxv (encodeRuns p.base levels))) :
    runLengthDecode ops t = .ok (levels.map fun l => .ok (levelValue ops t.sect5 l)) := by
  refine C25_round_trip_partial ops t p hp h5 (by omega) hn' hmv levels hl hcount hlen ?_ h7
  rw [Nat.mul_add]
  omega

/-- Levels 0 to 3 with values (missing), 0.5, 1.0, 25.5; runs of lengths up to 1000 in 8 bits with `MV = 3`, base 252. -/
def sampleRunLength : Decoder :=
  ⟨6, 1008, 200, [0, 0, 3, 240, 0, 200, 8, 0, 3, 0, 3, 1, 0, 5, 0, 10, 0, 255], [0xff],
    packInts 8 (runSymbols 3 (encodeRuns 252 (List.replicate 1000 2 ++ [0, 0, 3, 1, 1, 1, 1, 2])))⟩

example : sampleRunLength.sect7 = [2, 4 + 243, 4 + 3, 0, 5, 3, 1, 7, 2] := by decide +kernel

example : runLengthDecode FloatOps.exact sampleRunLength =
    .ok ((List.replicate 1000 2 ++ [0, 0, 3, 1, 1, 1, 1, 2]).map fun l => .ok (levelValue FloatOps.exact sampleRunLength.sect5 l)) :=
  C25_octet_wide FloatOps.exact sampleRunLength (runLengthTemplate sampleRunLength.sect5) rfl (by decide) (by decide) (by decide)
    (by decide)
    (List.replicate 1000 2 ++ [0, 0, 3, 1, 1, 1, 1, 2])
    (by
      have h1 : (runLengthTemplate sampleRunLength.sect5).maxv = 3 := by decide
      have h2 : (runLengthTemplate sampleRunLength.sect5).levels = 3 := by decide
      rw [h1, h2]
      intro l hl
      rcases List.mem_append.mp hl with h | h
      · rw [List.eq_of_mem_replicate h]; omega
      · have : ∀ l ∈ [0, 0, 3, 1, 1, 1, 1, 2], l ≤ 3 ∧ l ≤ 3 := by decide
        exact this l h)
    (by rw [List.length_append, List.length_replicate]; rfl) (by rw [List.length_append, List.length_replicate]; decide)
    (by decide +kernel)

example : [0, 1, 2, 3].map (levelValue FloatOps.exact sampleRunLength.sect5) = [none, some (1 / 2), some 1, some (51 / 2)] := by
  decide +kernel

/-- C25 fails for small widths: one level in 3 bits is padded with 5 zero bits, which are read as a further level 0, and
the decoder reports a length mismatch. -/
theorem C25_padding_fails : ∃ t : Decoder, runLengthTemplate t.sect5 = ⟨3, 1, 1, 0⟩ ∧
    t.sect7 = packInts 3 (runSymbols 1 (encodeRuns 6 [1])) ∧ t.numPointsEncoded = 1 ∧
    runLengthDecode FloatOps.exact t = .err (.decodeError (.runLength .lengthMismatch)) := by
  refine ⟨⟨1, 1, 200, [0, 0, 0, 1, 0, 200, 3, 0, 1, 0, 1, 0, 0, 7], [0xff], packInts 3 (runSymbols 1 (encodeRuns 6 [1]))⟩,
    by decide, rfl, rfl, by decide +kernel⟩

/-! ## C26 -/

/-- C26: section 7 that starts with a number above `MV` is an error. -/
theorem C26_first_not_level (t : Decoder) (hn : 1 ≤ (runLengthTemplate t.sect5).nbit)
    (hn' : (runLengthTemplate t.sect5).nbit ≤ 15)
    (hmv : (runLengthTemplate t.sect5).maxv < 2 ^ (runLengthTemplate t.sect5).nbit) (v : Nat) (vs : List Nat)
    (hs : sectNumbers t.sect7 (runLengthTemplate t.sect5).nbit = v :: vs) (hv : (runLengthTemplate t.sect5).maxv < v) :
    rleunpack t.sect7 (runLengthTemplate t.sect5).nbit (runLengthTemplate t.sect5).maxv t.numPointsEncoded =
      .err .invalidFirstValue := by
  generalize runLengthTemplate t.sect5 = p at *
  have h2 : 2 ^ p.nbit ≤ 2 ^ 15 := Nat.pow_le_pow_right (by decide) hn'
  rw [rleunpack_eq hn (by omega) (by omega)]
  unfold sectNumbers at hs
  have hvb : v < 2 ^ p.nbit := by
    have : v ∈ (List.range (8 * t.sect7.length / p.nbit)).map fun k => bitField t.sect7 (k * p.nbit) p.nbit := by
      rw [hs]; simp
    obtain ⟨k, -, rfl⟩ := List.mem_map.mp this
    exact bitField_lt _ _ _
  rw [hs, show v = p.maxv + 1 + (v - (p.maxv + 1)) by omega, rleLoop_first _ _ (by omega)]
  rfl

/-- C26, the part that holds: with a complete section 5, `1 ≤ n ≤ 15` and `MV < 2^n`, decoding ends with a value or an error,
never with a panic, as long as the run lengths written in section 7 stay in range: read as runs, no run has so many
digits that the next power of the base leaves 64 bits, and there are fewer than `2^62` points in all.  Missing for C26:
the panics and the non-termination below. -/
theorem C26_no_panic_partial (ops : FloatOps F) (t : Decoder) (p : RunLengthTemplate) (hp : p = runLengthTemplate t.sect5)
    (h5 : 12 + 2 * p.levels ≤ t.sect5.length) (hn : 1 ≤ p.nbit) (hn' : p.nbit ≤ 15) (hmv : p.maxv < 2 ^ p.nbit)
    (hsmall : ∀ rs, sectNumbers t.sect7 p.nbit = runSymbols p.maxv rs → (∀ r ∈ rs, r.Ok p.maxv p.base) →
      (∀ r ∈ rs, p.base ^ r.digits.length < 2 ^ 64) ∧ (expandRuns p.base rs).length < 2 ^ 62) :
    runLengthDecode ops t ≠ .panic := by
  rw [runLengthDecode_eq ops t (by rw [← hp]; exact h5)]
  have hunp : rleunpack t.sect7 p.nbit p.maxv t.numPointsEncoded ≠ .panic := by
    have hvs : ∀ v ∈ sectNumbers t.sect7 p.nbit, v < p.maxv + 1 + p.base := by
      intro v hv
      obtain ⟨k, -, rfl⟩ := List.mem_map.mp hv
      have := bitField_lt t.sect7 (k * p.nbit) p.nbit
      unfold RunLengthTemplate.base; omega
    rcases parse_runs p.maxv p.base (Nat.le_refl _) (sectNumbers t.sect7 p.nbit) hvs with
      ⟨rs, hs, hr⟩ | ⟨ds, rs, hne, hs, hd, hr⟩
    · have := C26_unpack t (by rw [← hp]; exact hn) (by rw [← hp]; exact hn') (by rw [← hp]; exact hmv) rs
        (by rw [← hp]; exact hs) (by rw [← hp]; exact hr) (by rw [← hp]; exact (hsmall rs hs hr).1)
        (by rw [← hp]; exact (hsmall rs hs hr).2)
      rw [← hp] at this
      rw [this]
      split <;> exact fun h => nomatch h
    · obtain ⟨d, ds, rfl⟩ : ∃ d ds', ds = d :: ds' := by
        cases ds with
        | nil => exact absurd rfl hne
        | cons d ds => exact ⟨d, ds, rfl⟩
      have := C26_first_not_level t (by rw [← hp]; exact hn) (by rw [← hp]; exact hn') (by rw [← hp]; exact hmv)
        (p.maxv + 1 + d) (ds.map (p.maxv + 1 + ·) ++ runSymbols p.maxv rs) (by rw [← hp]; exact hs)
        (by rw [← hp]; omega)
      rw [← hp] at this
      rw [this]
      exact fun h => nomatch h
  subst hp
  simp only
  cases hu : rleunpack t.sect7 (runLengthTemplate t.sect5).nbit (runLengthTemplate t.sect5).maxv t.numPointsEncoded with
  | panic => exact absurd hu hunp
  | err e => exact fun h => nomatch h
  | ok ls =>
    simp only [Outcome.mapErr, Outcome.bind_ok]
    by_cases hb : ∃ l ∈ ls, (ops.nan :: (List.range (runLengthTemplate t.sect5).levels).map
        fun k => levelValue ops t.sect5 (k + 1)).length ≤ l
    · obtain ⟨l, -, -, h⟩ := levelsToValues_bad ls hb
      rw [h]
      exact fun h => nomatch h
    · obtain ⟨vs, h, -, -⟩ := levelsToValues_eq ls (levelMap := ops.nan :: (List.range (runLengthTemplate t.sect5).levels).map
        fun k => levelValue ops t.sect5 (k + 1)) (fun l hl => by
          apply Decidable.byContradiction
          intro h
          exact hb ⟨l, hl, by omega⟩)
      rw [h]
      exact fun h => nomatch h

/-- A section 7 with the single level 2. -/
example : runLengthDecode FloatOps.exact { sampleRunLength with sect7 := [2] } ≠ .panic := by
  refine C26_no_panic_partial _ _ _ rfl (by decide) (by decide) (by decide) (by decide) ?_
  intro rs h _
  have h : runSymbols 3 rs = [2] := h.symm.trans (by decide +kernel)
  cases rs with
  | nil => simp [runSymbols] at h
  | cons r rs =>
    simp only [runSymbols, List.flatMap_cons, Run.symbols, List.cons_append, List.cons.injEq, List.append_eq_nil_iff,
      List.map_eq_nil_iff] at h
    cases rs with
    | nil =>
      refine ⟨?_, ?_⟩
      · intro r' hr'
        simp only [List.mem_singleton] at hr'
        subst hr'
        rw [h.2.1]; decide
      · simp [expandRuns, Run.length, h.2.1, valueLE]
    | cons r' rs =>
      have := congrArg List.length h.2.2
      simp [Run.symbols] at this

/-- C26: a level (in the sense of run-length unpacking) without an entry in the table is an error that names it. -/
theorem C26_level_not_in_table (ops : FloatOps F) (t : Decoder)
    (h5 : 12 + 2 * (runLengthTemplate t.sect5).levels ≤ t.sect5.length) (ls : List Nat)
    (hu : rleunpack t.sect7 (runLengthTemplate t.sect5).nbit (runLengthTemplate t.sect5).maxv t.numPointsEncoded = .ok ls)
    (hl : ∃ l ∈ ls, (runLengthTemplate t.sect5).levels < l) :
    ∃ l ∈ ls, (runLengthTemplate t.sect5).levels < l ∧
      runLengthDecode ops t = .err (.decodeError (.runLength (.invalidLevelValue l))) := by
  obtain ⟨l, h1, h2, h3⟩ := levelsToValues_bad ls (levelMap := ops.nan :: (List.range (runLengthTemplate t.sect5).levels).map
        fun k => levelValue ops t.sect5 (k + 1)) (by simpa [Nat.lt_iff_add_one_le] using hl)
  refine ⟨l, h1, by simpa [Nat.lt_iff_add_one_le] using h2, ?_⟩
  rw [runLengthDecode_eq ops t h5]
  simp only
  rw [hu]
  simp only [Outcome.mapErr, Outcome.bind_ok]
  rw [h3]
  rfl

example : runLengthDecode FloatOps.exact { sampleRunLength with sect5 := sampleRunLength.sect5.set 10 2 } =
    .err (.decodeError (.runLength (.invalidLevelValue 3))) := by decide +kernel

/-- C26 fails: with zero bits per number, `MV = 0` and a non-empty section 7, decoding never ends: however many numbers are
pulled, unpacking is not finished. -/
theorem C26_never_ends_fails (input : List UInt8) (h : input ≠ []) (expected fuel : Nat) :
    rleunpackFuel fuel input 0 0 expected = none := by
  unfold rleunpackFuel
  rw [if_neg (by decide), C02_width_zero_never_ends input h]

example : rleunpackFuel 1000 [0] 0 0 5 = none := C26_never_ends_fails [0] (by decide) 5 1000

/-- C26 fails: 16 bits per number or more is a panic (the manual allows up to 16). -/
theorem C26_width_panics_fails (input : List UInt8) (nbit maxv expected fuel : Nat) (h : 16 ≤ nbit) :
    rleunpackFuel fuel input nbit maxv expected = some .panic := by
  unfold rleunpackFuel
  rw [if_pos (Or.inr (Or.inl h))]

/-- C26 fails: a maximum that does not fit the width is a panic. -/
theorem C26_maximum_panics_fails (input : List UInt8) (nbit maxv expected fuel : Nat) (h : 2 ^ nbit ≤ maxv) :
    rleunpackFuel fuel input nbit maxv expected = some .panic := by
  unfold rleunpackFuel
  rw [if_pos (Or.inr (Or.inr (by omega)))]

/-- C26 fails: a section 5 shorter than its template is a panic. -/
theorem C26_short_section_panics_fails (ops : FloatOps F) (t : Decoder) (h12 : 12 ≤ t.sect5.length)
    (h5 : t.sect5.length < 12 + 2 * (runLengthTemplate t.sect5).levels) : runLengthDecode ops t = .panic := by
  have e3 : sectNumber t.sect5 15 16 = number t.sect5 9 2 := rfl
  unfold runLengthTemplate at h5
  simp only at h5
  unfold runLengthDecode
  rw [rdAs_number (by omega), rdAs_number (by omega), rdAs_number (by omega), rdAs_number (by omega)]
  simp only [Outcome.bind_ok]
  rw [readLevels_short _ _ _ _ (by omega) (by omega)]
  rfl

/-- C26 fails: enough run-length digits overflow 64 bits, which is a panic: here a level and 65 digits 0 in base 2. -/
theorem C26_overflow_panics_fails : ∃ input : List UInt8, input.length ≤ 17 ∧
    ∀ expected, rleunpack input 2 1 expected = .panic := by
  refine ⟨packInts 2 (runSymbols 1 [⟨0, List.replicate 65 0⟩]), by decide +kernel, ?_⟩
  intro expected
  have h : rleLoop (1 + 1) (2 ^ 2 - (1 + 1)) (sectNumbers (packInts 2 (runSymbols 1 [⟨0, List.replicate 65 0⟩])) 2) [] none 1 =
      .panic := by decide +kernel
  rw [rleunpack_eq (by decide) (by decide) (by decide)]
  unfold sectNumbers at h
  rw [h]
  rfl

end Grib.Props
