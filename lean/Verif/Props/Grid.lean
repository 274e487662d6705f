import Verif.Lemmas.Grid
import Verif.Spec.Serialize

/-! # C31, C32, C36, C37, C43: scanning order, grid definitions, number of points, earth shape -/

namespace Grib.Props

open Grib.Model Grib.Spec

variable {ε F G : Type}

/-! ## C31, C32 -/

/-- C31. Iterating over the points of any grid with any scanning flags gives exactly the points in scanning order, the
`k`-th one is `visit ni nj mode k`, and then stops. -/
theorem C31_order (ni nj mode : Nat) (hi : 0 < ni) (hj : 0 < nj) :
    (GridIter.new ni nj mode).drain (ni * nj + 1) = .done ((List.range (ni * nj)).map (visit ni nj mode)) := by
  rw [GridIter.new_eq, GridIter.drain_at (perLine_pos mode hi hj) _ _ (Nat.zero_add _), List.range_eq_range']

/-- C31. The order is the same for every kind of grid, and a grid is refused exactly if one of the flags that are not
supported (bits 5 to 8) is set. -/
theorem C31_kinds (t : GridTemplate) :
    t.ij = if t.mode % 16 = 0 then .ok (GridIter.new t.gridShape.1 t.gridShape.2 t.mode) else .err .notSupported := by
  unfold GridTemplate.ij gridIj
  rw [mode_unsupported]
  by_cases h : t.mode % 16 = 0
  · rw [if_pos h, h]; rfl
  · rw [if_neg h, if_pos (by simpa using h)]

/-- The four orders, on a grid with 3 columns and 2 rows. -/
example : (List.range 6).map (visit 3 2 0b00000000) = [(0, 0), (1, 0), (2, 0), (0, 1), (1, 1), (2, 1)] := by decide
example : (List.range 6).map (visit 3 2 0b00100000) = [(0, 0), (0, 1), (1, 0), (1, 1), (2, 0), (2, 1)] := by decide
example : (List.range 6).map (visit 3 2 0b00010000) = [(0, 0), (1, 0), (2, 0), (2, 1), (1, 1), (0, 1)] := by decide
example : (List.range 6).map (visit 3 2 0b00110000) = [(0, 0), (0, 1), (1, 1), (1, 0), (2, 0), (2, 1)] := by decide
example : (GridIter.new 3 2 0b00010000).drain 7 = .done [(0, 0), (1, 0), (2, 0), (2, 1), (1, 1), (0, 1)] := by decide

/-- C32. Every point is visited exactly once: the points visited are pairwise distinct and they are all those with
`i < ni` and `j < nj`.  Missing: grids without rows or columns, see `C32_no_lines` and `C32_empty_lines_fails`. -/
theorem C32_once_partial (ni nj mode : Nat) (hi : 0 < ni) (hj : 0 < nj) : ∃ ps,
    (GridIter.new ni nj mode).drain (ni * nj + 1) = .done ps ∧ ps.Nodup ∧ ps.length = ni * nj ∧
      ∀ i j, (i, j) ∈ ps ↔ i < ni ∧ j < nj := by
  refine ⟨_, C31_order ni nj mode hi hj, ?_, by simp, ?_⟩
  · rw [List.nodup_iff_pairwise_ne, List.pairwise_map, List.pairwise_iff_getElem]
    intro k l hk hl hkl heq
    rw [List.getElem_range, List.getElem_range] at heq
    rw [List.length_range] at hk hl
    have := visit_inj hk hl heq
    omega
  · intro i j
    rw [List.mem_map]
    constructor
    · rintro ⟨k, hk, hv⟩
      have := visit_lt (mode := mode) (List.mem_range.mp hk)
      rw [hv] at this
      exact this
    · rintro ⟨h1, h2⟩
      obtain ⟨k, hk, hv⟩ := visit_surj (mode := mode) h1 h2
      exact ⟨k, List.mem_range.mpr hk, hv⟩

/-- C32. At every moment the size hint is the number of points that are still to come.  Missing: grids without rows or
columns. -/
theorem C32_hint_partial (ni nj mode k : Nat) (hi : 0 < ni) (hj : 0 < nj) (hk : k ≤ ni * nj) : ∃ it,
    (GridIter.new ni nj mode).calls k = (.ok ((List.range k).map (visit ni nj mode), it) : Outcome ε _) ∧
      it.sizeHint = (.ok (ni * nj - k) : Outcome ε _) := by
  refine ⟨GridIter.at ni nj mode k, ?_, GridIter.sizeHint_at hk (perLine_pos mode hi hj)⟩
  rw [GridIter.new_eq, GridIter.calls_at k 0 (by omega), List.range_eq_range', Nat.zero_add]

/-- C32. Without lines (no rows if rows are scanned one after the other) there are no points. -/
theorem C32_no_lines (ni nj mode : Nat) (h : (if jConsecutive mode then ni else nj) = 0) :
    (GridIter.new ni nj mode).drain 1 = .done [] ∧ (GridIter.new ni nj mode).sizeHint = (.ok 0 : Outcome ε _) := by
  rw [GridIter.new_eq]
  have hl : lines ni nj mode = 0 := h
  constructor
  · unfold GridIter.drain GridIter.next GridIter.at
    dsimp only
    rw [hl, Nat.zero_div, if_pos rfl]
  · unfold GridIter.sizeHint GridIter.at
    dsimp only
    rw [hl]
    simp

example : (GridIter.new 0 3 0b00100000).drain 1 = .done [] := by decide

/-- C32 fails for lines without points (for example rows of a grid with `ni = 0`): the iterator announces no point but
never stops, whatever number of calls is made, and asking for the size after a call panics. -/
theorem C32_empty_lines_fails (ni nj mode : Nat) (h : (if jConsecutive mode then ni else nj) ≠ 0)
    (h0 : (if jConsecutive mode then nj else ni) = 0) :
    (GridIter.new ni nj mode).sizeHint = (.ok 0 : Outcome ε _) ∧
    (∀ fuel, ∃ ps, (GridIter.new ni nj mode).drain fuel = .more ps ∧ ps.length = fuel) ∧
    ∃ it, (GridIter.new ni nj mode).calls 1 = (.ok ([(0, 0)], it) : Outcome ε _) ∧ it.sizeHint = (.panic : Outcome ε _) := by
  rw [GridIter.new_eq]
  have hl : lines ni nj mode ≠ 0 := h
  have hp : perLine ni nj mode = 0 := h0
  generalize hL : lines ni nj mode = l at *
  have hat : GridIter.at ni nj mode 0 = ⟨l, 0, mode, 0, 0, true⟩ := by
    unfold GridIter.at; rw [hL, hp]; simp
  have hnext : ∀ (ε : Type) c, (GridIter.mk l 0 mode 0 c true).next =
      (.ok (some (if ScanningMode.isConsecutiveForI mode then (c, 0) else (0, c)), ⟨l, 0, mode, 0, c + 1, true⟩) : Outcome ε _) := by
    intro ε c
    unfold GridIter.next
    rw [if_neg (by simpa using hl.symm), if_neg (by simp)]
    simp
  rw [hat]
  refine ⟨by simp [GridIter.sizeHint], ?_, ?_⟩
  · intro fuel
    suffices ∀ c, ∃ ps, (GridIter.mk l 0 mode 0 c true).drain fuel = .more ps ∧ ps.length = fuel from this 0
    induction fuel with
    | zero => intro c; exact ⟨[], rfl, rfl⟩
    | succ n ih =>
      intro c
      obtain ⟨ps, h1, h2⟩ := ih (c + 1)
      unfold GridIter.drain
      rw [hnext]
      dsimp only
      rw [h1]
      exact ⟨_, rfl, by rw [List.length_cons, h2]⟩
  · refine ⟨⟨l, 0, mode, 0, 1, true⟩, ?_, by simp [GridIter.sizeHint]⟩
    unfold GridIter.calls
    rw [hnext]
    simp only [Outcome.bind_ok, GridIter.calls]
    split <;> rfl

example : (GridIter.new 0 3 0).drain 5 = .more [(0, 0), (1, 0), (2, 0), (3, 0), (4, 0)] := by decide

/-! ## C36 -/

/-- C36, template 3.0 (latitude/longitude): a section of 72 octets is decoded field by field. -/
theorem C36_latlon (d : GridDefinition) (hlen : d.payload.length = 67) (ht : sectNumber d.payload 13 14 = 0) :
    GridTemplate.tryFrom d = .ok (.template0
      { ni := sectNumber d.payload 31 34, nj := sectNumber d.payload 35 38
        firstLat := sectSigned d.payload 47 50, firstLon := sectSigned d.payload 51 54
        lastLat := sectSigned d.payload 56 59, lastLon := sectSigned d.payload 60 63
        mode := sectNumber d.payload 72 72 }) := by
  rw [tryFrom_0 (by omega) ht, if_neg (by omega), sliceTo_end (by omega)]
  simp only [Outcome.bind_ok, LatLonGrid.fromBuf]
  repeat rw [rdAs_drop (by omega), Outcome.bind_ok]
  repeat rw [asGribInt_number (n := 4) (by omega) (by omega)]
  rfl

/-- C36, template 3.40 (Gaussian latitude/longitude). -/
theorem C36_gaussian (d : GridDefinition) (hlen : d.payload.length = 67) (ht : sectNumber d.payload 13 14 = 40) :
    GridTemplate.tryFrom d = .ok (.template40
      { ni := sectNumber d.payload 31 34, nj := sectNumber d.payload 35 38
        firstLat := sectSigned d.payload 47 50, firstLon := sectSigned d.payload 51 54
        lastLat := sectSigned d.payload 56 59, lastLon := sectSigned d.payload 60 63
        iInc := sectNumber d.payload 64 67, n := sectNumber d.payload 68 71
        mode := sectNumber d.payload 72 72 }) := by
  rw [tryFrom_40 (by omega) ht, if_neg (by omega), sliceTo_end (by omega)]
  simp only [Outcome.bind_ok, GaussianGrid.fromBuf]
  repeat rw [rdAs_drop (by omega), Outcome.bind_ok]
  repeat rw [asGribInt_number (n := 4) (by omega) (by omega)]
  rfl

/-- The earth shape of templates 3.20 and 3.30, octets 15 to 30. -/
def earthOf (payload : List UInt8) : EarthShape :=
  { shape := sectNumber payload 15 15, radiusScale := sectNumber payload 16 16, radiusValue := sectNumber payload 17 20
    majorScale := sectNumber payload 21 21, majorValue := sectNumber payload 22 25
    minorScale := sectNumber payload 26 26, minorValue := sectNumber payload 27 30 }

/-- C36, template 3.20 (polar stereographic). -/
theorem C36_polar (d : GridDefinition) (hlen : 60 ≤ d.payload.length) (ht : sectNumber d.payload 13 14 = 20) :
    GridTemplate.tryFrom d = .ok (.template20
      { earth := earthOf d.payload
        ni := sectNumber d.payload 31 34, nj := sectNumber d.payload 35 38
        firstLat := sectSigned d.payload 39 42, firstLon := sectSigned d.payload 43 46
        lad := sectSigned d.payload 48 51, lov := sectSigned d.payload 52 55
        dx := sectNumber d.payload 56 59, dy := sectNumber d.payload 60 63
        centre := sectNumber d.payload 64 64, mode := sectNumber d.payload 65 65 }) := by
  rw [tryFrom_20 (by omega) ht]
  simp only [PolarGrid.fromBuf, EarthShape.fromBuf]
  repeat rw [rdAs_drop (by omega), Outcome.bind_ok]
  repeat rw [asGribInt_number (n := 4) (by omega) (by omega)]
  rfl

/-- C36, template 3.30 (Lambert conformal). -/
theorem C36_lambert (d : GridDefinition) (hlen : 68 ≤ d.payload.length) (ht : sectNumber d.payload 13 14 = 30) :
    GridTemplate.tryFrom d = .ok (.template30
      { earth := earthOf d.payload
        ni := sectNumber d.payload 31 34, nj := sectNumber d.payload 35 38
        firstLat := sectSigned d.payload 39 42, firstLon := sectSigned d.payload 43 46
        lad := sectSigned d.payload 48 51, lov := sectSigned d.payload 52 55
        dx := sectNumber d.payload 56 59, dy := sectNumber d.payload 60 63
        mode := sectNumber d.payload 65 65
        latin1 := sectSigned d.payload 66 69, latin2 := sectSigned d.payload 70 73 }) := by
  rw [tryFrom_30 (by omega) ht]
  simp only [LambertGrid.fromBuf, EarthShape.fromBuf]
  repeat rw [rdAs_drop (by omega), Outcome.bind_ok]
  try simp only [Outcome.bind_ok]
  repeat rw [asGribInt_number (n := 4) (by omega) (by omega)]
  rfl

/-- C36. Every other template is refused, and so are templates 3.0 and 3.40 with a list of numbers of points (that is, a
section longer than 72 octets). -/
theorem C36_refused (d : GridDefinition) (hlen : 9 ≤ d.payload.length)
    (ht : sectNumber d.payload 13 14 ∉ [0, 20, 30, 40] ∨ (sectNumber d.payload 13 14 ∈ [0, 40] ∧ 67 < d.payload.length)) :
    GridTemplate.tryFrom d = .err .notSupported := by
  unfold GridTemplate.tryFrom GridDefinition.gridTmplNum
  rw [rdAs_number (by omega), Outcome.bind_ok]
  rw [show sectNumber d.payload 13 14 = number d.payload 7 2 from rfl] at ht
  generalize number d.payload 7 2 = n at *
  simp only [List.mem_cons, List.not_mem_nil, or_false] at ht
  split
  · rw [if_pos (by omega)]
  · omega
  · omega
  · rw [if_pos (by omega)]
  · rfl

/-- C36 fails for short sections: a section 3 that has a template number but not all octets of its template panics. -/
theorem C36_short_fails (d : GridDefinition) (hlen : 9 ≤ d.payload.length)
    (ht : (sectNumber d.payload 13 14 ∈ [0, 40] ∧ d.payload.length < 67) ∨
      (sectNumber d.payload 13 14 = 20 ∧ d.payload.length < 60) ∨ (sectNumber d.payload 13 14 = 30 ∧ d.payload.length < 68)) :
    GridTemplate.tryFrom d = .panic := by
  rw [show sectNumber d.payload 13 14 = number d.payload 7 2 from rfl] at ht
  simp only [List.mem_cons, List.not_mem_nil, or_false] at ht
  rcases ht with ⟨h0 | h40, hl⟩ | ⟨h20, hl⟩ | ⟨h30, hl⟩
  · rw [tryFrom_0 hlen h0, if_neg (by omega)]
    by_cases h : 25 ≤ d.payload.length
    · rw [sliceTo_end h, Outcome.bind_ok]
      refine bind_of_panic ?_
      unfold LatLonGrid.fromBuf
      iterate 6 refine rdAs_bind_panic fun _ => ?_
      exact bind_of_panic (rdAs_panic (by rw [List.length_drop]; omega))
    · exact bind_of_panic (sliceTo_panic (by omega))
  · rw [tryFrom_40 hlen h40, if_neg (by omega)]
    by_cases h : 25 ≤ d.payload.length
    · rw [sliceTo_end h, Outcome.bind_ok]
      refine bind_of_panic ?_
      unfold GaussianGrid.fromBuf
      iterate 8 refine rdAs_bind_panic fun _ => ?_
      exact bind_of_panic (rdAs_panic (by rw [List.length_drop]; omega))
    · exact bind_of_panic (sliceTo_panic (by omega))
  · rw [tryFrom_20 hlen h20]
    refine bind_of_panic ?_
    unfold PolarGrid.fromBuf
    refine bind_panic_of_noErr (EarthShape.fromBuf_noErr _) fun _ => ?_
    iterate 9 refine rdAs_bind_panic fun _ => ?_
    exact bind_of_panic (rdAs_panic (by rw [List.length_drop]; omega))
  · rw [tryFrom_30 hlen h30]
    refine bind_of_panic ?_
    unfold LambertGrid.fromBuf
    refine bind_panic_of_noErr (EarthShape.fromBuf_noErr _) fun _ => ?_
    iterate 10 refine rdAs_bind_panic fun _ => ?_
    exact bind_of_panic (rdAs_panic (by rw [List.length_drop]; omega))

/-- C36. A section 3 that is long enough for its template is never a panic: it is decoded, or refused as not supported.
Missing: shorter sections, which panic (`C36_short_fails`). -/
theorem C36_total_partial (d : GridDefinition) (hlen : 9 ≤ d.payload.length)
    (h0 : sectNumber d.payload 13 14 = 0 ∨ sectNumber d.payload 13 14 = 40 → 67 ≤ d.payload.length)
    (h20 : sectNumber d.payload 13 14 = 20 → 60 ≤ d.payload.length)
    (h30 : sectNumber d.payload 13 14 = 30 → 68 ≤ d.payload.length) :
    (∃ t, GridTemplate.tryFrom d = .ok t) ∨ GridTemplate.tryFrom d = .err .notSupported := by
  by_cases h : sectNumber d.payload 13 14 ∉ [0, 20, 30, 40] ∨ (sectNumber d.payload 13 14 ∈ [0, 40] ∧ 67 < d.payload.length)
  · exact .inr (C36_refused d hlen h)
  · left
    simp only [List.mem_cons, List.not_mem_nil, or_false, not_or, not_and, Decidable.not_not, Nat.not_lt] at h
    obtain ⟨hm, hle⟩ := h
    have hm : sectNumber d.payload 13 14 = 0 ∨ sectNumber d.payload 13 14 = 20 ∨ sectNumber d.payload 13 14 = 30 ∨
        sectNumber d.payload 13 14 = 40 := by omega
    rcases hm with e | e | e | e
    · exact ⟨_, C36_latlon d (by have := hle (.inl e); have := h0 (.inl e); omega) e⟩
    · exact ⟨_, C36_polar d (h20 e) e⟩
    · exact ⟨_, C36_lambert d (h30 e) e⟩
    · exact ⟨_, C36_gaussian d (by have := hle (.inr e); have := h0 (.inr e); omega) e⟩

/-- A section 3 of template 3.0: a 4 × 3 grid from 45N 350E to 15N 20E, scanned eastwards and southwards. -/
def sampleGrid : GridDefinition :=
  ⟨[0, 0, 0, 0, 12, 0, 0, 0, 0] ++ [6, 0, 0, 0, 0, 0, 0, 0, 0, 0, 0, 0, 0, 0, 0, 0] ++ [0, 0, 0, 4, 0, 0, 0, 3] ++
    [0, 0, 0, 0, 0, 0, 0, 0] ++ beBytes 4 45000000 ++ beBytes 4 350000000 ++ [48] ++ beBytes 4 15000000 ++
    beBytes 4 20000000 ++ beBytes 4 10000000 ++ beBytes 4 15000000 ++ [0]⟩

example : GridTemplate.tryFrom sampleGrid = .ok (.template0 ⟨4, 3, 45000000, 350000000, 15000000, 20000000, 0⟩) := by
  decide +kernel

example : GridTemplate.tryFrom ⟨sampleGrid.payload ++ [0]⟩ = .err .notSupported := by decide +kernel
example : GridTemplate.tryFrom ⟨sampleGrid.payload.take 66⟩ = .panic := by decide +kernel

/-! ## C37 -/

/-- C37. `ij()` succeeds exactly if the flags are supported and the number of points stated in section 3 (octets 7-10) is
the product of the grid shape; it then iterates over the grid of that shape. -/
theorem C37_ij (d : GridDefinition) (t : GridTemplate) (ht : GridTemplate.tryFrom d = .ok t) (hlen : 9 ≤ d.payload.length) :
    subIj d =
      if t.mode % 16 ≠ 0 then .err .notSupported
      else if sectNumber d.payload 7 10 = t.gridShape.1 * t.gridShape.2 then
        .ok (GridIter.new t.gridShape.1 t.gridShape.2 t.mode)
      else .err .invalidValueError := by
  unfold subIj GridDefinition.numPoints
  rw [rdAs_number (by omega), Outcome.bind_ok, ht, Outcome.bind_ok, C31_kinds]
  by_cases h : t.mode % 16 = 0
  · rw [if_pos h, if_neg (by simpa using h), Outcome.bind_ok, GridIter.sizeHint_new, Outcome.bind_ok]
    rfl
  · rw [if_neg h, if_pos h]; rfl

/-- C37. If `ij()` succeeds on a grid with rows and columns, iterating gives as many points as stated. -/
theorem C37_ij_count (d : GridDefinition) (t : GridTemplate) (ht : GridTemplate.tryFrom d = .ok t)
    (hlen : 9 ≤ d.payload.length) (h1 : 0 < t.gridShape.1) (h2 : 0 < t.gridShape.2) (it : GridIter) (hok : subIj d = .ok it) :
    ∃ ps, it.drain (sectNumber d.payload 7 10 + 1) = .done ps ∧ ps.length = sectNumber d.payload 7 10 := by
  rw [C37_ij d t ht hlen] at hok
  split at hok
  · cases hok
  · split at hok
    · rename_i hn
      cases hok
      rw [hn, C31_order _ _ _ h1 h2]
      exact ⟨_, rfl, by simp⟩
    · cases hok

example : subIj sampleGrid = .ok (GridIter.new 4 3 0) := by decide +kernel

/-- C37 fails for empty grids: with no points stated and `ni = 0`, `nj = 3`, `ij()` succeeds but the iterator never stops. -/
theorem C37_empty_fails : ∃ d it, subIj d = .ok it ∧ sectNumber d.payload 7 10 = 0 ∧
    ∀ fuel, ∃ ps, it.drain fuel = .more ps ∧ ps.length = fuel :=
  ⟨⟨(sampleGrid.payload.set 28 0).set 4 0⟩, GridIter.new 0 3 0, by decide +kernel, by decide +kernel,
    (C32_empty_lines_fails (ε := Empty) 0 3 0 (by decide) (by decide)).2.1⟩

/-- Iterating over a `GridPointIterator` (src/grid.rs:24-32), at most `fuel` calls. -/
def pointsDrain (fuel : Nat) : GridPoints F → Drained (F × F)
  | .latLon it => it.drain fuel
  | .lambert ps => if ps.length < fuel then .done ps else .more (ps.take fuel)

/-- C37. If `latlons()` succeeds, for a grid with rows and columns and any floating-point operations and projections,
then iterating gives as many points as stated in section 3. -/
theorem C37_latlons (o : GridOps G F) (d : GridDefinition) (t : GridTemplate) (ht : GridTemplate.tryFrom d = .ok t)
    (hlen : 9 ≤ d.payload.length) (h1 : 0 < t.gridShape.1) (h2 : 0 < t.gridShape.2) (pts : GridPoints F)
    (hok : subLatlons o d = .ok pts) : ∃ ps, pointsDrain (sectNumber d.payload 7 10 + 1) pts = .done ps ∧
      ps.length = sectNumber d.payload 7 10 := by
  unfold subLatlons GridDefinition.numPoints at hok
  rw [rdAs_number (by omega), Outcome.bind_ok, ht, Outcome.bind_ok] at hok
  obtain ⟨pts', hl, hok⟩ := Outcome.bind_eq_ok hok
  obtain ⟨n, hn, hok⟩ := Outcome.bind_eq_ok hok
  split at hok
  · rename_i he
    cases hok
    rw [show sectNumber d.payload 7 10 = number d.payload 1 4 from rfl, he]
    cases pts with
    | lambert ps =>
      cases hn
      exact ⟨ps, by simp [pointsDrain], rfl⟩
    | latLon it =>
      obtain ⟨hij, hla, hlo⟩ := latlons_regular o t it hl
      have hn : it.ij.sizeHint = .ok n := hn
      rw [hij, GridIter.sizeHint_new] at hn
      cases hn
      obtain ⟨la, lo, ij⟩ := it
      dsimp only at hij hla hlo
      subst hij
      rw [GridIter.new_eq]
      have hd : lo ≠ [] := by intro h; rw [h] at hlo; simp at hlo; omega
      obtain ⟨x, xs, rfl⟩ := List.exists_cons_of_ne_nil hd
      refine ⟨_, RegularIter.drain_at (perLine_pos _ h1 h2) hla hlo x _ 0 (Nat.zero_add _), by simp⟩
  · cases hok

/-! ## C43 -/

/-- Code table 3.2 with explicit axes scaled as the WMO manual says (scaled value times `10^-scale`). -/
def earthRadii (e : EarthShape) : Option (Rat × Rat) :=
  let scaled (value scale : Nat) : Rat := value / 10 ^ scale
  match e.shape with
  | 0 => some (6367470, 6367470)
  | 1 => some (scaled e.radiusValue e.radiusScale, scaled e.radiusValue e.radiusScale)
  | 2 => some (6378160, 6356775)
  | 3 => some (1000 * scaled e.majorValue e.majorScale, 1000 * scaled e.minorValue e.minorScale)
  | 4 => some (6378137, 6356752314 / 1000)
  | 5 => some (6378137, 63567523142 / 10000)
  | 6 => some (6371229, 6371229)
  | 7 => some (scaled e.majorValue e.majorScale, scaled e.minorValue e.minorScale)
  | 8 => some (6371200, 6371200)
  | _ => none

/-- The scale factors that matter are zero. -/
def unscaled (e : EarthShape) : Prop :=
  (e.shape = 1 → e.radiusScale = 0) ∧ (e.shape = 3 ∨ e.shape = 7 → e.majorScale = 0 ∧ e.minorScale = 0)

/-- C43, for all earth shapes whose explicit radii have scale factor 0: the radii are those of code table 3.2.
Missing: other scale factors, see `C43_fails`. -/
theorem C43_radii_partial (e : EarthShape) (h : unscaled e) :
    e.radii FloatOps.exact = (earthRadii e).map fun r => (some r.1, some r.2) := by
  obtain ⟨h1, h3⟩ := h
  have hlit : ∀ n : Int, FloatOps.exact.lit n 0 = some (n : Rat) := by
    intro n
    simp [FloatOps.exact, ratPowi]
  have hinv : (1 : Rat)⁻¹ = 1 := by decide +kernel
  have hcast : ∀ n : Nat, (((n : Int)) : Rat) = (n : Rat) := fun n => Rat.intCast_natCast n
  obtain ⟨shape, rs, rv, as, av, bs, bv⟩ := e
  dsimp only at h1 h3
  unfold EarthShape.radii earthRadii EarthShape.radiiDefined
  dsimp only
  split
  · simp [hlit]
  · simp only [FloatOps.exact, h1 rfl, Option.map_some]
    simp [Rat.div_def, hcast, hinv]
  · simp [hlit]
  · obtain ⟨ha, hb⟩ := h3 (.inl rfl)
    rw [hlit]
    simp [FloatOps.exact, ha, hb, Rat.mul_comm, Rat.div_def, hcast, hinv]
  · show _ = some (some (6378137 : Rat), some ((6356752314 : Rat) / 1000))
    decide +kernel
  · show _ = some (some (6378137 : Rat), some ((63567523142 : Rat) / 10000))
    decide +kernel
  · simp [hlit]
  · obtain ⟨ha, hb⟩ := h3 (.inr rfl)
    simp [FloatOps.exact, ha, hb, Rat.div_def, hcast, hinv]
  · simp [hlit]
  · split
    all_goals first | rfl | contradiction

example : unscaled ⟨3, 0, 0, 0, 6378, 0, 6356⟩ := by unfold unscaled; decide

/-- C43. Reserved codes give no radii, whatever the operations. -/
theorem C43_reserved (ops : FloatOps G) (e : EarthShape) (h : 9 ≤ e.shape) : e.radii ops = none := by
  unfold EarthShape.radii
  split
  all_goals first | rfl | omega

/-- C43 fails for scale factors other than 0: they are applied in the wrong direction.  A spherical earth of radius
63712290·10^-1 m gets the radius 637122900 m. -/
theorem C43_fails : ∃ e : EarthShape, earthRadii e = some (6371229, 6371229) ∧
    e.radii FloatOps.exact = some (some 637122900, some 637122900) :=
  ⟨⟨1, 1, 63712290, 0, 0, 0, 0⟩, by decide +kernel, by decide +kernel⟩

end Grib.Props
