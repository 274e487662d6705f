import Verif.Props.Grid
import Mathlib.Tactic.Linarith
import Mathlib.Tactic.FieldSimp
import Mathlib.Tactic.Ring
import Mathlib.Tactic.Positivity
import Mathlib.Algebra.Order.Field.Basic
import Mathlib.Algebra.Order.Field.Rat
import Mathlib.Data.Rat.Cast.Order

/-! # C33, C34: coordinates of latitude/longitude grids -/

namespace Grib.Props

open Grib.Model Grib.Spec

variable {ε F G : Type}

/-! ## C33 -/

theorem evenly_exact (a b : Rat) (n : Nat) (hn : 1 ≤ n) :
    evenlySpacedDegrees FloatOps.exact (some a) (some b) n =
      (List.range (n + 1)).map fun x : Nat => some ((a + x * ((b - a) / n)) / 1000000) := by
  have h0 : n ≠ 0 := by omega
  unfold evenlySpacedDegrees
  simp [FloatOps.exact, h0]

/-- Latitude of row `j` in degrees: equal steps from the first to the last latitude (given in microdegrees). -/
def rowLatitude (g : LatLonGrid) (j : Nat) : Rat :=
  ((g.firstLat : Rat) + j * (((g.lastLat : Rat) - g.firstLat) / ((g.nj - 1 : Nat) : Rat))) / 1000000

/-- Way from the first to the last longitude in the scanning direction, in microdegrees: non-negative (eastwards) or
non-positive (westwards), across the 360-degree line if necessary. -/
def longitudeSpan (first last : Int) (mode : Nat) : Int :=
  if negativeI mode then (if last ≤ first then last - first else last - first - 360000000)
  else (if first < last then last - first else last - first + 360000000)

/-- Longitude of column `i` in degrees, not reduced to one turn: equal steps in the scanning direction. -/
def columnLongitude (first last : Int) (mode ni i : Nat) : Rat :=
  ((first : Rat) + i * ((longitudeSpan first last mode : Rat) / ((ni - 1 : Nat) : Rat))) / 1000000

/-- C33. The points of an accepted latitude/longitude grid, for any floating-point operations: point `k` gets the
latitude of the row and the longitude of the column that the scanning order visits as the `k`-th; there are `nj` latitudes
and `ni` longitudes; latitude `j` is `(first + j·((last - first)/(nj - 1)))/10^6`, computed in this order. -/
theorem C33_points (ops : FloatOps F) (g : LatLonGrid) (it : RegularIter F) (h : g.latlons ops = .ok it) :
    it.lat = (List.range g.nj).map (fun j : Nat => ops.div (ops.add (ops.ofInt g.firstLat)
      (ops.mul (ops.ofInt j) (ops.div (ops.sub (ops.ofInt g.lastLat) (ops.ofInt g.firstLat)) (ops.ofInt (g.nj - 1 : Nat)))))
      (ops.ofInt 1000000)) ∧
    it.lon.length = g.ni ∧
    it.drain (g.ni * g.nj + 1) = .done ((List.range (g.ni * g.nj)).map fun k =>
      (it.lat.getD (visit g.ni g.nj g.mode k).2 ops.nan, it.lon.getD (visit g.ni g.nj g.mode k).1 ops.nan)) := by
  have hk := LatLonGrid.latlons_ok h
  unfold LatLonGrid.latlons at h
  obtain ⟨c, -, h⟩ := Outcome.bind_eq_ok h
  split at h
  · cases h
  obtain ⟨ij, hij, h⟩ := Outcome.bind_eq_ok h
  split at h
  · cases h
  rename_i hnj
  split at h
  · cases h
  rename_i hni
  obtain ⟨lon, hlon, h⟩ := Outcome.bind_eq_ok h
  cases h
  refine ⟨?_, hk.2.2, ?_⟩
  · dsimp only
    unfold evenlySpacedDegrees
    rw [show g.nj - 1 + 1 = g.nj by omega]
  · obtain ⟨h1, h2, h3⟩ := hk
    dsimp only at h1 h2 h3
    rw [gridIj_ok hij, GridIter.new_eq,
      RegularIter.drain_at (perLine_pos _ (by omega) (by omega)) h2 h3 ops.nan _ 0 (Nat.zero_add _), List.range_eq_range']

/-- C33. In exact arithmetic, latitudes of a grid with two rows or more: `nj` equal steps, the first and the last one
being those of the definition.  Missing: a single row, see `C33_single_row_fails`. -/
theorem C33_latitudes_partial (g : LatLonGrid) (it : RegularIter (Option Rat)) (h : g.latlons FloatOps.exact = .ok it)
    (h2 : 2 ≤ g.nj) :
    it.lat = (List.range g.nj).map (fun j => some (rowLatitude g j)) ∧
    rowLatitude g 0 = g.firstLat / 1000000 ∧ rowLatitude g (g.nj - 1) = g.lastLat / 1000000 := by
  refine ⟨?_, ?_, ?_⟩
  · rw [(C33_points _ g it h).1]
    apply List.map_congr_left
    intro j _
    have h0 : ((g.nj - 1 : Nat) : Rat) ≠ 0 := by exact_mod_cast (by omega : g.nj - 1 ≠ 0)
    simp [FloatOps.exact, rowLatitude, h0]
  · simp [rowLatitude]
  · have h0 : ((g.nj - 1 : Nat) : Rat) ≠ 0 := by exact_mod_cast (by omega : g.nj - 1 ≠ 0)
    unfold rowLatitude
    field_simp
    ring

theorem lon_eq {first last : Int} {ni : Nat} {mode : ScanningMode} {lons : List (Option Rat)} (h2 : 2 ≤ ni)
    (h : (evenlySpacedLongitudes FloatOps.exact first last (ni - 1) mode : Outcome ε _) = .ok lons)
    (hne : first ≠ last ∨ negativeI mode) :
    lons = (List.range ni).map fun i : Nat => some (
      let x := columnLongitude first last mode ni i
      if (first < last) = (negativeI mode = false) then x
      else
        let y := if negativeI mode then x + 360 else x
        if y < 360 then y else y - 360) := by
  unfold evenlySpacedLongitudes at h
  obtain ⟨diff, hd, h⟩ := Outcome.bind_eq_ok h
  have hdiff : diff = last - first := by
    unfold checkI32 at hd
    split at hd <;> cases hd
    rfl
  subst hdiff
  have h0 : ((ni - 1 : Nat) : Rat) ≠ 0 := by exact_mod_cast (by omega : ni - 1 ≠ 0)
  rw [mode_positiveI] at h
  by_cases hlt : first < last
  · cases hneg : negativeI mode
    · simp only [hneg, Bool.not_false, show last - first > 0 by omega, decide_true, Bool.xor_self, if_true] at h
      rw [show FloatOps.exact.ofInt first = some (first : Rat) from rfl, show FloatOps.exact.ofInt last = some (last : Rat) from rfl,
        evenly_exact _ _ _ (by omega), show ni - 1 + 1 = ni by omega] at h
      injection h with h
      rw [← h]
      apply List.map_congr_left
      intro i _
      simp [hlt, columnLongitude, longitudeSpan, hneg]
    · simp only [hneg, Bool.not_true, show last - first > 0 by omega, decide_true, Bool.xor_false, Bool.false_eq_true, if_false,
        show ¬ first > last by omega] at h
      rw [show FloatOps.exact.add (FloatOps.exact.ofInt first) (FloatOps.exact.ofInt 360000000) =
          some ((first : Rat) + 360000000) from rfl, show FloatOps.exact.ofInt last = some (last : Rat) from rfl,
        evenly_exact _ _ _ (by omega), show ni - 1 + 1 = ni by omega] at h
      injection h with h
      rw [← h, List.map_map]
      apply List.map_congr_left
      intro i _
      have e : columnLongitude first last mode ni i + 360 =
          ((first : Rat) + 360000000 + i * ((last - (first + 360000000)) / ((ni - 1 : Nat) : Rat))) / 1000000 := by
        unfold columnLongitude longitudeSpan
        rw [if_pos hneg, if_neg (by omega)]
        push_cast
        field_simp
        ring
      simp only [Function.comp_def, hlt]
      simp [FloatOps.exact, e]
      split <;> rfl
  · cases hneg : negativeI mode
    · have hgt : first > last := by
        rcases hne with h1 | h1
        · omega
        · rw [hneg] at h1; cases h1
      simp only [hneg, Bool.not_false, show ¬ last - first > 0 by omega, decide_false, Bool.xor_true, Bool.not_true, Bool.false_eq_true, if_false,
        hgt, if_true] at h
      rw [show FloatOps.exact.add (FloatOps.exact.ofInt last) (FloatOps.exact.ofInt 360000000) =
          some ((last : Rat) + 360000000) from rfl, show FloatOps.exact.ofInt first = some (first : Rat) from rfl,
        evenly_exact _ _ _ (by omega), show ni - 1 + 1 = ni by omega] at h
      injection h with h
      rw [← h, List.map_map]
      apply List.map_congr_left
      intro i _
      have e : columnLongitude first last mode ni i =
          ((first : Rat) + i * ((last + 360000000 - first) / ((ni - 1 : Nat) : Rat))) / 1000000 := by
        unfold columnLongitude longitudeSpan
        rw [if_neg (by rw [hneg]; decide), if_neg (by omega)]
        push_cast
        field_simp
        ring
      simp only [Function.comp_def, hlt]
      simp [FloatOps.exact, e]
      split <;> rfl
    · simp only [hneg, Bool.not_true, show ¬ last - first > 0 by omega, decide_false, Bool.xor_self, Bool.not_false, if_true] at h
      rw [show FloatOps.exact.ofInt first = some (first : Rat) from rfl, show FloatOps.exact.ofInt last = some (last : Rat) from rfl,
        evenly_exact _ _ _ (by omega), show ni - 1 + 1 = ni by omega] at h
      injection h with h
      rw [← h]
      apply List.map_congr_left
      intro i _
      simp [hlt, columnLongitude, longitudeSpan, hneg, show last ≤ first by omega]

theorem latlons_lon {g : LatLonGrid} {it : RegularIter F} {ops : FloatOps F} (h : g.latlons ops = .ok it) :
    (evenlySpacedLongitudes ops g.firstLon g.lastLon (g.ni - 1) g.mode : Outcome GribError _) = .ok it.lon ∧ 1 ≤ g.ni ∧ 1 ≤ g.nj := by
  unfold LatLonGrid.latlons at h
  obtain ⟨c, -, h⟩ := Outcome.bind_eq_ok h
  split at h
  · cases h
  obtain ⟨ij, hij, h⟩ := Outcome.bind_eq_ok h
  split at h
  · cases h
  split at h
  · cases h
  obtain ⟨lon, hlon, h⟩ := Outcome.bind_eq_ok h
  cases h
  exact ⟨hlon, by omega, by omega⟩

/-- C33. In exact arithmetic, if the end longitudes agree with the scanning direction then the longitudes are equal steps
from the first to the last one.  Missing: a single column. -/
theorem C33_longitudes_partial (g : LatLonGrid) (it : RegularIter (Option Rat)) (h : g.latlons FloatOps.exact = .ok it)
    (h2 : 2 ≤ g.ni) (hdir : if negativeI g.mode then g.lastLon ≤ g.firstLon else g.firstLon < g.lastLon) :
    it.lon = (List.range g.ni).map (fun i : Nat => some
      (((g.firstLon : Rat) + i * (((g.lastLon : Rat) - g.firstLon) / ((g.ni - 1 : Nat) : Rat))) / 1000000)) := by
  rw [lon_eq h2 (latlons_lon h).1 (by
    cases hn : negativeI g.mode
    · rw [hn] at hdir; simp at hdir; left; omega
    · exact .inr rfl)]
  apply List.map_congr_left
  intro i _
  cases hn : negativeI g.mode
  · rw [hn] at hdir
    simp only [Bool.false_eq_true, if_false] at hdir
    simp [hdir, columnLongitude, longitudeSpan, hn]
  · rw [hn] at hdir
    simp only [if_true] at hdir
    simp [show ¬ g.firstLon < g.lastLon by omega, hdir, columnLongitude, longitudeSpan, hn]

/-- C33. In exact arithmetic, for end longitudes in `[0, 360)` degrees: longitude `i` is the `i`-th of equal steps in the
scanning direction, up to whole turns, and lies in `[0, 360)`; the first and the last are those of the definition.
Missing: a single column, and equal end longitudes scanned eastwards (`C33_full_circle_fails`). -/
theorem C33_longitudes_turn_partial (g : LatLonGrid) (it : RegularIter (Option Rat)) (h : g.latlons FloatOps.exact = .ok it)
    (h2 : 2 ≤ g.ni) (hf0 : 0 ≤ g.firstLon) (hf : g.firstLon < 360000000) (hl0 : 0 ≤ g.lastLon) (hl : g.lastLon < 360000000)
    (hne : g.firstLon ≠ g.lastLon ∨ negativeI g.mode) :
    (∀ i < g.ni, ∃ x : Rat, it.lon[i]? = some (some x) ∧ 0 ≤ x ∧ x < 360 ∧
      ∃ turns : Int, x = columnLongitude g.firstLon g.lastLon g.mode g.ni i + 360 * turns) ∧
    it.lon[0]? = some (some ((g.firstLon : Rat) / 1000000)) ∧ it.lon[g.ni - 1]? = some (some ((g.lastLon : Rat) / 1000000)) := by
  have hlon := lon_eq h2 (latlons_lon h).1 hne
  have hpos : (0 : Rat) < ((g.ni - 1 : Nat) : Rat) := by exact_mod_cast (by omega : 0 < g.ni - 1)
  have hf0' : (0 : Rat) ≤ g.firstLon := by exact_mod_cast hf0
  have hf' : (g.firstLon : Rat) < 360000000 := by exact_mod_cast hf
  have hl0' : (0 : Rat) ≤ g.lastLon := by exact_mod_cast hl0
  have hl' : (g.lastLon : Rat) < 360000000 := by exact_mod_cast hl
  have main : ∀ i < g.ni, ∃ x : Rat, it.lon[i]? = some (some x) ∧ 0 ≤ x ∧ x < 360 ∧
      ∃ turns : Int, x = columnLongitude g.firstLon g.lastLon g.mode g.ni i + 360 * turns := by
    intro i hi
    rw [hlon, List.getElem?_map, List.getElem?_range hi, Option.map_some]
    refine ⟨_, rfl, ?_⟩
    have ht0 : (0 : Rat) ≤ (i : Rat) / ((g.ni - 1 : Nat) : Rat) := by positivity
    have ht1 : (i : Rat) / ((g.ni - 1 : Nat) : Rat) ≤ 1 := by
      rw [div_le_one hpos]
      exact_mod_cast (by omega : i ≤ g.ni - 1)
    have hcol : columnLongitude g.firstLon g.lastLon g.mode g.ni i =
        ((g.firstLon : Rat) + (i : Rat) / ((g.ni - 1 : Nat) : Rat) * (longitudeSpan g.firstLon g.lastLon g.mode : Rat)) / 1000000 := by
      unfold columnLongitude
      congr 2
      ring
    generalize (i : Rat) / ((g.ni - 1 : Nat) : Rat) = t at ht0 ht1 hcol
    rw [hcol]
    by_cases hlt : g.firstLon < g.lastLon
    · have hlt' : (g.firstLon : Rat) < g.lastLon := by exact_mod_cast hlt
      cases hneg : negativeI g.mode
      · rw [if_pos (by simp [hlt]), longitudeSpan, if_neg (by simp [hneg]), if_pos hlt, Int.cast_sub]
        have p1 : 0 ≤ t * ((g.lastLon : Rat) - g.firstLon) := mul_nonneg ht0 (by linarith)
        have p2 : t * ((g.lastLon : Rat) - g.firstLon) ≤ (g.lastLon : Rat) - g.firstLon := mul_le_of_le_one_left (by linarith) ht1
        exact ⟨by linarith, by linarith, 0, by simp⟩
      · have hs : longitudeSpan g.firstLon g.lastLon g.mode = g.lastLon - g.firstLon - 360000000 := by
          unfold longitudeSpan; rw [if_pos hneg, if_neg (by omega)]
        rw [hs, if_neg (by simp [hlt])]
        dsimp only
        rw [if_pos rfl]
        push_cast
        have p1 : 0 ≤ t * ((g.firstLon : Rat) + 360000000 - g.lastLon) := mul_nonneg ht0 (by linarith)
        have p2 : t * ((g.firstLon : Rat) + 360000000 - g.lastLon) ≤ (g.firstLon : Rat) + 360000000 - g.lastLon :=
          mul_le_of_le_one_left (by linarith) ht1
        have e : t * ((g.lastLon : Rat) - g.firstLon - 360000000) = -(t * ((g.firstLon : Rat) + 360000000 - g.lastLon)) := by ring
        rw [e]
        split
        · exact ⟨by linarith, by linarith, 1, by push_cast; ring⟩
        · exact ⟨by linarith, by linarith, 0, by push_cast; ring⟩
    · have hle' : (g.lastLon : Rat) ≤ g.firstLon := by exact_mod_cast (by omega : g.lastLon ≤ g.firstLon)
      cases hneg : negativeI g.mode
      · have hs : longitudeSpan g.firstLon g.lastLon g.mode = g.lastLon - g.firstLon + 360000000 := by
          unfold longitudeSpan; rw [if_neg (by simp [hneg]), if_neg hlt]
        rw [hs, if_neg (by simp [hlt])]
        dsimp only
        rw [if_neg (show ¬ false = true by decide)]
        push_cast
        have p1 : 0 ≤ t * ((g.lastLon : Rat) - g.firstLon + 360000000) := mul_nonneg ht0 (by linarith)
        have p2 : t * ((g.lastLon : Rat) - g.firstLon + 360000000) ≤ (g.lastLon : Rat) - g.firstLon + 360000000 :=
          mul_le_of_le_one_left (by linarith) ht1
        split
        · exact ⟨by linarith, by linarith, 0, by push_cast; ring⟩
        · exact ⟨by linarith, by linarith, -1, by push_cast; ring⟩
      · rw [if_pos (by simp [hlt]), longitudeSpan, if_pos hneg, if_pos (by omega), Int.cast_sub]
        have p1 : 0 ≤ t * ((g.firstLon : Rat) - g.lastLon) := mul_nonneg ht0 (by linarith)
        have p2 : t * ((g.firstLon : Rat) - g.lastLon) ≤ (g.firstLon : Rat) - g.lastLon := mul_le_of_le_one_left (by linarith) ht1
        have e : t * ((g.lastLon : Rat) - g.firstLon) = -(t * ((g.firstLon : Rat) - g.lastLon)) := by ring
        rw [e]
        exact ⟨by linarith, by linarith, 0, by simp⟩
  have turns0 : ∀ (x y : Rat) (m : Int), 0 ≤ x → x < 360 → 0 ≤ y → y < 360 → x = y + 360 * m → x = y := by
    intro x y m h1 h2 h3 h4 he
    have hm1 : (m : Rat) < 1 := by linarith
    have hm2 : (-1 : Rat) < m := by linarith
    have : m = 0 := by
      have a1 : m < 1 := by exact_mod_cast hm1
      have a2 : -1 < m := by exact_mod_cast hm2
      omega
    rw [he, this]; simp
  refine ⟨main, ?_, ?_⟩
  · obtain ⟨x, hx, h0, h1, m, hm⟩ := main 0 (by omega)
    have hc : columnLongitude g.firstLon g.lastLon g.mode g.ni 0 = (g.firstLon : Rat) / 1000000 := by simp [columnLongitude]
    rw [hc] at hm
    rw [hx, turns0 x _ m h0 h1 (by positivity) (by rw [div_lt_iff₀ (by norm_num)]; linarith) hm]
  · obtain ⟨x, hx, h0, h1, m, hm⟩ := main (g.ni - 1) (by omega)
    have hc : ∃ n : Int, columnLongitude g.firstLon g.lastLon g.mode g.ni (g.ni - 1) = (g.lastLon : Rat) / 1000000 + 360 * n := by
      have : columnLongitude g.firstLon g.lastLon g.mode g.ni (g.ni - 1) =
          ((g.firstLon : Rat) + longitudeSpan g.firstLon g.lastLon g.mode) / 1000000 := by
        unfold columnLongitude
        field_simp
      rw [this]
      unfold longitudeSpan
      split
      · split
        · exact ⟨0, by push_cast; ring⟩
        · exact ⟨-1, by push_cast; ring⟩
      · split
        · exact ⟨0, by push_cast; ring⟩
        · exact ⟨1, by push_cast; ring⟩
    obtain ⟨n, hn⟩ := hc
    rw [hn] at hm
    rw [hx, turns0 x (g.lastLon / 1000000) (n + m) h0 h1 (by positivity) (by rw [div_lt_iff₀ (by norm_num)]; linarith)
      (by rw [hm]; push_cast; ring)]

/-- A grid of 4 × 3 points from 45N 350E eastwards to 15N 20E. -/
def sampleLatLon : LatLonGrid := ⟨4, 3, 45000000, 350000000, 15000000, 20000000, 0⟩

example : sampleLatLon.latlons FloatOps.exact =
    .ok ⟨[some 45, some 30, some 15], [some 350, some 0, some 10, some 20], GridIter.new 4 3 0⟩ := by decide +kernel
example : sampleLatLon.firstLon ≠ sampleLatLon.lastLon ∨ negativeI sampleLatLon.mode := by decide
example : { sampleLatLon with lastLon := 359000000 }.latlons FloatOps.exact =
    .ok ⟨[some 45, some 30, some 15], [some 350, some 353, some 356, some 359], GridIter.new 4 3 0⟩ := by decide +kernel

/-- C33 fails for a single row or a single column: its latitude or longitude is not a number. -/
theorem C33_single_row_fails : ∃ (g : LatLonGrid) (it : RegularIter (Option Rat)), g.latlons FloatOps.exact = .ok it ∧
    g.nj = 1 ∧ g.firstLat = 45000000 ∧ g.lastLat = 45000000 ∧ it.lat = [none] :=
  ⟨⟨4, 1, 45000000, 350000000, 45000000, 20000000, 0⟩, ⟨[none], [some 350, some 0, some 10, some 20], GridIter.new 4 1 0⟩,
    by decide +kernel, rfl, rfl, rfl, rfl⟩

/-- C33. In general: with a single row the only latitude is `(first + 0·((last - first)/0))/10^6`. -/
theorem C33_single_row_nan (ops : FloatOps F) (g : LatLonGrid) (it : RegularIter F) (h : g.latlons ops = .ok it) (h1 : g.nj = 1) :
    it.lat = [ops.div (ops.add (ops.ofInt g.firstLat) (ops.mul (ops.ofInt 0)
      (ops.div (ops.sub (ops.ofInt g.lastLat) (ops.ofInt g.firstLat)) (ops.ofInt 0)))) (ops.ofInt 1000000)] := by
  rw [(C33_points ops g it h).1, h1]
  rfl

/-- C33 fails for a full circle stated with equal end longitudes and scanned eastwards: the longitudes go westwards. -/
theorem C33_full_circle_fails : ∃ (g : LatLonGrid) (it : RegularIter (Option Rat)), g.latlons FloatOps.exact = .ok it ∧
    g.ni = 4 ∧ negativeI g.mode = false ∧ g.firstLon = g.lastLon ∧ it.lon = [some 0, some 240, some 120, some 0] ∧
    (List.range 4).map (columnLongitude g.firstLon g.lastLon g.mode 4) = [0, 120, 240, 360] :=
  ⟨⟨4, 3, 45000000, 0, 15000000, 0, 0⟩, ⟨[some 45, some 30, some 15], [some 0, some 240, some 120, some 0], GridIter.new 4 3 0⟩,
    by decide +kernel, rfl, rfl, rfl, rfl, by decide +kernel⟩

/-! ## C34 -/

/-- A difference fits the type the code computes it in. -/
def fitsI32 (x : Int) : Prop := -2 ^ 31 ≤ x ∧ x < 2 ^ 31

theorem evenlySpacedLongitudes_total (ops : FloatOps F) {a b : Int} (n : Nat) (mode : ScanningMode) (h : fitsI32 (b - a)) :
    ∃ l, (evenlySpacedLongitudes ops a b n mode : Outcome ε _) = .ok l := by
  unfold evenlySpacedLongitudes checkI32
  unfold fitsI32 at h
  rw [if_pos h]
  simp only [Outcome.bind_ok]
  split <;> exact ⟨_, rfl⟩

/-- The end latitudes agree with the scanning direction: the last one is greater than the first one exactly if rows are
scanned in the `+j` direction. -/
def agreesJ (firstLat lastLat : Int) (mode : Nat) : Prop := (firstLat < lastLat) ↔ positiveJ mode = true

theorem isConsistentForJ_eq {a b : Int} (mode : ScanningMode) (h : fitsI32 (b - a)) :
    ∃ c, (isConsistentForJ a b mode : Outcome ε Bool) = .ok c ∧ (c = true ↔ agreesJ a b mode) := by
  unfold isConsistentForJ checkI32
  unfold fitsI32 at h
  rw [if_pos h, Outcome.bind_ok, mode_positiveJ]
  refine ⟨_, rfl, ?_⟩
  unfold agreesJ
  cases positiveJ mode
  · simp
  · simp

theorem isConsistentForJ_panic {a b : Int} (mode : ScanningMode) (h : ¬ fitsI32 (b - a)) :
    (isConsistentForJ a b mode : Outcome ε Bool) = .panic := by
  unfold isConsistentForJ checkI32
  unfold fitsI32 at h
  rw [if_neg h]; rfl

/-- C34. A latitude/longitude grid with rows and columns and coordinates whose differences fit 32 bits is never a panic;
it is accepted exactly if its end latitudes agree with the scanning direction and no unsupported flag is set.
Missing: empty grids and larger differences, which panic (`C34_empty_fails`, `C34_overflow_fails`). -/
theorem C34_accepts_partial (ops : FloatOps F) (g : LatLonGrid) (hi : 0 < g.ni) (hj : 0 < g.nj)
    (hlat : fitsI32 (g.lastLat - g.firstLat)) (hlon : fitsI32 (g.lastLon - g.firstLon)) :
    (¬ agreesJ g.firstLat g.lastLat g.mode → g.latlons ops = .err .invalidValueError) ∧
    (agreesJ g.firstLat g.lastLat g.mode → g.mode % 16 ≠ 0 → g.latlons ops = .err .notSupported) ∧
    (agreesJ g.firstLat g.lastLat g.mode → g.mode % 16 = 0 → ∃ it, g.latlons ops = .ok it) := by
  obtain ⟨c, hc, hiff⟩ := isConsistentForJ_eq (ε := GribError) g.mode hlat
  unfold LatLonGrid.latlons
  rw [hc, Outcome.bind_ok]
  refine ⟨fun h => ?_, fun h hm => ?_, fun h hm => ?_⟩
  · rw [if_pos (by rw [hiff]; exact h)]
  · rw [if_neg (by rw [hiff]; simpa using h)]
    unfold gridIj
    rw [mode_unsupported, if_pos (by simpa using hm)]; rfl
  · rw [if_neg (by rw [hiff]; simpa using h)]
    unfold gridIj
    rw [mode_unsupported, if_neg (by simpa using hm), Outcome.bind_ok, if_neg (by omega), if_neg (by omega)]
    obtain ⟨l, hl⟩ := evenlySpacedLongitudes_total (ε := GribError) ops (g.ni - 1) g.mode hlon
    rw [hl]
    exact ⟨_, rfl⟩

/-- C34. Latitudes in `[-90, 90]` and longitudes in `[-360, 360]` degrees are within the range of `C34_accepts_partial`. -/
theorem C34_range (a b : Int) (ha : -360000000 ≤ a ∧ a ≤ 360000000) (hb : -360000000 ≤ b ∧ b ≤ 360000000) : fitsI32 (b - a) := by
  unfold fitsI32; omega

example : agreesJ sampleLatLon.firstLat sampleLatLon.lastLat sampleLatLon.mode := by unfold agreesJ; decide +kernel
example : { sampleLatLon with mode := 0b01000000 }.latlons FloatOps.exact = .err .invalidValueError := by decide +kernel

/-- C34 fails: latitudes whose difference does not fit 32 bits panic, instead of being refused. -/
theorem C34_overflow_fails (ops : FloatOps F) (g : LatLonGrid) (h : ¬ fitsI32 (g.lastLat - g.firstLat)) :
    g.latlons ops = .panic := by
  unfold LatLonGrid.latlons
  rw [isConsistentForJ_panic g.mode h]; rfl

/-- Such a grid can be read from a section 3. -/
example : ∃ d g, GridTemplate.tryFrom d = .ok (.template0 g) ∧ ¬ fitsI32 (g.lastLat - g.firstLat) :=
  ⟨⟨sampleGrid.payload.take 41 ++ [0x7f, 0xff, 0xff, 0xff] ++ [0, 0, 0, 0] ++ [48] ++ [0xff, 0xff, 0xff, 0xff] ++
    sampleGrid.payload.drop 54⟩, ⟨4, 3, 2147483647, 0, -2147483647, 20000000, 0⟩, by decide +kernel, by unfold fitsI32; decide⟩

/-- C34 fails: an empty grid panics if its latitudes agree with the scanning direction. -/
theorem C34_empty_fails (ops : FloatOps F) (g : LatLonGrid) (h0 : g.ni = 0 ∨ g.nj = 0)
    (hlat : fitsI32 (g.lastLat - g.firstLat)) (h : agreesJ g.firstLat g.lastLat g.mode) (hm : g.mode % 16 = 0) :
    g.latlons ops = .panic := by
  obtain ⟨c, hc, hiff⟩ := isConsistentForJ_eq (ε := GribError) g.mode hlat
  unfold LatLonGrid.latlons
  rw [hc, Outcome.bind_ok, if_neg (by rw [hiff]; simpa using h)]
  unfold gridIj
  rw [mode_unsupported, if_neg (by simpa using hm), Outcome.bind_ok]
  split
  · rfl
  · rw [if_pos (by omega)]

example : ({ sampleLatLon with ni := 0 } : LatLonGrid).latlons FloatOps.exact = .panic := by decide +kernel

/-- C34 fails: a single row (equal end latitudes) scanned in the `+j` direction is refused as inconsistent. -/
theorem C34_single_row_fails (ops : FloatOps F) (g : LatLonGrid) (h : g.firstLat = g.lastLat) (hp : positiveJ g.mode = true) :
    g.latlons ops = .err .invalidValueError := by
  have hf : fitsI32 (g.lastLat - g.firstLat) := by unfold fitsI32; omega
  obtain ⟨c, hc, hiff⟩ := isConsistentForJ_eq (ε := GribError) g.mode hf
  unfold LatLonGrid.latlons
  rw [hc, Outcome.bind_ok, if_pos]
  rw [hiff]
  unfold agreesJ
  rw [h, hp]
  simp

example : positiveJ 0b01000000 = true := by decide

end Grib.Props
