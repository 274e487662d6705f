import Verif.Props.LatLon

/-! # C76: exactly which regular grids get the coordinates of their definition -/

namespace Grib.Props

open Grib.Model Grib.Spec

variable {ε F G : Type}

/-- Longitudes that are those of the definition up to whole turns: equal steps in the scanning direction. -/
def RightLongitudes (first last : Int) (mode ni : Nat) (lons : List (Option Rat)) : Prop :=
  ∀ i < ni, ∃ (x : Rat) (turns : Int), lons[i]? = some (some x) ∧ x = columnLongitude first last mode ni i + 360 * turns

theorem checkI32_ok {x y : Int} (h : (checkI32 x : Outcome ε Int) = .ok y) : y = x := by
  unfold checkI32 at h
  split at h <;> cases h
  rfl

/-- Equal ends scanned eastwards: the longitudes go westwards. -/
theorem circle_eq {first : Int} {ni : Nat} {mode : ScanningMode} {lons : List (Option Rat)} (h2 : 2 ≤ ni)
    (h : (evenlySpacedLongitudes FloatOps.exact first first (ni - 1) mode : Outcome ε _) = .ok lons)
    (hm : negativeI mode = false) :
    lons = (List.range ni).map fun i : Nat => some (
      let y := (first : Rat) / 1000000 + 360 - 360 * i / ((ni - 1 : Nat) : Rat)
      if y < 360 then y else y - 360) := by
  unfold evenlySpacedLongitudes at h
  obtain ⟨diff, hd, h⟩ := Outcome.bind_eq_ok h
  have hdiff := checkI32_ok hd
  subst hdiff
  have h0 : ((ni - 1 : Nat) : Rat) ≠ 0 := by exact_mod_cast (by omega : ni - 1 ≠ 0)
  rw [mode_positiveI] at h
  simp only [hm, Bool.not_false, show ¬ first - first > 0 by omega, decide_false, Bool.xor_true, Bool.not_true,
    Bool.false_eq_true, if_false, show ¬ first > first by omega] at h
  rw [show FloatOps.exact.add (FloatOps.exact.ofInt first) (FloatOps.exact.ofInt 360000000) =
      some ((first : Rat) + 360000000) from rfl, show FloatOps.exact.ofInt first = some (first : Rat) from rfl,
    evenly_exact _ _ _ (by omega), show ni - 1 + 1 = ni by omega] at h
  injection h with h
  rw [← h, List.map_map]
  apply List.map_congr_left
  intro i _
  have e : ((first : Rat) + 360000000 + i * ((first - (first + 360000000)) / ((ni - 1 : Nat) : Rat))) / 1000000 =
      (first : Rat) / 1000000 + 360 - 360 * i / ((ni - 1 : Nat) : Rat) := by
    field_simp
    ring
  simp only [Function.comp_def]
  rw [e]
  simp [FloatOps.exact]
  split <;> rfl

theorem longitudes_right {first last : Int} {ni : Nat} {mode : ScanningMode} {lons : List (Option Rat)} (h1 : 1 ≤ ni)
    (h : (evenlySpacedLongitudes FloatOps.exact first last (ni - 1) mode : Outcome ε _) = .ok lons) :
    RightLongitudes first last mode ni lons ↔ 2 ≤ ni ∧ (first ≠ last ∨ negativeI mode ∨ ni ≤ 3) := by
  by_cases h2 : 2 ≤ ni
  swap
  · -- a single column
    have : ni = 1 := by omega
    subst this
    refine ⟨fun hr => ?_, fun hr => absurd hr.1 h2⟩
    exfalso
    obtain ⟨x, t, hx, -⟩ := hr 0 (by omega)
    unfold evenlySpacedLongitudes at h
    obtain ⟨diff, hd, h⟩ := Outcome.bind_eq_ok h
    dsimp only at h
    have hnone : ∀ a b : Option Rat, evenlySpacedDegrees FloatOps.exact a b (1 - 1) = [none] := by
      intro a b
      cases a <;> cases b <;> simp [evenlySpacedDegrees, FloatOps.exact]
    split at h
    · injection h with h
      rw [← h, hnone] at hx
      simp at hx
    · injection h with h
      rw [← h, hnone] at hx
      simp [FloatOps.exact] at hx
  · by_cases hne : first ≠ last ∨ negativeI mode
    · -- as the definition says
      refine ⟨fun _ => ⟨h2, by tauto⟩, fun _ i hi => ?_⟩
      have e := lon_eq h2 h hne
      have hx : lons[i]? = some (some (
          let x := columnLongitude first last mode ni i
          if (first < last) = (negativeI mode = false) then x
          else
            let y := if negativeI mode then x + 360 else x
            if y < 360 then y else y - 360)) := by
        rw [e, List.getElem?_map, List.getElem?_range hi]; rfl
      dsimp only at hx
      split at hx
      · exact ⟨_, 0, hx, by push_cast; ring⟩
      · split at hx
        · split at hx
          · exact ⟨_, 1, hx, by push_cast; ring⟩
          · exact ⟨_, 0, hx, by push_cast; ring⟩
        · split at hx
          · exact ⟨_, 0, hx, by push_cast; ring⟩
          · exact ⟨_, -1, hx, by push_cast; ring⟩
    · -- a full circle eastwards
      have heq : first = last := by
        by_contra hc; exact hne (.inl hc)
      have hm : negativeI mode = false := by
        cases hc : negativeI mode
        · rfl
        · exact absurd (.inr hc) hne
      subst heq
      have e := circle_eq h2 h hm
      have hpos : (0 : Rat) < ((ni - 1 : Nat) : Rat) := by exact_mod_cast (by omega : 0 < ni - 1)
      have hcol : ∀ i : Nat, columnLongitude first first mode ni i = (first : Rat) / 1000000 + 360 * i / ((ni - 1 : Nat) : Rat) := by
        intro i
        unfold columnLongitude longitudeSpan
        rw [if_neg (by rw [hm]; decide), if_neg (by omega)]
        push_cast
        field_simp
        ring
      have hx : ∀ i < ni, ∃ t : Int, lons[i]? = some (some ((first : Rat) / 1000000 - 360 * i / ((ni - 1 : Nat) : Rat) + 360 * t)) := by
        intro i hi
        have : lons[i]? = some (some (
          let y := (first : Rat) / 1000000 + 360 - 360 * i / ((ni - 1 : Nat) : Rat)
          if y < 360 then y else y - 360)) := by
          rw [e, List.getElem?_map, List.getElem?_range hi]; rfl
        dsimp only at this
        split at this
        · exact ⟨1, by rw [this]; congr 2; push_cast; ring⟩
        · exact ⟨0, by rw [this]; congr 2; push_cast; ring⟩
      constructor
      · intro hr
        refine ⟨h2, .inr (.inr ?_)⟩
        obtain ⟨x, t, h3, h4⟩ := hr 1 (by omega)
        obtain ⟨t', h5⟩ := hx 1 (by omega)
        rw [h3] at h5
        injection h5 with h5
        injection h5 with h5
        rw [h4, hcol] at h5
        have h6 : (2 : Rat) = ((t' - t : Int) : Rat) * ((ni - 1 : Nat) : Rat) := by
          push_cast at h5 ⊢
          field_simp at h5
          linarith
        have h7 : (2 : Int) = (t' - t) * ((ni - 1 : Nat) : Int) := by exact_mod_cast h6
        have h8 : ((ni - 1 : Nat) : Int) ∣ 2 := ⟨t' - t, by rw [h7]; ring⟩
        have := Int.le_of_dvd (by omega) h8
        omega
      · rintro ⟨-, hn⟩ i hi
        have h3 : ni ≤ 3 := by tauto
        obtain ⟨t, ht⟩ := hx i hi
        have hint : ∃ k : Int, 2 * (i : Rat) / ((ni - 1 : Nat) : Rat) = k := by
          have : (ni = 2 ∨ ni = 3) ∧ (i = 0 ∨ i = 1 ∨ i = 2) := by omega
          rcases this with ⟨rfl | rfl, rfl | rfl | rfl⟩
          · exact ⟨0, by norm_num⟩
          · exact ⟨2, by norm_num⟩
          · exact ⟨4, by norm_num⟩
          · exact ⟨0, by norm_num⟩
          · exact ⟨1, by norm_num⟩
          · exact ⟨2, by norm_num⟩
        obtain ⟨k, hk⟩ := hint
        refine ⟨_, t - k, ht, ?_⟩
        rw [hcol]
        push_cast
        rw [← hk]
        ring

/-- C76. In exact arithmetic, for every accepted latitude/longitude grid: the latitudes are those of the definition exactly
if there are two rows or more, and the longitudes (up to whole turns) exactly if there are two columns or more and not a
full circle scanned eastwards with more than three columns. -/
theorem C76_right_iff (g : LatLonGrid) (it : RegularIter (Option Rat)) (h : g.latlons FloatOps.exact = .ok it) :
    ((∀ j < g.nj, it.lat[j]? = some (some (rowLatitude g j))) ↔ 2 ≤ g.nj) ∧
    (RightLongitudes g.firstLon g.lastLon g.mode g.ni it.lon ↔
      2 ≤ g.ni ∧ (g.firstLon ≠ g.lastLon ∨ negativeI g.mode ∨ g.ni ≤ 3)) := by
  obtain ⟨hl, hi, hj⟩ := latlons_lon h
  refine ⟨⟨fun hr => ?_, fun h2 j hjn => ?_⟩, longitudes_right hi hl⟩
  · by_contra hc
    have : g.nj = 1 := by omega
    have h1 := C33_single_row_nan _ g it h this
    have h0 := hr 0 (by omega)
    rw [h1] at h0
    simp [FloatOps.exact] at h0
  · rw [(C33_latitudes_partial g it h h2).1, List.getElem?_map, List.getElem?_range hjn]
    rfl

/-- C76. The same for the longitudes of Gaussian grids. -/
theorem C76_gaussian_iff (o : GaussOps G (Option Rat)) (g : GaussianGrid) (it : RegularIter (Option Rat))
    (h : g.latlons o FloatOps.exact = .ok it) :
    RightLongitudes g.firstLon g.lastLon g.mode g.ni it.lon ↔
      2 ≤ g.ni ∧ (g.firstLon ≠ g.lastLon ∨ negativeI g.mode ∨ g.ni ≤ 3) := by
  unfold GaussianGrid.latlons at h
  obtain ⟨c, -, h⟩ := Outcome.bind_eq_ok h
  split at h
  · cases h
  obtain ⟨ij, -, h⟩ := Outcome.bind_eq_ok h
  obtain ⟨lat, -, h⟩ := Outcome.bind_eq_ok h
  dsimp only at h
  split at h
  · cases h
  obtain ⟨lon, hlon, h⟩ := Outcome.bind_eq_ok h
  cases h
  exact longitudes_right (by omega) hlon

/-- C76. In exact arithmetic, a full circle scanned eastwards: the longitudes go westwards in equal steps. -/
theorem C76_full_circle (g : LatLonGrid) (it : RegularIter (Option Rat)) (h : g.latlons FloatOps.exact = .ok it)
    (h2 : 2 ≤ g.ni) (heq : g.lastLon = g.firstLon) (hm : negativeI g.mode = false) :
    it.lon = (List.range g.ni).map fun i : Nat => some (
      let y := (g.firstLon : Rat) / 1000000 + 360 - 360 * i / ((g.ni - 1 : Nat) : Rat)
      if y < 360 then y else y - 360) := by
  have := (latlons_lon h).1
  rw [heq] at this
  exact circle_eq h2 this hm

/-- A circle of latitude with four columns, stated from 0 to 0 and scanned eastwards: not right; with three columns: right. -/
example : ∃ it, (⟨4, 2, 10000000, 0, 0, 0, 0⟩ : LatLonGrid).latlons FloatOps.exact = .ok it ∧
    it.lon = [some 0, some 240, some 120, some 0] :=
  Outcome.exists_of_ok? (f := fun it : RegularIter (Option Rat) => it.lon) (by decide +kernel)
example : ∃ it, (⟨3, 2, 10000000, 0, 0, 0, 0⟩ : LatLonGrid).latlons FloatOps.exact = .ok it ∧
    it.lon = [some 0, some 180, some 0] :=
  Outcome.exists_of_ok? (f := fun it : RegularIter (Option Rat) => it.lon) (by decide +kernel)
/-- Across the 360-degree line. -/
example : ∃ it, (⟨3, 2, 10000000, 350000000, 0, 10000000, 0⟩ : LatLonGrid).latlons FloatOps.exact = .ok it ∧
    it.lon = [some 350, some 0, some 10] :=
  Outcome.exists_of_ok? (f := fun it : RegularIter (Option Rat) => it.lon) (by decide +kernel)

end Grib.Props
