import Verif.Props.Gaussian

/-! # C51: projected grids -/

namespace Grib.Props

open Grib.Model Grib.Spec

variable {ε F G : Type}

/-- `project_array` converts each point by itself. -/
def Pointwise (p : ProjOps G F) (inverse : ProjDef G → G × G → Option (G × G)) : Prop :=
  ∀ d xs, p.inverseAll d xs = allSome (xs.map (inverse d))

/-- What coordinates of a projected grid mean: with `(x0, y0)` the projected first point, there are `ni·nj` points, and the
`k`-th one is the inverse projection, in degrees, of `(x0 + dx·i, y0 + dy·j)`, where `(i, j)` is the `k`-th point in scanning
order. -/
def ProjectedPoints (p : ProjOps G F) (inverse : ProjDef G → G × G → Option (G × G)) (d : ProjDef G) (first delta : G × G)
    (ni nj mode : Nat) (pts : List (F × F)) : Prop :=
  ∃ x0 y0, p.forward d (p.toRadians first.2, p.toRadians first.1) = some (x0, y0) ∧ pts.length = ni * nj ∧
    ∀ k < ni * nj, ∃ lon lat,
      inverse d (p.ops.add x0 (p.ops.mul delta.1 (p.ops.ofInt (visit ni nj mode k).1)),
        p.ops.add y0 (p.ops.mul delta.2 (p.ops.ofInt (visit ni nj mode k).2))) = some (lon, lat) ∧
      pts[k]? = some (p.toF32 (p.toDegrees lat), p.toF32 (p.toDegrees lon))

theorem latlonsFromProjection_points (p : ProjOps G F) {inverse : ProjDef G → G × G → Option (G × G)} (hinv : Pointwise p inverse)
    {d : ProjDef G} {first delta : G × G} {ni nj mode : Nat} (hi : 0 < ni) (hj : 0 < nj) {pts : List (F × F)}
    (h : latlonsFromProjection p d first delta (GridIter.new ni nj mode) = .ok pts) :
    ProjectedPoints p inverse d first delta ni nj mode pts := by
  unfold latlonsFromProjection at h
  split at h
  · cases h
  · split at h
    · cases h
    · rename_i x0 y0 hf
      have hc : collectIj (GridIter.new ni nj mode) = .ok ((List.range (ni * nj)).map (visit ni nj mode)) := by
        unfold collectIj
        have : (GridIter.new ni nj mode).majorLen * (GridIter.new ni nj mode).minorLen = ni * nj := by
          rw [GridIter.new_eq]; exact lines_mul ni nj mode
        rw [this, C31_order ni nj mode hi hj]
      rw [hc, Outcome.bind_ok] at h
      dsimp only at h
      rw [hinv] at h
      split at h
      · cases h
      · rename_i ll hall
        cases h
        have hs := allSome_getElem hall
        have hl := allSome_length hall
        simp only [List.length_map, List.length_range] at hl
        refine ⟨x0, y0, hf, by simpa using hl, ?_⟩
        intro k hk
        have hk' := congrArg (fun l => l[k]?) hs
        simp only [List.getElem?_map, List.getElem?_range hk, Option.map_some] at hk'
        have hlt : k < ll.length := by omega
        rw [List.getElem?_eq_getElem hlt, Option.map_some] at hk'
        refine ⟨ll[k].1, ll[k].2, Option.some.inj hk', ?_⟩
        rw [List.getElem?_map, List.getElem?_eq_getElem hlt]
        rfl

/-- C51, Lambert conformal grids: all points are as specified, for the projection with the earth radii, `LaD`, `LoV`,
`Latin 1` and `Latin 2` of the section, and the distances of the section in the scanning direction. -/
theorem C51_lambert (p : ProjOps G F) (inverse : ProjDef G → G × G → Option (G × G)) (hinv : Pointwise p inverse)
    (g : LambertGrid) (hi : 0 < g.ni) (hj : 0 < g.nj) (pts : List (F × F)) (h : g.latlons p = .ok pts) :
    ∃ a b, g.earth.radii p.ops = some (a, b) ∧
      ProjectedPoints p inverse
        (.lcc a b (micro p.ops g.lad) (micro p.ops g.lov) (micro p.ops g.latin1) (micro p.ops g.latin2))
        (micro p.ops g.firstLat, micro p.ops g.firstLon)
        (signedDelta p (!negativeI g.mode) (p.ops.mul (p.ops.ofInt g.dx) (p.ops.lit 1 (-3))),
          signedDelta p (positiveJ g.mode) (p.ops.mul (p.ops.ofInt g.dy) (p.ops.lit 1 (-3))))
        g.ni g.nj g.mode pts := by
  unfold LambertGrid.latlons at h
  split at h
  · cases h
  · rename_i a b hr
    dsimp only at h
    obtain ⟨ij, hij, h⟩ := Outcome.bind_eq_ok h
    rw [gridIj_ok hij, mode_positiveI, mode_positiveJ] at h
    exact ⟨a, b, hr, latlonsFromProjection_points p hinv hi hj h⟩

/-- C51, polar stereographic grids; the latitude of origin is the north pole exactly if bit 1 of the projection centre flag
is not set. -/
theorem C51_polar (p : ProjOps G F) (inverse : ProjDef G → G × G → Option (G × G)) (hinv : Pointwise p inverse)
    (g : PolarGrid) (hi : 0 < g.ni) (hj : 0 < g.nj) (pts : List (F × F)) (h : g.latlons p = .ok pts) :
    ∃ a b, g.earth.radii p.ops = some (a, b) ∧
      ProjectedPoints p inverse
        (.stere a b (micro p.ops g.lad) (if flag g.centre 1 then p.ops.lit (-90) 0 else p.ops.lit 90 0) (micro p.ops g.lov))
        (micro p.ops g.firstLat, micro p.ops g.firstLon)
        (signedDelta p (!negativeI g.mode) (p.ops.mul (p.ops.ofInt g.dx) (p.ops.lit 1 (-3))),
          signedDelta p (positiveJ g.mode) (p.ops.mul (p.ops.ofInt g.dy) (p.ops.lit 1 (-3))))
        g.ni g.nj g.mode pts := by
  unfold PolarGrid.latlons at h
  split at h
  · cases h
  · rename_i a b hr
    split at h
    · cases h
    · dsimp only at h
      obtain ⟨ij, hij, h⟩ := Outcome.bind_eq_ok h
      rw [gridIj_ok hij, mode_positiveI, mode_positiveJ] at h
      refine ⟨a, b, hr, ?_⟩
      have hl : (if g.centre &&& 0b10000000 = 0 then p.ops.lit 90 0 else p.ops.lit (-90) 0) =
          (if flag g.centre 1 then p.ops.lit (-90) 0 else p.ops.lit 90 0) := by
        rw [show (0b10000000 : Nat) = 2 ^ 7 from rfl, and_pow]
        unfold flag
        have : g.centre / 128 % 2 = 0 ∨ g.centre / 128 % 2 = 1 := by omega
        rcases this with h | h <;> simp [h]
      rw [hl] at h
      exact latlonsFromProjection_points p hinv hi hj h

/-- C51. In exact arithmetic the distance along an axis has the sign of the scanning direction: a distance of `d`
millimetres gives steps of `d/1000` metres forwards or backwards. -/
theorem C51_direction (p : ProjOps (Option Rat) F) (hops : p.ops = FloatOps.exact) (hneg : ∀ x, p.neg (some x) = some (-x))
    (positive : Bool) (d : Nat) :
    signedDelta p positive (p.ops.mul (p.ops.ofInt d) (p.ops.lit 1 (-3))) =
      some (if positive then (d : Rat) / 1000 else -((d : Rat) / 1000)) := by
  have e : p.ops.mul (p.ops.ofInt d) (p.ops.lit 1 (-3)) = some ((d : Rat) / 1000) := by
    rw [hops]
    have : ratPowi 10 (-3) = 1 / 1000 := by decide +kernel
    simp [FloatOps.exact, this, div_eq_mul_inv]
  rw [e]
  unfold signedDelta
  rw [hops]
  have hz : FloatOps.exact.lit 0 0 = some (0 : Rat) := by decide +kernel
  rw [hz]
  cases positive
  · simp only [Bool.not_false, Bool.true_and, Bool.false_eq_true, if_false]
    rcases Nat.eq_zero_or_pos d with h0 | h0
    · subst h0; simp [FloatOps.exact]
    · have : FloatOps.exact.lt (some (0 : Rat)) (some ((d : Rat) / 1000)) = true := by
        simp [FloatOps.exact, h0]
      rw [if_pos this, hneg]
  · simp

/-- C51. Grids with unknown earth shape, unsupported projection centre flags (bits 3 to 8) or unsupported scanning flags
are refused. -/
theorem C51_refused (p : ProjOps G F) :
    (∀ g : LambertGrid, 9 ≤ g.earth.shape ∨ g.mode % 16 ≠ 0 → g.latlons p = .err .notSupported) ∧
    (∀ g : PolarGrid, 9 ≤ g.earth.shape ∨ g.centre % 64 ≠ 0 ∨ g.mode % 16 ≠ 0 → g.latlons p = .err .notSupported) := by
  constructor
  · intro g h
    unfold LambertGrid.latlons
    split
    · rfl
    · rename_i a b hr
      have hm : g.mode % 16 ≠ 0 := by
        rcases h with h | h
        · rw [C43_reserved _ _ h] at hr; cases hr
        · exact h
      unfold gridIj
      rw [mode_unsupported, if_pos (by simpa using hm)]; rfl
  · intro g h
    unfold PolarGrid.latlons
    split
    · rfl
    · rename_i a b hr
      split
      · rfl
      · rename_i hc
        rw [show (0b00111111 : Nat) = 2 ^ 6 - 1 from rfl, Nat.and_two_pow_sub_one_eq_mod] at hc
        have hm : g.mode % 16 ≠ 0 := by
          rcases h with h | h | h
          · rw [C43_reserved _ _ h] at hr; cases hr
          · omega
          · exact h
        have hg : gridIj g.ni g.nj g.mode = .err .notSupported := by
          unfold gridIj
          rw [mode_unsupported, if_pos (by simpa using hm)]
        rw [hg]; rfl

/-- C51, a limit: the flag for a bipolar projection (bit 2 of the projection centre flag) is not looked at. -/
theorem C51_bipolar_ignored_fails (p : ProjOps G F) (g : PolarGrid) (h : flag g.centre 2 = false) :
    { g with centre := g.centre + 64 }.latlons p = g.latlons p := by
  have hz : g.centre / 2 ^ 6 % 2 = 0 := by
    unfold flag at h
    have : g.centre / 2 ^ 6 % 2 = 0 ∨ g.centre / 2 ^ 6 % 2 = 1 := by omega
    rcases this with h' | h'
    · exact h'
    · simp at h; omega
  unfold PolarGrid.latlons
  dsimp only
  have e1 : (g.centre + 64) &&& 0b00111111 = g.centre &&& 0b00111111 := by
    rw [show (0b00111111 : Nat) = 2 ^ 6 - 1 from rfl, Nat.and_two_pow_sub_one_eq_mod, Nat.and_two_pow_sub_one_eq_mod]
    omega
  have e2 : (g.centre + 64) &&& 0b10000000 = g.centre &&& 0b10000000 := by
    rw [show (0b10000000 : Nat) = 2 ^ 7 from rfl, and_pow, and_pow]
    have : (g.centre + 64) / 2 ^ 7 % 2 = g.centre / 2 ^ 7 % 2 := by omega
    rw [this]
  rw [e1, e2]

/-- A toy projection: coordinates are degrees. -/
def toyProj : ProjOps (Option Rat) (Option Rat) where
  ops := FloatOps.exact
  valid _ := true
  forward _ x := some x
  inverseAll _ xs := allSome (xs.map some)
  toRadians x := x
  toDegrees x := x
  toF32 x := x
  neg x := x.map (- ·)

example : Pointwise toyProj (fun _ x => some x) := fun _ _ => rfl

/-- A 2 × 2 grid scanned southwards with 1 m and 2 m between points. -/
example : (⟨⟨6, 0, 0, 0, 0, 0, 0⟩, 2, 2, 10000000, 20000000, 0, 0, 1000, 2000, 0, 0, 0⟩ : LambertGrid).latlons toyProj =
    .ok [(some 10, some 20), (some 10, some 21), (some 8, some 20), (some 8, some 21)] := by decide +kernel

end Grib.Props
