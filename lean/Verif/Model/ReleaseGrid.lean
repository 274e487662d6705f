import Verif.Model.Grid
import Verif.Model.Jpeg
import Verif.Model.CliViews
import Verif.Model.ReleaseDecode

/-! # Model of a release build: grids, JPEG 2000 images and counts

The remaining functions in which an overflow can happen, with wrapping arithmetic; see `Model/Release.lean`.  The projected
grids (templates 3.20 and 3.30) use the index iterator only from its beginning on, where `next` has no overflow
(`C84_index_iterator`), and are those of the debug model. -/

namespace Grib.Model.Rel

open Grib.Model

variable {ε F G : Type}

/-! ## Scanning order -/

/-- `GridPointIndexIterator::next` (src/grid.rs:80-106).  Same simplification as in the debug model: `minor_pos` is
unbounded. -/
def gridNext (it : GridIter) : Option (Nat × Nat) × GridIter :=
  if it.majorPos = it.majorLen then (none, it)
  else
    let minor := if it.increments then it.minorPos else usub (usub it.minorLen it.minorPos) 1
    let major := it.majorPos
    let it1 : GridIter := { it with minorPos := it.minorPos + 1 }
    let it2 : GridIter :=
      if it1.minorPos = it1.minorLen then
        { it1 with
          majorPos := it1.majorPos + 1
          minorPos := 0
          increments := if it1.mode.scansAlternatingRows then !it1.increments else it1.increments }
      else it1
    (some (if it.mode.isConsecutiveForI then (minor, major) else (major, minor)), it2)

/-- `GridPointIndexIterator::size_hint` (src/grid.rs:108-111). -/
def gridSizeHint (it : GridIter) : Nat := usub ((usub it.majorLen it.majorPos * it.minorLen) % USIZE) it.minorPos

/-- `n` calls of `next`: the items (while there are any) and the state afterwards. -/
def gridCalls : (n : Nat) → GridIter → List (Nat × Nat) × GridIter
  | 0, it => ([], it)
  | n + 1, it =>
    let (p, it) := gridNext it
    let (ps, it) := gridCalls n it
    (p.toList ++ ps, it)

/-! ## Coordinates -/

/-- `evenly_spaced_longitudes` (src/grid/helpers.rs:8-35). -/
def evenlySpacedLongitudes (ops : FloatOps F) (start stop : Int) (div : Nat) (mode : ScanningMode) : List F :=
  let diff := wrap32 (stop - start)
  let isConsistent := !(xor (decide (diff > 0)) mode.scansPositivelyForI)
  let (s, e) := (ops.ofInt start, ops.ofInt stop)
  let (s, e) :=
    if isConsistent then (s, e)
    else if start > stop then (s, ops.add e (ops.ofInt 360000000))
    else (ops.add s (ops.ofInt 360000000), e)
  let lons := evenlySpacedDegrees ops s e div
  if isConsistent then lons
  else lons.map fun x => if ops.lt x (ops.ofInt 360) then x else ops.sub x (ops.ofInt 360)

/-- `is_consistent_for_j` (src/grid/latlon.rs:138-141, gaussian.rs:85-88). -/
def isConsistentForJ (firstLat lastLat : Int) (mode : ScanningMode) : Bool :=
  !(xor (decide (wrap32 (lastLat - firstLat) > 0)) mode.scansPositivelyForJ)

/-- `n - 1` in `u32`. -/
def pred32 (n : Nat) : Nat := (n + 2 ^ 32 - 1) % 2 ^ 32

/-- `LatLonGridDefinition::latlons` (src/grid/latlon.rs:113-136). -/
def latLonLatlons (ops : FloatOps F) (g : LatLonGrid) : Outcome GribError (RegularIter F) := do
  if ¬ isConsistentForJ g.firstLat g.lastLat g.mode then .err .invalidValueError else do
  let ij ← gridIj g.ni g.nj g.mode
  let lat := evenlySpacedDegrees ops (ops.ofInt g.firstLat) (ops.ofInt g.lastLat) (pred32 g.nj)
  let lon := evenlySpacedLongitudes ops g.firstLon g.lastLon (pred32 g.ni) g.mode
  .ok ⟨lat, lon, ij⟩

/-- `legendre_roots_iterator(n).collect()` (src/grid/gaussian.rs:157-167): the products in `usize`.  `4 * i + 3` and
`4 * n + 2` do not overflow for the number of rows of a grid. -/
def legendreRoots (g : GaussOps G F) (n : Nat) : List (Option G) :=
  let coeff := g.ops.add (g.ops.sub (g.ops.lit 1 0) (g.ops.div (g.ops.lit 1 0) (g.ops.ofInt ((8 * n * n) % USIZE : Nat))))
    (g.ops.div (g.ops.lit 1 0) (g.ops.ofInt ((8 * n * n * n) % USIZE : Nat)))
  (List.range n).map fun i =>
    let guess := g.ops.mul coeff (g.cos (g.ops.div (g.ops.mul (g.ops.ofInt (4 * i + 3 : Nat)) g.pi) (g.ops.ofInt (4 * n + 2 : Nat))))
    (findRoot g.ops.sub g.small guess (legendreStep g.ops n)).1

/-- `compute_gaussian_latitudes_in_degrees` (src/grid/gaussian.rs:114-119, 143-145). -/
def gaussianLatitudes (g : GaussOps G F) (div : Nat) : Outcome GribError (List G) :=
  match allSome ((legendreRoots g div).map fun x => x.map fun i => g.toDegrees (g.asin i)) with
  | none => .err .unknown
  | some lats => .ok lats

/-- `GaussianGridDefinition::latlons` (src/grid/gaussian.rs:59-83). -/
def gaussianLatlons (g : GaussOps G F) (ops : FloatOps F) (d : GaussianGrid) : Outcome GribError (RegularIter F) := do
  if ¬ isConsistentForJ d.firstLat d.lastLat d.mode then .err .invalidValueError else do
  let ij ← gridIj d.ni d.nj d.mode
  let lat ← gaussianLatitudes g d.nj
  let lat := if d.mode.scansPositivelyForJ then lat.reverse else lat
  let lat := lat.map g.toF32
  let lon := evenlySpacedLongitudes ops d.firstLon d.lastLon (pred32 d.ni) d.mode
  .ok ⟨lat, lon, ij⟩

/-- `RegularGridIterator::next` (src/grid/helpers.rs:65-68).  `panic`: an index is out of range. -/
def regularNext (it : RegularIter F) : Outcome ε (Option (F × F) × RegularIter F) :=
  let (p, ij) := gridNext it.ij
  match p with
  | none => .ok (none, { it with ij })
  | some (i, j) => do
    let lat ← Outcome.ofOption it.lat[j]?
    let lon ← Outcome.ofOption it.lon[i]?
    .ok (some (lat, lon), { it with ij })

/-- Up to `fuel` calls of `next`. -/
def regularDrain : (fuel : Nat) → RegularIter F → Drained (F × F)
  | 0, _ => .more []
  | fuel + 1, it =>
    match (regularNext it : Outcome Empty _) with
    | .ok (none, _) => .done []
    | .ok (some p, it') => (regularDrain fuel it').cons p
    | _ => .panic

/-- `GridPointIterator::size_hint` (src/grid.rs:34-39). -/
def pointsSizeHint : GridPoints F → Nat
  | .latLon it => gridSizeHint it.ij
  | .lambert ps => ps.length

/-- `latlons` (src/datatypes/sections.rs:244-261). -/
def templateLatlons (o : GridOps G F) : GridTemplate → Outcome GribError (GridPoints F)
  | .template0 g => do .ok (.latLon (← latLonLatlons o.single g))
  | .template20 g =>
    match o.proj with
    | some p => do .ok (.lambert (← g.latlons p))
    | none => .err .notSupported
  | .template30 g =>
    match o.proj with
    | some p => do .ok (.lambert (← g.latlons p))
    | none => .err .notSupported
  | .template40 g => do .ok (.latLon (← gaussianLatlons o.gauss o.single g))

/-- `SubMessage::ij` (src/context.rs:621-633), given the grid definition. -/
def subIj (d : GridDefinition) : Outcome GribError GridIter := do
  let defined ← d.numPoints
  let t ← GridTemplate.tryFrom d
  let ij ← t.ij
  if defined = gridSizeHint ij then .ok ij else .err .invalidValueError

/-- `SubMessage::latlons` (src/context.rs:670-682), given the grid definition. -/
def subLatlons (o : GridOps G F) (d : GridDefinition) : Outcome GribError (GridPoints F) := do
  let defined ← d.numPoints
  let t ← GridTemplate.tryFrom d
  let points ← templateLatlons o t
  if defined = pointsSizeHint points then .ok points else .err .invalidValueError

/-! ## Counts -/

/-- `SubmessageIterator::size_hint` (src/context.rs:329-332). -/
def subIterSizeHint (it : SubIter) : Nat := usub it.context.submessages.length it.pos

/-- `PredictableNumLines for ListView` (cli/src/commands/list.rs:48-63), on a fresh iterator. -/
def listNumLines (dump : Bool) (g : Grib2) : Nat :=
  let len := subIterSizeHint g.iter
  if dump then usub (((8 + 2) * len) % USIZE) 1 else (1 + len) % USIZE

/-! ## JPEG 2000 -/

/-- `value_for_discard_level` (src/decoder/jpeg2000/ext.rs:155-164): the distance of the shift is taken modulo 32. -/
def valueForDiscardLevel (u d : Nat) : Nat :=
  let div := 2 ^ (d % 32)
  let quot := u / div
  let rem := u % div
  if rem > 0 then quot + 1 else quot

/-- `a - b` in `u32`. -/
def sub32 (a b : Nat) : Nat := (a + 2 ^ 32 - b) % 2 ^ 32

/-- `decode_jp2` (src/decoder/jpeg2000.rs:50-88); `none` stands for undefined behaviour: no component, or reading more
elements than the component holds. -/
def decodeJp2 (lib : OpjLib) (sect7 : List UInt8) : Option (Outcome Jpeg2000Error (List Int)) :=
  if ¬ lib.create then some (.err .decoderSetupError)
  else if ¬ lib.setup then some (.err .decoderSetupError)
  else
    match lib.header.run (SliceWithOffset.ofBytes sect7) with
    | .panic => some .panic
    | .err e => nomatch e
    | .ok (false, _) => some (.err .mainHeaderReadError)
    | .ok (true, s) =>
      match lib.body.run s with
      | .panic => some .panic
      | .err e => nomatch e
      | .ok (none, _) => some (.err .bodyReadError)
      | .ok (some image, _) =>
        if image.comps = [] then none else
        let width := valueForDiscardLevel (sub32 image.x1 image.x0) image.factor
        let height := valueForDiscardLevel (sub32 image.y1 image.y0) image.factor
        match image.comps with
        | [gray] =>
          let n := (width * height) % 2 ^ 32
          if gray.length < n then none else some (.ok (gray.take n))
        | _ => some (.err .notSupported)

end Grib.Model.Rel
