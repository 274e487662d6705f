import Verif.Model.Decoder

/-! # Model of `src/grid.rs`, `src/grid/*.rs`, and of the grid part of `src/datatypes/sections.rs` and `src/context.rs` -/

namespace Grib.Model

variable {ε F G : Type}

/-! ## Scanning mode and order -/

/-- `ScanningMode(pub u8)` (src/grid.rs:114-115). -/
abbrev ScanningMode := Nat

/-- `scans_positively_for_i` (src/grid.rs:129-131). -/
def ScanningMode.scansPositivelyForI (m : ScanningMode) : Bool := m &&& 0b10000000 == 0

/-- `scans_positively_for_j` (src/grid.rs:144-146). -/
def ScanningMode.scansPositivelyForJ (m : ScanningMode) : Bool := m &&& 0b01000000 != 0

/-- `is_consecutive_for_i` (src/grid.rs:156-158). -/
def ScanningMode.isConsecutiveForI (m : ScanningMode) : Bool := m &&& 0b00100000 == 0

/-- `scans_alternating_rows` (src/grid.rs:170-172). -/
def ScanningMode.scansAlternatingRows (m : ScanningMode) : Bool := m &&& 0b00010000 != 0

/-- `has_unsupported_flags` (src/grid.rs:174-176). -/
def ScanningMode.hasUnsupportedFlags (m : ScanningMode) : Bool := m &&& 0b00001111 != 0

/-- `GridPointIndexIterator` (src/grid.rs:48-56). -/
structure GridIter where
  majorLen : Nat
  minorLen : Nat
  mode : ScanningMode
  majorPos : Nat
  minorPos : Nat
  increments : Bool
deriving DecidableEq, Repr

/-- `GridPointIndexIterator::new` (src/grid.rs:59-74). -/
def GridIter.new (iLen jLen : Nat) (mode : ScanningMode) : GridIter :=
  let (majorLen, minorLen) := if mode.isConsecutiveForI then (jLen, iLen) else (iLen, jLen)
  ⟨majorLen, minorLen, mode, 0, 0, true⟩

/-- `GridPointIndexIterator::next` (src/grid.rs:80-106).  `panic`: `minor_len - minor_pos - 1` underflows.  Simplification:
`minor_pos` is unbounded (it stays below `2^64` for any number of calls that can be made). -/
def GridIter.next (it : GridIter) : Outcome ε (Option (Nat × Nat) × GridIter) :=
  if it.majorPos = it.majorLen then .ok (none, it)
  else if it.increments = false ∧ it.minorLen < it.minorPos + 1 then .panic
  else
    let minor := if it.increments then it.minorPos else it.minorLen - it.minorPos - 1
    let major := it.majorPos
    let it1 : GridIter := { it with minorPos := it.minorPos + 1 }
    let it2 : GridIter :=
      if it1.minorPos = it1.minorLen then
        { it1 with
          majorPos := it1.majorPos + 1
          minorPos := 0
          increments := if it1.mode.scansAlternatingRows then !it1.increments else it1.increments }
      else it1
    .ok (some (if it.mode.isConsecutiveForI then (minor, major) else (major, minor)), it2)

/-- `GridPointIndexIterator::size_hint` (src/grid.rs:108-111), both bounds.  The subtractions may underflow. -/
def GridIter.sizeHint (it : GridIter) : Outcome ε Nat :=
  if it.majorLen < it.majorPos then .panic
  else if (it.majorLen - it.majorPos) * it.minorLen < it.minorPos then .panic
  else .ok ((it.majorLen - it.majorPos) * it.minorLen - it.minorPos)

/-- Up to `fuel` calls of `next`. -/
def GridIter.drain : (fuel : Nat) → GridIter → Drained (Nat × Nat)
  | 0, _ => .more []
  | fuel + 1, it =>
    match (it.next : Outcome Empty _) with
    | .ok (none, _) => .done []
    | .ok (some p, it') => (GridIter.drain fuel it').cons p
    | _ => .panic

/-- `n` calls of `next`: the items (while there are any) and the state afterwards. -/
def GridIter.calls : (n : Nat) → GridIter → Outcome ε (List (Nat × Nat) × GridIter)
  | 0, it => .ok ([], it)
  | n + 1, it => do
    let (p, it) ← it.next
    let (ps, it) ← GridIter.calls n it
    .ok (p.toList ++ ps, it)

/-! ## Equal spacing -/

/-- `evenly_spaced_degrees` (src/grid/helpers.rs:37-46). -/
def evenlySpacedDegrees (ops : FloatOps F) (start stop : F) (div : Nat) : List F :=
  let delta := ops.div (ops.sub stop start) (ops.ofInt div)
  (List.range (div + 1)).map fun x : Nat => ops.div (ops.add start (ops.mul (ops.ofInt x) delta)) (ops.ofInt 1000000)

/-- `evenly_spaced_longitudes` (src/grid/helpers.rs:8-35).  `panic`: the `i32` subtraction overflows. -/
def evenlySpacedLongitudes (ops : FloatOps F) (start stop : Int) (div : Nat) (mode : ScanningMode) : Outcome ε (List F) := do
  let diff ← checkI32 (stop - start)
  let isConsistent := !(xor (decide (diff > 0)) mode.scansPositivelyForI)
  let (s, e) := (ops.ofInt start, ops.ofInt stop)
  let (s, e) :=
    if isConsistent then (s, e)
    else if start > stop then (s, ops.add e (ops.ofInt 360000000))
    else (ops.add s (ops.ofInt 360000000), e)
  let lons := evenlySpacedDegrees ops s e div
  if isConsistent then .ok lons
  else .ok (lons.map fun x => if ops.lt x (ops.ofInt 360) then x else ops.sub x (ops.ofInt 360))

/-! ## Points -/

/-- `RegularGridIterator` (src/grid/helpers.rs:48-54). -/
structure RegularIter (F : Type) where
  lat : List F
  lon : List F
  ij : GridIter
deriving DecidableEq, Repr

/-- `RegularGridIterator::next` (src/grid/helpers.rs:65-68).  `panic`: an index is out of range. -/
def RegularIter.next (it : RegularIter F) : Outcome ε (Option (F × F) × RegularIter F) := do
  let (p, ij) ← it.ij.next
  match p with
  | none => .ok (none, { it with ij })
  | some (i, j) => do
    let lat ← Outcome.ofOption it.lat[j]?
    let lon ← Outcome.ofOption it.lon[i]?
    .ok (some (lat, lon), { it with ij })

/-- Up to `fuel` calls of `next`. -/
def RegularIter.drain : (fuel : Nat) → RegularIter F → Drained (F × F)
  | 0, _ => .more []
  | fuel + 1, it =>
    match (it.next : Outcome Empty _) with
    | .ok (none, _) => .done []
    | .ok (some p, it') => (RegularIter.drain fuel it').cons p
    | _ => .panic

/-! ## Latitude/longitude grids -/

/-- `LatLonGridDefinition` (src/grid/latlon.rs:10-19). -/
structure LatLonGrid where
  ni : Nat
  nj : Nat
  firstLat : Int
  firstLon : Int
  lastLat : Int
  lastLon : Int
  mode : ScanningMode
deriving DecidableEq, Repr

/-- `LatLonGridDefinition::from_buf` (src/grid/latlon.rs:143-160). -/
def LatLonGrid.fromBuf (buf : List UInt8) : Outcome ε LatLonGrid := do
  let ni ← rdAs buf 0 4
  let nj ← rdAs buf 4 4
  let firstLat := asGribInt 32 (← rdAs buf 16 4)
  let firstLon := asGribInt 32 (← rdAs buf 20 4)
  let lastLat := asGribInt 32 (← rdAs buf 25 4)
  let lastLon := asGribInt 32 (← rdAs buf 29 4)
  let mode ← rdAs buf 41 1
  .ok ⟨ni, nj, firstLat, firstLon, lastLat, lastLon, mode⟩

/-- `ij` of all four grid definitions (src/grid/latlon.rs:75-84, gaussian.rs:42-51, lambert.rs:103-112,
polar_stereographic.rs:101-110). -/
def gridIj (ni nj : Nat) (mode : ScanningMode) : Outcome GribError GridIter :=
  if mode.hasUnsupportedFlags then .err .notSupported else .ok (GridIter.new ni nj mode)

/-- `is_consistent_for_j` (src/grid/latlon.rs:138-141, gaussian.rs:85-88).  `panic`: the `i32` subtraction overflows. -/
def isConsistentForJ (firstLat lastLat : Int) (mode : ScanningMode) : Outcome ε Bool := do
  let diff ← checkI32 (lastLat - firstLat)
  .ok (!(xor (decide (diff > 0)) mode.scansPositivelyForJ))

/-- `LatLonGridDefinition::latlons` (src/grid/latlon.rs:113-136).  `panic`: `nj - 1` or `ni - 1` underflows. -/
def LatLonGrid.latlons (ops : FloatOps F) (g : LatLonGrid) : Outcome GribError (RegularIter F) := do
  if ¬ (← isConsistentForJ g.firstLat g.lastLat g.mode) then .err .invalidValueError else do
  let ij ← gridIj g.ni g.nj g.mode
  if g.nj = 0 then .panic else do
  let lat := evenlySpacedDegrees ops (ops.ofInt g.firstLat) (ops.ofInt g.lastLat) (g.nj - 1)
  if g.ni = 0 then .panic else do
  let lon ← evenlySpacedLongitudes ops g.firstLon g.lastLon (g.ni - 1) g.mode
  .ok ⟨lat, lon, ij⟩

/-! ## Gaussian grids -/

/-- `f64` operations used for Gaussian latitudes besides the arithmetic. -/
structure GaussOps (G F : Type) where
  ops : FloatOps G
  pi : G
  cos : G → G
  asin : G → G
  toDegrees : G → G
  /-- `dx.abs() < f64::EPSILON` -/
  small : G → Bool
  /-- `as f32` -/
  toF32 : G → F

/-- `GaussianGridDefinition` (src/grid/gaussian.rs:10-21). -/
structure GaussianGrid where
  ni : Nat
  nj : Nat
  firstLat : Int
  firstLon : Int
  lastLat : Int
  lastLon : Int
  iInc : Nat
  n : Nat
  mode : ScanningMode
deriving DecidableEq, Repr

/-- `GaussianGridDefinition::from_buf` (src/grid/gaussian.rs:90-111). -/
def GaussianGrid.fromBuf (buf : List UInt8) : Outcome ε GaussianGrid := do
  let ni ← rdAs buf 0 4
  let nj ← rdAs buf 4 4
  let firstLat := asGribInt 32 (← rdAs buf 16 4)
  let firstLon := asGribInt 32 (← rdAs buf 20 4)
  let lastLat := asGribInt 32 (← rdAs buf 25 4)
  let lastLon := asGribInt 32 (← rdAs buf 29 4)
  let iInc ← rdAs buf 33 4
  let n ← rdAs buf 37 4
  let mode ← rdAs buf 41 1
  .ok ⟨ni, nj, firstLat, firstLon, lastLat, lastLon, iInc, n, mode⟩

/-- The loop of `legendre_polynomial` (src/grid/gaussian.rs:173-177): `steps` rounds from `k` on. -/
def legendreLoop (ops : FloatOps G) (x : G) : (steps k : Nat) → G × G → G × G
  | 0, _, p => p
  | steps + 1, k, (p0, p1) =>
    let pk := ops.div (ops.sub (ops.mul (ops.mul (ops.ofInt (2 * k - 1 : Nat)) x) p1) (ops.mul (ops.ofInt (k - 1 : Nat)) p0)) (ops.ofInt k)
    legendreLoop ops x steps (k + 1) (p1, pk)

/-- `legendre_polynomial` (src/grid/gaussian.rs:170-179). -/
def legendrePolynomial (ops : FloatOps G) (n : Nat) (x : G) : G × G := legendreLoop ops x (n - 1) 2 (ops.ofInt 1, x)

/-- `legendre_polynomial_derivative` (src/grid/gaussian.rs:181-183). -/
def legendreDerivative (ops : FloatOps G) (n : Nat) (x pPrev p : G) : G :=
  ops.div (ops.mul (ops.ofInt n) (ops.sub pPrev (ops.mul x p))) (ops.sub (ops.ofInt 1) (ops.mul x x))

/-- `MAX_ITER` (src/grid/gaussian.rs:23). -/
def maxIter : Nat := 10

/-- The loop of `find_root` (src/grid/gaussian.rs:192-205).  Also returned: the number of calls of `f`. -/
def findRootLoop (sub : G → G → G) (small : G → Bool) (f : G → G) : (count : Nat) → (x : G) → Option G × Nat
  | count, x =>
    let dx := f x
    let x := sub x dx
    if small dx then (some x, 1)
    else
      match count with
      | 0 => (none, 1)
      | count + 1 =>
        let (r, n) := findRootLoop sub small f count x
        (r, n + 1)

/-- `find_root` (src/grid/gaussian.rs:186-206). -/
def findRoot (sub : G → G → G) (small : G → Bool) (guess : G) (f : G → G) : Option G × Nat :=
  findRootLoop sub small f maxIter guess

/-- The Newton step `|x| { ... p / fpx }` (src/grid/gaussian.rs:161-165). -/
def legendreStep (ops : FloatOps G) (n : Nat) (x : G) : G :=
  let (pPrev, p) := legendrePolynomial ops n x
  ops.div p (legendreDerivative ops n x pPrev p)

/-- `legendre_roots_iterator(n).collect()` (src/grid/gaussian.rs:157-167).  `panic`: `8 * n * n * n` overflows `usize`
(for `n` up to `2^32` this is the only product that can). -/
def legendreRoots (g : GaussOps G F) (n : Nat) : Outcome ε (List (Option G)) :=
  if 8 * n * n * n ≥ USIZE then .panic
  else
    let coeff := g.ops.add (g.ops.sub (g.ops.lit 1 0) (g.ops.div (g.ops.lit 1 0) (g.ops.ofInt (8 * n * n : Nat))))
      (g.ops.div (g.ops.lit 1 0) (g.ops.ofInt (8 * n * n * n : Nat)))
    .ok ((List.range n).map fun i =>
      let guess := g.ops.mul coeff (g.cos (g.ops.div (g.ops.mul (g.ops.ofInt (4 * i + 3 : Nat)) g.pi) (g.ops.ofInt (4 * n + 2 : Nat))))
      (findRoot g.ops.sub g.small guess (legendreStep g.ops n)).1)

/-- Collecting into `Option<Vec<_>>`. -/
def allSome {α : Type} : List (Option α) → Option (List α)
  | [] => some []
  | none :: _ => none
  | some a :: xs => (allSome xs).map (a :: ·)

/-- `compute_gaussian_latitudes_in_degrees` (src/grid/gaussian.rs:114-119, 143-145). -/
def gaussianLatitudes (g : GaussOps G F) (div : Nat) : Outcome GribError (List G) := do
  let roots ← legendreRoots g div
  match allSome (roots.map fun x => x.map fun i => g.toDegrees (g.asin i)) with
  | none => .err .unknown
  | some lats => .ok lats

/-- `GaussianGridDefinition::latlons` (src/grid/gaussian.rs:59-83). -/
def GaussianGrid.latlons (g : GaussOps G F) (ops : FloatOps F) (d : GaussianGrid) : Outcome GribError (RegularIter F) := do
  if ¬ (← isConsistentForJ d.firstLat d.lastLat d.mode) then .err .invalidValueError else do
  let ij ← gridIj d.ni d.nj d.mode
  let lat ← gaussianLatitudes g d.nj
  let lat := if d.mode.scansPositivelyForJ then lat.reverse else lat
  let lat := lat.map g.toF32
  if d.ni = 0 then .panic else do
  let lon ← evenlySpacedLongitudes ops d.firstLon d.lastLon (d.ni - 1) d.mode
  .ok ⟨lat, lon, ij⟩

/-! ## Earth shape -/

/-- `EarthShapeDefinition` (src/grid/earth.rs:3-12). -/
structure EarthShape where
  shape : Nat
  radiusScale : Nat
  radiusValue : Nat
  majorScale : Nat
  majorValue : Nat
  minorScale : Nat
  minorValue : Nat
deriving DecidableEq, Repr

/-- `EarthShapeDefinition::from_buf` (src/grid/earth.rs:49-66). -/
def EarthShape.fromBuf (buf : List UInt8) : Outcome ε EarthShape := do
  let shape ← rdAs buf 0 1
  let radiusScale ← rdAs buf 1 1
  let radiusValue ← rdAs buf 2 4
  let majorScale ← rdAs buf 6 1
  let majorValue ← rdAs buf 7 4
  let minorScale ← rdAs buf 11 1
  let minorValue ← rdAs buf 12 4
  .ok ⟨shape, radiusScale, radiusValue, majorScale, majorValue, minorScale, minorValue⟩

/-- `radii_defined` (src/grid/earth.rs:41-47). -/
def EarthShape.radiiDefined (ops : FloatOps G) (e : EarthShape) : G × G :=
  (ops.mul (ops.ofInt e.majorValue) (ops.powf10 e.majorScale), ops.mul (ops.ofInt e.minorValue) (ops.powf10 e.minorScale))

/-- `radii` (src/grid/earth.rs:15-39). -/
def EarthShape.radii (ops : FloatOps G) (e : EarthShape) : Option (G × G) :=
  match e.shape with
  | 0 => some (ops.lit 6367470 0, ops.lit 6367470 0)
  | 1 =>
    let radius := ops.mul (ops.ofInt e.radiusValue) (ops.powf10 e.radiusScale)
    some (radius, radius)
  | 2 => some (ops.lit 6378160 0, ops.lit 6356775 0)
  | 3 =>
    let (major, minor) := e.radiiDefined ops
    some (ops.mul major (ops.lit 1000 0), ops.mul minor (ops.lit 1000 0))
  | 4 => some (ops.lit 6378137 0, ops.lit 6356752314 (-3))
  | 5 => some (ops.lit 6378137 0, ops.lit 63567523142 (-4))
  | 6 => some (ops.lit 6371229 0, ops.lit 6371229 0)
  | 7 => some (e.radiiDefined ops)
  | 8 => some (ops.lit 6371200 0, ops.lit 6371200 0)
  | _ => none

/-! ## Projected grids -/

/-- The projection strings (src/grid/lambert.rs:132-134, polar_stereographic.rs:142-143), as data. -/
inductive ProjDef (G : Type) where
  | lcc (a b lat0 lon0 lat1 lat2 : G)
  | stere (a b latTs lat0 lon0 : G)
deriving DecidableEq, Repr

/-- The `proj` crate and the conversions used with it. -/
structure ProjOps (G F : Type) where
  ops : FloatOps G
  /-- `Proj::new` succeeds -/
  valid : ProjDef G → Bool
  /-- `project(.., false)`: longitude and latitude in radians to coordinates -/
  forward : ProjDef G → G × G → Option (G × G)
  /-- `project_array(.., true)`: coordinates to longitudes and latitudes in radians -/
  inverseAll : ProjDef G → List (G × G) → Option (List (G × G))
  toRadians : G → G
  toDegrees : G → G
  toF32 : G → F
  neg : G → G

/-- `indices.map(..).collect()` within `latlons_from_projection_definition_and_first_point`: all indices (with fuel
`ni * nj + 1`, see C32). -/
def collectIj (it : GridIter) : Outcome GribError (List (Nat × Nat)) :=
  match it.drain (it.majorLen * it.minorLen + 1) with
  | .done ps => .ok ps
  | _ => .panic

/-- `latlons_from_projection_definition_and_first_point` (src/grid/helpers.rs:76-113). -/
def latlonsFromProjection (p : ProjOps G F) (d : ProjDef G) (first delta : G × G) (ij : GridIter) :
    Outcome GribError (List (F × F)) :=
  if ¬ p.valid d then .err .unknown
  else
    match p.forward d (p.toRadians first.2, p.toRadians first.1) with
    | none => .err .unknown
    | some (x0, y0) => do
      let ps ← collectIj ij
      let xy := ps.map fun (i, j) =>
        (p.ops.add x0 (p.ops.mul delta.1 (p.ops.ofInt i)), p.ops.add y0 (p.ops.mul delta.2 (p.ops.ofInt j)))
      match p.inverseAll d xy with
      | none => .err .unknown
      | some lonlat => .ok (lonlat.map fun (lon, lat) => (p.toF32 (p.toDegrees lat), p.toF32 (p.toDegrees lon)))

/-- `-dx` if scanned negatively and positive, else `dx` (src/grid/lambert.rs:138-148, polar_stereographic.rs:147-156). -/
def signedDelta (p : ProjOps G F) (positive : Bool) (d : G) : G :=
  if !positive && p.ops.lt (p.ops.lit 0 0) d then p.neg d else d

/-- `PolarStereographicGridDefinition` (src/grid/polar_stereographic.rs:8-21). -/
structure PolarGrid where
  earth : EarthShape
  ni : Nat
  nj : Nat
  firstLat : Int
  firstLon : Int
  lad : Int
  lov : Int
  dx : Nat
  dy : Nat
  centre : Nat
  mode : ScanningMode
deriving DecidableEq, Repr

/-- `PolarStereographicGridDefinition::from_buf` (src/grid/polar_stereographic.rs:169-194). -/
def PolarGrid.fromBuf (buf : List UInt8) : Outcome ε PolarGrid := do
  let earth ← EarthShape.fromBuf buf
  let ni ← rdAs buf 16 4
  let nj ← rdAs buf 20 4
  let firstLat := asGribInt 32 (← rdAs buf 24 4)
  let firstLon := asGribInt 32 (← rdAs buf 28 4)
  let lad := asGribInt 32 (← rdAs buf 33 4)
  let lov := asGribInt 32 (← rdAs buf 37 4)
  let dx ← rdAs buf 41 4
  let dy ← rdAs buf 45 4
  let centre ← rdAs buf 49 1
  let mode ← rdAs buf 50 1
  .ok ⟨earth, ni, nj, firstLat, firstLon, lad, lov, dx, dy, centre, mode⟩

/-- `x as f64 * 1e-6`. -/
def micro (ops : FloatOps G) (x : Int) : G := ops.mul (ops.ofInt x) (ops.lit 1 (-6))

/-- `PolarStereographicGridDefinition::latlons` (src/grid/polar_stereographic.rs:119-167). -/
def PolarGrid.latlons (p : ProjOps G F) (d : PolarGrid) : Outcome GribError (List (F × F)) :=
  match d.earth.radii p.ops with
  | none => .err .notSupported
  | some (a, b) =>
    if d.centre &&& 0b00111111 ≠ 0 then .err .notSupported
    else do
      let lat0 := if d.centre &&& 0b10000000 = 0 then p.ops.lit 90 0 else p.ops.lit (-90) 0
      let dx := p.ops.mul (p.ops.ofInt d.dx) (p.ops.lit 1 (-3))
      let dy := p.ops.mul (p.ops.ofInt d.dy) (p.ops.lit 1 (-3))
      let ij ← gridIj d.ni d.nj d.mode
      latlonsFromProjection p (.stere a b (micro p.ops d.lad) lat0 (micro p.ops d.lov))
        (micro p.ops d.firstLat, micro p.ops d.firstLon)
        (signedDelta p d.mode.scansPositivelyForI dx, signedDelta p d.mode.scansPositivelyForJ dy) ij

/-- `LambertGridDefinition` (src/grid/lambert.rs:7-21). -/
structure LambertGrid where
  earth : EarthShape
  ni : Nat
  nj : Nat
  firstLat : Int
  firstLon : Int
  lad : Int
  lov : Int
  dx : Nat
  dy : Nat
  mode : ScanningMode
  latin1 : Int
  latin2 : Int
deriving DecidableEq, Repr

/-- `LambertGridDefinition::from_buf` (src/grid/lambert.rs:160-186). -/
def LambertGrid.fromBuf (buf : List UInt8) : Outcome ε LambertGrid := do
  let earth ← EarthShape.fromBuf buf
  let ni ← rdAs buf 16 4
  let nj ← rdAs buf 20 4
  let firstLat := asGribInt 32 (← rdAs buf 24 4)
  let firstLon := asGribInt 32 (← rdAs buf 28 4)
  let lad := asGribInt 32 (← rdAs buf 33 4)
  let lov := asGribInt 32 (← rdAs buf 37 4)
  let dx ← rdAs buf 41 4
  let dy ← rdAs buf 45 4
  let mode ← rdAs buf 50 1
  let latin1 := asGribInt 32 (← rdAs buf 51 4)
  let latin2 := asGribInt 32 (← rdAs buf 55 4)
  .ok ⟨earth, ni, nj, firstLat, firstLon, lad, lov, dx, dy, mode, latin1, latin2⟩

/-- `LambertGridDefinition::latlons` (src/grid/lambert.rs:121-158). -/
def LambertGrid.latlons (p : ProjOps G F) (d : LambertGrid) : Outcome GribError (List (F × F)) :=
  match d.earth.radii p.ops with
  | none => .err .notSupported
  | some (a, b) => do
    let dx := p.ops.mul (p.ops.ofInt d.dx) (p.ops.lit 1 (-3))
    let dy := p.ops.mul (p.ops.ofInt d.dy) (p.ops.lit 1 (-3))
    let ij ← gridIj d.ni d.nj d.mode
    latlonsFromProjection p
      (.lcc a b (micro p.ops d.lad) (micro p.ops d.lov) (micro p.ops d.latin1) (micro p.ops d.latin2))
      (micro p.ops d.firstLat, micro p.ops d.firstLon)
      (signedDelta p d.mode.scansPositivelyForI dx, signedDelta p d.mode.scansPositivelyForJ dy) ij

/-! ## Grid definition templates -/

/-- `GridDefinitionTemplateValues` (src/datatypes/sections.rs:187-193). -/
inductive GridTemplate where
  | template0 (g : LatLonGrid)
  | template20 (g : PolarGrid)
  | template30 (g : LambertGrid)
  | template40 (g : GaussianGrid)
deriving DecidableEq, Repr

/-- `TryFrom<&GridDefinition>` (src/datatypes/sections.rs:264-307).  `panic`: the payload is too short. -/
def GridTemplate.tryFrom (d : GridDefinition) : Outcome GribError GridTemplate := do
  let num ← d.gridTmplNum
  let buf := d.payload
  match num with
  | 0 =>
    if buf.length > 67 then .err .notSupported
    else do
      let rest ← sliceTo buf 25 buf.length
      let g ← LatLonGrid.fromBuf rest
      .ok (.template0 g)
  | 20 => do
    let rest ← sliceTo buf 9 buf.length
    let g ← PolarGrid.fromBuf rest
    .ok (.template20 g)
  | 30 => do
    let rest ← sliceTo buf 9 buf.length
    let g ← LambertGrid.fromBuf rest
    .ok (.template30 g)
  | 40 =>
    if buf.length > 67 then .err .notSupported
    else do
      let rest ← sliceTo buf 25 buf.length
      let g ← GaussianGrid.fromBuf rest
      .ok (.template40 g)
  | _ => .err .notSupported

/-- `grid_shape` (src/datatypes/sections.rs:198-205). -/
def GridTemplate.gridShape : GridTemplate → Nat × Nat
  | .template0 g => (g.ni, g.nj)
  | .template20 g => (g.ni, g.nj)
  | .template30 g => (g.ni, g.nj)
  | .template40 g => (g.ni, g.nj)

/-- `short_name` (src/datatypes/sections.rs:215-222, and the `short_name` of each definition). -/
def GridTemplate.shortName : GridTemplate → String
  | .template0 _ => "regular_ll"
  | .template20 _ => "polar_stereographic"
  | .template30 _ => "lambert"
  | .template40 _ => "regular_gg"

/-- The scanning mode of each definition. -/
def GridTemplate.mode : GridTemplate → ScanningMode
  | .template0 g => g.mode
  | .template20 g => g.mode
  | .template30 g => g.mode
  | .template40 g => g.mode

/-- `ij` (src/datatypes/sections.rs:229-236). -/
def GridTemplate.ij (t : GridTemplate) : Outcome GribError GridIter := gridIj t.gridShape.1 t.gridShape.2 t.mode

/-- `GridPointIterator` (src/grid.rs:18-22). -/
inductive GridPoints (F : Type) where
  | latLon (it : RegularIter F)
  | lambert (ps : List (F × F))
deriving DecidableEq, Repr

/-- `GridPointIterator::size_hint` (src/grid.rs:34-39). -/
def GridPoints.sizeHint : GridPoints F → Outcome ε Nat
  | .latLon it => it.ij.sizeHint
  | .lambert ps => .ok ps.length

/-- Everything floating-point that coordinates need. -/
structure GridOps (G F : Type) where
  single : FloatOps F
  gauss : GaussOps G F
  /-- `none` without the feature `gridpoints-proj` -/
  proj : Option (ProjOps G F)

/-- `latlons` (src/datatypes/sections.rs:244-261). -/
def GridTemplate.latlons (o : GridOps G F) : GridTemplate → Outcome GribError (GridPoints F)
  | .template0 g => do .ok (.latLon (← g.latlons o.single))
  | .template20 g =>
    match o.proj with
    | some p => do .ok (.lambert (← g.latlons p))
    | none => .err .notSupported
  | .template30 g =>
    match o.proj with
    | some p => do .ok (.lambert (← g.latlons p))
    | none => .err .notSupported
  | .template40 g => do .ok (.latLon (← g.latlons o.gauss o.single))

/-- `SubMessage::grid_shape` (src/context.rs:578-582), given the grid definition. -/
def gridShape (d : GridDefinition) : Outcome GribError (Nat × Nat) := do .ok (← GridTemplate.tryFrom d).gridShape

/-- `SubMessage::ij` (src/context.rs:621-633), given the grid definition. -/
def subIj (d : GridDefinition) : Outcome GribError GridIter := do
  let defined ← d.numPoints
  let t ← GridTemplate.tryFrom d
  let ij ← t.ij
  let decoded ← ij.sizeHint
  if defined = decoded then .ok ij else .err .invalidValueError

/-- `SubMessage::latlons` (src/context.rs:670-682), given the grid definition. -/
def subLatlons (o : GridOps G F) (d : GridDefinition) : Outcome GribError (GridPoints F) := do
  let defined ← d.numPoints
  let t ← GridTemplate.tryFrom d
  let points ← t.latlons o
  let decoded ← points.sizeHint
  if defined = decoded then .ok points else .err .invalidValueError

end Grib.Model
