import Verif.Model.NarrowRelease
import Verif.Model.NarrowDecode
import Verif.Model.ReleaseGrid

/-! # Model of a release build for 32-bit platforms: decoding and coordinates

See `Model/NarrowRelease.lean`: `usize` has 32 bits, sums, differences and products are taken modulo `2^32`.  As in
`Model/NarrowDecode.lean` a vector holds at most `2^31 - 1` octets, and `grow n` says whether a growing vector may grow to `n`
octets.  What was computed in `u32`, `i32`, `u16` or floating-point numbers is that of `Model/ReleaseDecode.lean` and
`Model/ReleaseGrid.lean`. -/

namespace Grib.Model.R32

open Grib.Model

variable {ε F G : Type}

/-! ## Complex packing -/

/-- `NBitwiseIterator::next` (src/decoder/stream.rs:95-128).  The one sum that can wrap around is `self.offset + self.size`, for
a width of almost `2^32` bits: the item is then taken from what is left of the current octet.  (An index of an octet is
below `2^31`, so `self.pos + new_offset / 8` does not overflow.) -/
def nbitNext (it : NBit) : Option (Option Nat × NBit) :=
  if it.offset + it.size < 2 ^ 32 then it.next
  else
    let newOffset := it.offset + it.size - 2 ^ 32
    match it.data[it.pos]? with
    | none => some (none, it)
    | some b =>
      if it.offset ≥ 8 then none
      else some (some ((((b.toNat <<< it.offset) % 256) >>> it.offset) >>> (8 - newOffset)), { it with offset := newOffset })

/-- `.take(n).collect()` on such an iterator; `none` is a panic. -/
def takeList : (n : Nat) → NBit → Option (List Nat)
  | 0, _ => some []
  | n + 1, it =>
    match nbitNext it with
    | none => none
    | some (none, _) => some []
    | some (some v, it') => (takeList n it').map (v :: ·)

/-- One group of `ComplexPackingValueDecodeIterator::next` (src/decoder/complex.rs:223-267).  An element takes 8 octets. -/
def groupNext (grow : Nat → Bool) (env : GroupEnv) (st : GroupPos) (ref width length : Nat) :
    Outcome ε (List DecodedValue × GroupPos) :=
  if width = 0 then
    -- `vec![value; length]`
    if 8 * length ≥ 2 ^ 31 then .panic else Rel.groupNext env st ref width length
  else do
    let ref ← toI32 ref
    let bits := uadd st.startOffsetBits ((width * length) % 2 ^ 32)
    let posEnd := uadd st.pos (bits / 8)
    let offsetBits := bits % 8
    let offsetByte := if offsetBits > 0 then 1 else 0
    let missing1 := 2 ^ (width % 32) - 1
    let missing2 := (missing1 + 2 ^ 32 - 1) % 2 ^ 32
    let slice ← sliceTo env.data st.pos (uadd posEnd offsetByte)
    let raw ← Outcome.ofOption (takeList length ((NBit.new slice width).withOffset st.startOffsetBits))
    -- `collect::<Vec<_>>()`
    if grow (8 * raw.length) then .ok (raw.map (Rel.groupValue env ref missing1 missing2), ⟨posEnd, offsetBits⟩) else .panic

/-- The items of the flattened group iterator (src/decoder/complex.rs:157-166, 215-270). -/
def groupItems (grow : Nat → Bool) (env : GroupEnv) : (refs widths lens : List Nat) → GroupPos → Items DecodedValue
  | ref :: refs, width :: widths, len :: lens, st =>
    match (groupNext grow env st ref width len : Outcome Empty _) with
    | .ok (values, st') => values.map .ok ++ groupItems grow env refs widths lens st'
    | _ => [.panic]
  | _, _, _, _ => []

/-- `decode_complex_packing` (src/decoder/complex.rs:111-167).  The ends of the blocks do not overflow: each block has less than
`2^29` octets. -/
def decodeComplexPacking (grow : Nat → Bool) (p : ComplexParam) (sect7 : List UInt8) (sect7Offset nbit : Nat) (zMin : Int) :
    Outcome ε (Items DecodedValue) := do
  let refsEnd := sect7Offset + Rel.getOctetLength nbit p.ngroup
  let widthsEnd := refsEnd + Rel.getOctetLength p.widthNbit p.ngroup
  let lensEnd := widthsEnd + Rel.getOctetLength p.lenNbit p.ngroup
  let refs ← Outcome.ofOption (bitStreamTake (← sliceTo sect7 sect7Offset refsEnd) nbit p.ngroup)
  let widths ← Outcome.ofOption (bitStreamTake (← sliceTo sect7 refsEnd widthsEnd) p.widthNbit p.ngroup)
  let lens ← Outcome.ofOption (bitStreamTake (← sliceTo sect7 widthsEnd lensEnd) p.lenNbit ((p.ngroup + 2 ^ 32 - 1) % 2 ^ 32))
  let rest ← sliceTo sect7 lensEnd sect7.length
  .ok (groupItems grow ⟨p.missing, nbit, zMin, rest⟩ refs
    (widths.map fun v => (p.widthRef + v) % 2 ^ 32)
    ((lens.map fun v => (p.lenRef + (p.lenInc * v) % 2 ^ 32) % 2 ^ 32) ++ [p.lenLast])
    ⟨0, 0⟩)

/-- `complex::decode_7_2` (src/decoder/complex.rs:30-54). -/
def complexDecode2 (grow : Nat → Bool) (ops : FloatOps F) (t : Decoder) : Outcome GribError (Items F) := do
  let simple ← SimpleParam.fromSect5 ops t.sect5
  let complex ← ComplexParam.fromSect5 t.sect5
  if complex.splitting ≠ 1 ∨ complex.missing > 2 then .err (.decodeError (.complexPacking .notSupported)) else do
  let items ← decodeComplexPacking grow complex t.sect7 0 simple.nbit 0
  .ok (simple.unpackAll ops (DecodedValue.toF32 ops) items)

/-- `complex::decode_7_3` (src/decoder/complex.rs:56-109). -/
def complexDecode3 (grow : Nat → Bool) (ops : FloatOps F) (t : Decoder) : Outcome GribError (Items F) := do
  let simple ← SimpleParam.fromSect5 ops t.sect5
  let complex ← ComplexParam.fromSect5 t.sect5
  let order ← rdAs t.sect5 42 1
  if order ≠ 1 ∧ order ≠ 2 ∧ order ≠ 255 then .err .notSupported else do
  let octets ← rdAs t.sect5 43 1
  if complex.splitting ≠ 1 ∨ complex.missing > 2 ∨ order = 255 then .err (.decodeError (.complexPacking .notSupported))
  else do
  let d ← DiffDescriptors.new t.sect7 order octets
  let items ← decodeComplexPacking grow complex t.sect7 d.slice.length simple.nbit (← d.minimum)
  let first ← d.firstValues d.slice.length 0
  let undiffed := if order = 1 then stepItems Rel.diff1Step { firstValues := first } items
    else stepItems Rel.diff2Step { firstValues := first } items
  .ok (simple.unpackAll ops (DecodedValue.toF32 ops) undiffed)

/-! ## Run-length packing -/

/-- The `for value in iter` loop of `rleunpack` (src/decoder/run_length.rs:77-89).  A level takes 2 octets: `vec![prev; length]`
and the buffer it is appended to. -/
def rleLoop (grow : Nat → Bool) (rlbase lngu : Nat) :
    (values : List Nat) → (out : List Nat) → (cached : Option Nat) → (exp : Nat) → Outcome RunLengthError (List Nat)
  | [], out, _, _ => .ok out
  | v :: vs, out, cached, exp =>
    let value := v % 2 ^ 16
    if rlbase > value then
      if grow (2 * (out.length + 1)) then rleLoop grow rlbase lngu vs (out ++ [value]) (some value) 1 else .panic
    else
      match cached with
      | none => .err .invalidFirstValue
      | some prev =>
        let length := ((value - rlbase) * exp) % 2 ^ 32
        if 2 * length ≥ 2 ^ 31 ∨ ¬ grow (2 * (out.length + length)) then .panic
        else rleLoop grow rlbase lngu vs (out ++ List.replicate length prev) cached ((exp * lngu) % 2 ^ 32)

/-- `rleunpack` (src/decoder/run_length.rs:60-98), pulling at most as many integers as suffices for every width above zero
(not ending then is reported as a panic, as in the other models).  Line 67: `Vec::with_capacity(sz)`. -/
def rleunpack (grow : Nat → Bool) (input : List UInt8) (nbit maxv expectedLen : Nat) : Outcome RunLengthError (List Nat) :=
  if 2 * expectedLen ≥ 2 ^ 31 then .panic
  else
    let rlbase := (maxv + 1) % 2 ^ 16
    let lngu := (2 ^ (nbit % 16) + 2 ^ 16 - rlbase) % 2 ^ 16
    match (NBit.new input nbit).drain (8 * input.length + 1) with
    | .done values => do
      let out ← rleLoop grow rlbase lngu values [] none 1
      if expectedLen ≠ out.length then .err .lengthMismatch else .ok out
    | .panic => .panic
    | .more values =>
      match rleLoop grow rlbase lngu values [] none 1 with
      | .err e => .err e
      | _ => .panic

/-- `run_length::decode` (src/decoder/run_length.rs:15-57).  Line 55 collects values of 4 octets. -/
def runLengthDecode (grow : Nat → Bool) (ops : FloatOps F) (t : Decoder) : Outcome GribError (Items F) := do
  let nbit ← rdAs t.sect5 6 1
  let maxv ← rdAs t.sect5 7 2
  let maxLevel ← rdAs t.sect5 9 2
  let digits ← rdAs t.sect5 11 1
  let levels ← readLevels ops t.sect5 digits maxLevel 12
  let decoded ← (rleunpack grow t.sect7 nbit maxv t.numPointsEncoded).mapErr fun e => .decodeError (.runLength e)
  let values ← (levelsToValues (ops.nan :: levels) decoded).mapErr fun e => .decodeError (.runLength e)
  if grow (4 * values.length) then .ok (values.map .ok) else .panic

/-! ## The decoder -/

/-- `BitmapDecodeIterator::new` (src/decoder/bitmap.rs:16-27): `bitmap_len * 8` modulo `2^32`. -/
def bitmapNew (bitmap : List UInt8) (values : Items F) (len : Nat) : Outcome GribError (BitmapIter F) :=
  if (bitmap.length * 8) % 2 ^ 32 < len then .err (.decodeError .lengthMismatch) else .ok ⟨bitmap, values, len, 0⟩

/-- `Grib2SubmessageDecoder::from` (src/decoder.rs:78-121). -/
def fromSub (m : SubMessage) : Rdr → Outcome GribError Decoder × Rdr := fun r =>
  match m.s3.2.body, m.s5.2.body, m.s6.2.body with
  | some (.section3 b3), some (.section5 b5), some (.section6 indicator) =>
    let lift {α : Type} (x : RM α) (r : Rdr) : Outcome GribError α × Rdr := ((x r).1.mapErr .parseError, (x r).2)
    match ((GridDefinition.mk b3).numPoints : Outcome GribError Nat) with
    | .err e => (.err e, r)
    | .panic => (.panic, r)
    | .ok total =>
      let (bitmap, r1) : Outcome GribError (List UInt8) × Rdr :=
        if indicator = 0 then
          match lift (readSectPayloadAsSlice m.s6.2) r with
          | (.ok data, r1) => (if data.length < 1 then .panic else .ok (data.drop 1), r1)
          | (.err e, r1) => (.err e, r1)
          | (.panic, r1) => (.panic, r1)
        else if indicator = 255 then (.ok (createBitmap total), r)
        else (.err (.decodeError .bitMapIndicatorUnsupported), r)
      match bitmap with
      | .err e => (.err e, r1)
      | .panic => (.panic, r1)
      | .ok bitmap =>
        match ((do let n ← (ReprDefinition.mk b5).numPoints; let t ← (ReprDefinition.mk b5).reprTmplNum; .ok (n, t)) :
            Outcome GribError (Nat × Nat)) with
        | .err e => (.err e, r1)
        | .panic => (.panic, r1)
        | .ok (encoded, tmpl) =>
          match lift (readSectPayloadAsSlice m.s5.2) r1 with
          | (.err e, r2) => (.err e, r2)
          | (.panic, r2) => (.panic, r2)
          | (.ok sect5, r2) =>
            match lift (readSectPayloadAsSlice m.s7.2) r2 with
            | (.err e, r3) => (.err e, r3)
            | (.panic, r3) => (.panic, r3)
            | (.ok sect7, r3) => (.ok ⟨total, encoded, tmpl, sect5, bitmap, sect7⟩, r3)
  | _, _, _ => (.err .internalDataError, r)

/-- The `match` of `dispatch` (src/decoder.rs:127-140).  The JPEG 2000 and PNG decoders are the same parameters as in the
other models. -/
def decodeValues (grow : Nat → Bool) (c : Codecs F) (t : Decoder) : Outcome GribError (Items F) :=
  match t.templateNum with
  | 0 => simpleDecode c.ops t
  | 2 => complexDecode2 grow c.ops t
  | 3 => complexDecode3 grow c.ops t
  | 40 => jpeg2000Decode c t
  | 41 => pngDecode c t
  | 200 => runLengthDecode grow c.ops t
  | _ => .err (.decodeError .templateNumberUnsupported)

/-- `Grib2SubmessageDecoder::dispatch` (src/decoder.rs:124-144). -/
def dispatch (grow : Nat → Bool) (c : Codecs F) (t : Decoder) : Outcome GribError (BitmapIter F) := do
  let values ← decodeValues grow c t
  bitmapNew t.bitmap values t.numPointsTotal

/-! ## Coordinates -/

/-- `GridPointIndexIterator::next` (src/grid.rs:80-106).  Same simplification as in the other models: `minor_pos` is
unbounded. -/
def gridNext (it : GridIter) : Option (Nat × Nat) × GridIter :=
  if it.majorPos = it.majorLen then (none, it)
  else
    let minor := if it.increments then it.minorPos else usub (usub it.minorLen it.minorPos) 1
    let major := it.majorPos
    let it1 : GridIter := { it with minorPos := it.minorPos + 1 }
    let it2 : GridIter :=
      if it1.minorPos = it1.minorLen then
        { it1 with
          majorPos := it1.majorPos + 1
          minorPos := 0
          increments := if it1.mode.scansAlternatingRows then !it1.increments else it1.increments }
      else it1
    (some (if it.mode.isConsecutiveForI then (minor, major) else (major, minor)), it2)

/-- `GridPointIndexIterator::size_hint` (src/grid.rs:108-111). -/
def gridSizeHint (it : GridIter) : Nat := usub ((usub it.majorLen it.majorPos * it.minorLen) % 2 ^ 32) it.minorPos

/-- `n` calls of `next`: the items (while there are any) and the state afterwards. -/
def gridCalls : (n : Nat) → GridIter → List (Nat × Nat) × GridIter
  | 0, it => ([], it)
  | n + 1, it =>
    let (p, it) := gridNext it
    let (ps, it) := gridCalls n it
    (p.toList ++ ps, it)

/-- `LatLonGridDefinition::latlons` (src/grid/latlon.rs:113-136).  The vectors of latitudes and longitudes have an exact size (or,
for `0..=u32::MAX`, one that is known to be too large), with elements of 4 octets. -/
def latLonLatlons (ops : FloatOps F) (g : LatLonGrid) : Outcome GribError (RegularIter F) := do
  let points ← Rel.latLonLatlons ops g
  if 4 * (Rel.pred32 g.nj + 1) ≥ 2 ^ 31 ∨ 4 * (Rel.pred32 g.ni + 1) ≥ 2 ^ 31 then .panic else .ok points

/-- The loop of `legendre_polynomial` (src/grid/gaussian.rs:173-177): `2 * k - 1` in `usize`. -/
def legendreLoop (ops : FloatOps G) (x : G) : (steps k : Nat) → G × G → G × G
  | 0, _, p => p
  | steps + 1, k, (p0, p1) =>
    let pk := ops.div (ops.sub (ops.mul (ops.mul (ops.ofInt ((2 * k - 1) % 2 ^ 32 : Nat)) x) p1) (ops.mul (ops.ofInt (k - 1 : Nat)) p0))
      (ops.ofInt k)
    legendreLoop ops x steps (k + 1) (p1, pk)

/-- The Newton step (src/grid/gaussian.rs:161-165) with `legendre_polynomial` (lines 170-179). -/
def legendreStep (ops : FloatOps G) (n : Nat) (x : G) : G :=
  let (pPrev, p) := legendreLoop ops x (n - 1) 2 (ops.ofInt 1, x)
  ops.div p (legendreDerivative ops n x pPrev p)

/-- `legendre_roots_iterator(n)` (src/grid/gaussian.rs:157-167): the products in `usize`. -/
def legendreRoots (g : GaussOps G F) (n : Nat) : List (Option G) :=
  let coeff := g.ops.add (g.ops.sub (g.ops.lit 1 0) (g.ops.div (g.ops.lit 1 0) (g.ops.ofInt ((8 * n * n) % 2 ^ 32 : Nat))))
    (g.ops.div (g.ops.lit 1 0) (g.ops.ofInt ((8 * n * n * n) % 2 ^ 32 : Nat)))
  (List.range n).map fun i =>
    let guess := g.ops.mul coeff (g.cos (g.ops.div (g.ops.mul (g.ops.ofInt ((4 * i + 3) % 2 ^ 32 : Nat)) g.pi)
      (g.ops.ofInt ((4 * n + 2) % 2 ^ 32 : Nat))))
    (findRoot g.ops.sub g.small guess (legendreStep g.ops n)).1

/-- Collecting numbers of 8 octets into `Option<Vec<_>>` (src/grid/gaussian.rs:115-117), which grows. -/
def collectRows (grow : Nat → Bool) : (acc : List G) → List (Option G) → Outcome GribError (List G)
  | acc, [] => .ok acc
  | _, none :: _ => .err .unknown
  | acc, some x :: xs => if grow (8 * (acc.length + 1)) then collectRows grow (acc ++ [x]) xs else .panic

/-- `compute_gaussian_latitudes_in_degrees` (src/grid/gaussian.rs:114-119, 143-145). -/
def gaussianLatitudes (grow : Nat → Bool) (g : GaussOps G F) (div : Nat) : Outcome GribError (List G) :=
  collectRows grow [] ((legendreRoots g div).map fun x => x.map fun i => g.toDegrees (g.asin i))

/-- `GaussianGridDefinition::latlons` (src/grid/gaussian.rs:59-83). -/
def gaussianLatlons (grow : Nat → Bool) (g : GaussOps G F) (ops : FloatOps F) (d : GaussianGrid) :
    Outcome GribError (RegularIter F) := do
  if ¬ Rel.isConsistentForJ d.firstLat d.lastLat d.mode then .err .invalidValueError else do
  let ij ← gridIj d.ni d.nj d.mode
  let lat ← gaussianLatitudes grow g d.nj
  let lat := if d.mode.scansPositivelyForJ then lat.reverse else lat
  let lat := lat.map g.toF32
  if 4 * (Rel.pred32 d.ni + 1) ≥ 2 ^ 31 then .panic else
  .ok ⟨lat, Rel.evenlySpacedLongitudes ops d.firstLon d.lastLon (Rel.pred32 d.ni) d.mode, ij⟩

/-- `RegularGridIterator::next` (src/grid/helpers.rs:65-68).  `panic`: an index is out of range. -/
def regularNext (it : RegularIter F) : Outcome ε (Option (F × F) × RegularIter F) :=
  let (p, ij) := gridNext it.ij
  match p with
  | none => .ok (none, { it with ij })
  | some (i, j) => do
    let lat ← Outcome.ofOption it.lat[j]?
    let lon ← Outcome.ofOption it.lon[i]?
    .ok (some (lat, lon), { it with ij })

/-- Up to `fuel` calls of `next`. -/
def regularDrain : (fuel : Nat) → RegularIter F → Drained (F × F)
  | 0, _ => .more []
  | fuel + 1, it =>
    match (regularNext it : Outcome Empty _) with
    | .ok (none, _) => .done []
    | .ok (some p, it') => (regularDrain fuel it').cons p
    | _ => .panic

/-- `GridPointIterator::size_hint` (src/grid.rs:34-39). -/
def pointsSizeHint : GridPoints F → Nat
  | .latLon it => gridSizeHint it.ij
  | .lambert ps => ps.length

/-- `latlons` (src/datatypes/sections.rs:244-261).  The projected grids use the index iterator from its beginning on, where no
index overflows; with `2^27` points or more the vector of 16 octets each does not fit, whether its announced size, taken modulo
`2^32`, does or not: so they are those of `Model/NarrowDecode.lean`. -/
def templateLatlons (grow : Nat → Bool) (o : GridOps G F) : GridTemplate → Outcome GribError (GridPoints F)
  | .template0 g => do .ok (.latLon (← latLonLatlons o.single g))
  | .template20 g =>
    match o.proj with
    | some p => do .ok (.lambert (← N32.polarLatlons p g))
    | none => .err .notSupported
  | .template30 g =>
    match o.proj with
    | some p => do .ok (.lambert (← N32.lambertLatlons p g))
    | none => .err .notSupported
  | .template40 g => do .ok (.latLon (← gaussianLatlons grow o.gauss o.single g))

/-- `SubMessage::ij` (src/context.rs:621-633), given the grid definition. -/
def subIj (d : GridDefinition) : Outcome GribError GridIter := do
  let defined ← d.numPoints
  let t ← GridTemplate.tryFrom d
  let ij ← t.ij
  if defined = gridSizeHint ij then .ok ij else .err .invalidValueError

/-- `SubMessage::latlons` (src/context.rs:670-682), given the grid definition. -/
def subLatlons (grow : Nat → Bool) (o : GridOps G F) (d : GridDefinition) : Outcome GribError (GridPoints F) := do
  let defined ← d.numPoints
  let t ← GridTemplate.tryFrom d
  let points ← templateLatlons grow o t
  if defined = pointsSizeHint points then .ok points else .err .invalidValueError

end Grib.Model.R32
