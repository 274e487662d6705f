import Verif.Model.Narrow
import Verif.Model.Decoder
import Verif.Model.Grid

/-! # Model of a build for 32-bit platforms: decoding and coordinates

See `Model/Narrow.lean`: `usize` has 32 bits, the arithmetic is that of a debug build.  What differs from the 64-bit model:

* products and sums of `usize` overflow at `2^32`;
* a vector holds at most `isize::MAX = 2^31 - 1` octets.  One whose length is known when it is made (`vec![x; n]`,
  `with_capacity`, `collect` of an iterator with an exact size) panics beyond.  One that grows is given room for up to twice
  its length, so the length at which it panics depends on its history: `grow n` says whether a vector may grow to `n` octets,
  a parameter of the model (true up to `2^30` octets, whatever the history).

Running out of memory is not modelled.  Everything not defined here is the same as on 64 bits: block lengths of complex
packing are computed in `u32`, and positions in a section do not exceed its length, below `2^31`. -/

namespace Grib.Model.N32

open Grib.Model

variable {ε F G : Type}

/-! ## Complex packing -/

/-- One group of `ComplexPackingValueDecodeIterator::next` (src/decoder/complex.rs:223-267).  An element takes 8 octets. -/
def groupNext (grow : Nat → Bool) (env : GroupEnv) (st : GroupPos) (ref width length : Nat) :
    Outcome ε (List DecodedValue × GroupPos) :=
  if width = 0 then
    -- `vec![value; length]`
    if 8 * length ≥ 2 ^ 31 then .panic else Model.groupNext env st ref width length
  else
    let bits := st.startOffsetBits + width * length
    let posEnd := st.pos + bits / 8
    let offsetByte := if bits % 8 > 0 then 1 else 0
    if bits ≥ 2 ^ 32 ∨ posEnd + offsetByte ≥ 2 ^ 32 then .panic
    else do
      let (values, st') ← Model.groupNext env st ref width length
      -- `collect::<Vec<_>>()`
      if grow (8 * values.length) then .ok (values, st') else .panic

/-- The items of the flattened group iterator (src/decoder/complex.rs:157-166, 215-270). -/
def groupItems (grow : Nat → Bool) (env : GroupEnv) :
    (refs : List Nat) → (widths lens : Items Nat) → GroupPos → Items DecodedValue
  | ref :: refs, width :: widths, len :: lens, st =>
    match (do let w ← width; let l ← len; groupNext grow env st ref w l : Outcome Empty _) with
    | .ok (values, st') => values.map .ok ++ groupItems grow env refs widths lens st'
    | _ => [.panic]
  | _, _, _, _ => []

/-- `decode_complex_packing` (src/decoder/complex.rs:111-167). -/
def decodeComplexPacking (grow : Nat → Bool) (p : ComplexParam) (sect7 : List UInt8) (sect7Offset nbit : Nat) (zMin : Int) :
    Outcome ε (Items DecodedValue) := do
  let refsEnd := sect7Offset + (← getOctetLength nbit p.ngroup)
  let widthsEnd := refsEnd + (← getOctetLength p.widthNbit p.ngroup)
  let lensEnd := widthsEnd + (← getOctetLength p.lenNbit p.ngroup)
  let refs ← Outcome.ofOption (bitStreamTake (← sliceTo sect7 sect7Offset refsEnd) nbit p.ngroup)
  let widths ← Outcome.ofOption (bitStreamTake (← sliceTo sect7 refsEnd widthsEnd) p.widthNbit p.ngroup)
  if p.ngroup = 0 then .panic else do
  let lens ← Outcome.ofOption (bitStreamTake (← sliceTo sect7 widthsEnd lensEnd) p.lenNbit (p.ngroup - 1))
  let rest ← sliceTo sect7 lensEnd sect7.length
  .ok (groupItems grow ⟨p.missing, nbit, zMin, rest⟩ refs
    (widths.map fun v => checkU32 (p.widthRef + v))
    ((lens.map fun v => do let a ← checkU32 (p.lenInc * v); checkU32 (p.lenRef + a)) ++ [.ok p.lenLast])
    ⟨0, 0⟩)

/-- `complex::decode_7_2` (src/decoder/complex.rs:30-54). -/
def complexDecode2 (grow : Nat → Bool) (ops : FloatOps F) (t : Decoder) : Outcome GribError (Items F) := do
  let simple ← SimpleParam.fromSect5 ops t.sect5
  let complex ← ComplexParam.fromSect5 t.sect5
  if complex.splitting ≠ 1 ∨ complex.missing > 2 then .err (.decodeError (.complexPacking .notSupported)) else do
  let items ← decodeComplexPacking grow complex t.sect7 0 simple.nbit 0
  .ok (simple.unpackAll ops (DecodedValue.toF32 ops) items)

/-- `complex::decode_7_3` (src/decoder/complex.rs:56-109). -/
def complexDecode3 (grow : Nat → Bool) (ops : FloatOps F) (t : Decoder) : Outcome GribError (Items F) := do
  let simple ← SimpleParam.fromSect5 ops t.sect5
  let complex ← ComplexParam.fromSect5 t.sect5
  let order ← rdAs t.sect5 42 1
  if order ≠ 1 ∧ order ≠ 2 ∧ order ≠ 255 then .err .notSupported else do
  let octets ← rdAs t.sect5 43 1
  if complex.splitting ≠ 1 ∨ complex.missing > 2 ∨ order = 255 then .err (.decodeError (.complexPacking .notSupported))
  else do
  let d ← DiffDescriptors.new t.sect7 order octets
  let items ← decodeComplexPacking grow complex t.sect7 d.slice.length simple.nbit (← d.minimum)
  let first ← d.firstValues d.slice.length 0
  let undiffed := if order = 1 then stepItems Diff1.step { firstValues := first } items
    else stepItems Diff2.step { firstValues := first } items
  .ok (simple.unpackAll ops (DecodedValue.toF32 ops) undiffed)

/-! ## Run-length packing -/

/-- The `for value in iter` loop of `rleunpack` (src/decoder/run_length.rs:77-89).  A level takes 2 octets: `vec![prev; length]`
and the buffer it is appended to. -/
def rleLoop (grow : Nat → Bool) (rlbase lngu : Nat) :
    (values : List Nat) → (out : List Nat) → (cached : Option Nat) → (exp : Nat) → Outcome RunLengthError (List Nat)
  | [], out, _, _ => .ok out
  | v :: vs, out, cached, exp =>
    let value := v % 2 ^ 16
    if rlbase > value then
      if grow (2 * (out.length + 1)) then rleLoop grow rlbase lngu vs (out ++ [value]) (some value) 1 else .panic
    else
      match cached with
      | none => .err .invalidFirstValue
      | some prev =>
        let length := (value - rlbase) * exp
        if length ≥ 2 ^ 32 ∨ 2 * length ≥ 2 ^ 31 ∨ ¬ grow (2 * (out.length + length)) ∨ exp * lngu ≥ 2 ^ 32 then .panic
        else rleLoop grow rlbase lngu vs (out ++ List.replicate length prev) cached (exp * lngu)

/-- `rleunpack` (src/decoder/run_length.rs:60-98), pulling at most as many integers as suffices for every width above zero
(not ending then is reported as a panic, as in the 64-bit model).  Line 67: `Vec::with_capacity(sz)`. -/
def rleunpack (grow : Nat → Bool) (input : List UInt8) (nbit maxv expectedLen : Nat) : Outcome RunLengthError (List Nat) :=
  if 2 * expectedLen ≥ 2 ^ 31 then .panic
  else if maxv + 1 ≥ 2 ^ 16 ∨ nbit ≥ 16 ∨ 2 ^ nbit < maxv + 1 then .panic
  else
    match (NBit.new input nbit).drain (8 * input.length + 1) with
    | .done values => do
      let out ← rleLoop grow (maxv + 1) (2 ^ nbit - (maxv + 1)) values [] none 1
      if expectedLen ≠ out.length then .err .lengthMismatch else .ok out
    | _ => .panic

/-- `run_length::decode` (src/decoder/run_length.rs:15-57).  Line 55 collects values of 4 octets. -/
def runLengthDecode (grow : Nat → Bool) (ops : FloatOps F) (t : Decoder) : Outcome GribError (Items F) := do
  let nbit ← rdAs t.sect5 6 1
  let maxv ← rdAs t.sect5 7 2
  let maxLevel ← rdAs t.sect5 9 2
  let digits ← rdAs t.sect5 11 1
  let levels ← readLevels ops t.sect5 digits maxLevel 12
  let decoded ← (rleunpack grow t.sect7 nbit maxv t.numPointsEncoded).mapErr fun e => .decodeError (.runLength e)
  let values ← (levelsToValues (ops.nan :: levels) decoded).mapErr fun e => .decodeError (.runLength e)
  if grow (4 * values.length) then .ok (values.map .ok) else .panic

/-! ## The decoder -/

/-- `BitmapDecodeIterator::new` (src/decoder/bitmap.rs:16-27): `bitmap_len * 8`. -/
def bitmapNew (bitmap : List UInt8) (values : Items F) (len : Nat) : Outcome GribError (BitmapIter F) :=
  if bitmap.length * 8 ≥ 2 ^ 32 then .panic else BitmapIter.new bitmap values len

/-- `Grib2SubmessageDecoder::from` (src/decoder.rs:78-121). -/
def fromSub (m : SubMessage) : Rdr → Outcome GribError Decoder × Rdr := fun r =>
  match m.s3.2.body, m.s5.2.body, m.s6.2.body with
  | some (.section3 b3), some (.section5 b5), some (.section6 indicator) =>
    let lift {α : Type} (x : RM α) (r : Rdr) : Outcome GribError α × Rdr := ((x r).1.mapErr .parseError, (x r).2)
    match ((GridDefinition.mk b3).numPoints : Outcome GribError Nat) with
    | .err e => (.err e, r)
    | .panic => (.panic, r)
    | .ok total =>
      let (bitmap, r1) : Outcome GribError (List UInt8) × Rdr :=
        if indicator = 0 then
          match lift (readSectPayloadAsSlice m.s6.2) r with
          | (.ok data, r1) => (if data.length < 1 then .panic else .ok (data.drop 1), r1)
          | (.err e, r1) => (.err e, r1)
          | (.panic, r1) => (.panic, r1)
        else if indicator = 255 then (.ok (createBitmap total), r)
        else (.err (.decodeError .bitMapIndicatorUnsupported), r)
      match bitmap with
      | .err e => (.err e, r1)
      | .panic => (.panic, r1)
      | .ok bitmap =>
        match ((do let n ← (ReprDefinition.mk b5).numPoints; let t ← (ReprDefinition.mk b5).reprTmplNum; .ok (n, t)) :
            Outcome GribError (Nat × Nat)) with
        | .err e => (.err e, r1)
        | .panic => (.panic, r1)
        | .ok (encoded, tmpl) =>
          match lift (readSectPayloadAsSlice m.s5.2) r1 with
          | (.err e, r2) => (.err e, r2)
          | (.panic, r2) => (.panic, r2)
          | (.ok sect5, r2) =>
            match lift (readSectPayloadAsSlice m.s7.2) r2 with
            | (.err e, r3) => (.err e, r3)
            | (.panic, r3) => (.panic, r3)
            | (.ok sect7, r3) => (.ok ⟨total, encoded, tmpl, sect5, bitmap, sect7⟩, r3)
  | _, _, _ => (.err .internalDataError, r)

/-- The `match` of `dispatch` (src/decoder.rs:127-140).  The JPEG 2000 and PNG decoders are the same parameters as in the
64-bit model. -/
def decodeValues (grow : Nat → Bool) (c : Codecs F) (t : Decoder) : Outcome GribError (Items F) :=
  match t.templateNum with
  | 0 => simpleDecode c.ops t
  | 2 => complexDecode2 grow c.ops t
  | 3 => complexDecode3 grow c.ops t
  | 40 => jpeg2000Decode c t
  | 41 => pngDecode c t
  | 200 => runLengthDecode grow c.ops t
  | _ => .err (.decodeError .templateNumberUnsupported)

/-- `Grib2SubmessageDecoder::dispatch` (src/decoder.rs:124-144). -/
def dispatch (grow : Nat → Bool) (c : Codecs F) (t : Decoder) : Outcome GribError (BitmapIter F) := do
  let values ← decodeValues grow c t
  bitmapNew t.bitmap values t.numPointsTotal

/-! ## Coordinates -/

/-- `GridPointIndexIterator::size_hint` (src/grid.rs:108-111): the product may overflow. -/
def gridSizeHint (it : GridIter) : Outcome ε Nat :=
  if (it.majorLen - it.majorPos) * it.minorLen ≥ 2 ^ 32 then .panic else it.sizeHint

/-- `LatLonGridDefinition::latlons` (src/grid/latlon.rs:113-136).  The vectors of latitudes and longitudes have `nj` and `ni`
elements of 4 octets. -/
def latLonLatlons (ops : FloatOps F) (g : LatLonGrid) : Outcome GribError (RegularIter F) := do
  let points ← g.latlons ops
  if 4 * g.nj ≥ 2 ^ 31 ∨ 4 * g.ni ≥ 2 ^ 31 then .panic else .ok points

/-- `legendre_roots_iterator(n).collect()` (src/grid/gaussian.rs:157-167): `8 * n * n * n` overflows earlier.  (Where it does
not, `n` is at most 812, and the vectors are small.) -/
def legendreRoots (g : GaussOps G F) (n : Nat) : Outcome ε (List (Option G)) :=
  if 8 * n * n * n ≥ 2 ^ 32 then .panic else Model.legendreRoots g n

/-- `compute_gaussian_latitudes_in_degrees` (src/grid/gaussian.rs:114-119, 143-145). -/
def gaussianLatitudes (g : GaussOps G F) (div : Nat) : Outcome GribError (List G) := do
  let roots ← legendreRoots g div
  match allSome (roots.map fun x => x.map fun i => g.toDegrees (g.asin i)) with
  | none => .err .unknown
  | some lats => .ok lats

/-- `GaussianGridDefinition::latlons` (src/grid/gaussian.rs:59-83). -/
def gaussianLatlons (g : GaussOps G F) (ops : FloatOps F) (d : GaussianGrid) : Outcome GribError (RegularIter F) := do
  if ¬ (← isConsistentForJ d.firstLat d.lastLat d.mode) then .err .invalidValueError else do
  let ij ← gridIj d.ni d.nj d.mode
  let lat ← gaussianLatitudes g d.nj
  let lat := if d.mode.scansPositivelyForJ then lat.reverse else lat
  let lat := lat.map g.toF32
  if d.ni = 0 then .panic else do
  let lon ← evenlySpacedLongitudes ops d.firstLon d.lastLon (d.ni - 1) d.mode
  if 4 * d.ni ≥ 2 ^ 31 then .panic else .ok ⟨lat, lon, ij⟩

/-- `latlons_from_projection_definition_and_first_point` (src/grid/helpers.rs:76-113).  Lines 92-100 collect as many pairs of
`f64` as the size hint says. -/
def latlonsFromProjection (p : ProjOps G F) (d : ProjDef G) (first delta : G × G) (ij : GridIter) :
    Outcome GribError (List (F × F)) :=
  if ¬ p.valid d then .err .unknown
  else
    match p.forward d (p.toRadians first.2, p.toRadians first.1) with
    | none => .err .unknown
    | some _ =>
      if 16 * (ij.majorLen * ij.minorLen) ≥ 2 ^ 31 then .panic else Model.latlonsFromProjection p d first delta ij

/-- `PolarStereographicGridDefinition::latlons` (src/grid/polar_stereographic.rs:119-167). -/
def polarLatlons (p : ProjOps G F) (d : PolarGrid) : Outcome GribError (List (F × F)) :=
  match d.earth.radii p.ops with
  | none => .err .notSupported
  | some (a, b) =>
    if d.centre &&& 0b00111111 ≠ 0 then .err .notSupported
    else do
      let lat0 := if d.centre &&& 0b10000000 = 0 then p.ops.lit 90 0 else p.ops.lit (-90) 0
      let dx := p.ops.mul (p.ops.ofInt d.dx) (p.ops.lit 1 (-3))
      let dy := p.ops.mul (p.ops.ofInt d.dy) (p.ops.lit 1 (-3))
      let ij ← gridIj d.ni d.nj d.mode
      latlonsFromProjection p (.stere a b (micro p.ops d.lad) lat0 (micro p.ops d.lov))
        (micro p.ops d.firstLat, micro p.ops d.firstLon)
        (signedDelta p d.mode.scansPositivelyForI dx, signedDelta p d.mode.scansPositivelyForJ dy) ij

/-- `LambertGridDefinition::latlons` (src/grid/lambert.rs:121-158). -/
def lambertLatlons (p : ProjOps G F) (d : LambertGrid) : Outcome GribError (List (F × F)) :=
  match d.earth.radii p.ops with
  | none => .err .notSupported
  | some (a, b) => do
    let dx := p.ops.mul (p.ops.ofInt d.dx) (p.ops.lit 1 (-3))
    let dy := p.ops.mul (p.ops.ofInt d.dy) (p.ops.lit 1 (-3))
    let ij ← gridIj d.ni d.nj d.mode
    latlonsFromProjection p
      (.lcc a b (micro p.ops d.lad) (micro p.ops d.lov) (micro p.ops d.latin1) (micro p.ops d.latin2))
      (micro p.ops d.firstLat, micro p.ops d.firstLon)
      (signedDelta p d.mode.scansPositivelyForI dx, signedDelta p d.mode.scansPositivelyForJ dy) ij

/-- `GridPointIterator::size_hint` (src/grid.rs:34-39). -/
def pointsSizeHint : GridPoints F → Outcome ε Nat
  | .latLon it => gridSizeHint it.ij
  | .lambert ps => .ok ps.length

/-- `latlons` (src/datatypes/sections.rs:244-261). -/
def templateLatlons (o : GridOps G F) : GridTemplate → Outcome GribError (GridPoints F)
  | .template0 g => do .ok (.latLon (← latLonLatlons o.single g))
  | .template20 g =>
    match o.proj with
    | some p => do .ok (.lambert (← polarLatlons p g))
    | none => .err .notSupported
  | .template30 g =>
    match o.proj with
    | some p => do .ok (.lambert (← lambertLatlons p g))
    | none => .err .notSupported
  | .template40 g => do .ok (.latLon (← gaussianLatlons o.gauss o.single g))

/-- `SubMessage::ij` (src/context.rs:621-633), given the grid definition. -/
def subIj (d : GridDefinition) : Outcome GribError GridIter := do
  let defined ← d.numPoints
  let t ← GridTemplate.tryFrom d
  let ij ← t.ij
  let decoded ← gridSizeHint ij
  if defined = decoded then .ok ij else .err .invalidValueError

/-- `SubMessage::latlons` (src/context.rs:670-682), given the grid definition. -/
def subLatlons (o : GridOps G F) (d : GridDefinition) : Outcome GribError (GridPoints F) := do
  let defined ← d.numPoints
  let t ← GridTemplate.tryFrom d
  let points ← templateLatlons o t
  let decoded ← pointsSizeHint points
  if defined = decoded then .ok points else .err .invalidValueError

end Grib.Model.N32
