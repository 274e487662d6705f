import Verif.Model.Program

/-! # Model of the messages

The texts of errors, which the other models leave out, and what the command-line program writes on the standard error stream.
The functions that make up a text are modelled again, with errors that carry their texts.  Texts of the operating system, of
`png` and of PROJ are parameters.  Not modelled: colours, messages of `clap`, the text of a panic. -/

namespace Grib.Msg

open Grib Grib.Text Grib.Model Grib.Codes Grib.Cli

variable {ε F G : Type}

/-- `GribError` (src/error.rs:9-17), with texts. -/
inductive Error where
  | internalDataError
  | parseError (e : ParseError)
  | decodeError (e : DecodeError)
  | invalidValueError (text : Str)
  | notSupported (text : Str)
  | unknown (text : Str)
deriving DecidableEq, Repr

/-- Without its text. -/
def Error.erase : Error → GribError
  | .internalDataError => .internalDataError
  | .parseError e => .parseError e
  | .decodeError e => .decodeError e
  | .invalidValueError _ => .invalidValueError
  | .notSupported _ => .notSupported
  | .unknown _ => .unknown

/-- Texts of others: of errors of the operating system, of the `png` crate (as `{:?}` shows it) and of PROJ. -/
structure Foreign where
  io : Str
  png : Str
  proj : Str

/-- `{:0n}`. -/
def zeroPad (n : Nat) (s : Str) : Str := List.replicate (n - s.length) '0' ++ s

/-! ## Texts -/

/-- Lines moved four columns to the right (`PadAdapter` of the standard library). -/
def indent (s : Str) : Str := "    ".toList ++ s.flatMap fun c => if c = '\n' then "\n    ".toList else [c]

/-- `{:#?}` of a variant with one field (`debug_tuple` of the standard library). -/
def variant1 (name inner : Str) : Str := name ++ "(\n".toList ++ indent inner ++ ",\n)".toList

/-- The derived `Debug` of `SimplePackingDecodeError` (src/decoder/simple.rs:41-46). -/
def simpleText : SimpleError → Str
  | .notSupported => "NotSupported".toList
  | .originalFieldValueTypeNotSupported => "OriginalFieldValueTypeNotSupported".toList
  | .lengthMismatch => "LengthMismatch".toList

/-- The derived `Debug` of `ComplexPackingDecodeError` (src/decoder/complex.rs:24-28). -/
def complexText : ComplexError → Str
  | .notSupported => "NotSupported".toList
  | .lengthMismatch => "LengthMismatch".toList

/-- The derived `Debug` of `Jpeg2000CodeStreamDecodeError` (src/decoder/jpeg2000.rs:14-21). -/
def jpegText : Jpeg2000Error → Str
  | .notSupported => "NotSupported".toList
  | .decoderSetupError => "DecoderSetupError".toList
  | .mainHeaderReadError => "MainHeaderReadError".toList
  | .bodyReadError => "BodyReadError".toList
  | .lengthMismatch => "LengthMismatch".toList

/-- The derived `Debug` of `PngDecodeError` (src/decoder/png.rs:10-14). -/
def pngText (f : Foreign) : PngError → Str
  | .notSupported => "NotSupported".toList
  | .pngError => variant1 "PngError".toList f.png

/-- The derived `Debug` of `RunLengthEncodingDecodeError` (src/decoder/run_length.rs:7-13). -/
def runLengthText : RunLengthError → Str
  | .notSupported => "NotSupported".toList
  | .invalidFirstValue => "InvalidFirstValue".toList
  | .lengthMismatch => "LengthMismatch".toList
  | .invalidLevelValue n => variant1 "InvalidLevelValue".toList (showNat n)

/-- `{:#?}` of a `DecodeError` (src/decoder.rs:234-245). -/
def decodeText (f : Foreign) : DecodeError → Str
  | .templateNumberUnsupported => "TemplateNumberUnsupported".toList
  | .bitMapIndicatorUnsupported => "BitMapIndicatorUnsupported".toList
  | .simplePacking e => variant1 "SimplePackingDecodeError".toList (simpleText e)
  | .complexPacking e => variant1 "ComplexPackingDecodeError".toList (complexText e)
  | .jpeg2000 e => variant1 "Jpeg2000CodeStreamDecodeError".toList (jpegText e)
  | .png e => variant1 "PngDecodeError".toList (pngText f e)
  | .runLength e => variant1 "RunLengthEncodingDecodeError".toList (runLengthText e)
  | .lengthMismatch => "LengthMismatch".toList

/-- `Display for GribError` (src/error.rs:37-48). -/
def Error.show (f : Foreign) : Error → Str
  | .internalDataError => "Something unexpected happend".toList
  | .parseError e => parseErrorText f.io e
  | .decodeError e => decodeText f e
  | .invalidValueError s => "invalid value (".toList ++ s ++ ")".toList
  | .notSupported s => "not supported (".toList ++ s ++ ")".toList
  | .unknown s => "unknown error: ".toList ++ s

/-! ## Coordinates -/

/-- `ij` of all four grid definitions (src/grid/latlon.rs:75-84, gaussian.rs:42-51, lambert.rs:103-112,
polar_stereographic.rs:101-110). -/
def gridIj (ni nj : Nat) (mode : ScanningMode) : Outcome Error GridIter :=
  if mode.hasUnsupportedFlags then .err (.notSupported ("scanning mode ".toList ++ showNat mode)) else .ok (GridIter.new ni nj mode)

/-- src/grid/latlon.rs:116, gaussian.rs:62. -/
def latitudesText : Str := "Latitudes for first/last grid points are not consistent with scanning mode".toList

/-- `LatLonGridDefinition::latlons` (src/grid/latlon.rs:113-136). -/
def latLon (ops : FloatOps F) (g : LatLonGrid) : Outcome Error (RegularIter F) := do
  if ¬ (← isConsistentForJ g.firstLat g.lastLat g.mode) then .err (.invalidValueError latitudesText) else do
  let ij ← gridIj g.ni g.nj g.mode
  if g.nj = 0 then .panic else do
  let lat := evenlySpacedDegrees ops (ops.ofInt g.firstLat) (ops.ofInt g.lastLat) (g.nj - 1)
  if g.ni = 0 then .panic else do
  let lon ← evenlySpacedLongitudes ops g.firstLon g.lastLon (g.ni - 1) g.mode
  .ok ⟨lat, lon, ij⟩

/-- `compute_gaussian_latitudes_in_degrees` (src/grid/gaussian.rs:114-119, 143-145), with the error as in line 69. -/
def gaussianLatitudes (g : GaussOps G F) (div : Nat) : Outcome Error (List G) := do
  let roots ← legendreRoots g div
  match allSome (roots.map fun x => x.map fun i => g.toDegrees (g.asin i)) with
  | none => .err (.unknown "finding root for Legendre polynomial failed".toList)
  | some lats => .ok lats

/-- `GaussianGridDefinition::latlons` (src/grid/gaussian.rs:59-83). -/
def gaussian (g : GaussOps G F) (ops : FloatOps F) (d : GaussianGrid) : Outcome Error (RegularIter F) := do
  if ¬ (← isConsistentForJ d.firstLat d.lastLat d.mode) then .err (.invalidValueError latitudesText) else do
  let ij ← gridIj d.ni d.nj d.mode
  let lat ← gaussianLatitudes g d.nj
  let lat := if d.mode.scansPositivelyForJ then lat.reverse else lat
  let lat := lat.map g.toF32
  if d.ni = 0 then .panic else do
  let lon ← evenlySpacedLongitudes ops d.firstLon d.lastLon (d.ni - 1) d.mode
  .ok ⟨lat, lon, ij⟩

/-- `indices.map(..).collect()` (src/grid/helpers.rs:93-100). -/
def collectIj (it : GridIter) : Outcome Error (List (Nat × Nat)) :=
  match it.drain (it.majorLen * it.minorLen + 1) with
  | .done ps => .ok ps
  | _ => .panic

/-- `latlons_from_projection_definition_and_first_point` (src/grid/helpers.rs:76-113). -/
def projected (f : Foreign) (p : ProjOps G F) (d : ProjDef G) (first delta : G × G) (ij : GridIter) :
    Outcome Error (List (F × F)) :=
  if ¬ p.valid d then .err (.unknown f.proj)
  else
    match p.forward d (p.toRadians first.2, p.toRadians first.1) with
    | none => .err (.unknown f.proj)
    | some (x0, y0) => do
      let ps ← collectIj ij
      let xy := ps.map fun (i, j) =>
        (p.ops.add x0 (p.ops.mul delta.1 (p.ops.ofInt i)), p.ops.add y0 (p.ops.mul delta.2 (p.ops.ofInt j)))
      match p.inverseAll d xy with
      | none => .err (.unknown f.proj)
      | some lonlat => .ok (lonlat.map fun (lon, lat) => (p.toF32 (p.toDegrees lat), p.toF32 (p.toDegrees lon)))

/-- src/grid/lambert.rs:127-130, polar_stereographic.rs:123-126. -/
def earthText (e : EarthShape) : Str :=
  "unknown value of Code Table 3.2 (shape of the Earth): ".toList ++ showNat e.shape

/-- `PolarStereographicGridDefinition::latlons` (src/grid/polar_stereographic.rs:119-167). -/
def polar (f : Foreign) (p : ProjOps G F) (d : PolarGrid) : Outcome Error (List (F × F)) :=
  match d.earth.radii p.ops with
  | none => .err (.notSupported (earthText d.earth))
  | some (a, b) =>
    if d.centre &&& 0b00111111 ≠ 0 then .err (.notSupported ("projection centre ".toList ++ showNat d.centre))
    else do
      let lat0 := if d.centre &&& 0b10000000 = 0 then p.ops.lit 90 0 else p.ops.lit (-90) 0
      let dx := p.ops.mul (p.ops.ofInt d.dx) (p.ops.lit 1 (-3))
      let dy := p.ops.mul (p.ops.ofInt d.dy) (p.ops.lit 1 (-3))
      let ij ← gridIj d.ni d.nj d.mode
      projected f p (.stere a b (micro p.ops d.lad) lat0 (micro p.ops d.lov))
        (micro p.ops d.firstLat, micro p.ops d.firstLon)
        (signedDelta p d.mode.scansPositivelyForI dx, signedDelta p d.mode.scansPositivelyForJ dy) ij

/-- `LambertGridDefinition::latlons` (src/grid/lambert.rs:121-158). -/
def lambert (f : Foreign) (p : ProjOps G F) (d : LambertGrid) : Outcome Error (List (F × F)) :=
  match d.earth.radii p.ops with
  | none => .err (.notSupported (earthText d.earth))
  | some (a, b) => do
    let dx := p.ops.mul (p.ops.ofInt d.dx) (p.ops.lit 1 (-3))
    let dy := p.ops.mul (p.ops.ofInt d.dy) (p.ops.lit 1 (-3))
    let ij ← gridIj d.ni d.nj d.mode
    projected f p
      (.lcc a b (micro p.ops d.lad) (micro p.ops d.lov) (micro p.ops d.latin1) (micro p.ops d.latin2))
      (micro p.ops d.firstLat, micro p.ops d.firstLon)
      (signedDelta p d.mode.scansPositivelyForI dx, signedDelta p d.mode.scansPositivelyForJ dy) ij

/-- `TryFrom<&GridDefinition>` (src/datatypes/sections.rs:264-307). -/
def tryFrom (d : GridDefinition) : Outcome Error GridTemplate := do
  let num ← d.gridTmplNum
  let buf := d.payload
  match num with
  | 0 =>
    if buf.length > 67 then .err (.notSupported ("template ".toList ++ showNat num ++ " with list of number of points".toList))
    else do
      let rest ← sliceTo buf 25 buf.length
      let g ← LatLonGrid.fromBuf rest
      .ok (.template0 g)
  | 20 => do
    let rest ← sliceTo buf 9 buf.length
    let g ← PolarGrid.fromBuf rest
    .ok (.template20 g)
  | 30 => do
    let rest ← sliceTo buf 9 buf.length
    let g ← LambertGrid.fromBuf rest
    .ok (.template30 g)
  | 40 =>
    if buf.length > 67 then .err (.notSupported ("template ".toList ++ showNat num ++ " with list of number of points".toList))
    else do
      let rest ← sliceTo buf 25 buf.length
      let g ← GaussianGrid.fromBuf rest
      .ok (.template40 g)
  | _ => .err (.notSupported ("template ".toList ++ showNat num))

/-- `latlons` (src/datatypes/sections.rs:244-261). -/
def templateLatlons (f : Foreign) (o : GridOps G F) : GridTemplate → Outcome Error (GridPoints F)
  | .template0 g => do .ok (.latLon (← latLon o.single g))
  | .template20 g =>
    match o.proj with
    | some p => do .ok (.lambert (← polar f p g))
    | none => .err (.notSupported "lat/lon computation support for the template is dropped in this build".toList)
  | .template30 g =>
    match o.proj with
    | some p => do .ok (.lambert (← lambert f p g))
    | none => .err (.notSupported "lat/lon computation support for the template is dropped in this build".toList)
  | .template40 g => do .ok (.latLon (← gaussian o.gauss o.single g))

/-- src/context.rs:629-631, 678-680. -/
def mismatchText (defined decoded : Nat) : Str :=
  "number of grid points does not match: ".toList ++ showNat defined ++ " (defined) vs ".toList ++ showNat decoded ++
    " (decoded)".toList

/-- `SubMessage::ij` (src/context.rs:621-633), given the grid definition. -/
def subIj (d : GridDefinition) : Outcome Error GridIter := do
  let defined ← d.numPoints
  let t ← tryFrom d
  let ij ← gridIj t.gridShape.1 t.gridShape.2 t.mode
  let decoded ← ij.sizeHint
  if defined = decoded then .ok ij else .err (.invalidValueError (mismatchText defined decoded))

/-- `SubMessage::latlons` (src/context.rs:670-682), given the grid definition. -/
def subLatlons (f : Foreign) (o : GridOps G F) (d : GridDefinition) : Outcome Error (GridPoints F) := do
  let defined ← d.numPoints
  let t ← tryFrom d
  let points ← templateLatlons f o t
  let decoded ← points.sizeHint
  if defined = decoded then .ok points else .err (.invalidValueError (mismatchText defined decoded))

/-! ## Decoding -/

/-- The text of an error that has none. -/
def plain : GribError → Error
  | .internalDataError => .internalDataError
  | .parseError e => .parseError e
  | .decodeError e => .decodeError e
  | .invalidValueError => .invalidValueError []
  | .notSupported => .notSupported []
  | .unknown => .unknown []

/-- src/decoder/complex.rs:66-69: the text for a value of Code Table 5.6. -/
def orderText (order : Nat) : Str := "Code Table 5.6 value '".toList ++ showNat order ++ "' is not supported".toList

/-- `complex::decode_7_3` (src/decoder/complex.rs:56-109). -/
def complexDecode3 (ops : FloatOps F) (t : Decoder) : Outcome Error (Items F) := do
  let simple ← (SimpleParam.fromSect5 ops t.sect5).mapErr plain
  let complex ← ComplexParam.fromSect5 t.sect5
  let order ← rdAs t.sect5 42 1
  if order ≠ 1 ∧ order ≠ 2 ∧ order ≠ 255 then .err (.notSupported (orderText order)) else do
  let octets ← rdAs t.sect5 43 1
  if complex.splitting ≠ 1 ∨ complex.missing > 2 ∨ order = 255 then .err (.decodeError (.complexPacking .notSupported))
  else do
  let d ← (DiffDescriptors.new t.sect7 order octets).mapErr plain
  let items ← decodeComplexPacking complex t.sect7 d.slice.length simple.nbit (← d.minimum)
  let first ← d.firstValues d.slice.length 0
  let undiffed := if order = 1 then stepItems Diff1.step { firstValues := first } items
    else stepItems Diff2.step { firstValues := first } items
  .ok (simple.unpackAll ops (DecodedValue.toF32 ops) undiffed)

/-- The `match` of `dispatch` (src/decoder.rs:127-140).  No other decoder has an error with a text
(src/decoder/simple.rs:48-75, complex.rs:30-54, jpeg2000.rs:23-48, png.rs:16-51, run_length.rs:15-35, param.rs:15-30). -/
def decodeValues (c : Codecs F) (t : Decoder) : Outcome Error (Items F) :=
  if t.templateNum = 3 then complexDecode3 c.ops t else (t.decodeValues c).mapErr plain

/-- `dispatch` (src/decoder.rs:124-144). -/
def dispatch (c : Codecs F) (t : Decoder) : Outcome Error (BitmapIter F) := do
  let values ← decodeValues c t
  (BitmapIter.new t.bitmap values t.numPointsTotal).mapErr plain

/-- What the JPEG 2000 and PNG decoders write on the standard error stream (src/decoder/jpeg2000.rs:29-33,
src/decoder/png.rs:22-46): when the parameters could be read and, for PNG, the image. -/
def warning (c : Codecs F) (t : Decoder) : Str :=
  match SimpleParam.fromSect5 c.ops t.sect5 with
  | .ok param =>
    if t.templateNum = 40 then
      if param.nbit = 0 then warningText "nbit = 0 for JPEG 2000 code stream format decoder".toList else []
    else if t.templateNum = 41 ∧ (c.png t.sect7).isSome then
      if param.nbit = 0 then warningText "nbit = 0 for PNG decoder".toList
      else if param.nbit ≠ 16 then warningText "nbit != 16 for PNG decoder".toList
      else []
    else []
  | _ => []
where
  /-- The text around. -/
  warningText (s : Str) : Str := "WARNING: ".toList ++ s ++
    " is not tested.\n            Please report your data and help us develop the library.\n".toList

/-! ## Reference times -/

/-- The text of `create_date_time` (src/datatypes/sections.rs:132-134). -/
def dateText : List Nat → Str
  | [year, month, day, hour, minute, second] =>
    "invalid date time: ".toList ++ zeroPad 4 (showNat year) ++ "-".toList ++ zeroPad 2 (showNat month) ++ "-".toList ++
      zeroPad 2 (showNat day) ++ " ".toList ++ zeroPad 2 (showNat hour) ++ ":".toList ++ zeroPad 2 (showNat minute) ++
      ":".toList ++ zeroPad 2 (showNat second)
  | _ => []

/-! ## The program -/

/-- Errors of the tool, with texts; `other` is an error of the operating system on writing. -/
inductive Failure where
  | open_ (e : ParseError)
  | emptyData
  | badIndex
  | noSuchIndex (ix : Nat × Nat)
  | grib (e : Error)
  | unexpected (e : Error)
  | write
deriving DecidableEq, Repr

/-- Without texts. -/
def Failure.erase : Failure → CliError
  | .open_ e => .open_ e
  | .emptyData => .emptyData
  | .badIndex => .badIndex
  | .noSuchIndex ix => .noSuchIndex ix
  | .grib e => .grib e.erase
  | .unexpected e => .unexpected e.erase
  | .write => .write

/-- `Display` of the errors (cli/src/cli.rs:19, 75-79, cli/src/commands/decode.rs:54, 72; `anyhow` shows the error it wraps). -/
def Failure.show (f : Foreign) : Failure → Str
  | .open_ e => parseErrorText f.io e
  | .emptyData => "empty GRIB2 data".toList
  | .badIndex => "message index must be specified as 'N.M' where N and M are both integers".toList
  | .noSuchIndex ix => "no such index: ".toList ++ showIndex ix
  | .grib e => e.show f
  | .unexpected e => "something unexpected happened:: ".toList ++ e.show f
  | .write => f.io

/-- `cli::grib` (cli/src/cli.rs:11-22) on an already opened file. -/
def openGrib (r : Rdr) : Outcome Failure Grib2 :=
  match Grib2.read r with
  | .ok g => if g.len = 0 then .err .emptyData else .ok g
  | .err e => .err (.open_ e)
  | .panic => .panic

/-- The beginning of `decode` up to the decoder (cli/src/commands/decode.rs:45-56). -/
def prepared (f : Foreign) (o : GridOps G F) (r : Rdr) (index : Str) :
    Outcome Failure (Outcome Error (GridPoints F) × Decoder) := do
  let g ← openGrib r
  let ix ← (parseIndex index).mapErr fun _ => .badIndex
  match findIndex ix (g.len + 1) g.iter with
  | none => .err (.noSuchIndex ix)
  | some (_, m) =>
    let d ← m.gridDef
    let latlons := subLatlons f o d
    Outcome.require (match latlons with | .panic => false | _ => true)
    let dec ← (Decoder.fromSub m g.reader).1.mapErr fun e => .grib (plain e)
    .ok (latlons, dec)

/-- The common beginning of `decode` (cli/src/commands/decode.rs:45-57), and what is written on the standard error stream
meanwhile. -/
def decodePrepare (f : Foreign) (o : GridOps G F) (c : Codecs F) (r : Rdr) (index : Str) :
    Str × Outcome Failure (Outcome Error (GridPoints F) × BitmapIter F) :=
  match prepared f o r index with
  | .err e => ([], .err e)
  | .panic => ([], .panic)
  | .ok (latlons, dec) => (warning c dec, do
      let values ← (dispatch c dec).mapErr .grib
      .ok (latlons, values))

/-- The coordinates of the text output (cli/src/commands/decode.rs:68-75). -/
def textPoints (ops : FloatOps F) (n : Nat) : Outcome Error (GridPoints F) → Outcome Failure (GridPoints F)
  | .ok points => .ok points
  | .err (.notSupported _) => .ok (.lambert (List.replicate n (ops.nan, ops.nan)))
  | .err e => .err (.unexpected e)
  | .panic => .panic

/-- `decode` with text output (cli/src/commands/decode.rs:45-78, 120-140): what is printed, and how it ends. -/
def decodeShown (f : Foreign) (s : Setting F G) (r : Rdr) (index : Str) : Str × Str × Outcome Failure Unit :=
  match decodePrepare f s.grid s.codecs r index with
  | (w, .err e) => ([], w, .err e)
  | (w, .panic) => ([], w, .panic)
  | (w, .ok (latlons, values)) =>
    match values.toList s.codecs.ops with
    | .done vs =>
      match textPoints s.codecs.ops vs.length latlons with
      | .err e => ([], w, .err e)
      | .panic => ([], w, .panic)
      | .ok points =>
        let p := zipShow (rowLine s.fix6 s.showF) vs points
        match (points.sizeHint : Outcome Empty Nat) with
        | .ok _ => (decodeHeader ++ ['\n'] ++ p.1, w, if p.2 then .ok () else .panic)
        | _ => ([], w, .panic)
    | _ => ([], w, .panic)

/-- `decode` with binary output (cli/src/commands/decode.rs:33-43, 59-64). -/
def decodeBinary (f : Foreign) (s : Setting F G) (big : Bool) (r : Rdr) (index : Str) : Str × Outcome Failure Unit :=
  match decodePrepare f s.grid s.codecs r index with
  | (w, .err e) => (w, .err e)
  | (w, .panic) => (w, .panic)
  | (w, .ok (_, values)) =>
    let p := pulledValues s.codecs.ops (8 * values.bitmap.length + 1) values
    match writeOutput s.sched (p.1.map fun v => if big then toBeBytes (s.bits v) else toLeBytes (s.bits v)) with
    | (.ok (), _) => (w, if p.2 then .panic else .ok ())
    | (.err _, _) => (w, .err .write)
    | (.panic, _) => (w, .panic)

/-- The loop of `info` (cli/src/commands/info.rs:26-46); a reference time that is none ends it. -/
def infoLoop (k : Constants) : List ((Nat × Nat) × SubMessage) → Str × Outcome Failure Unit
  | [] => ([], .ok ())
  | x :: xs =>
    if x.1.2 = 0 then
      match infoBlock k chronoValid x.1 x.2 with
      | .ok b =>
        let r := infoLoop k xs
        ((b.map InfoBlock.text).getD [] ++ r.1, r.2)
      | .err _ => ([], .err (.grib (.invalidValueError (dateText (timeOf x.2)))))
      | .panic => ([], .panic)
    else infoLoop k xs
where
  /-- The six numbers `ref_time` reads (src/datatypes/sections.rs:94-105). -/
  timeOf (m : SubMessage) : List Nat :=
    match m.s1.2.body with
    | some (.section1 p) =>
      match (Identification.refTimeFields ⟨p⟩ : Outcome Empty (List Nat)) with
      | .ok l => l
      | _ => []
    | _ => []

/-- `dispatch` (cli/src/commands.rs:13-22) on a file that could be opened: what is printed on standard output, what is written on
the standard error stream before the end, and the result. -/
def runCommand (f : Foreign) (s : Setting F G) (cmd : Command) (r : Rdr) : Str × Str × Outcome Failure Unit :=
  match cmd with
  | .decode index => decodeShown f s r index
  | .export big index => ([], decodeBinary f s big r index)
  | .info =>
    match openGrib r with
    | .ok g =>
      let x := infoLoop s.tables (SubIter.drain (g.len + 1) g.iter)
      (x.1, [], x.2)
    | .err e => ([], [], .err e)
    | .panic => ([], [], .panic)
  | .inspect flags =>
    match openGrib r with
    | .ok g => shown (display (inspectNumLines flags s.perm g) (inspectText s.tables flags s.perm g))
    | .err e => ([], [], .err e)
    | .panic => ([], [], .panic)
  | .list dump =>
    match openGrib r with
    | .ok g => shown (display (listNumLines dump g) (listText dump s.tables s.wide s.showG g))
    | .err e => ([], [], .err e)
    | .panic => ([], [], .panic)
where
  /-- A display fails in no other way than by a panic. -/
  shown (x : Str × Outcome CliError Unit) : Str × Str × Outcome Failure Unit :=
    (x.1, [], match x.2 with | .ok () => .ok () | _ => .panic)

/-- What the program leaves on the standard error stream (cli/src/main.rs:19-25, without colours); nothing is said about it after
a panic, whose text is not modelled. -/
def stderr (f : Foreign) (x : Str × Str × Outcome Failure Unit) : Option Str :=
  match x.2.2 with
  | .ok () => some x.2.1
  | .err e => some (x.2.1 ++ ("error: ".toList ++ e.show f ++ "\n".toList))
  | .panic => none

end Grib.Msg
