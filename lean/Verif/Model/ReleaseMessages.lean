import Verif.Model.Messages
import Verif.Model.ReleaseCli

/-! # Model of a release build: the messages

The functions of `Model/Messages.lean` in which an overflow can happen, with wrapping arithmetic; see `Model/Release.lean`.  The texts
themselves are those of a debug build. -/

namespace Grib.Msg.Rel

open Grib Grib.Text Grib.Model Grib.Codes Grib.Cli

variable {ε F G : Type}

/-! ## Coordinates -/

/-- `LatLonGridDefinition::latlons` (src/grid/latlon.rs:113-136). -/
def latLon (ops : FloatOps F) (g : LatLonGrid) : Outcome Error (RegularIter F) := do
  if ¬ Model.Rel.isConsistentForJ g.firstLat g.lastLat g.mode then .err (.invalidValueError latitudesText) else do
  let ij ← gridIj g.ni g.nj g.mode
  let lat := evenlySpacedDegrees ops (ops.ofInt g.firstLat) (ops.ofInt g.lastLat) (Model.Rel.pred32 g.nj)
  let lon := Model.Rel.evenlySpacedLongitudes ops g.firstLon g.lastLon (Model.Rel.pred32 g.ni) g.mode
  .ok ⟨lat, lon, ij⟩

/-- `compute_gaussian_latitudes_in_degrees` (src/grid/gaussian.rs:114-119, 143-145), with the error as in line 69. -/
def gaussianLatitudes (g : GaussOps G F) (div : Nat) : Outcome Error (List G) :=
  match allSome ((Model.Rel.legendreRoots g div).map fun x => x.map fun i => g.toDegrees (g.asin i)) with
  | none => .err (.unknown "finding root for Legendre polynomial failed".toList)
  | some lats => .ok lats

/-- `GaussianGridDefinition::latlons` (src/grid/gaussian.rs:59-83). -/
def gaussian (g : GaussOps G F) (ops : FloatOps F) (d : GaussianGrid) : Outcome Error (RegularIter F) := do
  if ¬ Model.Rel.isConsistentForJ d.firstLat d.lastLat d.mode then .err (.invalidValueError latitudesText) else do
  let ij ← gridIj d.ni d.nj d.mode
  let lat ← gaussianLatitudes g d.nj
  let lat := if d.mode.scansPositivelyForJ then lat.reverse else lat
  let lat := lat.map g.toF32
  let lon := Model.Rel.evenlySpacedLongitudes ops d.firstLon d.lastLon (Model.Rel.pred32 d.ni) d.mode
  .ok ⟨lat, lon, ij⟩

/-- `latlons` (src/datatypes/sections.rs:244-261). -/
def templateLatlons (f : Foreign) (o : GridOps G F) : GridTemplate → Outcome Error (GridPoints F)
  | .template0 g => do .ok (.latLon (← latLon o.single g))
  | .template20 g =>
    match o.proj with
    | some p => do .ok (.lambert (← polar f p g))
    | none => .err (.notSupported "lat/lon computation support for the template is dropped in this build".toList)
  | .template30 g =>
    match o.proj with
    | some p => do .ok (.lambert (← lambert f p g))
    | none => .err (.notSupported "lat/lon computation support for the template is dropped in this build".toList)
  | .template40 g => do .ok (.latLon (← gaussian o.gauss o.single g))

/-- `SubMessage::latlons` (src/context.rs:670-682), given the grid definition. -/
def subLatlons (f : Foreign) (o : GridOps G F) (d : GridDefinition) : Outcome Error (GridPoints F) := do
  let defined ← d.numPoints
  let t ← tryFrom d
  let points ← templateLatlons f o t
  if defined = Model.Rel.pointsSizeHint points then .ok points
  else .err (.invalidValueError (mismatchText defined (Model.Rel.pointsSizeHint points)))

/-! ## Decoding -/

/-- `complex::decode_7_3` (src/decoder/complex.rs:56-109). -/
def complexDecode3 (ops : FloatOps F) (t : Decoder) : Outcome Error (Items F) := do
  let simple ← (SimpleParam.fromSect5 ops t.sect5).mapErr plain
  let complex ← ComplexParam.fromSect5 t.sect5
  let order ← rdAs t.sect5 42 1
  if order ≠ 1 ∧ order ≠ 2 ∧ order ≠ 255 then .err (.notSupported (orderText order)) else do
  let octets ← rdAs t.sect5 43 1
  if complex.splitting ≠ 1 ∨ complex.missing > 2 ∨ order = 255 then .err (.decodeError (.complexPacking .notSupported))
  else do
  let d ← (DiffDescriptors.new t.sect7 order octets).mapErr plain
  let items ← Model.Rel.decodeComplexPacking complex t.sect7 d.slice.length simple.nbit (← d.minimum)
  let first ← d.firstValues d.slice.length 0
  let undiffed := if order = 1 then stepItems Model.Rel.diff1Step { firstValues := first } items
    else stepItems Model.Rel.diff2Step { firstValues := first } items
  .ok (simple.unpackAll ops (DecodedValue.toF32 ops) undiffed)

/-- The `match` of `dispatch` (src/decoder.rs:127-140); see the debug model. -/
def decodeValues (c : Codecs F) (t : Decoder) : Outcome Error (Items F) :=
  if t.templateNum = 3 then complexDecode3 c.ops t else (Model.Rel.decodeValues c t).mapErr plain

/-- `dispatch` (src/decoder.rs:124-144). -/
def dispatch (c : Codecs F) (t : Decoder) : Outcome Error (BitmapIter F) := do
  let values ← decodeValues c t
  (BitmapIter.new t.bitmap values t.numPointsTotal).mapErr plain

/-! ## The program -/

/-- `cli::grib` (cli/src/cli.rs:11-22) on an already opened file. -/
def openGrib (r : Rdr) : Outcome Failure Grib2 :=
  match Model.Rel.read r with
  | .ok g => if g.len = 0 then .err .emptyData else .ok g
  | .err e => .err (.open_ e)
  | .panic => .panic

/-- The beginning of `decode` up to the decoder (cli/src/commands/decode.rs:45-56). -/
def prepared (f : Foreign) (o : GridOps G F) (r : Rdr) (index : Str) :
    Outcome Failure (Outcome Error (GridPoints F) × Decoder) := do
  let g ← openGrib r
  let ix ← (parseIndex index).mapErr fun _ => .badIndex
  match findIndex ix (g.len + 1) g.iter with
  | none => .err (.noSuchIndex ix)
  | some (_, m) =>
    let d ← m.gridDef
    let latlons := subLatlons f o d
    Outcome.require (match latlons with | .panic => false | _ => true)
    let dec ← (Model.Rel.fromSub m g.reader).1.mapErr fun e => .grib (plain e)
    .ok (latlons, dec)

/-- The common beginning of `decode` (cli/src/commands/decode.rs:45-57), and what is written on the standard error stream
meanwhile. -/
def decodePrepare (f : Foreign) (o : GridOps G F) (c : Codecs F) (r : Rdr) (index : Str) :
    Str × Outcome Failure (Outcome Error (GridPoints F) × BitmapIter F) :=
  match prepared f o r index with
  | .err e => ([], .err e)
  | .panic => ([], .panic)
  | .ok (latlons, dec) => (warning c dec, do
      let values ← (dispatch c dec).mapErr .grib
      .ok (latlons, values))

/-- `decode` with text output (cli/src/commands/decode.rs:45-78, 120-140): what is printed, and how it ends. -/
def decodeShown (f : Foreign) (s : Setting F G) (r : Rdr) (index : Str) : Str × Str × Outcome Failure Unit :=
  match decodePrepare f s.grid s.codecs r index with
  | (w, .err e) => ([], w, .err e)
  | (w, .panic) => ([], w, .panic)
  | (w, .ok (latlons, values)) =>
    match values.toList s.codecs.ops with
    | .done vs =>
      match textPoints s.codecs.ops vs.length latlons with
      | .err e => ([], w, .err e)
      | .panic => ([], w, .panic)
      | .ok points =>
        let p := Cli.Rel.zipShow (rowLine s.fix6 s.showF) vs points
        (decodeHeader ++ ['\n'] ++ p.1, w, if p.2 then .ok () else .panic)
    | _ => ([], w, .panic)

/-- `decode` with binary output (cli/src/commands/decode.rs:33-43, 59-64). -/
def decodeBinary (f : Foreign) (s : Setting F G) (big : Bool) (r : Rdr) (index : Str) : Str × Outcome Failure Unit :=
  match decodePrepare f s.grid s.codecs r index with
  | (w, .err e) => (w, .err e)
  | (w, .panic) => (w, .panic)
  | (w, .ok (_, values)) =>
    let p := pulledValues s.codecs.ops (8 * values.bitmap.length + 1) values
    match writeOutput s.sched (p.1.map fun v => if big then toBeBytes (s.bits v) else toLeBytes (s.bits v)) with
    | (.ok (), _) => (w, if p.2 then .panic else .ok ())
    | (.err _, _) => (w, .err .write)
    | (.panic, _) => (w, .panic)

/-- `dispatch` (cli/src/commands.rs:13-22) on a file that could be opened: what is printed on standard output, what is written on
the standard error stream before the end, and the result. -/
def runCommand (f : Foreign) (s : Setting F G) (cmd : Command) (r : Rdr) : Str × Str × Outcome Failure Unit :=
  match cmd with
  | .decode index => decodeShown f s r index
  | .export big index => ([], decodeBinary f s big r index)
  | .info =>
    match openGrib r with
    | .ok g =>
      let x := infoLoop s.tables (SubIter.drain (g.len + 1) g.iter)
      (x.1, [], x.2)
    | .err e => ([], [], .err e)
    | .panic => ([], [], .panic)
  | .inspect flags =>
    match openGrib r with
    | .ok g => shown (inspectText s.tables flags s.perm g)
    | .err e => ([], [], .err e)
    | .panic => ([], [], .panic)
  | .list dump =>
    match openGrib r with
    | .ok g => shown (Cli.Rel.listText dump s.tables s.wide s.showG g)
    | .err e => ([], [], .err e)
    | .panic => ([], [], .panic)
where
  /-- A display fails in no other way than by a panic. -/
  shown (x : Str × Bool) : Str × Str × Outcome Failure Unit := (x.1, [], if x.2 then .ok () else .panic)

end Grib.Msg.Rel
