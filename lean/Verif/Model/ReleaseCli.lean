import Verif.Model.Cli
import Verif.Model.Program
import Verif.Model.Release
import Verif.Model.ReleaseDecode
import Verif.Model.ReleaseGrid

/-! # Model of a release build: the commands

The commands of `Model/Cli.lean` and `Model/CliText.lean` on top of the release build's reading, decoding and grids; see
`Model/Release.lean`.  Two subtractions of the commands themselves wrap around: the number of missing points of `list`, and
the number of lines announced to the pager (`Rel.listNumLines`). -/

namespace Grib.Cli.Rel

open Grib.Text Grib.Codes Grib.Model

variable {F G : Type}

/-- `cli::grib` (cli/src/cli.rs:11-22) on an already opened file. -/
def openGrib (r : Rdr) : Outcome CliError Grib2 :=
  match Model.Rel.read r with
  | .ok g => if g.len = 0 then .err .emptyData else .ok g
  | .err e => .err (.open_ e)
  | .panic => .panic

/-- One call of `next` on a `GridPointIterator` (src/grid.rs:27-32). -/
def pointsNext : GridPoints F → Outcome Empty (Option (F × F) × GridPoints F)
  | .latLon it => do
    let (p, it) ← Model.Rel.regularNext it
    .ok (p, .latLon it)
  | .lambert [] => .ok (none, .lambert [])
  | .lambert (p :: ps) => .ok (some p, .lambert ps)

/-- A loop over `latlons.zip(values)` (cli/src/commands/decode.rs:67,76,133). -/
def zipRows : List F → GridPoints F → Outcome Empty (List ((F × F) × F))
  | [], ps => do
    let _ ← pointsNext ps
    .ok []
  | v :: vs, ps => do
    let x ← pointsNext ps
    match x.1 with
    | none => .ok []
    | some p => do
      let rows ← zipRows vs x.2
      .ok ((p, v) :: rows)

/-- The common beginning of `decode` (cli/src/commands/decode.rs:45-57). -/
def decodePrepare (o : GridOps G F) (c : Codecs F) (r : Rdr) (index : Str) :
    Outcome CliError (Outcome GribError (GridPoints F) × BitmapIter F) := do
  let g ← openGrib r
  let ix ← (parseIndex index).mapErr fun _ => .badIndex
  match findIndex ix (g.len + 1) g.iter with
  | none => .err (.noSuchIndex ix)
  | some (_, m) =>
    let d ← m.gridDef
    let latlons := Model.Rel.subLatlons o d
    Outcome.require (match latlons with | .panic => false | _ => true)
    let dec ← (Model.Rel.fromSub m g.reader).1.mapErr .grib
    let values ← (Model.Rel.dispatch c dec).mapErr .grib
    .ok (latlons, values)

/-- Text output of `decode` (cli/src/commands/decode.rs:66-78): the rows after the header line.  The size hint of the
coordinates does not panic. -/
def decodeText (o : GridOps G F) (c : Codecs F) (r : Rdr) (index : Str) : Outcome CliError (List ((F × F) × F)) := do
  let (latlons, values) ← decodePrepare o c r index
  match values.toList c.ops with
  | .done vs => do
    let points ← textPoints c.ops vs.length latlons
    match zipRows vs points with
    | .ok rows => .ok rows
    | _ => .panic
  | _ => .panic

/-- Binary output of `decode` (cli/src/commands/decode.rs:59-64) to a file that could be created. -/
def decodeBinary (o : GridOps G F) (c : Codecs F) (bits : F → BitVec 32) (big : Bool) (sched : List (Option Nat)) (r : Rdr)
    (index : Str) : Outcome CliError Unit × Option (List UInt8) :=
  match decodePrepare o c r index with
  | .err e => (.err e, none)
  | .panic => (.panic, none)
  | .ok (_, values) =>
    let p := pulledValues c.ops (8 * values.bitmap.length + 1) values
    match writeOutput sched (p.1.map fun v => if big then toBeBytes (bits v) else toLeBytes (bits v)) with
    | (.ok (), content) => (if p.2 then .panic else .ok (), some content)
    | (.err _, content) => (.err .write, some content)
    | (.panic, content) => (.panic, some content)

/-- A line of `list` (cli/src/commands/list.rs:84-125): the subtraction of `u32` wraps around. -/
def listRow (k : Constants) (ops : FloatOps G) (showF : G → Str) (i : Nat × Nat) (m : SubMessage) : Outcome Empty ListRow := do
  let prod ← m.prodDef
  let c ← prod.parameterCategory
  let n ← prod.parameterNumber
  let ind ← m.indicator
  let process ← prod.generatingProcess
  let time ← prod.forecastTime
  let surfaces ← prod.fixedSurfaces
  let surfaces := (surfaces.map fun s => (formatSurface ops showF s.1, formatSurface ops showF s.2)).getD ([], [])
  let grid ← m.gridDef
  let total ← grid.numPoints
  let repr ← m.reprDef
  let represented ← repr.numPoints
  let gridType ← gridType grid
  .ok { id := showIndex i
        category := (c.bind fun c => n.map fun n => tableText k (.t4_2 ind.discipline c) n).getD []
        process := (process.map fun v => tableText k .t4_3 v).getD []
        time := (time.map fun t => (ForecastTime.fromNumbers t.1 t.2).show).getD []
        surface1 := surfaces.1
        surface2 := surfaces.2
        missing := Model.Rel.sub32 total represented
        total := total
        gridType := gridType }

/-- `Display for ListView` (cli/src/commands/list.rs:66-139). -/
def listText (dump : Bool) (k : Constants) (ops : FloatOps G) (showF : G → Str) (g : Grib2) : Str × Bool :=
  let subs := SubIter.drain (g.len + 1) g.iter
  if dump then
    printEach (fun x => do
      let d ← x.2.describe k
      .ok (showIndex x.1 ++ ['\n'] ++ d ++ ['\n'])) subs
  else
    let r := printEach (fun x => do
      let row ← listRow k ops showF x.1 x.2
      .ok (row.line ++ ['\n'])) subs
    (listHeader ++ ['\n'] ++ r.1, r.2)

/-- The loop that prints the lines of `decode` (cli/src/commands/decode.rs:133-136), as in `Cli.zipShow`. -/
def zipShow (line : (F × F) × F → Str) : List F → GridPoints F → Str × Bool
  | [], ps =>
    match pointsNext ps with
    | .ok _ => ([], true)
    | _ => ([], false)
  | v :: vs, ps =>
    match pointsNext ps with
    | .ok (none, _) => ([], true)
    | .ok (some p, ps') =>
      let r := zipShow line vs ps'
      (line (p, v) ++ r.1, r.2)
    | _ => ([], false)

/-- `decode` with text output (cli/src/commands/decode.rs:45-78, 120-140); the number of lines is computed without a panic. -/
def decodeShown (s : Setting F G) (r : Rdr) (index : Str) : Str × Outcome CliError Unit :=
  match decodePrepare s.grid s.codecs r index with
  | .err e => ([], .err e)
  | .panic => ([], .panic)
  | .ok (latlons, values) =>
    match values.toList s.codecs.ops with
    | .done vs =>
      match textPoints s.codecs.ops vs.length latlons with
      | .err e => ([], .err e)
      | .panic => ([], .panic)
      | .ok points =>
        let p := zipShow (rowLine s.fix6 s.showF) vs points
        (decodeHeader ++ ['\n'] ++ p.1, if p.2 then .ok () else .panic)
    | _ => ([], .panic)

/-- `dispatch` (cli/src/commands.rs:13-22) on a file that could be opened, as in `Cli.runCommand`; the numbers of lines are computed
without a panic (except that `inspect` lists the templates first). -/
def runCommand (s : Setting F G) (cmd : Command) (r : Rdr) : Str × Outcome CliError Unit :=
  match cmd with
  | .decode index => decodeShown s r index
  | .export big index => ([], (decodeBinary s.grid s.codecs s.bits big s.sched r index).1)
  | .info =>
    match openGrib r with
    | .ok g => (infoText s.tables g, (info s.tables chronoValid g).2.mapErr fun _ => .grib .invalidValueError)
    | .err e => ([], .err e)
    | .panic => ([], .panic)
  | .inspect flags =>
    match openGrib r with
    | .ok g =>
      let t := inspectText s.tables flags s.perm g
      (t.1, if t.2 then .ok () else .panic)
    | .err e => ([], .err e)
    | .panic => ([], .panic)
  | .list dump =>
    match openGrib r with
    | .ok g =>
      let t := listText dump s.tables s.wide s.showG g
      (t.1, if t.2 then .ok () else .panic)
    | .err e => ([], .err e)
    | .panic => ([], .panic)

end Grib.Cli.Rel
