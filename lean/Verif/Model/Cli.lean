import Verif.Model.Text
import Verif.Model.Context
import Verif.Model.Decoder
import Verif.Model.Grid

/-!
# Model of the command line tool: message indices, `decode` and its flat binary export

Not modelled: argument parsing (`clap`), the pager, colours, the texts of error messages.
-/

namespace Grib.Cli

open Grib.Text Grib.Model

/-! ## Message indices -/

/-- The regular expression `^([0-9]+)\.([0-9]+)$` of `CliMessageIndex::from_str` (cli/src/cli.rs:64-73): the two captures.
Greedy matching without backtracking is the same here, because a digit is not a full stop. -/
def indexCaptures (s : Str) : Option (Str × Str) :=
  match s.takeWhile isDigit, s.dropWhile isDigit with
  | [], _ => none
  | _ :: _, '.' :: rest => if rest ≠ [] ∧ rest.all isDigit then some (s.takeWhile isDigit, rest) else none
  | _ :: _, _ => none

/-- `CliMessageIndex::from_str` (cli/src/cli.rs:63-85); `unwrap` of the numbers panics when they do not fit. -/
def parseIndex (s : Str) : Outcome Unit (Nat × Nat) :=
  match indexCaptures s with
  | none => .err ()
  | some (a, b) => do
    let n ← Outcome.ofOption (parseUnsigned USIZE a)
    let m ← Outcome.ofOption (parseUnsigned USIZE b)
    .ok (n, m)

/-- `format!("{}.{}", i.0, i.1)` (cli/src/commands/list.rs:85,130, cli/src/commands/inspect.rs:230). -/
def showIndex (i : Nat × Nat) : Str := showNat i.1 ++ '.' :: showNat i.2

/-- `grib.iter().find(|(index, _)| *index == message_index)` (cli/src/commands/decode.rs:50-53): the closure's argument is a
reference into the item that `find` owns, every item that is not the one looked for is dropped before the next call. -/
def findIndex (ix : Nat × Nat) : (fuel : Nat) → SubIter → Option ((Nat × Nat) × SubMessage)
  | 0, _ => none
  | fuel + 1, it =>
    match it.next false with
    | (.ok (some x), it') => if x.1 = ix then some x else findIndex ix fuel it'
    | _ => none

/-- Errors of the tool; messages are not modelled. -/
inductive CliError where
  | open_ (e : ParseError)
  | emptyData
  | badIndex
  | noSuchIndex (ix : Nat × Nat)
  | grib (e : GribError)
  | unexpected (e : GribError)
  | write
deriving DecidableEq, Repr

/-- `cli::grib` (cli/src/cli.rs:11-22) on an already opened file. -/
def openGrib (r : Rdr) : Outcome CliError Grib2 :=
  match Grib2.read r with
  | .ok g => if g.len = 0 then .err .emptyData else .ok g
  | .err e => .err (.open_ e)
  | .panic => .panic

/-! ## Flat binary export -/

/-- A file that is being written: what reached it, and what it will do with the coming write requests: accept some number
of octets or fail.  When the list is used up it accepts everything.  `Write for File` may accept fewer octets than asked;
`ErrorKind::Interrupted` is retried by `write_all` and not distinguished from accepting 0 octets and being asked again:
it is not modelled. -/
structure Sink where
  written : List UInt8
  sched : List (Option Nat)
deriving DecidableEq, Repr

/-- One `write` call on the file with a non-empty buffer.  Accepting 0 octets is turned into an error (`WriteZero`) by both
`write_all` and `flush_buf`. -/
def Sink.write (s : Sink) (buf : List UInt8) : Outcome Unit Nat × Sink :=
  match s.sched with
  | [] => (.ok buf.length, { s with written := s.written ++ buf })
  | none :: rest => (.err (), { s with sched := rest })
  | some 0 :: rest => (.err (), { s with sched := rest })
  | some (n + 1) :: rest =>
    let k := min (n + 1) buf.length
    (.ok k, ⟨s.written ++ buf.take k, rest⟩)

/-- `BufWriter` of `std` (used in cli/src/commands/decode.rs:39). -/
structure BufWriter where
  buf : List UInt8
  sink : Sink
deriving DecidableEq, Repr

/-- `DEFAULT_BUF_SIZE` of `std`. -/
def bufCapacity : Nat := 8192

/-- `BufWriter::flush_buf`: writes until the buffer is empty or a write fails; what was written is removed from the front
of the buffer (`BufGuard`). -/
def flushBuf : (fuel : Nat) → BufWriter → Outcome Unit Unit × BufWriter
  | 0, w => (.ok (), w)
  | fuel + 1, w =>
    if w.buf = [] then (.ok (), w)
    else
      match w.sink.write w.buf with
      | (.ok k, s) => flushBuf fuel ⟨w.buf.drop k, s⟩
      | (.err e, s) => (.err e, { w with sink := s })
      | (.panic, s) => (.panic, { w with sink := s })

/-- `flush_buf` with enough fuel: every successful write shortens the buffer. -/
def BufWriter.flush (w : BufWriter) : Outcome Unit Unit × BufWriter := flushBuf (w.buf.length + 1) w

/-- `BufWriter::write_all` for data shorter than the buffer's capacity (4 octets here):
into the buffer when it is shorter than the spare capacity; otherwise `write_all_cold`, which first flushes if it is longer
than the spare capacity. -/
def BufWriter.writeAll (w : BufWriter) (data : List UInt8) : Outcome Unit Unit × BufWriter :=
  let spare := bufCapacity - w.buf.length
  if data.length < spare then (.ok (), { w with buf := w.buf ++ data })
  else if data.length > spare then
    match w.flush with
    | (.ok (), w) => (.ok (), { w with buf := w.buf ++ data })
    | (.err e, w) => (.err e, w)
    | (.panic, w) => (.panic, w)
  else (.ok (), { w with buf := w.buf ++ data })

/-- `Drop for BufWriter`: flushes and ignores the result.  What remains in the buffer is lost. -/
def BufWriter.drop (w : BufWriter) : Sink := w.flush.2.sink

/-- The `try_for_each` of `write_output` (cli/src/commands/decode.rs:40) on the octets of the values. -/
def writeEach : List (List UInt8) → BufWriter → Outcome Unit Unit × BufWriter
  | [], w => (.ok (), w)
  | d :: ds, w =>
    match w.writeAll d with
    | (.ok (), w) => writeEach ds w
    | (.err e, w) => (.err e, w)
    | (.panic, w) => (.panic, w)

/-- `write_output` (cli/src/commands/decode.rs:33-43) after `File::create` (which truncates the file) succeeded:
the result, and the file's final content. -/
def writeOutput (sched : List (Option Nat)) (values : List (List UInt8)) : Outcome Unit Unit × List UInt8 :=
  let (r, w) := writeEach values ⟨[], ⟨[], sched⟩⟩
  (r, w.drop.written)

/-- `f32::to_be_bytes` / `f32::to_le_bytes` of a value with the given bits (cli/src/commands/decode.rs:61,64). -/
def toBeBytes (bits : BitVec 32) : List UInt8 :=
  [24, 16, 8, 0].map fun k => UInt8.ofNat (bits.toNat >>> k)

def toLeBytes (bits : BitVec 32) : List UInt8 := (toBeBytes bits).reverse

/-! ## `decode` -/

variable {F G : Type}

/-- One call of `next` on a `GridPointIterator` (src/grid.rs:27-32). -/
def pointsNext : GridPoints F → Outcome Empty (Option (F × F) × GridPoints F)
  | .latLon it => do
    let (p, it) ← it.next
    .ok (p, .latLon it)
  | .lambert [] => .ok (none, .lambert [])
  | .lambert (p :: ps) => .ok (some p, .lambert ps)

/-- A loop over `latlons.zip(values)` where the values are a vector (cli/src/commands/decode.rs:67,76,133): `Zip` asks the
coordinates first. -/
def zipRows : List F → GridPoints F → Outcome Empty (List ((F × F) × F))
  | [], ps => do
    let _ ← pointsNext ps
    .ok []
  | v :: vs, ps => do
    let x ← pointsNext ps
    match x.1 with
    | none => .ok []
    | some p => do
      let rows ← zipRows vs x.2
      .ok ((p, v) :: rows)

/-- The common beginning of `decode` (cli/src/commands/decode.rs:45-57): open, find the submessage, ask for the
coordinates (kept as a result), decode.  The coordinates' own panics are not caught. -/
def decodePrepare (o : GridOps G F) (c : Codecs F) (r : Rdr) (index : Str) :
    Outcome CliError (Outcome GribError (GridPoints F) × BitmapIter F) := do
  let g ← openGrib r
  let ix ← (parseIndex index).mapErr fun _ => .badIndex
  match findIndex ix (g.len + 1) g.iter with
  | none => .err (.noSuchIndex ix)
  | some (_, m) =>
    let d ← m.gridDef
    let latlons := subLatlons o d
    Outcome.require (match latlons with | .panic => false | _ => true)
    let dec ← (Decoder.fromSub m g.reader).1.mapErr .grib
    let values ← (dec.dispatch c).mapErr .grib
    .ok (latlons, values)

/-- The coordinates of the text output (cli/src/commands/decode.rs:68-75): "not a number" for unsupported grids. -/
def textPoints (ops : FloatOps F) (n : Nat) : Outcome GribError (GridPoints F) → Outcome CliError (GridPoints F)
  | .ok points => .ok points
  | .err .notSupported => .ok (.lambert (List.replicate n (ops.nan, ops.nan)))
  | .err e => .err (.unexpected e)
  | .panic => .panic

/-- Text output of `decode` (cli/src/commands/decode.rs:66-78): the rows after the header line.
`size_hint` of the coordinates, which the pager decision uses (cli/src/commands/decode.rs:113-117), may panic. -/
def decodeText (o : GridOps G F) (c : Codecs F) (r : Rdr) (index : Str) : Outcome CliError (List ((F × F) × F)) := do
  let (latlons, values) ← decodePrepare o c r index
  match values.toList c.ops with
  | .done vs => do
    let points ← textPoints c.ops vs.length latlons
    let _hint ← points.sizeHint
    match zipRows vs points with
    | .ok rows => .ok rows
    | _ => .panic
  | _ => .panic

/-- What a loop over the values gets (`try_for_each`, cli/src/commands/decode.rs:40): those before the end or before the panic,
and whether there was a panic.  Every item uses a bit of the bitmap. -/
def pulledValues (ops : FloatOps F) : (fuel : Nat) → BitmapIter F → List F × Bool
  | 0, _ => ([], false)
  | fuel + 1, it =>
    match it.next ops with
    | (.ok none, _) => ([], false)
    | (.ok (some v), it') =>
      let r := pulledValues ops fuel it'
      (v :: r.1, r.2)
    | _ => ([], true)

/-- Binary output of `decode` (cli/src/commands/decode.rs:59-64) to a file that can be created: the result, and the content of
the file if it is created at all.  `bits` gives the bits of a value.  Values are written as they come: a failing write stops
the loop before a later value may panic; a panic unwinds and flushes the buffer. -/
def decodeBinary (o : GridOps G F) (c : Codecs F) (bits : F → BitVec 32) (big : Bool) (sched : List (Option Nat)) (r : Rdr)
    (index : Str) : Outcome CliError Unit × Option (List UInt8) :=
  match decodePrepare o c r index with
  | .err e => (.err e, none)
  | .panic => (.panic, none)
  | .ok (_, values) =>
    let p := pulledValues c.ops (8 * values.bitmap.length + 1) values
    match writeOutput sched (p.1.map fun v => if big then toBeBytes (bits v) else toLeBytes (bits v)) with
    | (.ok (), content) => (if p.2 then .panic else .ok (), some content)
    | (.err _, content) => (.err .write, some content)
    | (.panic, content) => (.panic, some content)

end Grib.Cli
