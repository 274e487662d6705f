import Verif.Model.CliText

/-!
# Model of the example programs (`examples/*.rs`)

What they print, and how they end: `Ok`, an error (printed by the runtime) or a panic.  The functions of the cookbook
(src/cookbook.rs:52-78, 122-144, 202-224) are the same loops with `unwrap` instead of `?`.  Opening the file itself
(`File::open`) and failures of `println!` are not modelled; a program is given the reader of the opened file.
-/

namespace Grib.Examples

open Grib.Text Grib.Model Grib.Codes Grib.Cli

variable {F G : Type}

/-- What `Box<dyn Error>` may hold. -/
inductive ExampleError where
  | number
  | grib (e : GribError)
  | noSuchIndex
  | empty
deriving DecidableEq, Repr

/-- `Option::unwrap`. -/
def unwrap {α : Type} : Option α → Outcome Empty α
  | some a => .ok a
  | none => .panic

/-- How a program that only prints in a loop ends. -/
def ended (p : Str × Bool) : Str × Outcome ExampleError Unit := (p.1, if p.2 then .ok () else .panic)

/-- `from_reader(f)?` and the rest of a program. -/
def opening (r : Rdr) (run : Grib2 → Str × Outcome ExampleError Unit) : Str × Outcome ExampleError Unit :=
  match Grib2.read r with
  | .ok g => run g
  | .err e => ([], .err (.grib (.parseError e)))
  | .panic => ([], .panic)

/-! ## `find_layers` -/

/-- The body of the loop (examples/find_layers.rs:31-40). -/
def findLayer (k : Constants) (hours : Nat) (x : (Nat × Nat) × SubMessage) : Outcome Empty Str := do
  let prod ← x.2.prodDef
  let time ← prod.forecastTime
  match time.map fun t => ForecastTime.fromNumbers t.1 t.2 with
  | some ⟨.name .hour, value⟩ =>
    if value = hours then do
      let d ← x.2.describe k
      .ok (showIndex x.1 ++ ['\n'] ++ d ++ ['\n'])
    else .ok []
  | _ => .ok []

/-- `find_layers` (examples/find_layers.rs:19-44). -/
def findLayers (k : Constants) (hours : Nat) (r : Rdr) : Str × Outcome ExampleError Unit :=
  opening r fun g => ended (printEach (findLayer k hours) (SubIter.drain (g.len + 1) g.iter))

/-- `main` with two arguments (examples/find_layers.rs:5-17). -/
def findLayersMain (k : Constants) (forecastTime : Str) (r : Rdr) : Str × Outcome ExampleError Unit :=
  match parseUnsigned (2 ^ 32) forecastTime with
  | some hours => findLayers k hours r
  | none => ([], .err .number)

/-! ## `list_layers` -/

/-- The body of the loop (examples/list_layers.rs:30-79).  The width `{:>14}` has no effect on the forecast time: its `Display`
(src/datatypes/product_attributes.rs:113-130) writes its parts with formats of their own. -/
def listLayer (k : Constants) (ops : FloatOps G) (showF : G → Str) (m : SubMessage) : Outcome Empty Str := do
  let ind ← m.indicator
  let prod ← m.prodDef
  let category ← unwrap (← prod.parameterCategory)
  let parameter ← unwrap (← prod.parameterNumber)
  let time ← unwrap (← prod.forecastTime)
  let surfaces ← unwrap (← prod.fixedSurfaces)
  let unit := (surfaces.1.unit.map fun u => " [".toList ++ u.toList ++ "]".toList).getD []
  .ok (padRight 31 (tableText k (.t4_2 ind.discipline category) parameter) ++ [' '] ++
    (ForecastTime.fromNumbers time.1 time.2).show ++ [' '] ++ padLeft 17 (showF (surfaces.1.value ops)) ++ unit ++ ['\n'])

/-- `list_layers` (examples/list_layers.rs:19-83). -/
def listLayers (k : Constants) (ops : FloatOps G) (showF : G → Str) (r : Rdr) : Str × Outcome ExampleError Unit :=
  opening r fun g => ended (printEach (fun x => listLayer k ops showF x.2) (SubIter.drain (g.len + 1) g.iter))

/-! ## `decode_layer` -/

/-- The loop over `latlons.zip(values)` (examples/decode_layer.rs:49-51): `Zip` asks the coordinates first, rows are printed as
they come.  Each round but the last uses a bit of the bitmap. -/
def zipPrint (ops : FloatOps F) (row : F × F → F → Str) : (fuel : Nat) → GridPoints F → BitmapIter F → Str × Bool
  | 0, _, _ => ([], true)
  | fuel + 1, points, values =>
    match pointsNext points with
    | .ok (none, _) => ([], true)
    | .ok (some p, points') =>
      match values.next ops with
      | (.ok none, _) => ([], true)
      | (.ok (some v), values') =>
        let r := zipPrint ops row fuel points' values'
        (row p v ++ r.1, r.2)
      | _ => ([], false)
    | _ => ([], false)

/-- `decode_layer` (examples/decode_layer.rs:20-54); `row` is the text of a line. -/
def decodeLayer (o : GridOps G F) (c : Codecs F) (row : F × F → F → Str) (ix : Nat × Nat) (r : Rdr) :
    Str × Outcome ExampleError Unit :=
  opening r fun g =>
    match findIndex ix (g.len + 1) g.iter with
    | none => ([], .err .noSuchIndex)
    | some (_, m) =>
      let prepared : Outcome GribError (GridPoints F × BitmapIter F) := do
        let d ← m.gridDef
        let latlons ← subLatlons o d
        let decoder ← (Decoder.fromSub m g.reader).1
        let values ← decoder.dispatch c
        .ok (latlons, values)
      match prepared with
      | .ok (latlons, values) => ended (zipPrint c.ops row (8 * values.bitmap.length + 1) latlons values)
      | .err e => ([], .err (.grib e))
      | .panic => ([], .panic)

/-- `main` with three arguments (examples/decode_layer.rs:3-18). -/
def decodeLayerMain (o : GridOps G F) (c : Codecs F) (row : F × F → F → Str) (index subindex : Str) (r : Rdr) :
    Str × Outcome ExampleError Unit :=
  match parseUnsigned USIZE index, parseUnsigned USIZE subindex with
  | some i, some j => decodeLayer o c row (i, j) r
  | _, _ => ([], .err .number)

/-! ## `check_decoding_of_files` -/

/-- The loop over the submessages (examples/check_decoding_of_files.rs:43-51): what is reported, and the result. -/
def checkEach (c : Codecs F) (len : Nat) : (k : Nat) → List ((Nat × Nat) × SubMessage) → Rdr → Str × Outcome ExampleError Unit
  | _, [], _ => ([], .ok ())
  | k, x :: xs, r =>
    let line := "  ".toList ++ showIndex x.1 ++ " (".toList ++ showNat k ++ ['/'] ++ showNat len ++ ")\n".toList
    let (decoder, r') := Decoder.fromSub x.2 r
    let values : Outcome GribError (BitmapIter F) := do (← decoder).dispatch c
    match values with
    | .err e => (line, .err (.grib e))
    | .panic => (line, .panic)
    | .ok values =>
      match values.toList c.ops with
      | .done _ =>
        let rest := checkEach c len (k + 1) xs r'
        (line ++ rest.1, rest.2)
      | _ => (line, .panic)

/-- `check_decoding_file` (examples/check_decoding_of_files.rs:28-54). -/
def checkFile (c : Codecs F) (name : Str) (r : Rdr) : Str × Outcome ExampleError Unit :=
  let p := opening r fun g =>
    if g.len = 0 then ([], .err .empty) else checkEach c g.len 0 (SubIter.drain (g.len + 1) g.iter) g.reader
  ("processing ".toList ++ name ++ ['\n'] ++ p.1, p.2)

/-- `main` (examples/check_decoding_of_files.rs:9-26) on the arguments that are files. -/
def checkFiles (c : Codecs F) : List (Str × Rdr) → Str × Outcome ExampleError Unit
  | [] => ([], .ok ())
  | f :: fs =>
    match checkFile c f.1 f.2 with
    | (s, .ok ()) =>
      let rest := checkFiles c fs
      (s ++ rest.1, rest.2)
    | (s, e) => (s, e)

end Grib.Examples
