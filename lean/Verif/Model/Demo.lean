import Verif.Model.Ieee
import Verif.Model.Decoder
import Verif.Model.CliViews

/-! # The demo application (`/repo/demo`)

What the web page shows of a file and what happens when a row is clicked.  Not modelled: HTML, events, the canvas.  The
demo is compiled for wasm32; the library functions it calls are modelled with 64-bit `usize` (see Model/Narrow for opening
with 32 bits). -/

namespace Grib.Demo

open Grib Grib.Model Grib.Cli Grib.Text Grib.Codes

/-- `degrees_celsius_to_kelvin` in single precision (demo/src/palette.rs:16-18). -/
def toKelvin (degrees : Int) : Fl :=
  Fmt.single.add (Fmt.single.ofRat false degrees) (Fmt.single.ofRat false (27315 / 100))

/-- `v > degrees_celsius_to_kelvin(t)` (demo/src/palette.rs:3-11). -/
def warmer (v : Fl) (t : Int) : Bool := Fl.lt (toKelvin t) v

/-- `jma_amedas_temperature` (demo/src/palette.rs:1-14): red, green, blue, opacity. -/
def palette (v : Fl) : List UInt8 :=
  if warmer v 35 then [180, 0, 104, 255]
  else if warmer v 30 then [255, 40, 0, 255]
  else if warmer v 25 then [255, 153, 0, 255]
  else if warmer v 20 then [250, 245, 0, 255]
  else if warmer v 15 then [255, 255, 150, 255]
  else if warmer v 10 then [255, 255, 240, 255]
  else if warmer v 5 then [185, 235, 255, 255]
  else if warmer v 0 then [0, 150, 255, 255]
  else if warmer v (-5) then [0, 65, 255, 255]
  else [0, 32, 128, 255]

/-- An `ImageData` of the browser: four octets per pixel, row after row. -/
structure Image where
  width : Nat
  height : Nat
  octets : List UInt8
deriving DecidableEq, Repr

/-- The colour of the pixel in column `x` of row `y` (from the top). -/
def Image.pixel (i : Image) (x y : Nat) : List UInt8 := (i.octets.drop (4 * (y * i.width + x))).take 4

/-- The constructor of `ImageData` (HTML standard, "new ImageData(data, sw, sh)"): the length of the data must be a multiple
of four and not zero, the number of pixels a multiple of the width, the quotient the height.  External code. -/
def imageData (octets : List UInt8) (w h : Nat) : Option Image :=
  if octets.length = 0 ∨ octets.length % 4 ≠ 0 then none
  else if w = 0 ∨ octets.length / 4 % w ≠ 0 then none
  else if octets.length / 4 / w ≠ h then none
  else some ⟨w, h, octets⟩

/-- `unwrap` (demo/src/main.rs:117-118, 129). -/
def unwrap {ε α : Type} : Outcome ε α → Outcome Empty α
  | .ok a => .ok a
  | _ => .panic

/-- Clicking on the row of index `index` (demo/src/main.rs:108-139) with the reader in the state `r`: the picture shown, or
none, or a panic.  Values are single-precision numbers. -/
def picture (c : Codecs Fl) (g : Grib2) (r : Rdr) (index : Nat) : Outcome Empty (Option Image) := do
  match ← (g.iter.nth false index).1 with
  | none => .ok none
  | some (_, m) =>
    let grid ← m.gridDef
    match gridShape grid with
    | .panic => .panic
    | .err _ => .ok none
    | .ok (w, h) =>
      let d ← unwrap (Decoder.fromSub m r).1
      let it ← unwrap (d.dispatch c)
      match it.toList c.ops with
      | .done values =>
        match imageData (values.flatMap palette) w h with
        | some i => .ok (some i)
        | none => .panic
      | _ => .panic

/-- The listing of a dropped file (demo/src/main.rs:68-187): the number of submessages and the cells of the table.  The
cells are computed as in the command `list` (cli/src/commands/list.rs:84-125); `u32` subtraction at line 151. -/
def listing (k : Constants) (ops : FloatOps G) (showF : G → Str) (g : Grib2) : Outcome Empty (Str × List ListRow) := do
  let len ← g.iter.sizeHint
  let rows ← listRows k ops showF g
  .ok (showNat len ++ " submessage(s)".toList, rows)

/-- Dropping a file (demo/src/main.rs:50-65): what cannot be opened shows nothing. -/
def dropped (data : List UInt8) : Outcome Empty (Option Grib2) :=
  match Grib2.read ⟨data, 0, []⟩ with
  | .ok g => .ok (some g)
  | .err _ => .ok none
  | .panic => .panic

end Grib.Demo
