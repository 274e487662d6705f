import Verif.Model.Demo
import Verif.Model.NarrowRelease
import Verif.Model.NarrowReleaseDecode
import Verif.Model.ReleaseCli

/-! # The demo application as built for the browser

A release build for wasm32: `usize` has 32 bits, sums and differences wrap around (`Model/NarrowRelease*.lean`), there is no
decoder for JPEG 2000 code streams.  As in `Model/Demo.lean` HTML, events and the canvas are not modelled; a panic ends the
application. -/

namespace Grib.Demo.R32

open Grib Grib.Model Grib.Cli Grib.Text Grib.Codes

variable {F G : Type}

/-- Dropping a file (demo/src/main.rs:50-65), as in `Demo.dropped`. -/
def dropped (data : List UInt8) : Outcome Empty (Option Grib2) :=
  match Model.R32.read ⟨data, 0, []⟩ with
  | .ok g => .ok (some g)
  | .err _ => .ok none
  | .panic => .panic

/-- The listing (demo/src/main.rs:68-187), as in `Demo.listing`: the difference of `u32` in line 151 wraps around. -/
def listing (k : Constants) (ops : FloatOps G) (showF : G → Str) (g : Grib2) : Outcome Empty (Str × List ListRow) := do
  let len ← g.iter.sizeHint
  let rows ← mapSubs (Cli.Rel.listRow k ops showF) (SubIter.drain (g.len + 1) g.iter)
  .ok (showNat len ++ " submessage(s)".toList, rows)

/-- `dispatch` for wasm32 (src/decoder.rs:124-144): no branch for template 40 (line 131). -/
def dispatch (grow : Nat → Bool) (c : Codecs F) (t : Decoder) : Outcome GribError (BitmapIter F) :=
  if t.templateNum = 40 then .err (.decodeError .templateNumberUnsupported) else Model.R32.dispatch grow c t

/-- Clicking on a row (demo/src/main.rs:108-139), as in `Demo.picture`.  Line 120, `collect::<Vec<_>>()`: at first space for
four octets for each value in the size hint is asked for (src/decoder/bitmap.rs:58-61), then the vector may grow to four for
each value there is.  (Where there are no values nothing is asked for at first, but then there is no picture anyway.) -/
def picture (grow : Nat → Bool) (c : Codecs Fl) (g : Grib2) (r : Rdr) (index : Nat) : Outcome Empty (Option Image) := do
  match ← (g.iter.nth false index).1 with
  | none => .ok none
  | some (_, m) =>
    let grid ← m.gridDef
    match gridShape grid with
    | .panic => .panic
    | .err _ => .ok none
    | .ok (w, h) =>
      let d ← unwrap (Model.R32.fromSub m r).1
      let it ← unwrap (dispatch grow c d)
      match it.toList c.ops with
      | .done values =>
        if grow (4 * it.len) && grow (4 * values.length) then
          match imageData (values.flatMap palette) w h with
          | some i => .ok (some i)
          | none => .panic
        else .panic
      | _ => .panic

end Grib.Demo.R32
