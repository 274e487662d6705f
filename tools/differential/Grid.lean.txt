import Verif.Model.Grid
import Verif.Model.Decoder
open Grib Grib.Model

def toRatLit (m e : Int) : Float := if e ≥ 0 then Float.ofInt m * (Float.ofNat (10 ^ e.toNat)) else Float.ofInt m / Float.ofNat (10 ^ (-e).toNat)
def f64ops : FloatOps Float where
  nan := 0.0/0.0
  ofBits n := (Float32.ofBits n.toUInt32).toFloat
  ofInt := Float.ofInt
  add := (· + ·)
  sub := (· - ·)
  mul := (· * ·)
  div := (· / ·)
  powi x n := Float.pow x (Float.ofInt n)
  lt a b := a < b
  lit := toRatLit
  powf10 n := Float.pow 10 (Float.ofNat n)
def f32ops : FloatOps Float32 where
  nan := 0.0/0.0
  ofBits n := Float32.ofBits n.toUInt32
  ofInt n := Float32.ofInt n
  add := (· + ·)
  sub := (· - ·)
  mul := (· * ·)
  div := (· / ·)
  powi x n := Float32.pow x (Float32.ofInt n)
  lt a b := a < b
  lit m e := (toRatLit m e).toFloat32
  powf10 n := Float32.pow 10 (Float32.ofNat n)
def PI : Float := 3.14159265358979323846264338327950288
def gops : GaussOps Float Float32 where
  ops := f64ops
  pi := PI
  cos := Float.cos
  asin := Float.asin
  toDegrees x := x * (180.0 / PI)
  small d := d.abs < 2.220446049250313e-16
  toF32 := Float.toFloat32
def main (args : List String) : IO Unit := do
  let file := args[0]!
  let bytes ← IO.FS.readBinFile file
  match Grib2.read { data := bytes.toList, pos := 0, evs := [] } with
  | .ok g =>
    match (SubIter.drain (g.len+1) g.iter)[0]? with
    | some (_, m) =>
      match (m.gridDef : Outcome Unit GridDefinition) with
      | .ok d =>
        IO.eprintln (match gridShape d with | .ok s => s!"shape {s}" | _ => "no shape")
        match subLatlons { single := f32ops, gauss := gops, proj := none } d with
        | .ok (.latLon it) =>
          IO.eprintln s!"lats {it.lat.length} lons {it.lon.length}"
          match it.drain 500000 with
          | .more xs | .done xs => for p in xs.take 500000 do IO.println s!"{p.1} {p.2}"
          | .panic => IO.eprintln "panic in points"
        | .ok _ => IO.eprintln "lambert"
        | .err e => IO.eprintln s!"err {repr e}"
        | .panic => IO.eprintln "panic"
      | _ => IO.eprintln "no grid"
    | none => IO.eprintln "none"
  | .err e => IO.eprintln s!"error {repr e}"
  | .panic => IO.eprintln "panic"
  match legendreRoots (ε := Unit) gops 5 with
  | .ok r => IO.eprintln s!"roots 5 {r.map (fun x => x.map Float.toBits)}"
  | _ => pure ()
  match gaussianLatitudes gops 160 with
  | .ok r => IO.eprintln s!"lat160 {r.take 80}"
  | _ => pure ()
