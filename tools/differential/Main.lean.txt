import Verif.Model.Decoder
import Verif.Model.Ieee
open Grib Grib.Model

def f32' : FloatOps Fl := .ieee .single (compilerRtPowi .single) fun _ => .nan

-- bits of a single-precision number
def bitsOf (x : Fl) : Nat :=
  match x with
  | .nan => 0x7fc00000
  | .inf s => (if s then 0x80000000 else 0) + 0x7f800000
  | .negZero => 0x80000000
  | .fin v =>
    if v = 0 then 0 else
    let s := if v < 0 then 0x80000000 else 0
    let a := if v < 0 then -v else v
    let e := max (ilog2 a) (-126)
    let m := (a / pow2 (e - 23))
    let mi := m.floor.toNat
    if mi < 2^23 then s + mi else s + ((e + 127).toNat) * 2^23 + (mi - 2^23)

def main (args : List String) : IO Unit := do
  let file := args[0]!
  let idx := args[1]!.toNat!
  let out := args[2]!
  let bytes ← IO.FS.readBinFile file
  let data := bytes.toList
  let c : Codecs Fl := { ops := f32', png := fun _ => none, jp2 := fun _ => .panic }
  match Grib2.read { data, pos := 0, evs := [] } with
  | .ok g =>
    IO.eprintln s!"sections {g.sections.length} submessages {g.submessages.length}"
    match (SubIter.drain (g.len+1) g.iter)[idx]? with
    | none => IO.eprintln "no such submessage"
    | some (i, m) =>
      IO.eprintln s!"{i}"
      match (Decoder.fromSub m g.reader).1 with
      | .ok t =>
        IO.eprintln s!"total {t.numPointsTotal} encoded {t.numPointsEncoded} template {t.templateNum} sect7 {t.sect7.length}"
        match t.dispatch c with
        | .ok it =>
          match it.toList f32' with
          | .done xs =>
            IO.eprintln s!"values {xs.length}"
            let mut b : ByteArray := .empty
            for x in xs do
              let n := bitsOf x
              b := b.push n.toUInt8 |>.push (n / 256).toUInt8 |>.push (n / 65536).toUInt8 |>.push (n / 16777216).toUInt8
            IO.FS.writeBinFile out b
          | .panic => IO.eprintln "panic in values"
          | .more _ => IO.eprintln "more"
        | .err _ => IO.eprintln "decode error"
        | .panic => IO.eprintln "decode panic"
      | .err _ => IO.eprintln "from error"
      | .panic => IO.eprintln "from panic"
  | .err e => IO.eprintln s!"error {repr e}"
  | .panic => IO.eprintln "panic"
