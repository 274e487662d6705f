import Verif.Model.Release

/-! # Model of a release build: decoding

The functions of `Model/Decoder.lean` in which an overflow can happen, with wrapping arithmetic; see `Model/Release.lean`.
Simple packing, PNG and the reading of sections 5 are the same in both. -/

namespace Grib.Model.Rel

open Grib.Model

variable {ε F : Type}

/-- An `i32` result of an arithmetic operation, wrapping. -/
def wrap32 (v : Int) : Int := Int.bmod v (2 ^ 32)

/-! ## Complex packing -/

/-- `get_octet_length` (src/decoder/complex.rs:118-122). -/
def getOctetLength (nbit ngroup : Nat) : Nat := ((ngroup * nbit) % 2 ^ 32 + 7) % 2 ^ 32 / 8

/-- The closure given to `map` (src/decoder/complex.rs:254-262): one stored integer of a group. -/
def groupValue (env : GroupEnv) (ref : Int) (missing1 missing2 v : Nat) : DecodedValue :=
  if env.mvm > 0 ∧ v = missing1 then .missing1
  else if env.mvm = 2 ∧ v = missing2 then .missing2
  else .normal (wrap32 (wrap32 (asGribInt 32 v + ref) + env.zMin))

/-- One group of `ComplexPackingValueDecodeIterator::next` (src/decoder/complex.rs:223-267).  The distance of a shift is
taken modulo 32.  Panics: reference not an `i32`, slice out of range. -/
def groupNext (env : GroupEnv) (st : GroupPos) (ref width length : Nat) : Outcome ε (List DecodedValue × GroupPos) :=
  if width = 0 then do
    let ref ← toI32 ref
    -- `(1 << self.nbit) - 1` in `i32`
    let missing1 := wrap32 (wrap32 (2 ^ (env.nbit % 32)) - 1)
    let missing2 := wrap32 (missing1 - 1)
    if env.mvm > 0 ∧ ref = missing1 then .ok (List.replicate length .missing1, st)
    else if env.mvm = 2 ∧ ref = missing2 then .ok (List.replicate length .missing2, st)
    else .ok (List.replicate length (.normal (wrap32 (ref + env.zMin))), st)
  else do
    let ref ← toI32 ref
    let bits := st.startOffsetBits + width * length
    let posEnd := st.pos + bits / 8
    let offsetBits := bits % 8
    let offsetByte := if offsetBits > 0 then 1 else 0
    -- `(1 << width) - 1` in `u32`
    let missing1 := 2 ^ (width % 32) - 1
    let missing2 := (missing1 + 2 ^ 32 - 1) % 2 ^ 32
    let slice ← sliceTo env.data st.pos (posEnd + offsetByte)
    let raw ← Outcome.ofOption (NBit.takeList length ((NBit.new slice width).withOffset st.startOffsetBits))
    .ok (raw.map (groupValue env ref missing1 missing2), ⟨posEnd, offsetBits⟩)

/-- The items of the flattened group iterator (src/decoder/complex.rs:157-166, 215-270). -/
def groupItems (env : GroupEnv) : (refs widths lens : List Nat) → GroupPos → Items DecodedValue
  | ref :: refs, width :: widths, len :: lens, st =>
    match (groupNext env st ref width len : Outcome Empty _) with
    | .ok (values, st') => values.map .ok ++ groupItems env refs widths lens st'
    | _ => [.panic]
  | _, _, _, _ => []

/-- `decode_complex_packing` (src/decoder/complex.rs:111-167).  Panics at once: blocks beyond the end of section 7. -/
def decodeComplexPacking (p : ComplexParam) (sect7 : List UInt8) (sect7Offset nbit : Nat) (zMin : Int) :
    Outcome ε (Items DecodedValue) := do
  let refsEnd := sect7Offset + getOctetLength nbit p.ngroup
  let widthsEnd := refsEnd + getOctetLength p.widthNbit p.ngroup
  let lensEnd := widthsEnd + getOctetLength p.lenNbit p.ngroup
  let refs ← Outcome.ofOption (bitStreamTake (← sliceTo sect7 sect7Offset refsEnd) nbit p.ngroup)
  let widths ← Outcome.ofOption (bitStreamTake (← sliceTo sect7 refsEnd widthsEnd) p.widthNbit p.ngroup)
  -- `ngroup - 1` in `u32`
  let lens ← Outcome.ofOption (bitStreamTake (← sliceTo sect7 widthsEnd lensEnd) p.lenNbit ((p.ngroup + 2 ^ 32 - 1) % 2 ^ 32))
  let rest ← sliceTo sect7 lensEnd sect7.length
  .ok (groupItems ⟨p.missing, nbit, zMin, rest⟩ refs
    (widths.map fun v => (p.widthRef + v) % 2 ^ 32)
    ((lens.map fun v => (p.lenRef + (p.lenInc * v) % 2 ^ 32) % 2 ^ 32) ++ [p.lenLast])
    ⟨0, 0⟩)

/-- `complex::decode_7_2` (src/decoder/complex.rs:30-54). -/
def complexDecode2 (ops : FloatOps F) (t : Decoder) : Outcome GribError (Items F) := do
  let simple ← SimpleParam.fromSect5 ops t.sect5
  let complex ← ComplexParam.fromSect5 t.sect5
  if complex.splitting ≠ 1 ∨ complex.missing > 2 then .err (.decodeError (.complexPacking .notSupported)) else do
  let items ← decodeComplexPacking complex t.sect7 0 simple.nbit 0
  .ok (simple.unpackAll ops (DecodedValue.toF32 ops) items)

/-- `FirstOrderSpatialDifferencingDecodeIterator::next` on one item (src/decoder/complex/diff.rs:127-144). -/
def diff1Step (s : Diff1) : DecodedValue → Outcome ε (DecodedValue × Diff1)
  | .normal v =>
    match s.count with
    | 0 =>
      match s.firstValues with
      | [] => .panic
      | x :: xs => .ok (.normal x, ⟨xs, s.count + 1, x⟩)
    | _ + 1 => .ok (.normal (wrap32 (v + s.prev)), { s with prev := wrap32 (v + s.prev) })
  | missing => .ok (missing, s)

/-- `SecondOrderSpatialDifferencingDecodeIterator::next` on one item (src/decoder/complex/diff.rs:174-197). -/
def diff2Step (s : Diff2) : DecodedValue → Outcome ε (DecodedValue × Diff2)
  | .normal v =>
    match s.count with
    | 0 =>
      match s.firstValues with
      | [] => .panic
      | x :: xs => .ok (.normal x, { s with firstValues := xs, count := s.count + 1, prev2 := x })
    | 1 =>
      match s.firstValues with
      | [] => .panic
      | x :: xs => .ok (.normal x, { s with firstValues := xs, count := s.count + 1, prev1 := x })
    | _ + 2 =>
      let v := wrap32 (wrap32 (v + wrap32 (2 * s.prev1)) - s.prev2)
      .ok (.normal v, { s with prev2 := s.prev1, prev1 := v })
  | missing => .ok (missing, s)

/-- `complex::decode_7_3` (src/decoder/complex.rs:56-109). -/
def complexDecode3 (ops : FloatOps F) (t : Decoder) : Outcome GribError (Items F) := do
  let simple ← SimpleParam.fromSect5 ops t.sect5
  let complex ← ComplexParam.fromSect5 t.sect5
  let order ← rdAs t.sect5 42 1
  if order ≠ 1 ∧ order ≠ 2 ∧ order ≠ 255 then .err .notSupported else do
  let octets ← rdAs t.sect5 43 1
  if complex.splitting ≠ 1 ∨ complex.missing > 2 ∨ order = 255 then .err (.decodeError (.complexPacking .notSupported))
  else do
  let d ← DiffDescriptors.new t.sect7 order octets
  let items ← decodeComplexPacking complex t.sect7 d.slice.length simple.nbit (← d.minimum)
  let first ← d.firstValues d.slice.length 0
  let undiffed := if order = 1 then stepItems diff1Step { firstValues := first } items
    else stepItems diff2Step { firstValues := first } items
  .ok (simple.unpackAll ops (DecodedValue.toF32 ops) undiffed)

/-! ## Run-length packing -/

/-- The `for value in iter` loop of `rleunpack` (src/decoder/run_length.rs:77-89).  Panics: a buffer of more than
`isize::MAX` octets. -/
def rleLoop (rlbase lngu : Nat) :
    (values : List Nat) → (out : List Nat) → (cached : Option Nat) → (exp : Nat) → Outcome RunLengthError (List Nat)
  | [], out, _, _ => .ok out
  | v :: vs, out, cached, exp =>
    let value := v % 2 ^ 16
    if rlbase > value then
      if out.length + 1 ≥ 2 ^ 62 then .panic else rleLoop rlbase lngu vs (out ++ [value]) (some value) 1
    else
      match cached with
      | none => .err .invalidFirstValue
      | some prev =>
        let length := ((value - rlbase) * exp) % USIZE
        if out.length + length ≥ 2 ^ 62 then .panic
        else rleLoop rlbase lngu vs (out ++ List.replicate length prev) cached ((exp * lngu) % USIZE)

/-- `rleunpack` (src/decoder/run_length.rs:60-98), pulling at most `fuel` integers; `none`: not finished.  `maxv + 1` and
the subtraction wrap in `u16`, the distance of the shift is taken modulo 16. -/
def rleunpackFuel (fuel : Nat) (input : List UInt8) (nbit maxv expectedLen : Nat) :
    Option (Outcome RunLengthError (List Nat)) :=
  let rlbase := (maxv + 1) % 2 ^ 16
  let lngu := (2 ^ (nbit % 16) + 2 ^ 16 - rlbase) % 2 ^ 16
  match (NBit.new input nbit).drain fuel with
  | .done values =>
    some (do
      let out ← rleLoop rlbase lngu values [] none 1
      if expectedLen ≠ out.length then .err .lengthMismatch else .ok out)
  | .panic => some .panic
  | .more values =>
    -- an error or panic while pulling ends the loop before the iterator does
    match rleLoop rlbase lngu values [] none 1 with
    | .err e => some (.err e)
    | .panic => some .panic
    | .ok _ => none

/-- `rleunpack`.  Not ending within the number of steps that suffices for every width above zero is reported as a
panic. -/
def rleunpack (input : List UInt8) (nbit maxv expectedLen : Nat) : Outcome RunLengthError (List Nat) :=
  match rleunpackFuel (8 * input.length + 1) input nbit maxv expectedLen with
  | some r => r
  | none => .panic

/-- `run_length::decode` (src/decoder/run_length.rs:15-57). -/
def runLengthDecode (ops : FloatOps F) (t : Decoder) : Outcome GribError (Items F) := do
  let nbit ← rdAs t.sect5 6 1
  let maxv ← rdAs t.sect5 7 2
  let maxLevel ← rdAs t.sect5 9 2
  let digits ← rdAs t.sect5 11 1
  let levels ← readLevels ops t.sect5 digits maxLevel 12
  let decoded ← (rleunpack t.sect7 nbit maxv t.numPointsEncoded).mapErr fun e => .decodeError (.runLength e)
  let values ← (levelsToValues (ops.nan :: levels) decoded).mapErr fun e => .decodeError (.runLength e)
  .ok (values.map .ok)

/-! ## The decoder -/

/-- `BitmapDecodeIterator::size_hint` (src/decoder/bitmap.rs:57-60). -/
def bitmapSizeHint (it : BitmapIter F) : Nat := usub it.len it.offset

/-- `Grib2SubmessageDecoder::from` (src/decoder.rs:78-121). -/
def fromSub (m : SubMessage) : Rdr → Outcome GribError Decoder × Rdr := fun r =>
  match m.s3.2.body, m.s5.2.body, m.s6.2.body with
  | some (.section3 b3), some (.section5 b5), some (.section6 indicator) =>
    let lift {α : Type} (x : RM α) (r : Rdr) : Outcome GribError α × Rdr := ((x r).1.mapErr .parseError, (x r).2)
    match ((GridDefinition.mk b3).numPoints : Outcome GribError Nat) with
    | .err e => (.err e, r)
    | .panic => (.panic, r)
    | .ok total =>
      let (bitmap, r1) : Outcome GribError (List UInt8) × Rdr :=
        if indicator = 0 then
          match lift (readSectPayloadAsSlice m.s6.2) r with
          | (.ok data, r1) => (if data.length < 1 then .panic else .ok (data.drop 1), r1)
          | (.err e, r1) => (.err e, r1)
          | (.panic, r1) => (.panic, r1)
        else if indicator = 255 then (.ok (createBitmap total), r)
        else (.err (.decodeError .bitMapIndicatorUnsupported), r)
      match bitmap with
      | .err e => (.err e, r1)
      | .panic => (.panic, r1)
      | .ok bitmap =>
        match ((do let n ← (ReprDefinition.mk b5).numPoints; let t ← (ReprDefinition.mk b5).reprTmplNum; .ok (n, t)) :
            Outcome GribError (Nat × Nat)) with
        | .err e => (.err e, r1)
        | .panic => (.panic, r1)
        | .ok (encoded, tmpl) =>
          match lift (readSectPayloadAsSlice m.s5.2) r1 with
          | (.err e, r2) => (.err e, r2)
          | (.panic, r2) => (.panic, r2)
          | (.ok sect5, r2) =>
            match lift (readSectPayloadAsSlice m.s7.2) r2 with
            | (.err e, r3) => (.err e, r3)
            | (.panic, r3) => (.panic, r3)
            | (.ok sect7, r3) => (.ok ⟨total, encoded, tmpl, sect5, bitmap, sect7⟩, r3)
  | _, _, _ => (.err .internalDataError, r)

/-- The `match` of `dispatch` (src/decoder.rs:127-140).  The JPEG 2000 and PNG decoders are the same parameters as in the
debug model. -/
def decodeValues (c : Codecs F) (t : Decoder) : Outcome GribError (Items F) :=
  match t.templateNum with
  | 0 => simpleDecode c.ops t
  | 2 => complexDecode2 c.ops t
  | 3 => complexDecode3 c.ops t
  | 40 => jpeg2000Decode c t
  | 41 => pngDecode c t
  | 200 => runLengthDecode c.ops t
  | _ => .err (.decodeError .templateNumberUnsupported)

/-- `Grib2SubmessageDecoder::dispatch` (src/decoder.rs:124-144). -/
def dispatch (c : Codecs F) (t : Decoder) : Outcome GribError (BitmapIter F) := do
  let values ← decodeValues c t
  BitmapIter.new t.bitmap values t.numPointsTotal

end Grib.Model.Rel
