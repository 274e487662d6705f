import Verif.Model.Bits
import Verif.Model.Context
import Verif.Model.Error

/-! # Model of `src/decoder.rs` and `src/decoder/*.rs`

Iterators of decoded values are given by the list of what successive calls of `next` return: the list ends where `None`
is returned (all of them keep returning `None` then), an element `panic` is a call that panics.  That the bit reader is
such an iterator is C02. -/

namespace Grib.Model

variable {ε F : Type}

/-- What one call of `next` gives when it does not return `None`. -/
abbrev Pull (α : Type) := Outcome Empty α

/-- The results of the calls of `next` up to `None`. -/
abbrev Items (α : Type) := List (Pull α)

/-- All items of a bit reader.  (Not ending within the number of calls that suffices for any width above zero is
reported as a panicking call; width zero is never used here.) -/
def NBit.items (it : NBit) : Items Nat :=
  match it.toList with
  | .done xs => xs.map .ok
  | _ => [.panic]

/-- A decoded integer or one of the two kinds of missing (`DecodedValue<i32>`, src/decoder/complex/missing.rs:5-10). -/
inductive DecodedValue where
  | normal (v : Int)
  | missing1
  | missing2
deriving DecidableEq, Repr

/-- `ToPrimitive::to_f32` of a decoded value (src/decoder/complex/missing.rs:29-35). -/
def DecodedValue.toF32 (ops : FloatOps F) : DecodedValue → F
  | .normal v => ops.ofInt v
  | .missing1 => ops.nan
  | .missing2 => ops.nan

/-! ## Simple packing -/

/-- `SimplePackingParam` (src/decoder/param.rs:6-11). -/
structure SimpleParam (F : Type) where
  refVal : F
  exp : Int
  dig : Int
  nbit : Nat
deriving DecidableEq, Repr

/-- `SimplePackingParam::from_buf(&sect5_data[6..16])` (src/decoder/param.rs:14-35, called in simple.rs:52, complex.rs:37, 63,
jpeg2000.rs:27, png.rs:20).  The slice panics when section 5 is shorter. -/
def SimpleParam.fromSect5 (ops : FloatOps F) (sect5 : List UInt8) : Outcome GribError (SimpleParam F) := do
  let buf ← Outcome.ofOption (slice? sect5 6 10)
  let refVal := ops.ofBits (← rdAs buf 0 4)
  let exp := asGribInt 16 (← rdAs buf 4 2)
  let dig := asGribInt 16 (← rdAs buf 6 2)
  let nbit ← rdAs buf 8 1
  let typ ← rdAs buf 9 1
  if typ ≠ 0 then .err (.decodeError (.simplePacking .originalFieldValueTypeNotSupported))
  else .ok ⟨refVal, exp, dig, nbit⟩

/-- `zero_bit_reference_value` (src/decoder/param.rs:37-39). -/
def SimpleParam.zeroBitReferenceValue (ops : FloatOps F) (p : SimpleParam F) : F :=
  ops.mul p.refVal (ops.powi (ops.ofInt 10) (-p.dig))

/-- The body of `SimplePackingDecodeIterator::next` (src/decoder/simple.rs:90-96) on the encoded number as a float. -/
def SimpleParam.unpack (ops : FloatOps F) (p : SimpleParam F) (encoded : F) : F :=
  let diff := ops.mul encoded (ops.powi (ops.ofInt 2) p.exp)
  let digFactor := ops.powi (ops.ofInt 10) (-p.dig)
  ops.mul (ops.add p.refVal diff) digFactor

/-- `SimplePackingDecodeIterator` (src/decoder/simple.rs:67-100) over items converted by `toF32`. -/
def SimpleParam.unpackAll {α : Type} (ops : FloatOps F) (p : SimpleParam F) (toF32 : α → F) (xs : Items α) : Items F :=
  xs.map fun x => (fun a => p.unpack ops (toF32 a)) <$> x

/-- `FixedValueIterator` (src/decoder/stream.rs:32-61). -/
def fixedItems {α : Type} (v : α) (length : Nat) : Items α := List.replicate length (.ok v)

/-- `Grib2SubmessageDecoder` (src/decoder.rs:49-56). -/
structure Decoder where
  numPointsTotal : Nat
  numPointsEncoded : Nat
  templateNum : Nat
  sect5 : List UInt8
  bitmap : List UInt8
  sect7 : List UInt8
deriving DecidableEq, Repr

/-- `simple::decode` (src/decoder/simple.rs:48-65). -/
def simpleDecode (ops : FloatOps F) (t : Decoder) : Outcome GribError (Items F) := do
  let param ← SimpleParam.fromSect5 ops t.sect5
  if param.nbit = 0 then
    .ok (fixedItems (param.zeroBitReferenceValue ops) t.numPointsEncoded)
  else
    .ok (param.unpackAll ops (fun x : Nat => ops.ofInt x) (NBit.new t.sect7 param.nbit).items)

/-! ## Complex packing -/

/-- `ComplexPackingParam` (src/decoder/param.rs:42-52). -/
structure ComplexParam where
  splitting : Nat
  missing : Nat
  ngroup : Nat
  widthRef : Nat
  widthNbit : Nat
  lenRef : Nat
  lenInc : Nat
  lenLast : Nat
  lenNbit : Nat
deriving DecidableEq, Repr

/-- `ComplexPackingParam::from_buf(&sect5_data[16..42])` (src/decoder/param.rs:55-76). -/
def ComplexParam.fromSect5 (sect5 : List UInt8) : Outcome ε ComplexParam := do
  let buf ← Outcome.ofOption (slice? sect5 16 26)
  let splitting ← rdAs buf 0 1
  let missing ← rdAs buf 1 1
  let ngroup ← rdAs buf 10 4
  let widthRef ← rdAs buf 14 1
  let widthNbit ← rdAs buf 15 1
  let lenRef ← rdAs buf 16 4
  let lenInc ← rdAs buf 20 1
  let lenLast ← rdAs buf 21 4
  let lenNbit ← rdAs buf 25 1
  .ok ⟨splitting, missing, ngroup, widthRef, widthNbit, lenRef, lenInc, lenLast, lenNbit⟩

/-- A `u32` result of an arithmetic operation; panics on overflow. -/
def checkU32 (n : Nat) : Outcome ε Nat := if n < 2 ^ 32 then .ok n else .panic

/-- An `i32` result of an arithmetic operation; panics on overflow. -/
def checkI32 (v : Int) : Outcome ε Int := if -2 ^ 31 ≤ v ∧ v < 2 ^ 31 then .ok v else .panic

/-- `get_octet_length` (src/decoder/complex.rs:118-122). -/
def getOctetLength (nbit ngroup : Nat) : Outcome ε Nat := do
  let totalBit ← checkU32 (ngroup * nbit)
  let t ← checkU32 (totalBit + 7)
  .ok (t / 8)

/-- The slice `&data[a..b]` (`a ≤ b`). -/
def sliceTo (data : List UInt8) (a b : Nat) : Outcome ε (List UInt8) :=
  if a ≤ b ∧ b ≤ data.length then .ok ((data.drop a).take (b - a)) else .panic

/-- State of `ComplexPackingValueDecodeIterator` that changes from group to group (src/decoder/complex.rs:178-179). -/
structure GroupPos where
  pos : Nat
  startOffsetBits : Nat
deriving DecidableEq, Repr

/-- The constants of `ComplexPackingValueDecodeIterator` (src/decoder/complex.rs:174-177). -/
structure GroupEnv where
  mvm : Nat
  nbit : Nat
  zMin : Int
  data : List UInt8
deriving DecidableEq, Repr

/-- `to_i32().unwrap()` of a `u32`. -/
def toI32 (n : Nat) : Outcome ε Int := if n < 2 ^ 31 then .ok (n : Int) else .panic

/-- The closure given to `map` (src/decoder/complex.rs:254-262): one stored integer of a group. -/
def groupValue (env : GroupEnv) (ref : Int) (missing1 missing2 v : Nat) : Outcome ε DecodedValue :=
  if env.mvm > 0 ∧ v = missing1 then .ok .missing1
  else if env.mvm = 2 ∧ v = missing2 then .ok .missing2
  else do
    let a ← checkI32 (asGribInt 32 v + ref)
    let b ← checkI32 (a + env.zMin)
    .ok (.normal b)

/-- `collect` of the mapped values of a group: the first panic wins. -/
def mapPulls {α β : Type} (f : α → Outcome ε β) : List α → Outcome ε (List β)
  | [] => .ok []
  | a :: as => do
    let b ← f a
    let bs ← mapPulls f as
    .ok (b :: bs)

/-- One group of `ComplexPackingValueDecodeIterator::next` (src/decoder/complex.rs:223-267), reference, width and length
given.  Panics: reference not an `i32`, shift overflows, slice out of range, `i32` overflows.
Simplification: `width * length` and the positions stay below `2^64` (both factors are `u32`), so they are unbounded. -/
def groupNext (env : GroupEnv) (st : GroupPos) (ref width length : Nat) : Outcome ε (List DecodedValue × GroupPos) :=
  if width = 0 then do
    let ref ← toI32 ref
    -- `(1 << self.nbit) - 1` in `i32`: panics from 31 bits on (the subtraction for 31, the shift from 32 on)
    if env.nbit ≥ 31 then .panic else do
    let missing1 : Int := 2 ^ env.nbit - 1
    let missing2 := missing1 - 1
    if env.mvm > 0 ∧ ref = missing1 then .ok (List.replicate length .missing1, st)
    else if env.mvm = 2 ∧ ref = missing2 then .ok (List.replicate length .missing2, st)
    else do
      let v ← checkI32 (ref + env.zMin)
      .ok (List.replicate length (.normal v), st)
  else do
    let ref ← toI32 ref
    let bits := st.startOffsetBits + width * length
    let posEnd := st.pos + bits / 8
    let offsetBits := bits % 8
    let offsetByte := if offsetBits > 0 then 1 else 0
    -- `(1 << width) - 1` in `u32`
    if width ≥ 32 then .panic else do
    let missing1 := 2 ^ width - 1
    -- `missing1 - 1` cannot underflow: `width ≥ 1`
    let missing2 := missing1 - 1
    let slice ← sliceTo env.data st.pos (posEnd + offsetByte)
    let raw ← Outcome.ofOption (NBit.takeList length ((NBit.new slice width).withOffset st.startOffsetBits))
    let values ← mapPulls (groupValue env ref missing1 missing2) raw
    .ok (values, ⟨posEnd, offsetBits⟩)

/-- The items of the flattened group iterator (src/decoder/complex.rs:157-166, 215-270).  The three lists are the group
references, widths and lengths; the latter two are computed lazily with overflow checks. -/
def groupItems (env : GroupEnv) : (refs : List Nat) → (widths lens : Items Nat) → GroupPos → Items DecodedValue
  | ref :: refs, width :: widths, len :: lens, st =>
    match (do let w ← width; let l ← len; groupNext env st ref w l : Outcome Empty _) with
    | .ok (values, st') => values.map .ok ++ groupItems env refs widths lens st'
    | _ => [.panic]
  | _, _, _, _ => []

/-- `decode_complex_packing` (src/decoder/complex.rs:111-167).  Panics at once: `u32` overflows in the block lengths, blocks
beyond the end of section 7, no group at all (`ngroup - 1`). -/
def decodeComplexPacking (p : ComplexParam) (sect7 : List UInt8) (sect7Offset nbit : Nat) (zMin : Int) :
    Outcome ε (Items DecodedValue) := do
  let refsEnd := sect7Offset + (← getOctetLength nbit p.ngroup)
  let widthsEnd := refsEnd + (← getOctetLength p.widthNbit p.ngroup)
  let lensEnd := widthsEnd + (← getOctetLength p.lenNbit p.ngroup)
  let refs ← Outcome.ofOption (bitStreamTake (← sliceTo sect7 sect7Offset refsEnd) nbit p.ngroup)
  let widths ← Outcome.ofOption (bitStreamTake (← sliceTo sect7 refsEnd widthsEnd) p.widthNbit p.ngroup)
  if p.ngroup = 0 then .panic else do
  let lens ← Outcome.ofOption (bitStreamTake (← sliceTo sect7 widthsEnd lensEnd) p.lenNbit (p.ngroup - 1))
  let rest ← sliceTo sect7 lensEnd sect7.length
  .ok (groupItems ⟨p.missing, nbit, zMin, rest⟩ refs
    (widths.map fun v => checkU32 (p.widthRef + v))
    ((lens.map fun v => do let a ← checkU32 (p.lenInc * v); checkU32 (p.lenRef + a)) ++ [.ok p.lenLast])
    ⟨0, 0⟩)

/-- `complex::decode_7_2` (src/decoder/complex.rs:30-54). -/
def complexDecode2 (ops : FloatOps F) (t : Decoder) : Outcome GribError (Items F) := do
  let simple ← SimpleParam.fromSect5 ops t.sect5
  let complex ← ComplexParam.fromSect5 t.sect5
  if complex.splitting ≠ 1 ∨ complex.missing > 2 then .err (.decodeError (.complexPacking .notSupported)) else do
  let items ← decodeComplexPacking complex t.sect7 0 simple.nbit 0
  .ok (simple.unpackAll ops (DecodedValue.toF32 ops) items)

/-! ## Spatial differencing -/

/-- `SpatialDifferencingExtraDescriptors` (src/decoder/complex/diff.rs:7-10). -/
structure DiffDescriptors where
  slice : List UInt8
  numOctets : Nat
deriving DecidableEq, Repr

/-- `SpatialDifferencingExtraDescriptors::new` (src/decoder/complex/diff.rs:13-30). -/
def DiffDescriptors.new (sect7 : List UInt8) (order numOctets : Nat) : Outcome GribError DiffDescriptors := do
  if numOctets = 0 ∨ numOctets > 4 then .err (.decodeError (.complexPacking .notSupported)) else do
  let slice ← sliceTo sect7 0 ((order + 1) * numOctets)
  .ok ⟨slice, numOctets⟩

/-- `minimum` (src/decoder/complex/diff.rs:38-41). -/
def DiffDescriptors.minimum (d : DiffDescriptors) : Outcome ε Int :=
  Outcome.ofOption (gribIntFromBytes (d.slice.drop (d.slice.length - d.numOctets)))

/-- `first_values().collect()` (src/decoder/complex/diff.rs:43-80): numbers of `num_octets` octets up to
`first_value_end_pos`.  `fuel` bounds their number (each takes an octet at least). -/
def DiffDescriptors.firstValues (d : DiffDescriptors) : (fuel pos : Nat) → Outcome ε (List Int)
  | 0, _ => .ok []
  | fuel + 1, pos =>
    if pos ≥ d.slice.length - d.numOctets then .ok [] else do
      let slice ← sliceTo d.slice pos (pos + d.numOctets)
      let v ← Outcome.ofOption (gribIntFromBytes slice)
      let vs ← d.firstValues fuel (pos + d.numOctets)
      .ok (v :: vs)

/-- State of the first-order iterator (src/decoder/complex/diff.rs:102-107). -/
structure Diff1 where
  firstValues : List Int
  count : Nat := 0
  prev : Int := 0
deriving DecidableEq, Repr

/-- `FirstOrderSpatialDifferencingDecodeIterator::next` on one item (src/decoder/complex/diff.rs:127-144). -/
def Diff1.step (s : Diff1) : DecodedValue → Outcome ε (DecodedValue × Diff1)
  | .normal v =>
    match s.count with
    | 0 =>
      match s.firstValues with
      | [] => .panic
      | x :: xs => .ok (.normal x, ⟨xs, s.count + 1, x⟩)
    | _ + 1 => do
      let v ← checkI32 (v + s.prev)
      .ok (.normal v, { s with prev := v })
  | missing => .ok (missing, s)

/-- State of the second-order iterator (src/decoder/complex/diff.rs:147-153). -/
structure Diff2 where
  firstValues : List Int
  count : Nat := 0
  prev1 : Int := 0
  prev2 : Int := 0
deriving DecidableEq, Repr

/-- `SecondOrderSpatialDifferencingDecodeIterator::next` on one item (src/decoder/complex/diff.rs:174-197). -/
def Diff2.step (s : Diff2) : DecodedValue → Outcome ε (DecodedValue × Diff2)
  | .normal v =>
    match s.count with
    | 0 =>
      match s.firstValues with
      | [] => .panic
      | x :: xs => .ok (.normal x, { s with firstValues := xs, count := s.count + 1, prev2 := x })
    | 1 =>
      match s.firstValues with
      | [] => .panic
      | x :: xs => .ok (.normal x, { s with firstValues := xs, count := s.count + 1, prev1 := x })
    | _ + 2 => do
      let twice ← checkI32 (2 * s.prev1)
      let sum ← checkI32 (v + twice)
      let v ← checkI32 (sum - s.prev2)
      .ok (.normal v, { s with prev2 := s.prev1, prev1 := v })
  | missing => .ok (missing, s)

/-- Run a stateful iterator adaptor over items. -/
def stepItems {σ α β : Type} (step : σ → α → Outcome Empty (β × σ)) : σ → Items α → Items β
  | _, [] => []
  | s, x :: xs =>
    match x with
    | .ok a =>
      match step s a with
      | .ok (b, s') => .ok b :: stepItems step s' xs
      | _ => [.panic]
    | _ => [.panic]

/-- `complex::decode_7_3` (src/decoder/complex.rs:56-109); `Table5_6` is src/codetables/grib2.rs (1, 2, 255). -/
def complexDecode3 (ops : FloatOps F) (t : Decoder) : Outcome GribError (Items F) := do
  let simple ← SimpleParam.fromSect5 ops t.sect5
  let complex ← ComplexParam.fromSect5 t.sect5
  let order ← rdAs t.sect5 42 1
  if order ≠ 1 ∧ order ≠ 2 ∧ order ≠ 255 then .err .notSupported else do
  let octets ← rdAs t.sect5 43 1
  if complex.splitting ≠ 1 ∨ complex.missing > 2 ∨ order = 255 then .err (.decodeError (.complexPacking .notSupported))
  else do
  let d ← DiffDescriptors.new t.sect7 order octets
  let items ← decodeComplexPacking complex t.sect7 d.slice.length simple.nbit (← d.minimum)
  let first ← d.firstValues d.slice.length 0
  let undiffed := if order = 1 then stepItems Diff1.step { firstValues := first } items
    else stepItems Diff2.step { firstValues := first } items
  .ok (simple.unpackAll ops (DecodedValue.toF32 ops) undiffed)

/-! ## Run-length packing -/

/-- The `for value in iter` loop of `rleunpack` (src/decoder/run_length.rs:77-89).  Panics: `usize` overflows, and a buffer
of more than `isize::MAX` octets. -/
def rleLoop (rlbase lngu : Nat) :
    (values : List Nat) → (out : List Nat) → (cached : Option Nat) → (exp : Nat) → Outcome RunLengthError (List Nat)
  | [], out, _, _ => .ok out
  | v :: vs, out, cached, exp =>
    let value := v % 2 ^ 16
    if rlbase > value then
      if out.length + 1 ≥ 2 ^ 62 then .panic else rleLoop rlbase lngu vs (out ++ [value]) (some value) 1
    else
      match cached with
      | none => .err .invalidFirstValue
      | some prev =>
        let length := (value - rlbase) * exp
        if length ≥ USIZE ∨ out.length + length ≥ 2 ^ 62 ∨ exp * lngu ≥ USIZE then .panic
        else rleLoop rlbase lngu vs (out ++ List.replicate length prev) cached (exp * lngu)

/-- `rleunpack` (src/decoder/run_length.rs:60-98) on the octets, pulling at most `fuel` integers; `none`: not finished.
Panics: `maxv + 1` overflows `u16`, the shift `1u16 << nbit` overflows, the subtraction underflows. -/
def rleunpackFuel (fuel : Nat) (input : List UInt8) (nbit maxv expectedLen : Nat) :
    Option (Outcome RunLengthError (List Nat)) :=
  if maxv + 1 ≥ 2 ^ 16 ∨ nbit ≥ 16 ∨ 2 ^ nbit < maxv + 1 then some .panic
  else
    match (NBit.new input nbit).drain fuel with
    | .done values =>
      some (do
        let out ← rleLoop (maxv + 1) (2 ^ nbit - (maxv + 1)) values [] none 1
        if expectedLen ≠ out.length then .err .lengthMismatch else .ok out)
    | .panic => some .panic
    | .more _ => none

/-- `rleunpack`.  Not ending within the number of steps that suffices for every width above zero is reported as a panic
(C26 has the exact statement). -/
def rleunpack (input : List UInt8) (nbit maxv expectedLen : Nat) : Outcome RunLengthError (List Nat) :=
  match rleunpackFuel (8 * input.length + 1) input nbit maxv expectedLen with
  | some r => r
  | none => .panic

/-- The loop building `level_map` (src/decoder/run_length.rs:28-35), without its first element: `n` levels from `pos`. -/
def readLevels (ops : FloatOps F) (sect5 : List UInt8) (digits : Nat) : (n pos : Nat) → Outcome ε (List F)
  | 0, _ => .ok []
  | n + 1, pos => do
    let v ← rdAs sect5 pos 2
    let x := ops.mul (ops.ofInt v) (ops.powi (ops.ofInt 10) (-(digits : Int)))
    let xs ← readLevels ops sect5 digits n (pos + 2)
    .ok (x :: xs)

/-- `level_to_value` over all levels (src/decoder/run_length.rs:45-55). -/
def levelsToValues (levelMap : List F) : List Nat → Outcome RunLengthError (List F)
  | [] => .ok []
  | l :: ls =>
    match levelMap[l]? with
    | none => .err (.invalidLevelValue l)
    | some v => do
      let vs ← levelsToValues levelMap ls
      .ok (v :: vs)

/-- `run_length::decode` (src/decoder/run_length.rs:15-57). -/
def runLengthDecode (ops : FloatOps F) (t : Decoder) : Outcome GribError (Items F) := do
  let nbit ← rdAs t.sect5 6 1
  let maxv ← rdAs t.sect5 7 2
  let maxLevel ← rdAs t.sect5 9 2
  let digits ← rdAs t.sect5 11 1
  let levels ← readLevels ops t.sect5 digits maxLevel 12
  let decoded ← (rleunpack t.sect7 nbit maxv t.numPointsEncoded).mapErr fun e => .decodeError (.runLength e)
  let values ← (levelsToValues (ops.nan :: levels) decoded).mapErr fun e => .decodeError (.runLength e)
  .ok (values.map .ok)

/-! ## Image codecs -/

/-- What the model does not define: the float operations, the PNG and the JPEG 2000 decoder. -/
structure Codecs (F : Type) where
  ops : FloatOps F
  /-- `read_image_buffer` (src/decoder/png.rs:53-60); `none` is an error of the `png` crate -/
  png : List UInt8 → Option (List UInt8)
  /-- `decode_jp2` (src/decoder/jpeg2000.rs:50-88) over the octets of section 7 -/
  jp2 : List UInt8 → Outcome Jpeg2000Error (List Int)

/-- `png::decode` (src/decoder/png.rs:16-51): the image is decoded even for a zero bit width. -/
def pngDecode (c : Codecs F) (t : Decoder) : Outcome GribError (Items F) := do
  let param ← SimpleParam.fromSect5 c.ops t.sect5
  match c.png t.sect7 with
  | none => .err (.decodeError (.png .pngError))
  | some buf =>
    if param.nbit = 0 then .ok (fixedItems (param.zeroBitReferenceValue c.ops) t.numPointsEncoded)
    else .ok (param.unpackAll c.ops (fun x : Nat => c.ops.ofInt x) (NBit.new buf param.nbit).items)

/-- `jpeg2000::decode` (src/decoder/jpeg2000.rs:23-48). -/
def jpeg2000Decode (c : Codecs F) (t : Decoder) : Outcome GribError (Items F) := do
  let param ← SimpleParam.fromSect5 c.ops t.sect5
  if param.nbit = 0 then .ok (fixedItems (param.zeroBitReferenceValue c.ops) t.numPointsEncoded)
  else do
    let xs ← (c.jp2 t.sect7).mapErr fun e => .decodeError (.jpeg2000 e)
    .ok (param.unpackAll c.ops (fun x : Int => c.ops.ofInt x) (xs.map .ok))

/-! ## Bitmap -/

/-- `BitmapDecodeIterator` (src/decoder/bitmap.rs:5-10). -/
structure BitmapIter (F : Type) where
  bitmap : List UInt8
  values : Items F
  len : Nat
  offset : Nat
deriving DecidableEq, Repr

/-- `BitmapDecodeIterator::new` (src/decoder/bitmap.rs:16-27). -/
def BitmapIter.new (bitmap : List UInt8) (values : Items F) (len : Nat) : Outcome GribError (BitmapIter F) :=
  if bitmap.length * 8 < len then .err (.decodeError .lengthMismatch) else .ok ⟨bitmap, values, len, 0⟩

/-- `has_zero_at_offset` (src/decoder/bitmap.rs:63-68). -/
def hasZeroAtOffset (byte : UInt8) (offset : Nat) : Bool := (byte.toNat &&& (0b10000000 >>> offset)) == 0

/-- `BitmapDecodeIterator::next` (src/decoder/bitmap.rs:37-55). -/
def BitmapIter.next (ops : FloatOps F) (it : BitmapIter F) : Pull (Option F) × BitmapIter F :=
  let offset := it.offset
  if offset ≥ it.len then (.ok none, it) else
  -- `peek` keeps the octet, `next` drops it
  let it' : BitmapIter F := if offset < 7 then { it with offset := offset + 1 } else { it with offset := 0, bitmap := it.bitmap.tail }
  match it.bitmap with
  | [] => (.ok none, it')
  | byte :: _ =>
    if hasZeroAtOffset byte offset then (.ok (some ops.nan), it')
    else
      match it.values with
      | [] => (.ok none, it')
      | .ok v :: vs => (.ok (some v), { it' with values := vs })
      | _ :: vs => (.panic, { it' with values := vs })

/-- `BitmapDecodeIterator::size_hint` (src/decoder/bitmap.rs:57-60): both bounds; the subtraction may underflow. -/
def BitmapIter.sizeHint (it : BitmapIter F) : Outcome ε Nat := if it.len < it.offset then .panic else .ok (it.len - it.offset)

/-- The results of up to `fuel` calls of `next`, as long as it returns items. -/
def BitmapIter.drain (ops : FloatOps F) : (fuel : Nat) → BitmapIter F → Drained F
  | 0, _ => .more []
  | fuel + 1, it =>
    match it.next ops with
    | (.ok none, _) => .done []
    | (.ok (some v), it') => (BitmapIter.drain ops fuel it').cons v
    | _ => .panic

/-- `.collect()`: every item uses a bit of the bitmap, so this many calls suffice. -/
def BitmapIter.toList (ops : FloatOps F) (it : BitmapIter F) : Drained F := it.drain ops (8 * it.bitmap.length + 1)

/-- `create_bitmap_for_nonnullable_data` (src/decoder/bitmap.rs:70-77). -/
def createBitmap (numPoints : Nat) : List UInt8 :=
  if numPoints % 8 = 0 then List.replicate (numPoints / 8) 0xff else List.replicate (numPoints / 8 + 1) 0xff

/-! ## The decoder -/

/-- `Grib2SubmessageDecoder::from` (src/decoder.rs:78-121).  Reads sections 6 (for indicator 0), 5 and 7 through the reader
the submessage holds. -/
def Decoder.fromSub (m : SubMessage) : Rdr → Outcome GribError Decoder × Rdr := fun r =>
  match m.s3.2.body, m.s5.2.body, m.s6.2.body with
  | some (.section3 b3), some (.section5 b5), some (.section6 indicator) =>
    let lift {α : Type} (x : RM α) (r : Rdr) : Outcome GribError α × Rdr := ((x r).1.mapErr .parseError, (x r).2)
    match ((GridDefinition.mk b3).numPoints : Outcome GribError Nat) with
    | .err e => (.err e, r)
    | .panic => (.panic, r)
    | .ok total =>
      let (bitmap, r1) : Outcome GribError (List UInt8) × Rdr :=
        if indicator = 0 then
          match lift (readSectPayloadAsSlice m.s6.2) r with
          | (.ok data, r1) => (if data.length < 1 then .panic else .ok (data.drop 1), r1)
          | (.err e, r1) => (.err e, r1)
          | (.panic, r1) => (.panic, r1)
        else if indicator = 255 then (.ok (createBitmap total), r)
        else (.err (.decodeError .bitMapIndicatorUnsupported), r)
      match bitmap with
      | .err e => (.err e, r1)
      | .panic => (.panic, r1)
      | .ok bitmap =>
        match ((do let n ← (ReprDefinition.mk b5).numPoints; let t ← (ReprDefinition.mk b5).reprTmplNum; .ok (n, t)) :
            Outcome GribError (Nat × Nat)) with
        | .err e => (.err e, r1)
        | .panic => (.panic, r1)
        | .ok (encoded, tmpl) =>
          match lift (readSectPayloadAsSlice m.s5.2) r1 with
          | (.err e, r2) => (.err e, r2)
          | (.panic, r2) => (.panic, r2)
          | (.ok sect5, r2) =>
            match lift (readSectPayloadAsSlice m.s7.2) r2 with
            | (.err e, r3) => (.err e, r3)
            | (.panic, r3) => (.panic, r3)
            | (.ok sect7, r3) => (.ok ⟨total, encoded, tmpl, sect5, bitmap, sect7⟩, r3)
  | _, _, _ => (.err .internalDataError, r)

/-- The `match` of `dispatch` (src/decoder.rs:127-140). -/
def Decoder.decodeValues (c : Codecs F) (t : Decoder) : Outcome GribError (Items F) :=
  match t.templateNum with
  | 0 => simpleDecode c.ops t
  | 2 => complexDecode2 c.ops t
  | 3 => complexDecode3 c.ops t
  | 40 => jpeg2000Decode c t
  | 41 => pngDecode c t
  | 200 => runLengthDecode c.ops t
  | _ => .err (.decodeError .templateNumberUnsupported)

/-- `Grib2SubmessageDecoder::dispatch` (src/decoder.rs:124-144). -/
def Decoder.dispatch (c : Codecs F) (t : Decoder) : Outcome GribError (BitmapIter F) := do
  let values ← t.decodeValues c
  BitmapIter.new t.bitmap values t.numPointsTotal

end Grib.Model
