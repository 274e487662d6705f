import Verif.Model.Decoder

/-! # Model of `src/decoder/jpeg2000.rs` (50-88) and `src/decoder/jpeg2000/ext.rs`

OpenJPEG itself is a parameter: a program that asks for octets, any number of times and in any sizes that may depend on
what it was given, and ends with a result. -/

namespace Grib.Model

/-- `SliceWithOffset` (src/decoder/jpeg2000/ext.rs:38-42). -/
structure SliceWithOffset where
  buf : List UInt8
  offset : Nat
deriving DecidableEq, Repr

/-- `Stream::from_bytes` (src/decoder/jpeg2000/ext.rs:76-92): the state the library hands back to the read function. -/
def SliceWithOffset.ofBytes (buf : List UInt8) : SliceWithOffset := ⟨buf, 0⟩

/-- `opj_stream_read_fn` (src/decoder/jpeg2000/ext.rs:48-74): the octets copied to the library's buffer (their number is the
returned value) and the new state.  `null`: the library passed no buffer. -/
def SliceWithOffset.read (s : SliceWithOffset) (null : Bool) (n : Nat) : Outcome Empty (List UInt8 × SliceWithOffset) :=
  if null then .ok ([], s)
  else if s.buf.length < s.offset then .panic   -- `len - offset`
  else
    let bytesRead := min (s.buf.length - s.offset) n
    -- `&buf[offset..offset + bytes_read]`
    if s.offset + bytesRead ≤ s.buf.length then
      .ok ((s.buf.drop s.offset).take bytesRead, { s with offset := s.offset + bytesRead })
    else .panic

/-- A program of the library over the stream. -/
inductive OpjProg (α : Type) where
  | done (a : α)
  | read (null : Bool) (n : Nat) (k : List UInt8 → OpjProg α)

/-- Running a program of the library over the stream. -/
def OpjProg.run {α : Type} : OpjProg α → SliceWithOffset → Outcome Empty (α × SliceWithOffset)
  | .done a, s => .ok (a, s)
  | .read null n k, s =>
    match s.read null n with
    | .ok (bytes, s') => (k bytes).run s'
    | .err e => nomatch e
    | .panic => .panic

/-- `opj_image_t` as far as used: `x1 - x0`, `y1 - y0`, the factor of the first component, the data of the components. -/
structure OpjImage where
  x0 : Nat
  x1 : Nat
  y0 : Nat
  y1 : Nat
  factor : Nat
  comps : List (List Int)
deriving DecidableEq, Repr

/-- What the library does: creation, setup, header and body; `none` is a failure of the call. -/
structure OpjLib where
  create : Bool
  setup : Bool
  header : OpjProg Bool
  body : OpjProg (Option OpjImage)

/-- `value_for_discard_level` (src/decoder/jpeg2000/ext.rs:155-164). -/
def valueForDiscardLevel (u d : Nat) : Outcome Jpeg2000Error Nat :=
  if d ≥ 32 then .panic   -- `1 << discard_level` in `u32`
  else
    let div := 2 ^ d
    let quot := u / div
    let rem := u % div
    if rem > 0 then .ok (quot + 1) else .ok quot

/-- `decode_jp2` (src/decoder/jpeg2000.rs:50-88).  Reading more elements than the component holds (`from_raw_parts`) is
undefined behaviour; here it is a panic.  No component at all makes `factor` dereference a null pointer: same. -/
def decodeJp2 (lib : OpjLib) (sect7 : List UInt8) : Outcome Jpeg2000Error (List Int) :=
  if ¬ lib.create then .err .decoderSetupError
  else if ¬ lib.setup then .err .decoderSetupError
  else
    match lib.header.run (SliceWithOffset.ofBytes sect7) with
    | .panic => .panic
    | .err e => nomatch e
    | .ok (false, _) => .err .mainHeaderReadError
    | .ok (true, s) =>
      match lib.body.run s with
      | .panic => .panic
      | .err e => nomatch e
      | .ok (none, _) => .err .bodyReadError
      | .ok (some image, _) =>
        if image.x1 < image.x0 ∨ image.y1 < image.y0 ∨ image.comps = [] then .panic else do
        let width ← valueForDiscardLevel (image.x1 - image.x0) image.factor
        let height ← valueForDiscardLevel (image.y1 - image.y0) image.factor
        match image.comps with
        | [gray] =>
          let n ← checkU32 (width * height)
          if gray.length < n then .panic else .ok (gray.take n)
        | _ => .err .notSupported

/-- The JPEG 2000 part of the codecs with the library as parameter. -/
def Codecs.ofOpj {F : Type} (ops : FloatOps F) (png : List UInt8 → Option (List UInt8)) (lib : OpjLib) : Codecs F :=
  ⟨ops, png, decodeJp2 lib⟩

end Grib.Model
