import Verif.Model.Narrow

/-! # Model of a release build for 32-bit platforms: reading and opening

This is the configuration in which the demo is delivered: WebAssembly (`usize` has 32 bits, `Model/Narrow.lean`), optimised
(`[profile.release]` in `Cargo.toml`, lines 50-53: arithmetic wraps around, `Model/Release.lean`).  So sums and differences
of `usize` are taken modulo `2^32`; `vec![0; n]` still panics for more than `isize::MAX = 2^31 - 1` octets, and an index or
slice out of range still panics.  What has no overflow is that of the other models. -/

namespace Grib.Model.R32

open Grib.Model

/-- `a - b` in a 32-bit `usize`, wrapping. -/
def usub (a b : Nat) : Nat := if b ≤ a then a - b else a + 2 ^ 32 - b

/-- `a + b` in a 32-bit `usize`, wrapping. -/
def uadd (a b : Nat) : Nat := (a + b) % 2 ^ 32

/-- `SeekableGrib2Reader::read_sect6_payload` (src/reader.rs:318-331). -/
def readSect6Payload (bodySize : Nat) : RM SectionBody := do
  let buf ← rdReadExact 1
  let lenExtra := usub bodySize 1
  if lenExtra > 0 then do
    let _ ← N32.allocReadExact lenExtra
    pure (.section6 (be buf))
  else
    pure (.section6 (be buf))

/-- `SeekableGrib2Reader::skip_sect7_payload` (src/reader.rs:333-337): `size as i64` of a 32-bit `usize` is never negative, so
that a wrapped size takes the reader far ahead (unlike on 64 bits, where it takes it back). -/
def skipSect7Payload (bodySize : Nat) : RM SectionBody := do
  rdSeekCur bodySize
  pure .section7

/-- `SeekableGrib2Reader::read_sect_payload` (src/reader.rs:280-305). -/
def readSectPayload (size num : Nat) : RM SectionBody :=
  let bodySize := usub size 5
  match num with
  | 1 => do
    let p ← N32.allocReadExact bodySize
    let p ← RM.lift (checkPayload 16 p)
    pure (.section1 p)
  | 2 => do
    let p ← N32.allocReadExact bodySize
    pure (.section2 p)
  | 3 => do
    let p ← N32.allocReadExact bodySize
    let p ← RM.lift (checkPayload 9 p)
    pure (.section3 p)
  | 4 => do
    let p ← N32.allocReadExact bodySize
    let p ← RM.lift (checkPayload 4 p)
    pure (.section4 p)
  | 5 => do
    let p ← N32.allocReadExact bodySize
    let p ← RM.lift (checkPayload 6 p)
    pure (.section5 p)
  | 6 => readSect6Payload bodySize
  | 7 => skipSect7Payload bodySize
  | n => RM.throw (.unknownSectionNumber n)

/-- `SeekableGrib2Reader::read_sect_payload_as_slice` (src/reader.rs:307-316). -/
def readSectPayloadAsSlice (sect : SectionInfo) : RM (List UInt8) := do
  rdSeekStart (uadd sect.offset 5)
  N32.allocReadExact (usub sect.size 5)

/-- `Grib2SectionStream::next_sect0` (src/reader.rs:78-108). -/
def nextSect0 (s : SectStream) : Outcome ParseError (Option SectionInfo) × SectStream :=
  match N32.resetPos s with
  | (.err e, s1) => (.err e, s1)
  | (.panic, s1) => (.panic, s1)
  | (.ok (), s1) =>
    match readSect0 s1.reader with
    | (.err e, r') => (.err e, { s1 with reader := r' })
    | (.panic, r') => (.panic, { s1 with reader := r' })
    | (.ok none, r') => (.ok none, { s1 with reader := r' })
    | (.ok (some (offset, indicator)), r') =>
      let start := uadd s1.wholeSize offset
      let messageSize := indicator.totalLength % 2 ^ 32
      (.ok (some ⟨0, start, 16, some (.section0 indicator)⟩),
        ⟨r', uadd start messageSize, usub messageSize 16⟩)

/-- `Grib2SectionStream::next_sect8` (src/reader.rs:117-129); called when `rest_size` is 4. -/
def nextSect8 (s : SectStream) : Outcome ParseError (Option SectionInfo) × SectStream :=
  match readSect8 s.reader with
  | (.err e, r') => (.err e, { s with reader := r' })
  | (.panic, r') => (.panic, { s with reader := r' })
  | (.ok none, r') => (.ok none, { s with reader := r' })
  | (.ok (some ()), r') =>
    (.ok (some ⟨8, usub s.wholeSize s.restSize, 4, none⟩), { s with reader := r', restSize := usub s.restSize 4 })

/-- `Grib2SectionStream::next_sect` (src/reader.rs:132-154). -/
def nextSect (s : SectStream) : Outcome ParseError (Option SectionInfo) × SectStream :=
  match readSectHeader s.reader with
  | (.err e, r') => (.err e, { s with reader := r' })
  | (.panic, r') => (.panic, { s with reader := r' })
  | (.ok none, r') => (.ok none, { s with reader := r' })
  | (.ok (some (size, num)), r') =>
    let offset := usub s.wholeSize s.restSize
    match readSectPayload size num r' with
    | (.err e, r'') => (.err e, { s with reader := r'' })
    | (.panic, r'') => (.panic, { s with reader := r'' })
    | (.ok body, r'') =>
      (.ok (some ⟨num, offset, size, some body⟩), { s with reader := r'', restSize := usub s.restSize size })

/-- `Iterator::next` of `Grib2SectionStream` (src/reader.rs:163-169). -/
def next (s : SectStream) : Outcome ParseError (Option SectionInfo) × SectStream :=
  if s.restSize = 0 then nextSect0 s
  else if s.restSize = 4 then nextSect8 s
  else nextSect s

/-- The items of a section stream up to and including the first error or panic, and the stream reached; `fuel` bounds the
number of calls, running out of it is a trailing `panic` (`C93_ends`: it does not happen). -/
def collectN : (fuel : Nat) → SectStream → List Item × SectStream
  | 0, s => ([.panic], s)
  | fuel + 1, s =>
    match next s with
    | (.ok none, s') => ([], s')
    | (.ok (some sect), s') =>
      let (items, s'') := collectN fuel s'
      (.ok sect :: items, s'')
    | (.err e, s') => ([.err e], s')
    | (.panic, s') => ([.panic], s')

/-- `Grib2::read` (src/context.rs:238-248) with `fuel` calls of the section stream. -/
def readN (fuel : Nat) (r : Rdr) : Outcome ParseError Grib2 :=
  let (items, s) := collectN fuel (SectStream.new r)
  let (subs, cache) := idxStreamItems items
  match collectResult subs with
  | .ok subs => .ok ⟨s.reader, cache, subs⟩
  | .err e => .err e
  | .panic => .panic

/-- `Grib2::read` (src/context.rs:238-248). -/
def read (r : Rdr) : Outcome ParseError Grib2 := readN (r.data.length + 2) r

end Grib.Model.R32
