import Verif.Model.Decoder

/-! # Model of a release build: reading and opening

The rest of the model has the arithmetic of a debug build: every overflow is a panic.  `[profile.release]` in `Cargo.toml`
(lines 50-53) leaves `overflow-checks` at its default, so that in a release build additions, subtractions and
multiplications wrap around, and the distance of a shift is taken modulo the number of bits.  This module and
`Model/ReleaseDecode.lean` model those functions again in which an overflow can happen; the
functions they call that have no overflow are those of the debug model.  What panics in a release build: an index or slice
out of range, `unwrap`, `unimplemented!`, a `RefCell` borrowed twice, and the allocation of more than `isize::MAX` octets
(`capacity overflow`). -/

namespace Grib.Model.Rel

open Grib.Model

/-- `a - b` in `usize`, wrapping. -/
def usub (a b : Nat) : Nat := if b ≤ a then a - b else a + USIZE - b

/-- `a + b` in `usize`, wrapping. -/
def uadd (a b : Nat) : Nat := (a + b) % USIZE

/-- `n as i64` of a `usize`. -/
def asI64 (n : Nat) : Int := if n < 2 ^ 63 then (n : Int) else (n : Int) - (USIZE : Int)

/-- `let mut buf = vec![0; n]; self.read_exact(&mut buf)`: the allocation panics for more than `isize::MAX` octets. -/
def allocReadExact (n : Nat) : RM (List UInt8) := if n ≥ 2 ^ 63 then RM.panic else rdReadExact n

/-- `SeekableGrib2Reader::read_sect6_payload` (src/reader.rs:318-331). -/
def readSect6Payload (bodySize : Nat) : RM SectionBody := do
  let buf ← rdReadExact 1
  let lenExtra := usub bodySize 1
  if lenExtra > 0 then do
    let _ ← allocReadExact lenExtra
    pure (.section6 (be buf))
  else
    pure (.section6 (be buf))

/-- `SeekableGrib2Reader::skip_sect7_payload` (src/reader.rs:333-337): `size as i64` is negative for a wrapped size, so
that the reader goes back. -/
def skipSect7Payload (bodySize : Nat) : RM SectionBody := do
  rdSeekCur (asI64 bodySize)
  pure .section7

/-- `SeekableGrib2Reader::read_sect_payload` (src/reader.rs:280-305). -/
def readSectPayload (size num : Nat) : RM SectionBody :=
  let bodySize := usub size 5
  match num with
  | 1 => do
    let p ← allocReadExact bodySize
    let p ← RM.lift (checkPayload 16 p)
    pure (.section1 p)
  | 2 => do
    let p ← allocReadExact bodySize
    pure (.section2 p)
  | 3 => do
    let p ← allocReadExact bodySize
    let p ← RM.lift (checkPayload 9 p)
    pure (.section3 p)
  | 4 => do
    let p ← allocReadExact bodySize
    let p ← RM.lift (checkPayload 4 p)
    pure (.section4 p)
  | 5 => do
    let p ← allocReadExact bodySize
    let p ← RM.lift (checkPayload 6 p)
    pure (.section5 p)
  | 6 => readSect6Payload bodySize
  | 7 => skipSect7Payload bodySize
  | n => RM.throw (.unknownSectionNumber n)

/-- `SeekableGrib2Reader::read_sect_payload_as_slice` (src/reader.rs:307-316). -/
def readSectPayloadAsSlice (sect : SectionInfo) : RM (List UInt8) := do
  rdSeekStart (uadd sect.offset 5)
  allocReadExact (usub sect.size 5)

/-- `Grib2SectionStream::next_sect0` (src/reader.rs:78-108). -/
def nextSect0 (s : SectStream) : Outcome ParseError (Option SectionInfo) × SectStream :=
  match s.resetPos with
  | (.err e, s1) => (.err e, s1)
  | (.panic, s1) => (.panic, s1)
  | (.ok (), s1) =>
    match readSect0 s1.reader with
    | (.err e, r') => (.err e, { s1 with reader := r' })
    | (.panic, r') => (.panic, { s1 with reader := r' })
    | (.ok none, r') => (.ok none, { s1 with reader := r' })
    | (.ok (some (offset, indicator)), r') =>
      let start := uadd s1.wholeSize offset
      let messageSize := indicator.totalLength
      (.ok (some ⟨0, start, 16, some (.section0 indicator)⟩),
        ⟨r', uadd start messageSize, usub messageSize 16⟩)

/-- `Grib2SectionStream::next_sect8` (src/reader.rs:117-129); called when `rest_size` is 4. -/
def nextSect8 (s : SectStream) : Outcome ParseError (Option SectionInfo) × SectStream :=
  match readSect8 s.reader with
  | (.err e, r') => (.err e, { s with reader := r' })
  | (.panic, r') => (.panic, { s with reader := r' })
  | (.ok none, r') => (.ok none, { s with reader := r' })
  | (.ok (some ()), r') =>
    (.ok (some ⟨8, usub s.wholeSize s.restSize, 4, none⟩), { s with reader := r', restSize := usub s.restSize 4 })

/-- `Grib2SectionStream::next_sect` (src/reader.rs:132-154). -/
def nextSect (s : SectStream) : Outcome ParseError (Option SectionInfo) × SectStream :=
  match readSectHeader s.reader with
  | (.err e, r') => (.err e, { s with reader := r' })
  | (.panic, r') => (.panic, { s with reader := r' })
  | (.ok none, r') => (.ok none, { s with reader := r' })
  | (.ok (some (size, num)), r') =>
    let offset := usub s.wholeSize s.restSize
    match readSectPayload size num r' with
    | (.err e, r'') => (.err e, { s with reader := r'' })
    | (.panic, r'') => (.panic, { s with reader := r'' })
    | (.ok body, r'') =>
      (.ok (some ⟨num, offset, size, some body⟩), { s with reader := r'', restSize := usub s.restSize size })

/-- `Iterator::next` of `Grib2SectionStream` (src/reader.rs:163-169). -/
def next (s : SectStream) : Outcome ParseError (Option SectionInfo) × SectStream :=
  if s.restSize = 0 then nextSect0 s
  else if s.restSize = 4 then nextSect8 s
  else nextSect s

/-- The items of a section stream up to and including the first error or panic, and the stream reached; `fuel` bounds the
number of calls, running out of it is a trailing `panic`. -/
def collectN : (fuel : Nat) → SectStream → List Item × SectStream
  | 0, s => ([.panic], s)
  | fuel + 1, s =>
    match next s with
    | (.ok none, s') => ([], s')
    | (.ok (some sect), s') =>
      let (items, s'') := collectN fuel s'
      (.ok sect :: items, s'')
    | (.err e, s') => ([.err e], s')
    | (.panic, s') => ([.panic], s')

/-- `Grib2::read` (src/context.rs:238-248) with `fuel` calls of the section stream. -/
def readN (fuel : Nat) (r : Rdr) : Outcome ParseError Grib2 :=
  let (items, s) := collectN fuel (SectStream.new r)
  let (subs, cache) := idxStreamItems items
  match collectResult subs with
  | .ok subs => .ok ⟨s.reader, cache, subs⟩
  | .err e => .err e
  | .panic => .panic

/-- `Grib2::read` (src/context.rs:238-248), reached through `from_reader` (src/context.rs:104-108).  The section stream need
not end (a section 7 of length 0 is read again and again), but opening stops at the second of two sections 7 in a row:
`C82_ends` shows that more calls than these do not change the result. -/
def read (r : Rdr) : Outcome ParseError Grib2 := readN (r.data.length + 2) r

end Grib.Model.Rel
