import Verif.Model.Context

/-! # Model of a build for 32-bit platforms: reading and opening

The rest of the model has 64-bit `usize`.  `demo/` is a program for WebAssembly, whose `usize` has 32 bits.  What differs in
the functions of opening: `total_length as usize` (an `u64`, src/reader.rs:96) and `pos as usize` (src/reader.rs:112) keep the
lowest 32 bits; sums overflow at `2^32`; and `vec![0; n]` panics (`capacity overflow`) for more than `isize::MAX = 2^31 - 1`
octets.  The arithmetic is that of a debug build.  Everything else is that of the 64-bit model: a section length is an `u32`
and fits.  Simplification: the counter of octets skipped in `read_sect0` (src/reader.rs:233, 253) is only checked when it is
added to the position (line 94); for data shorter than `2^32` octets it cannot overflow before. -/

namespace Grib.Model.N32

open Grib.Model

/-- `let mut buf = vec![0; n]; self.read_exact(&mut buf)` (src/reader.rs:312-313, 324-325, 340-341). -/
def allocReadExact (n : Nat) : RM (List UInt8) := if n ≥ 2 ^ 31 then RM.panic else rdReadExact n

/-- `SeekableGrib2Reader::read_sect6_payload` (src/reader.rs:318-331). -/
def readSect6Payload (bodySize : Nat) : RM SectionBody := do
  let buf ← rdReadExact 1
  if bodySize < 1 then RM.panic else do
    let lenExtra := bodySize - 1
    if lenExtra > 0 then do
      let _ ← allocReadExact lenExtra
      pure (.section6 (be buf))
    else
      pure (.section6 (be buf))

/-- `SeekableGrib2Reader::read_sect_payload` (src/reader.rs:280-305). -/
def readSectPayload (size num : Nat) : RM SectionBody :=
  if size < 5 then RM.panic else
  let bodySize := size - 5
  match num with
  | 1 => do
    let p ← allocReadExact bodySize
    let p ← RM.lift (checkPayload 16 p)
    pure (.section1 p)
  | 2 => do
    let p ← allocReadExact bodySize
    pure (.section2 p)
  | 3 => do
    let p ← allocReadExact bodySize
    let p ← RM.lift (checkPayload 9 p)
    pure (.section3 p)
  | 4 => do
    let p ← allocReadExact bodySize
    let p ← RM.lift (checkPayload 4 p)
    pure (.section4 p)
  | 5 => do
    let p ← allocReadExact bodySize
    let p ← RM.lift (checkPayload 6 p)
    pure (.section5 p)
  | 6 => readSect6Payload bodySize
  | 7 => skipSect7Payload bodySize
  | n => RM.throw (.unknownSectionNumber n)

/-- `SeekableGrib2Reader::read_sect_payload_as_slice` (src/reader.rs:307-316). -/
def readSectPayloadAsSlice (sect : SectionInfo) : RM (List UInt8) :=
  if sect.offset + 5 ≥ 2 ^ 32 then RM.panic else do
  rdSeekStart (sect.offset + 5)
  if sect.size < 5 then RM.panic else allocReadExact (sect.size - 5)

/-- `Grib2SectionStream::reset_pos` (src/reader.rs:110-114) with the error wrapping of lines 79-88. -/
def resetPos (s : SectStream) : Outcome ParseError Unit × SectStream :=
  if s.wholeSize = 0 then
    match rdPos s.reader with
    | (.ok p, r') => (.ok (), { s with reader := r', wholeSize := p % 2 ^ 32 })
    | (.err _, r') => (.err (.readError .resetPos), { s with reader := r' })
    | (.panic, r') => (.panic, { s with reader := r' })
  else (.ok (), s)

/-- `Grib2SectionStream::next_sect0` (src/reader.rs:78-108). -/
def nextSect0 (s : SectStream) : Outcome ParseError (Option SectionInfo) × SectStream :=
  match resetPos s with
  | (.err e, s1) => (.err e, s1)
  | (.panic, s1) => (.panic, s1)
  | (.ok (), s1) =>
    match readSect0 s1.reader with
    | (.err e, r') => (.err e, { s1 with reader := r' })
    | (.panic, r') => (.panic, { s1 with reader := r' })
    | (.ok none, r') => (.ok none, { s1 with reader := r' })
    | (.ok (some (offset, indicator)), r') =>
      let start := s1.wholeSize + offset
      let messageSize := indicator.totalLength % 2 ^ 32
      if start + messageSize ≥ 2 ^ 32 ∨ messageSize < 16 then
        (.panic, { s1 with reader := r' })
      else
        (.ok (some ⟨0, start, 16, some (.section0 indicator)⟩),
          ⟨r', start + messageSize, messageSize - 16⟩)

/-- `Grib2SectionStream::next_sect` (src/reader.rs:132-154). -/
def nextSect (s : SectStream) : Outcome ParseError (Option SectionInfo) × SectStream :=
  match readSectHeader s.reader with
  | (.err e, r') => (.err e, { s with reader := r' })
  | (.panic, r') => (.panic, { s with reader := r' })
  | (.ok none, r') => (.ok none, { s with reader := r' })
  | (.ok (some (size, num)), r') =>
    let offset := s.wholeSize - s.restSize
    match readSectPayload size num r' with
    | (.err e, r'') => (.err e, { s with reader := r'' })
    | (.panic, r'') => (.panic, { s with reader := r'' })
    | (.ok body, r'') =>
      if s.restSize < size then (.panic, { s with reader := r'' })
      else (.ok (some ⟨num, offset, size, some body⟩), { s with reader := r'', restSize := s.restSize - size })

/-- `Iterator::next` of `Grib2SectionStream` (src/reader.rs:163-169). -/
def next (s : SectStream) : Outcome ParseError (Option SectionInfo) × SectStream :=
  if s.restSize = 0 then nextSect0 s
  else if s.restSize = 4 then s.nextSect8
  else nextSect s

/-- The items of a section stream up to and including the first error or panic, and the stream reached; `fuel` bounds the
number of calls, running out of it is a trailing `panic` (`C88_ends`: it does not happen). -/
def collectN : (fuel : Nat) → SectStream → List Item × SectStream
  | 0, s => ([.panic], s)
  | fuel + 1, s =>
    match next s with
    | (.ok none, s') => ([], s')
    | (.ok (some sect), s') =>
      let (items, s'') := collectN fuel s'
      (.ok sect :: items, s'')
    | (.err e, s') => ([.err e], s')
    | (.panic, s') => ([.panic], s')

/-- `Grib2::read` (src/context.rs:238-248) with `fuel` calls of the section stream. -/
def readN (fuel : Nat) (r : Rdr) : Outcome ParseError Grib2 :=
  let (items, s) := collectN fuel (SectStream.new r)
  let (subs, cache) := idxStreamItems items
  match collectResult subs with
  | .ok subs => .ok ⟨s.reader, cache, subs⟩
  | .err e => .err e
  | .panic => .panic

/-- `Grib2::read` (src/context.rs:238-248). -/
def read (r : Rdr) : Outcome ParseError Grib2 := readN (r.data.length + 2) r

end Grib.Model.N32
