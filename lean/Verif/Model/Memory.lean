import Verif.Model.Context

/-! # Buffers requested while opening

`read_slice_without_offset_check` and `read_sect6_payload` (src/reader.rs) allocate a zeroed `Vec` of the size a section
header states before anything of the section is read.  The definitions of `Verif/Model/Reader.lean` do not show these
allocations; here the functions that make them, and those that call these, are written once more with the sizes of the
buffers requested as a further result.  `Verif/Lemmas/Memory.lean` proves that without that result they are the functions
of `Verif/Model/Reader.lean`.  Not counted: what is freed, the fixed block of 4096 octets on the stack, the vectors of
sections and submessages. -/

namespace Grib.Model.Mem

open Grib Grib.Model

/-- An operation on the reader and the sizes of the buffers it requests, in order. -/
def RMB (α : Type) : Type := Rdr → (Outcome ParseError α × Rdr) × List Nat

variable {α β : Type}

/-- One after the other. -/
def RMB.bind (x : RMB α) (f : α → RMB β) : RMB β := fun r =>
  match x r with
  | ((.ok a, r'), bs) => ((f a r').1, bs ++ (f a r').2)
  | ((.err e, r'), bs) => ((.err e, r'), bs)
  | ((.panic, r'), bs) => ((.panic, r'), bs)

instance : Monad RMB where
  pure a := fun r => ((.ok a, r), [])
  bind := RMB.bind

/-- An operation that requests no buffer. -/
def RMB.of (x : RM α) : RMB α := fun r => (x r, [])

/-- `vec![0; n]`. -/
def RMB.alloc (n : Nat) : RMB Unit := fun r => ((.ok (), r), [n])

/-- `read_slice_without_offset_check` (src/reader.rs:339-344): `vec![0; size]`, then `read_exact`. -/
def readSlice (n : Nat) : RMB (List UInt8) := do
  RMB.alloc n
  RMB.of (rdReadExact n)

/-- `SeekableGrib2Reader::read_sect6_payload` (src/reader.rs:318-331): the first octet goes to an array, what follows to
`vec![0; len_extra]`. -/
def readSect6Payload (bodySize : Nat) : RMB SectionBody := do
  let buf ← RMB.of (rdReadExact 1)
  if bodySize < 1 then RMB.of RM.panic else do
    let lenExtra := bodySize - 1
    if lenExtra > 0 then do
      let _ ← readSlice lenExtra
      pure (.section6 (be buf))
    else
      pure (.section6 (be buf))

/-- `SeekableGrib2Reader::read_sect_payload` (src/reader.rs:280-305). -/
def readSectPayload (size num : Nat) : RMB SectionBody :=
  if size < 5 then RMB.of RM.panic else
  let bodySize := size - 5
  match num with
  | 1 => do
    let p ← readSlice bodySize
    let p ← RMB.of (RM.lift (checkPayload 16 p))
    pure (.section1 p)
  | 2 => do
    let p ← readSlice bodySize
    pure (.section2 p)
  | 3 => do
    let p ← readSlice bodySize
    let p ← RMB.of (RM.lift (checkPayload 9 p))
    pure (.section3 p)
  | 4 => do
    let p ← readSlice bodySize
    let p ← RMB.of (RM.lift (checkPayload 4 p))
    pure (.section4 p)
  | 5 => do
    let p ← readSlice bodySize
    let p ← RMB.of (RM.lift (checkPayload 6 p))
    pure (.section5 p)
  | 6 => readSect6Payload bodySize
  | 7 => RMB.of (skipSect7Payload bodySize)
  | n => RMB.of (RM.throw (.unknownSectionNumber n))

/-- `Grib2SectionStream::next_sect` (src/reader.rs:132-154). -/
def nextSect (s : SectStream) : (Outcome ParseError (Option SectionInfo) × SectStream) × List Nat :=
  match readSectHeader s.reader with
  | (.err e, r') => ((.err e, { s with reader := r' }), [])
  | (.panic, r') => ((.panic, { s with reader := r' }), [])
  | (.ok none, r') => ((.ok none, { s with reader := r' }), [])
  | (.ok (some (size, num)), r') =>
    let offset := s.wholeSize - s.restSize
    match readSectPayload size num r' with
    | ((.err e, r''), bs) => ((.err e, { s with reader := r'' }), bs)
    | ((.panic, r''), bs) => ((.panic, { s with reader := r'' }), bs)
    | ((.ok body, r''), bs) =>
      if s.restSize < size then ((.panic, { s with reader := r'' }), bs)
      else ((.ok (some ⟨num, offset, size, some body⟩), { s with reader := r'', restSize := s.restSize - size }), bs)

/-- `Iterator::next` of `Grib2SectionStream` (src/reader.rs:163-169). -/
def next (s : SectStream) : (Outcome ParseError (Option SectionInfo) × SectStream) × List Nat :=
  if s.restSize = 0 then (s.nextSect0, [])
  else if s.restSize = 4 then (s.nextSect8, [])
  else nextSect s

/-- The items of a section stream up to and including the first error or panic, the stream reached, and the sizes of the
buffers requested meanwhile. -/
def collectN : (fuel : Nat) → SectStream → (List Item × SectStream) × List Nat
  | 0, s => (([.panic], s), [])
  | fuel + 1, s =>
    match next s with
    | ((.ok none, s'), bs) => (([], s'), bs)
    | ((.ok (some sect), s'), bs) =>
      let ((items, s''), bs') := collectN fuel s'
      ((.ok sect :: items, s''), bs ++ bs')
    | ((.err e, s'), bs) => (([.err e], s'), bs)
    | ((.panic, s'), bs) => (([.panic], s'), bs)

/-- `Grib2::read` (src/context.rs:236-247) and the sizes of the buffers requested by it.  As in `Model.Grib2.read` the whole section
stream is collected first; the code stops reading at the first error of the submessage stream, so that if opening fails it
requests a prefix of the buffers given here. -/
def Grib2.read (r : Rdr) : Outcome ParseError Grib2 × List Nat :=
  let ((items, s), bs) := collectN (r.data.length + 2) (SectStream.new r)
  let (subs, cache) := idxStreamItems items
  (match collectResult subs with
  | .ok subs => .ok ⟨s.reader, cache, subs⟩
  | .err e => .err e
  | .panic => .panic, bs)

end Grib.Model.Mem
