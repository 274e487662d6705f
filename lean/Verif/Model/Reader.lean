import Verif.Model.Sections

/-! # Model of `src/reader.rs` over an abstract `Read + Seek`

The underlying reader is an octet list with a cursor and a schedule of I/O events.  Every `read` and `seek` consumes one
event: deliver everything asked for (as far as the data goes), deliver at most `n+1` octets (a short read, which
`std::io::Read::read` permits at any time and `BufReader` produces at its buffer boundaries), or fail.  An empty
schedule means "always full", which is `std::io::Cursor`. -/

namespace Grib.Model

inductive IoEv where
  | full
  | short (n : Nat)
  | fail
deriving DecidableEq, Repr

/-- The underlying reader: contents, position, and what the coming calls will do. -/
structure Rdr where
  data : List UInt8
  pos : Nat := 0
  evs : List IoEv := []
deriving DecidableEq, Repr

/-- A fallible operation on the reader. -/
def RM (α : Type) : Type := Rdr → Outcome ParseError α × Rdr

namespace RM

variable {α β : Type}

def bind (x : RM α) (f : α → RM β) : RM β := fun r =>
  match x r with
  | (.ok a, r') => f a r'
  | (.err e, r') => (.err e, r')
  | (.panic, r') => (.panic, r')

instance : Monad RM where
  pure a := fun r => (.ok a, r)
  bind := bind

/-- Lift a pure outcome. -/
def lift (x : Outcome ParseError α) : RM α := fun r => (x, r)

/-- Return an error. -/
def throw (e : ParseError) : RM α := fun r => (.err e, r)

/-- Panic. -/
def panic : RM α := fun r => (.panic, r)

end RM

/-- What one underlying `read` of at most `n` octets delivers when it does not fail. -/
def Rdr.deliver (r : Rdr) (n : Nat) (evs : List IoEv) : Outcome ParseError (List UInt8) × Rdr :=
  let chunk := (r.data.drop r.pos).take n
  (.ok chunk, { r with pos := r.pos + chunk.length, evs := evs })

/-- `Read::read(&mut buf[..n])` on the underlying reader (src/reader.rs:200-203).
`io::Error` is converted by `From<io::Error> for ParseError` (src/error.rs:94-98). -/
def rdRead (n : Nat) : RM (List UInt8) := fun r =>
  match r.evs with
  | [] => r.deliver n []
  | .full :: es => r.deliver n es
  | .short k :: es => r.deliver (min n (k + 1)) es
  | .fail :: es => (.err (.readError .io), { r with evs := es })

/-- The loop of `Read::read_exact`: keep reading until `n` octets arrived; a read of zero octets is an
unexpected end of file.  `fuel` bounds the number of reads; each one delivers an octet, so `n` reads suffice. -/
def rdReadExactLoop : (fuel n : Nat) → RM (List UInt8)
  | 0, _ => pure []
  | fuel + 1, n =>
    if n = 0 then pure [] else do
      let chunk ← rdRead n
      if chunk.length = 0 then RM.throw (.readError .unexpectedEof) else do
        let rest ← rdReadExactLoop fuel (n - chunk.length)
        pure (chunk ++ rest)

/-- `Read::read_exact` (src/reader.rs:205-207 delegates to the underlying reader).
Simplification: `ErrorKind::Interrupted`, on which std retries, is not distinguished from a failure. -/
def rdReadExact (n : Nat) : RM (List UInt8) := rdReadExactLoop n n

/-- Common part of seeks: consume an event, fail or move. -/
def rdSeekTo (target : Int) : RM Unit := fun r =>
  match r.evs with
  | .fail :: es => (.err (.readError .io), { r with evs := es })
  | evs =>
    if target < 0 then (.err (.readError .io), { r with evs := evs.tail })
    else (.ok (), { r with pos := target.toNat, evs := evs.tail })

/-- `Seek::seek(SeekFrom::Start(p))` (src/reader.rs:210-214). -/
def rdSeekStart (p : Nat) : RM Unit := rdSeekTo p

/-- `Seek::seek(SeekFrom::Current(d))` (src/reader.rs:210-214). -/
def rdSeekCur (d : Int) : RM Unit := fun r => rdSeekTo (r.pos + d) r

/-- `Seek::stream_position()`, i.e. `seek(SeekFrom::Current(0))`. -/
def rdPos : RM Nat := fun r =>
  match rdSeekCur 0 r with
  | (.ok (), r') => (.ok r'.pos, r')
  | (.err e, r') => (.err e, r')
  | (.panic, r') => (.panic, r')

/-- `SECT0_IS_MAGIC` (src/reader.rs:5). -/
def magic0 : List UInt8 := [0x47, 0x52, 0x49, 0x42]   -- "GRIB"

/-- `SECT8_ES_MAGIC` (src/reader.rs:9). -/
def magic8 : List UInt8 := [0x37, 0x37, 0x37, 0x37]   -- "7777"

/-- The `for pos in 0..next_offset` loop of `read_sect0` (src/reader.rs:241-242): first position of the
magic octets among those that leave 16 octets in the block. -/
def findMagic (buf : List UInt8) : Option Nat :=
  (List.range (buf.length - 16 + 1)).find? fun pos => decide ((buf.drop pos).take 4 = magic0)

/-- The `loop` of `read_sect0` (src/reader.rs:235-254).  `fuel` bounds the number of blocks read (the value used by
`readSect0` is always enough, proved in `Lemmas/Reader.lean`); running out of it is `panic`. -/
def readSect0Loop : (fuel offset : Nat) → RM (Option (Nat × Indicator))
  | 0, _ => RM.panic
  | fuel + 1, offset => do
    let buf ← rdRead 4096
    let size := buf.length
    if size < 16 then pure none else do
      let nextOffset := size - 16 + 1
      match findMagic buf with
      | some pos => do
        rdSeekCur (((pos + 16 : Nat) : Int) - (size : Int))
        let indicator ← RM.lift (Indicator.fromSlice ((buf.drop pos).take 16))
        pure (some (offset + pos, indicator))
      | none => do
        rdSeekCur ((nextOffset : Int) - (size : Int))
        readSect0Loop fuel (offset + nextOffset)

/-- `SeekableGrib2Reader::read_sect0` (src/reader.rs:231-255). -/
def readSect0 : RM (Option (Nat × Indicator)) := fun r =>
  readSect0Loop (r.data.length - r.pos + 1) 0 r

/-- `SeekableGrib2Reader::read_sect8` (src/reader.rs:257-267) with `check_size!` (217-229). -/
def readSect8 : RM (Option Unit) := do
  let buf ← rdRead 4
  if buf.length = 0 then pure none
  else if buf.length ≠ 4 then RM.throw (.readError .unexpectedEof)
  else if buf ≠ magic8 then RM.throw .endSectionMismatch
  else pure (some ())

/-- `SeekableGrib2Reader::read_sect_header` (src/reader.rs:269-278) with `check_size!` (217-229).
Result: section size and number. -/
def readSectHeader : RM (Option (Nat × Nat)) := do
  let buf ← rdRead 5
  if buf.length = 0 then pure none
  else if buf.length ≠ 5 then RM.throw (.readError .unexpectedEof)
  else
    let size ← RM.lift (Outcome.ofOption (readBE? buf 0 4))
    let num ← RM.lift (Outcome.ofOption (buf[4]?))
    pure (some (size, num.toNat))

/-- `SeekableGrib2Reader::read_sect6_payload` (src/reader.rs:318-331).  `body_size - 1` underflows (panic) when
`body_size` is 0, after one octet has been read. -/
def readSect6Payload (bodySize : Nat) : RM SectionBody := do
  let buf ← rdReadExact 1
  if bodySize < 1 then RM.panic else do
    let lenExtra := bodySize - 1
    if lenExtra > 0 then do
      let _ ← rdReadExact lenExtra
      pure (.section6 (be buf))
    else
      pure (.section6 (be buf))

/-- `SeekableGrib2Reader::skip_sect7_payload` (src/reader.rs:333-337): seeks without reading. -/
def skipSect7Payload (bodySize : Nat) : RM SectionBody := do
  rdSeekCur (bodySize : Int)
  pure .section7

/-- `SeekableGrib2Reader::read_sect_payload` (src/reader.rs:280-305).
`size - SECT_HEADER_SIZE` underflows (panic) when `size < 5`. -/
def readSectPayload (size num : Nat) : RM SectionBody :=
  if size < 5 then RM.panic else
  let bodySize := size - 5
  match num with
  | 1 => do
    let p ← rdReadExact bodySize
    let p ← RM.lift (checkPayload 16 p)
    pure (.section1 p)
  | 2 => do
    let p ← rdReadExact bodySize
    pure (.section2 p)
  | 3 => do
    let p ← rdReadExact bodySize
    let p ← RM.lift (checkPayload 9 p)
    pure (.section3 p)
  | 4 => do
    let p ← rdReadExact bodySize
    let p ← RM.lift (checkPayload 4 p)
    pure (.section4 p)
  | 5 => do
    let p ← rdReadExact bodySize
    let p ← RM.lift (checkPayload 6 p)
    pure (.section5 p)
  | 6 => readSect6Payload bodySize
  | 7 => skipSect7Payload bodySize
  | n => RM.throw (.unknownSectionNumber n)

/-- `SeekableGrib2Reader::read_sect_payload_as_slice` (src/reader.rs:307-316): absolute seek, then read exactly.
`sect.size - 5` underflows (panic) when the section is shorter than its header (section 8). -/
def readSectPayloadAsSlice (sect : SectionInfo) : RM (List UInt8) := do
  rdSeekStart (sect.offset + 5)
  if sect.size < 5 then RM.panic else rdReadExact (sect.size - 5)

/-- `Grib2SectionStream` (src/reader.rs:39-43). -/
structure SectStream where
  reader : Rdr
  wholeSize : Nat := 0
  restSize : Nat := 0
deriving DecidableEq, Repr

/-- `Grib2SectionStream::new` (src/reader.rs:60-66). -/
def SectStream.new (r : Rdr) : SectStream := { reader := r }

/-- `Grib2SectionStream::reset_pos` (src/reader.rs:110-114) with the error wrapping of lines 79-88: the initial
position is taken over when `whole_size` still has its initial value 0. -/
def SectStream.resetPos (s : SectStream) : Outcome ParseError Unit × SectStream :=
  if s.wholeSize = 0 then
    match rdPos s.reader with
    | (.ok p, r') => (.ok (), { s with reader := r', wholeSize := p })
    | (.err _, r') => (.err (.readError .resetPos), { s with reader := r' })
    | (.panic, r') => (.panic, { s with reader := r' })
  else (.ok (), s)

/-- `Grib2SectionStream::next_sect0` (src/reader.rs:78-108).  Panics: `usize` overflow of `whole_size`, underflow of
`message_size - 16`.  (In the code `whole_size` is updated before the underflow; after a panic no state is observed.) -/
def SectStream.nextSect0 (s : SectStream) : Outcome ParseError (Option SectionInfo) × SectStream :=
  match s.resetPos with
  | (.err e, s1) => (.err e, s1)
  | (.panic, s1) => (.panic, s1)
  | (.ok (), s1) =>
    match readSect0 s1.reader with
    | (.err e, r') => (.err e, { s1 with reader := r' })
    | (.panic, r') => (.panic, { s1 with reader := r' })
    | (.ok none, r') => (.ok none, { s1 with reader := r' })
    | (.ok (some (offset, indicator)), r') =>
      let start := s1.wholeSize + offset
      let messageSize := indicator.totalLength
      if start + messageSize ≥ USIZE ∨ messageSize < 16 then
        (.panic, { s1 with reader := r' })
      else
        (.ok (some ⟨0, start, 16, some (.section0 indicator)⟩),
          ⟨r', start + messageSize, messageSize - 16⟩)

/-- `Grib2SectionStream::next_sect8` (src/reader.rs:117-129); called when `rest_size` is 4. -/
def SectStream.nextSect8 (s : SectStream) : Outcome ParseError (Option SectionInfo) × SectStream :=
  match readSect8 s.reader with
  | (.err e, r') => (.err e, { s with reader := r' })
  | (.panic, r') => (.panic, { s with reader := r' })
  | (.ok none, r') => (.ok none, { s with reader := r' })
  | (.ok (some ()), r') =>
    (.ok (some ⟨8, s.wholeSize - s.restSize, 4, none⟩), { s with reader := r', restSize := s.restSize - 4 })

/-- `Grib2SectionStream::next_sect` (src/reader.rs:132-154).  `self.rest_size -= size` underflows (panic) when the section
is larger than what is left of the message. -/
def SectStream.nextSect (s : SectStream) : Outcome ParseError (Option SectionInfo) × SectStream :=
  match readSectHeader s.reader with
  | (.err e, r') => (.err e, { s with reader := r' })
  | (.panic, r') => (.panic, { s with reader := r' })
  | (.ok none, r') => (.ok none, { s with reader := r' })
  | (.ok (some (size, num)), r') =>
    let offset := s.wholeSize - s.restSize
    match readSectPayload size num r' with
    | (.err e, r'') => (.err e, { s with reader := r'' })
    | (.panic, r'') => (.panic, { s with reader := r'' })
    | (.ok body, r'') =>
      if s.restSize < size then (.panic, { s with reader := r'' })
      else (.ok (some ⟨num, offset, size, some body⟩), { s with reader := r'', restSize := s.restSize - size })

/-- `Iterator::next` of `Grib2SectionStream` (src/reader.rs:163-169).
`ok none` is `None`, `ok (some s)` is `Some(Ok(s))`, `err e` is `Some(Err(e))`. -/
def SectStream.next (s : SectStream) : Outcome ParseError (Option SectionInfo) × SectStream :=
  if s.restSize = 0 then s.nextSect0
  else if s.restSize = 4 then s.nextSect8
  else s.nextSect

/-- One item of a section stream: `ok`/`err` as yielded, `panic` if pulling it panics. -/
abbrev Item := Outcome ParseError SectionInfo

/-- The items of a section stream up to and including the first error or panic, and the stream reached.
All consumers in the crate stop at the first error.  `fuel` bounds the number of calls; running out of it is reported
as a trailing `panic` (`SectStream.collect` gives enough, see `Lemmas/Reader.lean`). -/
def SectStream.collectN : (fuel : Nat) → SectStream → List Item × SectStream
  | 0, s => ([.panic], s)
  | fuel + 1, s =>
    match s.next with
    | (.ok none, s') => ([], s')
    | (.ok (some sect), s') =>
      let (items, s'') := SectStream.collectN fuel s'
      (.ok sect :: items, s'')
    | (.err e, s') => ([.err e], s')
    | (.panic, s') => ([.panic], s')

/-- All items of a section stream (every yielded section consumes at least four octets of the data, so the number of
calls is bounded by the data length plus one). -/
def SectStream.collect (s : SectStream) : List Item × SectStream :=
  s.collectN (s.reader.data.length + 2)

end Grib.Model
