import Verif.Spec.File
import Verif.Spec.Grammar

/-! # Specification: writing a GRIB2 file

Abstract messages and the octets they are written as; where their sections are and what they hold. -/

namespace Grib.Spec

open Grib.Model

/-- `v` as `n` octets, big-endian. -/
def beBytes : (n v : Nat) → List UInt8
  | 0, _ => []
  | n + 1, v => beBytes n (v / 256) ++ [UInt8.ofNat (v % 256)]

/-- A section other than 0 and 8: length (4 octets), number, payload. -/
def sectBytes (num : Nat) (payload : List UInt8) : List UInt8 :=
  beBytes 4 (payload.length + 5) ++ [UInt8.ofNat num] ++ payload

/-- An abstract message: the payloads of its sections. -/
structure RawMessage where
  reserved : UInt8 × UInt8
  discipline : UInt8
  ident : List UInt8
  first : Group (List UInt8)
  rest : List (Group (List UInt8))
deriving DecidableEq, Repr

def RawMessage.groups (m : RawMessage) : List (Group (List UInt8)) := m.first :: m.rest

/-- The sections of a group with their numbers. -/
def rawGroup (g : Group (List UInt8)) : List (Nat × List UInt8) :=
  (g.loc.map fun p => (2, p)).toList ++ (g.grid.map fun p => (3, p)).toList ++
    [(4, g.prod), (5, g.repr), (6, g.bitmap), (7, g.data)]

/-- The sections 1 to 7 of a message with their numbers. -/
def RawMessage.raw (m : RawMessage) : List (Nat × List UInt8) := (1, m.ident) :: m.groups.flatMap rawGroup

def rawBytes (l : List (Nat × List UInt8)) : List UInt8 := l.flatMap fun x => sectBytes x.1 x.2

/-- Total length of a message in octets. -/
def RawMessage.total (m : RawMessage) : Nat := 16 + (rawBytes m.raw).length + 4

/-- The first 16 octets. -/
def RawMessage.head (m : RawMessage) : List UInt8 :=
  [0x47, 0x52, 0x49, 0x42, m.reserved.1, m.reserved.2, m.discipline, 2] ++ beBytes 8 m.total

/-- A message as octets. -/
def RawMessage.bytes (m : RawMessage) : List UInt8 :=
  m.head ++ rawBytes m.raw ++ [0x37, 0x37, 0x37, 0x37]

/-- A section is long enough for its fixed part and short enough for its length field. -/
def RawOk (x : Nat × List UInt8) : Prop := minPayload x.1 ≤ x.2.length ∧ x.2.length + 5 < 2 ^ 32

/-- A well-formed message: sections of sensible sizes; a local-use section is followed by a grid section; the first
group has a grid section. -/
structure RawMessage.Ok (m : RawMessage) : Prop where
  sects : ∀ x ∈ m.raw, RawOk x
  locGrid : ∀ g ∈ m.groups, g.loc.isSome → g.grid.isSome
  firstGrid : m.first.grid.isSome

/-- Octets without a message start. -/
def NoMagic (gap : List UInt8) : Prop := ∀ q, (gap.drop q).take 4 ≠ [0x47, 0x52, 0x49, 0x42]

/-- Messages, each preceded by a gap, as octets. -/
def messagesBytes (l : List (List UInt8 × RawMessage)) : List UInt8 := l.flatMap fun x => x.1 ++ x.2.bytes

/-! ## Where the sections are -/

/-- What a section holds. -/
def bodyOf (num : Nat) (payload : List UInt8) : Option SectionBody :=
  match num with
  | 1 => some (.section1 payload)
  | 2 => some (.section2 payload)
  | 3 => some (.section3 payload)
  | 4 => some (.section4 payload)
  | 5 => some (.section5 payload)
  | 6 => some (.section6 (payload.headD 0).toNat)
  | 7 => some .section7
  | _ => none

/-- A section written at `off`. -/
def place (off num : Nat) (payload : List UInt8) : SectionInfo := ⟨num, off, payload.length + 5, bodyOf num payload⟩

def optSize (p : Option (List UInt8)) : Nat := (p.map fun l => l.length + 5).getD 0

/-- The sections of a group written at `off`. -/
def Group.locate (off : Nat) (g : Group (List UInt8)) : Group SectionInfo :=
  let o3 := off + optSize g.loc
  let o4 := o3 + optSize g.grid
  let o5 := o4 + (g.prod.length + 5)
  let o6 := o5 + (g.repr.length + 5)
  let o7 := o6 + (g.bitmap.length + 5)
  { loc := g.loc.map (place off 2), grid := g.grid.map (place o3 3), prod := place o4 4 g.prod, repr := place o5 5 g.repr,
    bitmap := place o6 6 g.bitmap, data := place o7 7 g.data }

def locateGroups : (off : Nat) → List (Group (List UInt8)) → List (Group SectionInfo)
  | _, [] => []
  | off, g :: gs => g.locate off :: locateGroups (off + (rawBytes (rawGroup g)).length) gs

/-- The sections of a message written at `off`. -/
def RawMessage.locate (off : Nat) (m : RawMessage) : Message SectionInfo :=
  let oi := off + 16
  let og := oi + (m.ident.length + 5)
  let or := og + (rawBytes (rawGroup m.first)).length
  { indicator := ⟨0, off, 16, some (.section0 ⟨m.discipline.toNat, m.total⟩)⟩
    ident := place oi 1 m.ident
    first := m.first.locate og
    rest := locateGroups or m.rest
    fin := ⟨8, off + m.total - 4, 4, none⟩ }

/-- The sections of messages with gaps, the first gap starting at `off`. -/
def locateMessages : (off : Nat) → List (List UInt8 × RawMessage) → List (Message SectionInfo)
  | _, [] => []
  | off, x :: xs => x.2.locate (off + x.1.length) :: locateMessages (off + x.1.length + x.2.total) xs

end Grib.Spec
