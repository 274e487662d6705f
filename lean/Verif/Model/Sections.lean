import Verif.Prelude
import Verif.Model.Helpers

/-! # Model of `src/datatypes/sections.rs` (section headers) and of the `SectionInfo` type of `src/context.rs` -/

namespace Grib.Model

/-- Errors of `src/error.rs:50-64` (`ParseError`) and 106-119 (`BuildError`).  Simplification: message texts of
`ReadError` are replaced by a tag saying where they come from. -/
inductive ReadErrorKind where
  | unexpectedEof                 -- "failed to fill whole buffer"
  | io                            -- any failure of the underlying reader
  | resetPos                      -- "resetting the initial position failed: .."
  | sectionSizeTooSmall (n : Nat) -- BuildError::SectionSizeTooSmall
deriving DecidableEq, Repr

inductive ParseError where
  | readError (k : ReadErrorKind)
  | gribVersionMismatch (v : Nat)
  | unknownSectionNumber (n : Nat)
  | endSectionMismatch
  | unexpectedEndOfData (pos : Nat)
  | invalidSectionOrder (pos : Nat)
  | noGridDefinition (pos : Nat)
deriving DecidableEq, Repr

/-- `Indicator` (src/datatypes/sections.rs:17-22). -/
structure Indicator where
  discipline : Nat
  totalLength : Nat
deriving DecidableEq, Repr

/-- `Indicator::from_slice` (src/datatypes/sections.rs:25-38).  `panic`: slice shorter than 16 octets. -/
def Indicator.fromSlice (s : List UInt8) : Outcome ParseError Indicator := do
  let discipline ← Outcome.ofOption s[6]?
  let version ← Outcome.ofOption s[7]?
  if version.toNat ≠ 2 then
    .err (.gribVersionMismatch version.toNat)
  else
    let totalLength ← Outcome.ofOption (readBE? s 8 8)
    .ok ⟨discipline.toNat, totalLength⟩

/-- `SectionBody` (src/context.rs:45-54).  The bodies of sections 1 to 5 are their payload octets
(`Identification`, `LocalUse`, `GridDefinition`, `ProdDefinition`, `ReprDefinition`); section 6 keeps the
bitmap indicator only (`BitMap`, src/datatypes/sections.rs). -/
inductive SectionBody where
  | section0 (i : Indicator)
  | section1 (payload : List UInt8)
  | section2 (payload : List UInt8)
  | section3 (payload : List UInt8)
  | section4 (payload : List UInt8)
  | section5 (payload : List UInt8)
  | section6 (bitmapIndicator : Nat)
  | section7
deriving DecidableEq, Repr

/-- `SectionInfo` (src/context.rs:20-26). -/
structure SectionInfo where
  num : Nat
  offset : Nat
  size : Nat
  body : Option SectionBody
deriving DecidableEq, Repr

/-- `SectionInfo::default()` (derive, src/context.rs:20). -/
def SectionInfo.default : SectionInfo := ⟨0, 0, 0, none⟩

/-- `SectionInfo::new_8` (src/context.rs:34-41). -/
def SectionInfo.new8 (offset : Nat) : SectionInfo := ⟨8, offset, 4, none⟩

/-- `Identification/GridDefinition/ProdDefinition/ReprDefinition::from_payload`
(src/datatypes/sections.rs:46-53, 162-169, 318-325, 505-512): the payload is kept as is when it has at least `min` octets. -/
def checkPayload (min : Nat) (payload : List UInt8) : Outcome ParseError (List UInt8) :=
  if payload.length < min then .err (.readError (.sectionSizeTooSmall payload.length)) else .ok payload

end Grib.Model
