import Verif.Model.Parser
import Verif.Spec.Bits

/-! # Specification: what the octets of a file say

Statements about octet positions only; `SectionInfo` and `Indicator` are the data types shared with the model. -/

namespace Grib.Spec

open Grib.Model

/-- The `n` octets from position `p` exist and are `bs`. -/
def Octets (data : List UInt8) (p : Nat) (bs : List UInt8) : Prop :=
  p + bs.length ≤ data.length ∧ (data.drop p).take bs.length = bs

/-- The four octets "GRIB" stand at `p`, with (at least) 16 octets from there to the end. -/
def MagicAt (data : List UInt8) (p : Nat) : Prop :=
  Octets data p [0x47, 0x52, 0x49, 0x42] ∧ p + 16 ≤ data.length

instance (data : List UInt8) (p : Nat) (bs : List UInt8) : Decidable (Octets data p bs) :=
  inferInstanceAs (Decidable (_ ∧ _))

instance (data : List UInt8) (p : Nat) : Decidable (MagicAt data p) := inferInstanceAs (Decidable (_ ∧ _))

/-- `p` is the first position at or after `from` where a message starts. -/
def FirstMagic (data : List UInt8) (start p : Nat) : Prop :=
  start ≤ p ∧ MagicAt data p ∧ ∀ q, start ≤ q → q < p → ¬ MagicAt data q

/-- The octet at `p` (0 beyond the end). -/
def octet (data : List UInt8) (p : Nat) : Nat := (data.getD p 0).toNat

/-- The big-endian number in the `n` octets from `p`. -/
def number (data : List UInt8) (p n : Nat) : Nat :=
  (List.range n).foldl (fun acc k => acc * 256 + octet data (p + k)) 0

/-- The number in octets `first` to `last` of the section that starts at `p`, counted from 1 as in the WMO manual. -/
def field (data : List UInt8) (p first last : Nat) : Nat := number data (p + (first - 1)) (last + 1 - first)

/-- The signed (sign and magnitude) number in octets `first` to `last` of the section that starts at `p`. -/
def signedField (data : List UInt8) (p first last : Nat) : Int :=
  signMagnitude ((data.drop (p + (first - 1))).take (last + 1 - first))

/-- The octets after the header of a section that starts at `p` with `size` octets. -/
def payloadAt (data : List UInt8) (p size : Nat) : List UInt8 := (data.drop (p + 5)).take (size - 5)

/-- Fixed part of the payload of a section (octets that must be present). -/
def minPayload : Nat → Nat
  | 1 => 16
  | 3 => 9
  | 4 => 4
  | 5 => 6
  | 6 => 1
  | _ => 0

/-- What a section with number `n`, starting at `p` with `size` octets, holds according to the octets. -/
def BodyAt (data : List UInt8) (p size : Nat) : Nat → Option SectionBody → Prop
  | 0, b => b = some (.section0 ⟨octet data (p + 6), number data (p + 8) 8⟩)
  | 1, b => b = some (.section1 ((data.drop (p + 5)).take (size - 5)))
  | 2, b => b = some (.section2 ((data.drop (p + 5)).take (size - 5)))
  | 3, b => b = some (.section3 ((data.drop (p + 5)).take (size - 5)))
  | 4, b => b = some (.section4 ((data.drop (p + 5)).take (size - 5)))
  | 5, b => b = some (.section5 ((data.drop (p + 5)).take (size - 5)))
  | 6, b => b = some (.section6 (octet data (p + 5)))
  | 7, b => b = some .section7
  | _, b => b = none

/-- A reported section says what the octets of the file say at its place: section 0 starts with "GRIB" and edition 2,
section 8 is "7777", the others have their size and number in their header and are there in full (of section 7 only
the header). -/
structure Faithful (data : List UInt8) (s : SectionInfo) : Prop where
  body : BodyAt data s.offset s.size s.num s.body
  num : s.num ≤ 8
  sect0 : s.num = 0 → s.size = 16 ∧ MagicAt data s.offset ∧ octet data (s.offset + 7) = 2
  sect8 : s.num = 8 → s.size = 4 ∧ Octets data s.offset [0x37, 0x37, 0x37, 0x37]
  header : 1 ≤ s.num → s.num ≤ 7 → 5 ≤ s.size ∧ number data s.offset 4 = s.size ∧
    octet data (s.offset + 4) = s.num ∧ s.offset + 5 ≤ data.length
  whole : s.num ≤ 6 → s.offset + s.size ≤ data.length ∧ (s.num ≠ 0 → minPayload s.num ≤ s.size - 5)

end Grib.Spec

namespace Grib.Spec

open Grib.Model

/-- Walking through a file section by section.  State: the position `p` reached and the end `t` of the current message
(`p = t`: between messages).  Between messages the next section is the section 0 at the first message start, which
opens a message with the length stated in it; inside a message the next section starts where the previous one ended and
stays within the message, and it is a section 8 exactly when four octets are left. -/
inductive Walk (data : List UInt8) : (p t : Nat) → List SectionInfo → (p' t' : Nat) → Prop
  | nil (p t : Nat) : Walk data p t [] p t
  | message {p p' t' : Nat} {s : SectionInfo} {ss : List SectionInfo} :
      s.num = 0 → FirstMagic data p s.offset → s.size ≤ number data (s.offset + 8) 8 →
      Walk data (s.offset + s.size) (s.offset + number data (s.offset + 8) 8) ss p' t' →
      Walk data p p (s :: ss) p' t'
  | sect {p t p' t' : Nat} {s : SectionInfo} {ss : List SectionInfo} :
      p ≠ t → s.num ≠ 0 → s.offset = p → p + s.size ≤ t → (s.num = 8 ↔ p + 4 = t) →
      Walk data (p + s.size) t ss p' t' →
      Walk data p t (s :: ss) p' t'

/-- A length that makes no sense at the place the walk has reached (position `p`, message end `t`): between messages, a
total length below 16 or too large for an address; inside a message, a section that is shorter than its header, an
empty bitmap section, or a section that does not fit in the message. -/
def BadLength (data : List UInt8) (p t : Nat) : Prop :=
  if p = t then
    ∃ q, FirstMagic data p q ∧ octet data (q + 7) = 2 ∧
      (number data (q + 8) 8 < 16 ∨ 2 ^ 64 ≤ q + number data (q + 8) 8)
  else
    p + 5 ≤ data.length ∧
      (number data p 4 < 5 ∨ (octet data (p + 4) = 6 ∧ number data p 4 = 5) ∨ t < p + number data p 4)

/-- The lengths on which the reader stops with a panic (position `p`, message end `t`): between messages, a total length
below 16 or too large for an address in a message of edition 2; inside a message and not at its last four octets, a header
that is there and announces a section shorter than a header, or a bitmap section of five octets with one more octet in the
file, or more than what is left of the message -- the latter for a section 7, or another section that is in the file as
announced. -/
def Crash (data : List UInt8) (p t : Nat) : Prop :=
  if p = t then
    ∃ q, FirstMagic data p q ∧ octet data (q + 7) = 2 ∧
      (number data (q + 8) 8 < 16 ∨ 2 ^ 64 ≤ q + number data (q + 8) 8)
  else
    p + 4 ≠ t ∧ p + 5 ≤ data.length ∧
      (number data p 4 < 5 ∨
       (octet data (p + 4) = 6 ∧ number data p 4 = 5 ∧ p + 6 ≤ data.length) ∨
       (t < p + number data p 4 ∧
        (octet data (p + 4) = 7 ∨
         (1 ≤ octet data (p + 4) ∧ octet data (p + 4) ≤ 6 ∧ p + number data p 4 ≤ data.length ∧
          minPayload (octet data (p + 4)) ≤ number data p 4 - 5))))

/-- A section 0 whose message ends at a position that fits 64 bits. -/
def Addressable (data : List UInt8) (s : SectionInfo) : Prop :=
  s.num = 0 → s.offset + number data (s.offset + 8) 8 < 2 ^ 64

end Grib.Spec
