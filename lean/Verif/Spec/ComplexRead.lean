import Verif.Spec.Complex

/-! # Specification: complex packing as read, whatever the octets

As `Spec/Complex.lean`, but without any assumption of consistency: numbers of more than 32 bits are cut to their low 32 bits,
and `GroupOk` says exactly which groups stay within the machine integers and the data. -/

namespace Grib.Spec

open Grib.Model (DecodedValue)

/-- Fits a signed 32-bit integer. -/
def FitsI32 (v : Int) : Prop := -2 ^ 31 ≤ v ∧ v < 2 ^ 31

namespace Layout

variable (l : Layout)

/-- The reference of group `g` as read. -/
def readRef (g : Nat) : Nat := bitField l.data (8 * l.start + g * l.nbit) l.nbit % 2 ^ 32

/-- The width of group `g` as read. -/
def readWidth (g : Nat) : Nat :=
  l.p.widthRef + bitField l.data (8 * l.widthsAt + g * l.p.widthNbit) l.p.widthNbit % 2 ^ 32

/-- The length of group `g` as read. -/
def readLen (g : Nat) : Nat :=
  if g + 1 = l.p.ngroup then l.p.lenLast
  else l.p.lenRef + l.p.lenInc * (bitField l.data (8 * l.lensAt + g * l.p.lenNbit) l.p.lenNbit % 2 ^ 32)

/-- Bit at which the numbers of group `g` start. -/
def readAt (g : Nat) : Nat := 8 * l.dataAt + ((List.range g).map fun h => l.readWidth h * l.readLen h).sum

/-- Number `k` of group `g`. -/
def readStored (g k : Nat) : Nat := bitField l.data (l.readAt g + k * l.readWidth g) (l.readWidth g)

/-- Value `k` of group `g`. -/
def readValue (zMin : Int) (g k : Nat) : DecodedValue :=
  if l.readWidth g = 0 then (missing l.p.missing l.nbit (l.readRef g)).getD (.normal (l.readRef g + zMin))
  else (missing l.p.missing (l.readWidth g) (l.readStored g k)).getD (.normal (l.readStored g k + l.readRef g + zMin))

/-- The values of the first `n` groups. -/
def readValues (zMin : Int) (n : Nat) : List DecodedValue :=
  (List.range n).flatMap fun g => (List.range (l.readLen g)).map fun k => l.readValue zMin g k

/-- There is a group, the sizes in bits of the blocks of references, widths and lengths fit 32 bits, and the blocks are inside
the data. -/
structure HeaderOk : Prop where
  groups : 1 ≤ l.p.ngroup
  refsBits : l.p.ngroup * l.nbit + 7 < 2 ^ 32
  widthsBits : l.p.ngroup * l.p.widthNbit + 7 < 2 ^ 32
  lensBits : l.p.ngroup * l.p.lenNbit + 7 < 2 ^ 32
  inside : l.dataAt ≤ l.data.length

/-- Group `g` stays within the machine integers and the data: its length is below `2^32`, its width below 32, its reference
below `2^31`.  A constant group has references of at most 30 bits, and its value, unless missing, fits 32 bits.  The
numbers of any other group are inside the data, and unless missing, number plus reference, and with the minimum, fit. -/
structure GroupOk (zMin : Int) (g : Nat) : Prop where
  len : l.readLen g < 2 ^ 32
  width : l.readWidth g < 32
  ref : l.readRef g < 2 ^ 31
  constant : l.readWidth g = 0 → l.nbit ≤ 30 ∧
    (missing l.p.missing l.nbit (l.readRef g) = none → FitsI32 (l.readRef g + zMin))
  inside : l.readWidth g ≠ 0 → l.readAt g + l.readWidth g * l.readLen g ≤ 8 * l.data.length
  numbers : l.readWidth g ≠ 0 → ∀ k < l.readLen g, missing l.p.missing (l.readWidth g) (l.readStored g k) = none →
    l.readStored g k + l.readRef g < 2 ^ 31 ∧ FitsI32 (l.readStored g k + l.readRef g + zMin)

end Layout

/-! ## Undoing differences -/

/-- Values from first-order differences: the first point that is not missing is `first`, every other one is its
difference plus the previous one.  Missing points stay. -/
def undo1 (first : Int) : (prev : Option Int) → List DecodedValue → List DecodedValue
  | _, [] => []
  | none, .normal _ :: xs => .normal first :: undo1 first (some first) xs
  | some p, .normal d :: xs => .normal (d + p) :: undo1 first (some (d + p)) xs
  | prev, m :: xs => m :: undo1 first prev xs

/-- Values from second-order differences; `prev`: the previous values that are not missing, latest first. -/
def undo2 (first second : Int) : (prev : List Int) → List DecodedValue → List DecodedValue
  | _, [] => []
  | [], .normal _ :: xs => .normal first :: undo2 first second [first] xs
  | [p], .normal _ :: xs => .normal second :: undo2 first second [second, p] xs
  | p :: q :: _, .normal d :: xs => .normal (d + 2 * p - q) :: undo2 first second [d + 2 * p - q, p] xs
  | prev, m :: xs => m :: undo2 first second prev xs

/-- The computation of all these values stays within 32 bits. -/
def Fits1 (first : Int) : (prev : Option Int) → List DecodedValue → Prop
  | _, [] => True
  | none, .normal _ :: xs => Fits1 first (some first) xs
  | some p, .normal d :: xs => FitsI32 (d + p) ∧ Fits1 first (some (d + p)) xs
  | prev, _ :: xs => Fits1 first prev xs

/-- The same for second order: the double of the previous value, its sum with the difference, and the value. -/
def Fits2 (first second : Int) : (prev : List Int) → List DecodedValue → Prop
  | _, [] => True
  | [], .normal _ :: xs => Fits2 first second [first] xs
  | [p], .normal _ :: xs => Fits2 first second [second, p] xs
  | p :: q :: _, .normal d :: xs =>
    (FitsI32 (2 * p) ∧ FitsI32 (d + 2 * p) ∧ FitsI32 (d + 2 * p - q)) ∧ Fits2 first second [d + 2 * p - q, p] xs
  | prev, _ :: xs => Fits2 first second prev xs

end Grib.Spec
